import Verif.Spec.System
import Mathlib.Data.List.Forall2
import Mathlib.Data.List.Basic

/-!
# General facts about histories
-/

namespace Voprf.Spec

open Voprf

variable {σ : Type} {P : Proto σ}

/-- Reading back gives the same value or nothing. -/
structure Proto.Faithful (P : Proto σ) : Prop where
  server : ∀ x y, P.reloadServer x = .ok y → y = x
  state : ∀ x y, P.reloadState x = .ok y → y = x
  msg : ∀ x y, P.reloadMsg x = .ok y → y = x
  resp1 : ∀ x y, P.reloadResp1 x = .ok y → y = x
  respN : ∀ x y, P.reloadRespN x = .ok y → y = x

theorem readBack_eq {α : Type} {x : Res α} {a : α} : readBack x = some a ↔ x = .ok a := by
  cases x <;> simp [readBack]

/-- a successful reload changes nothing -/
theorem step_reload (hf : P.Faithful) {w w' : World P} {e : Event P} (he : e.isReload P = true)
    (h : step w e = some w') : w' = w := by
  cases e with
  | reloadServer =>
    simp only [step, Option.map_eq_some_iff, readBack_eq] at h
    obtain ⟨s, hs, rfl⟩ := h
    rw [hf.server _ _ hs]
  | reloadState id =>
    simp only [step] at h
    split at h
    · cases h; rfl
    · next s hs =>
      simp only [Option.map_eq_some_iff, readBack_eq] at h
      obtain ⟨st, hst, rfl⟩ := h
      rw [hf.state _ _ hst]
      have : w.sessions.set id s = w.sessions := by
        obtain ⟨hlt, rfl⟩ := List.getElem?_eq_some_iff.mp hs
        exact List.set_getElem_self hlt
      cases s
      simp only [this]
  | reloadMsg id =>
    simp only [step] at h
    split at h
    · cases h; rfl
    · next s hs =>
      simp only [Option.map_eq_some_iff, readBack_eq] at h
      obtain ⟨st, hst, rfl⟩ := h
      rw [hf.msg _ _ hst]
      have : w.sessions.set id s = w.sessions := by
        obtain ⟨hlt, rfl⟩ := List.getElem?_eq_some_iff.mp hs
        exact List.set_getElem_self hlt
      cases s
      simp only [this]
  | reloadResp j =>
    simp only [step] at h
    split at h
    · cases h; rfl
    · next id info r hs =>
      simp only [Option.map_eq_some_iff, readBack_eq] at h
      obtain ⟨st, hst, rfl⟩ := h
      rw [hf.resp1 _ _ hst]
      have : w.responses.set j (.one id info r) = w.responses := by
        obtain ⟨hlt, hh⟩ := List.getElem?_eq_some_iff.mp hs
        rw [← hh]
        exact List.set_getElem_self hlt
      simp only [this]
    · next id info r hs =>
      simp only [Option.map_eq_some_iff, readBack_eq] at h
      obtain ⟨st, hst, rfl⟩ := h
      rw [hf.respN _ _ hst]
      have : w.responses.set j (.batch id info r) = w.responses := by
        obtain ⟨hlt, hh⟩ := List.getElem?_eq_some_iff.mp hs
        rw [← hh]
        exact List.set_getElem_self hlt
      simp only [this]
  | _ => simp [Event.isReload] at he

/-- a history with reloads that all succeed ends in the same world as without them -/
theorem run_withoutReloads (hf : P.Faithful) {w w' : World P} {es : List (Event P)}
    (h : run w es = some w') : run w (withoutReloads es) = some w' := by
  induction es generalizing w with
  | nil => exact h
  | cons e es ih =>
    simp only [run, Option.bind_eq_some_iff] at h
    obtain ⟨w₁, h1, h2⟩ := h
    cases he : e.isReload P with
    | true =>
      have := step_reload hf he h1
      subst this
      simpa [withoutReloads, he] using ih h2
    | false =>
      simp only [withoutReloads, he, Bool.not_false, List.filter_cons_of_pos, run,
        Option.bind_eq_some_iff]
      exact ⟨w₁, h1, ih h2⟩

theorem lookup_append {ss : List (Session P)} {ids : List Nat} {l : List (Session P)}
    (h : lookup P ss ids = some l) (x : List (Session P)) : lookup P (ss ++ x) ids = some l := by
  unfold lookup at h ⊢
  induction ids generalizing l with
  | nil => simpa using h
  | cons i ids ih =>
    simp only [List.mapM_cons, Option.bind_eq_bind, Option.pure_def, Option.bind_eq_some_iff,
      Option.some.injEq] at h
    obtain ⟨a, ha, b, hb, rfl⟩ := h
    obtain ⟨hlt, hh⟩ := List.getElem?_eq_some_iff.mp ha
    simp [List.mapM_cons, List.getElem?_append_left hlt, ha, ih hb]

theorem lookup_mem {ss : List (Session P)} {ids : List Nat} {l : List (Session P)}
    (h : lookup P ss ids = some l) : ∀ x ∈ l, x ∈ ss := by
  unfold lookup at h
  induction ids generalizing l with
  | nil => simp at h; subst h; simp
  | cons i ids ih =>
    simp only [List.mapM_cons, Option.bind_eq_bind, Option.pure_def, Option.bind_eq_some_iff,
      Option.some.injEq] at h
    obtain ⟨a, ha, b, hb, rfl⟩ := h
    intro x hx
    rcases List.mem_cons.mp hx with rfl | hx
    · exact List.mem_of_getElem? ha
    · exact ih hb x hx

theorem lookup_get {ss : List (Session P)} {ids : List Nat} {l : List (Session P)}
    (h : lookup P ss ids = some l) {k i : Nat} (hk : ids[k]? = some i) : l[k]? = ss[i]? := by
  unfold lookup at h
  induction ids generalizing l k with
  | nil => simp at hk
  | cons j ids ih =>
    simp only [List.mapM_cons, Option.bind_eq_bind, Option.pure_def, Option.bind_eq_some_iff,
      Option.some.injEq] at h
    obtain ⟨a, ha, b, hb, rfl⟩ := h
    cases k with
    | zero => simp at hk; subst hk; simp [ha]
    | succ k => simp only [List.getElem?_cons_succ] at hk ⊢; exact ih hb hk

/-- What holds of every world a history leads to. -/
structure Inv (s : P.Server) (w : World P) : Prop where
  server : w.server = s
  sessions : ∀ x ∈ w.sessions, ∃ g g', P.blind x.input g = .ok ((x.state, x.msg), g')
  one : ∀ id info r, .one id info r ∈ w.responses → ∃ x g g', w.sessions[id]? = some x ∧
    P.answerOne s g x.msg info = .ok (r, g')
  batch : ∀ ids info r, .batch ids info r ∈ w.responses → ∃ xs g g',
    lookup P w.sessions ids = some xs ∧ P.answerBatch s g (xs.map (·.msg)) info = .ok (r, g')
  outcomes : ∀ o ∈ w.outcomes,
    (∃ x r g g' info, x ∈ w.sessions ∧ P.answerOne s g x.msg info = .ok (r, g') ∧
      o = .one x.input info (P.finalizeOne x.input x.state r info)) ∨
    (∃ (xs : List (Session P)) (r : P.RespN) (g g' : σ) (info : P.Info), (∀ x ∈ xs, x ∈ w.sessions) ∧
      P.answerBatch s g (xs.map (·.msg)) info = .ok (r, g') ∧
      o = .batch (xs.map (·.input)) info
        (P.finalizeBatch (xs.map (·.input)) (xs.map (·.state)) r info))

theorem inv_init (s : P.Server) (g : σ) : Inv s (init P s g) :=
  ⟨rfl, by simp [init], by simp [init], by simp [init], by simp [init]⟩

theorem inv_step (hf : P.Faithful) {s : P.Server} {w w' : World P} (hw : Inv s w) {e : Event P}
    (h : step w e = some w') : Inv s w' := by
  cases he : e.isReload P with
  | true => rw [step_reload hf he h]; exact hw
  | false =>
    obtain ⟨h1, h2, h3, h4, h5⟩ := hw
    cases e with
    | blind input g =>
      simp only [step, Option.some.injEq] at h
      split at h
      · next st m g' hb =>
        subst h
        refine ⟨h1, ?_, ?_, ?_, ?_⟩
        · intro x hx
          rcases List.mem_append.mp hx with hx | hx
          · exact h2 x hx
          · simp only [List.mem_singleton] at hx
            subst hx
            exact ⟨g, g', hb⟩
        · intro id info r hr
          obtain ⟨x, g, g', hx, ha⟩ := h3 id info r hr
          obtain ⟨hlt, _⟩ := List.getElem?_eq_some_iff.mp hx
          exact ⟨x, g, g', by simp [List.getElem?_append_left hlt, hx], ha⟩
        · intro ids info r hr
          obtain ⟨xs, g, g', hx, ha⟩ := h4 ids info r hr
          exact ⟨xs, g, g', lookup_append hx _, ha⟩
        · intro o ho
          rcases h5 o ho with ⟨x, r, g, g', info, hx, ha, ho⟩ | ⟨xs, r, g, g', info, hx, ha, ho⟩
          · exact .inl ⟨x, r, g, g', info, List.mem_append_left _ hx, ha, ho⟩
          · exact .inr ⟨xs, r, g, g', info, fun x h => List.mem_append_left _ (hx x h), ha, ho⟩
      · subst h; exact ⟨h1, h2, h3, h4, h5⟩
    | answerOne id info =>
      simp only [step, Option.some.injEq] at h
      split at h
      · subst h; exact ⟨h1, h2, h3, h4, h5⟩
      · next x hx =>
        split at h
        · next r g hr =>
          subst h
          refine ⟨h1, h2, ?_, ?_, h5⟩
          · intro id' info' r' h'
            simp only [List.mem_append, List.mem_singleton, Response.one.injEq] at h'
            rcases h' with h' | ⟨rfl, rfl, rfl⟩
            · exact h3 _ _ _ h'
            · exact ⟨x, w.rng, g, hx, h1 ▸ hr⟩
          · intro ids info' r' h'
            simp only [List.mem_append, List.mem_singleton, reduceCtorEq, or_false] at h'
            exact h4 _ _ _ h'
        · subst h; exact ⟨h1, h2, h3, h4, h5⟩
    | answerBatch ids info =>
      simp only [step, Option.some.injEq] at h
      split at h
      · subst h; exact ⟨h1, h2, h3, h4, h5⟩
      · next x hx =>
        split at h
        · next r g hr =>
          subst h
          refine ⟨h1, h2, ?_, ?_, h5⟩
          · intro ids info' r' h'
            simp only [List.mem_append, List.mem_singleton, reduceCtorEq, or_false] at h'
            exact h3 _ _ _ h'
          · intro id' info' r' h'
            simp only [List.mem_append, List.mem_singleton, Response.batch.injEq] at h'
            rcases h' with h' | ⟨rfl, rfl, rfl⟩
            · exact h4 _ _ _ h'
            · exact ⟨x, w.rng, g, hx, h1 ▸ hr⟩
        · subst h; exact ⟨h1, h2, h3, h4, h5⟩
    | strangerOne m info =>
      simp only [step, Option.some.injEq] at h
      split at h <;> (subst h; exact ⟨h1, h2, h3, h4, h5⟩)
    | strangerBatch m info =>
      simp only [step, Option.some.injEq] at h
      split at h <;> (subst h; exact ⟨h1, h2, h3, h4, h5⟩)
    | finalize j =>
      simp only [step, Option.some.injEq] at h
      split at h
      · subst h; exact ⟨h1, h2, h3, h4, h5⟩
      · next id info r hr =>
        split at h
        · subst h; exact ⟨h1, h2, h3, h4, h5⟩
        · next x hx =>
          subst h
          refine ⟨h1, h2, h3, h4, ?_⟩
          intro o ho
          rcases List.mem_append.mp ho with ho | ho
          · exact h5 o ho
          · simp only [List.mem_singleton] at ho
            obtain ⟨y, g, g', hy, ha⟩ := h3 id info r (List.mem_of_getElem? hr)
            rw [hx] at hy
            cases hy
            exact .inl ⟨x, r, g, g', info, List.mem_of_getElem? hx, ha, ho⟩
      · next ids info r hr =>
        split at h
        · subst h; exact ⟨h1, h2, h3, h4, h5⟩
        · next xs hx =>
          subst h
          refine ⟨h1, h2, h3, h4, ?_⟩
          intro o ho
          rcases List.mem_append.mp ho with ho | ho
          · exact h5 o ho
          · simp only [List.mem_singleton] at ho
            obtain ⟨y, g, g', hy, ha⟩ := h4 ids info r (List.mem_of_getElem? hr)
            rw [hx] at hy
            cases hy
            exact .inr ⟨xs, r, g, g', info, lookup_mem hx, ha, ho⟩
    | _ => simp [Event.isReload] at he

theorem inv_run (hf : P.Faithful) {s : P.Server} {w w' : World P} (hw : Inv s w) {es : List (Event P)}
    (h : run w es = some w') : Inv s w' := by
  induction es generalizing w with
  | nil => simp only [run, Option.some.injEq] at h; subst h; exact hw
  | cons e es ih =>
    simp only [run, Option.bind_eq_some_iff] at h
    obtain ⟨w₁, h1, h2⟩ := h
    exact ih (inv_step hf hw h1) h2

/-- protocol steps never fail to produce a world -/
theorem step_isSome (w : World P) {e : Event P} (he : e.isReload P = false) : ∃ w', step w e = some w' := by
  cases e <;> first | exact ⟨_, rfl⟩ | simp [Event.isReload] at he

/-- A world in which everything can be read back. -/
structure Readable (w : World P) : Prop where
  server : P.reloadServer w.server = .ok w.server
  state : ∀ x ∈ w.sessions, P.reloadState x.state = .ok x.state
  msg : ∀ x ∈ w.sessions, P.reloadMsg x.msg = .ok x.msg
  one : ∀ id info r, .one id info r ∈ w.responses → P.reloadResp1 r = .ok r
  batch : ∀ ids info r, .batch ids info r ∈ w.responses → P.reloadRespN r = .ok r

theorem step_readable {w : World P} (hw : Readable w) {e : Event P} (he : e.isReload P = true) :
    ∃ w', step w e = some w' := by
  cases e with
  | reloadServer => exact ⟨w, by simp [step, hw.server, readBack]⟩
  | reloadState id =>
    simp only [step]
    split
    · exact ⟨_, rfl⟩
    · next s hs => rw [hw.state s (List.mem_of_getElem? hs)]; exact ⟨_, rfl⟩
  | reloadMsg id =>
    simp only [step]
    split
    · exact ⟨_, rfl⟩
    · next s hs => rw [hw.msg s (List.mem_of_getElem? hs)]; exact ⟨_, rfl⟩
  | reloadResp j =>
    simp only [step]
    split
    · exact ⟨_, rfl⟩
    · next id info r hs => rw [hw.one id info r (List.mem_of_getElem? hs)]; exact ⟨_, rfl⟩
    · next id info r hs => rw [hw.batch id info r (List.mem_of_getElem? hs)]; exact ⟨_, rfl⟩
  | _ => simp [Event.isReload] at he

/-- protocol steps only add sessions and answers -/
theorem step_mono (hf : P.Faithful) {w w' : World P} {e : Event P} (h : step w e = some w') :
    (∀ x ∈ w.sessions, x ∈ w'.sessions) ∧ (∀ r ∈ w.responses, r ∈ w'.responses) ∧
    w'.server = w.server := by
  cases he : e.isReload P with
  | true => rw [step_reload hf he h]; exact ⟨fun _ h => h, fun _ h => h, rfl⟩
  | false =>
    cases e with
    | blind | answerOne | answerBatch | strangerOne | strangerBatch | finalize =>
      simp only [step, Option.some.injEq] at h
      repeat' split at h
      all_goals
        subst h
        first
          | exact ⟨fun _ h => h, fun _ h => h, rfl⟩
          | exact ⟨fun _ h => List.mem_append_left _ h, fun _ h => h, rfl⟩
          | exact ⟨fun _ h => h, fun _ h => List.mem_append_left _ h, rfl⟩
    | _ => simp [Event.isReload] at he

theorem run_mono (hf : P.Faithful) {w w' : World P} {es : List (Event P)} (h : run w es = some w') :
    (∀ x ∈ w.sessions, x ∈ w'.sessions) ∧ (∀ r ∈ w.responses, r ∈ w'.responses) ∧
    w'.server = w.server := by
  induction es generalizing w with
  | nil => simp only [run, Option.some.injEq] at h; subst h; exact ⟨fun _ h => h, fun _ h => h, rfl⟩
  | cons e es ih =>
    simp only [run, Option.bind_eq_some_iff] at h
    obtain ⟨w₁, h1, h2⟩ := h
    obtain ⟨a, b, c⟩ := step_mono hf h1
    obtain ⟨a', b', c'⟩ := ih h2
    exact ⟨fun x hx => a' x (a x hx), fun x hx => b' x (b x hx), c'.trans c⟩

theorem readable_anti {w w' : World P} (h : Readable w')
    (hm : (∀ x ∈ w.sessions, x ∈ w'.sessions) ∧ (∀ r ∈ w.responses, r ∈ w'.responses) ∧
      w'.server = w.server) : Readable w :=
  ⟨by rw [← hm.2.2]; exact h.server, fun x hx => h.state x (hm.1 x hx),
    fun x hx => h.msg x (hm.1 x hx), fun _ _ _ hr => h.one _ _ _ (hm.2.1 _ hr),
    fun _ _ _ hr => h.batch _ _ _ (hm.2.1 _ hr)⟩

/-- If everything in the final world can be read back, then reloading anything any number of times at any
point of the history makes no difference. -/
theorem run_reloads (hf : P.Faithful) {w w' : World P} {es : List (Event P)}
    (h : run w (withoutReloads es) = some w') (hr : Readable w') : run w es = some w' := by
  induction es generalizing w with
  | nil => exact h
  | cons e es ih =>
    cases he : e.isReload P with
    | true =>
      have h' : run w (withoutReloads es) = some w' := by simpa [withoutReloads, he] using h
      have hw : Readable w := readable_anti hr (run_mono hf h')
      obtain ⟨w₁, h1⟩ := step_readable hw he
      have := step_reload hf he h1
      subst this
      simp only [run, h1, Option.bind_some]
      exact ih h'
    | false =>
      have h' : run w (e :: withoutReloads es) = some w' := by simpa [withoutReloads, he] using h
      simp only [run, Option.bind_eq_some_iff] at h' ⊢
      obtain ⟨w₁, h1, h2⟩ := h'
      exact ⟨w₁, h1, ih h2⟩

end Voprf.Spec
