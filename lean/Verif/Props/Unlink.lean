import Verif.Spec.Unlink
import Verif.Props.Sessions
import Verif.Props.Blindness
import Verif.Props.OneMore
import Verif.Lemmas.Party

/-!
# C70: outputs cannot be linked to the sessions that produced them
-/

namespace Voprf

open Spec

variable {CS : CipherSuite} [L : CS.group.Lawful]

namespace Spec.Linker

variable {n : Nat} {A W : Type}

/-- Some delivery is `bad`. -/
def Hits (f : Table CS) (call : A → W × (Fin n → Option Bytes)) (bad : A → Prop) (π : Equiv.Perm (Fin n)) :
    Linker CS n A W → (Fin n → Option Bytes) → Prop
  | .guess _, _ => False
  | .ask q next, outs => (next (f q)).Hits f call bad π outs
  | .deliver a next, outs => bad a ∨ (next (call a).1).Hits f call bad π (keep outs (call a).2)
  | .redeem next, outs => (next (redeemed π outs)).Hits f call bad π outs

/-- The clients have outputs at the same places, and only those that `out` gives to their inputs. -/
def Matching (out : Fin n → Bytes) (π π' : Equiv.Perm (Fin n)) (outs outs' : Fin n → Option Bytes) : Prop :=
  ∀ i, (outs i = none ∧ outs' i = none) ∨ (outs i = some (out (π i)) ∧ outs' i = some (out (π' i)))

theorem Matching.symm {out : Fin n → Bytes} {π π' : Equiv.Perm (Fin n)} {outs outs' : Fin n → Option Bytes}
    (h : Matching out π π' outs outs') : Matching out π' π outs' outs := fun i => (h i).imp And.symm And.symm

theorem Matching.redeemed {out : Fin n → Bytes} {π π' : Equiv.Perm (Fin n)} {outs outs' : Fin n → Option Bytes}
    (h : Matching out π π' outs outs') : Linker.redeemed π outs = Linker.redeemed π' outs' := by
  have hs : (∀ i, (outs i).isSome) ↔ ∀ i, (outs' i).isSome := by
    refine forall_congr' fun i => ?_
    rcases h i with ⟨h1, h2⟩ | ⟨h1, h2⟩ <;> simp [h1, h2]
  unfold Linker.redeemed
  by_cases ha : ∀ i, (outs i).isSome
  · rw [dif_pos ha, dif_pos (hs.mp ha)]
    congr 1
    funext j
    have e1 : outs (π.symm j) = some (out j) := by
      rcases h (π.symm j) with ⟨h1, -⟩ | ⟨h1, -⟩
      · have := ha (π.symm j); rw [h1] at this; cases this
      · rw [h1, Equiv.apply_symm_apply]
    have e2 : outs' (π'.symm j) = some (out j) := by
      rcases h (π'.symm j) with ⟨-, h1⟩ | ⟨-, h1⟩
      · have := hs.mp ha (π'.symm j); rw [h1] at this; cases this
      · rw [h1, Equiv.apply_symm_apply]
    simp only [e1, e2, Option.get_some]
  · rw [dif_neg ha, dif_neg (fun h' => ha (hs.mpr h'))]

theorem Matching.keep {out : Fin n → Bytes} {π π' : Equiv.Perm (Fin n)} {outs outs' new new' : Fin n → Option Bytes}
    (h : Matching out π π' outs outs') (hn : Matching out π π' new new') :
    Matching out π π' (Linker.keep outs new) (Linker.keep outs' new') := by
  intro i
  unfold Linker.keep
  rcases h i with ⟨h1, h2⟩ | ⟨h1, h2⟩
  · rw [h1, h2]; exact hn i
  · rw [h1, h2]; exact .inr ⟨rfl, rfl⟩

omit L in
/-- As long as no delivery is bad, the server sees the same with either order of the inputs. -/
theorem run_congr (f : Table CS) {call call' : A → W × (Fin n → Option Bytes)} {bad : A → Prop}
    (out : Fin n → Bytes) (π π' : Equiv.Perm (Fin n)) (h1 : ∀ a, (call a).1 = (call' a).1)
    (h2 : ∀ a, ¬ bad a → Matching out π π' (call a).2 (call' a).2) (S : Linker CS n A W) (outs outs' : Fin n → Option Bytes)
    (hm : Matching out π π' outs outs') (hh : ¬ S.Hits f call bad π outs) :
    S.run f call π outs = S.run f call' π' outs' ∧ ¬ S.Hits f call' bad π' outs' := by
  induction S generalizing outs outs' with
  | guess b => exact ⟨rfl, id⟩
  | ask q next ih => exact ih _ _ _ hm hh
  | deliver a next ih =>
    simp only [Hits, not_or] at hh ⊢
    obtain ⟨r1, r2⟩ := ih _ _ _ (hm.keep (h2 a hh.1)) hh.2
    simp only [run]
    rw [← h1 a]
    exact ⟨r1, hh.1, r2⟩
  | redeem next ih =>
    simp only [Hits, run] at hh ⊢
    rw [← hm.redeemed]
    exact ih _ _ _ hm hh

/-- The server and its clients as one player that has `finalize` called. -/
def player {R V : Type} (att : A → R) (verdict : V → W) (offers : A → V → Fin n → Option Bytes) (π : Equiv.Perm (Fin n)) :
    Linker CS n A W → (Fin n → Option Bytes) → Player Question CS.Scalar R V Unit
  | .guess _, _ => .done ()
  | .ask q next, outs => .ask q fun a => (next a).player att verdict offers π outs
  | .deliver a next, outs => .request (att a) fun v => (next (verdict v)).player att verdict offers π (keep outs (offers a v))
  | .redeem next, outs => (next (redeemed π outs)).player att verdict offers π outs

omit L in
theorem player_within {R V : Type} (att : A → R) (verdict : V → W) (offers : A → V → Fin n → Option Bytes) (π : Equiv.Perm (Fin n))
    {ok : A → Prop} {ok' : R → Prop} (hok : ∀ a, ok a → ok' (att a)) {q d : Nat} {S : Linker CS n A W} (hS : S.Within ok q d) :
    ∀ outs, (S.player att verdict offers π outs).Within q d ∧ (S.player att verdict offers π outs).Only ok' := by
  induction hS with
  | guess b => exact fun _ => ⟨.done (), trivial⟩
  | ask r next _ ih => exact fun outs => ⟨.ask r _ fun a => (ih a outs).1, fun a => (ih a outs).2⟩
  | deliver a next ha _ ih => exact fun outs => ⟨.request _ _ fun r => (ih _ _).1, hok a ha, fun r => (ih _ _).2⟩
  | redeem next _ ih => exact fun outs => ih _ outs

omit L in
theorem player_hits {R V : Type} (f : Table CS) (answer : R → V) (att : A → R) (verdict : V → W)
    (offers : A → V → Fin n → Option Bytes) (bad : A → Prop) (π : Equiv.Perm (Fin n)) (S : Linker CS n A W) : ∀ outs,
    S.Hits f (fun a => (verdict (answer (att a)), offers a (answer (att a)))) bad π outs →
    ∃ a, (S.player att verdict offers π outs).Sends f answer (att a) ∧ bad a := by
  induction S with
  | guess b => exact fun _ h => h.elim
  | ask q next ih => exact fun outs h => ih _ outs h
  | deliver a next ih =>
    intro outs h
    rcases h with h | h
    · exact ⟨a, .inl rfl, h⟩
    · obtain ⟨a', hs, h⟩ := ih _ _ h
      exact ⟨a', .inr hs, h⟩
  | redeem next ih => exact fun outs h => ih _ outs h

end Spec.Linker

/-- Changing the nonces makes up for changing the order of the inputs. -/
noncomputable def noncesEquiv {n : Nat} {P P' : Fin n → CS.Elem} (h : ∀ i, P i ≠ 0) (h' : ∀ i, P' i ≠ 0) :
    {e : (Fin n → Nonce CS) ≃ (Fin n → Nonce CS) // ∀ ρ i, (e ρ i).1 • P' i = (ρ i).1 • P i} :=
  ⟨Equiv.piCongrRight fun i => (nonceEquiv (h i) (h' i)).1, fun ρ i => (nonceEquiv (h i) (h' i)).2 (ρ i)⟩

theorem chance_transport {α : Type} (e : α ≃ α) (P P' : α → Prop) (h : ∀ x, P x ↔ P' (e x)) : chance P = chance P' := by
  refine average_equiv e _ _ fun x => ?_
  by_cases hx : P x
  · rw [if_pos hx, if_pos ((h x).mp hx)]
  · rw [if_neg hx, if_neg fun h' => hx ((h x).mpr h')]

theorem chance_close {α : Type} [Finite α] (e : α ≃ α) {A A' B B' : α → Prop}
    (h : ∀ a, ¬ B a → (A a ↔ A' (e a)) ∧ ¬ B' (e a)) (h' : ∀ a, ¬ B' (e a) → ¬ B a) : |chance A - chance A'| ≤ chance B := by
  have hB : chance B = chance B' := chance_transport e _ _ fun a => by
    constructor
    · intro hb; by_contra hn; exact h' a hn hb
    · intro hb; by_contra hn; exact (h a hn).2 hb
  have h1 : chance A ≤ chance A' + chance B := by
    have : chance (fun a => A' (e a)) = chance A' := chance_transport e _ _ fun a => Iff.rfl
    rw [← this]
    refine le_trans (chance_mono fun a ha => ?_) (chance_or _ _)
    by_cases hb : B a
    · exact .inr hb
    · exact .inl ((h a hb).1.mp ha)
  have h2 : chance A' ≤ chance A + chance B := by
    have : chance (fun a => A' (e a)) = chance A' := chance_transport e _ _ fun a => Iff.rfl
    rw [← this]
    refine le_trans (chance_mono fun a ha => ?_) (chance_or _ _)
    by_cases hb : B a
    · exact .inr hb
    · exact .inl ((h a hb).1.mpr ha)
  rw [abs_le]
  constructor <;> linarith

theorem average_close {α : Type} [Finite α] [Nonempty α] {F G H : α → ℚ} (h : ∀ a, |F a - G a| ≤ H a) :
    |average F - average G| ≤ average H := by
  have := Fintype.ofFinite α
  simp only [average_eq]
  rw [← Finset.expect_sub_distrib]
  exact (Finset.abs_expect_le _ _).trans (Finset.expect_le_expect fun a _ => h a)

instance : Nonempty (Table CS) := ⟨fun _ => 0⟩

/-- The common part: a mode in which how a delivery ends depends on the blinded elements only, and the outputs, unless it is `bad`,
on the inputs only. -/
theorem link_bound {n : Nat} {A W R V : Type} (P : Fin n → CS.Elem) (hP : ∀ j, P j ≠ 0) (π π' : Equiv.Perm (Fin n))
    (att : Equiv.Perm (Fin n) → (Fin n → Nonce CS) → A → R) (answer : Table CS → R → V) (verdict : V → W)
    (offers : A → V → Fin n → Option Bytes) (bad : Table CS → (Fin n → CS.Elem) → A → W → Prop) (out : Table CS → Fin n → Bytes)
    (b : ℚ) {ok : A → Prop} {ok' : R → Prop} (hok : ∀ ρ a, ok a → ok' (att π ρ a))
    (h1 : ∀ f ρ ρ', (∀ i, (ρ i).1 • P (π i) = (ρ' i).1 • P (π' i)) → ∀ a,
      verdict (answer f (att π ρ a)) = verdict (answer f (att π' ρ' a)))
    (ho : ∀ a v v', verdict v = verdict v' → ∀ i, (offers a v i).isSome = (offers a v' i).isSome)
    (h2 : ∀ f π ρ a i o, ¬ bad f (fun i => (ρ i).1 • P (π i)) a (verdict (answer f (att π ρ a))) →
      offers a (answer f (att π ρ a)) i = some o → o = out f (π i))
    {q d : Nat} (h3 : ∀ ρ (T : Player Question CS.Scalar R V Unit), T.Within q d → T.Only ok' → chance (fun f => ∃ a,
      T.Sends f (answer f) (att π ρ a) ∧ bad f (fun i => (ρ i).1 • P (π i)) a (verdict (answer f (att π ρ a)))) ≤ b)
    (S : (Fin n → CS.Elem) → Linker CS n A W) (hS : ∀ es, (S es).Within ok q d) :
    |(average fun f : Table CS => chance fun ρ : Fin n → Nonce CS => (S fun i => (ρ i).1 • P (π i)).run f
        (fun a => (verdict (answer f (att π ρ a)), offers a (answer f (att π ρ a)))) π (fun _ => none) = true) -
     (average fun f : Table CS => chance fun ρ : Fin n → Nonce CS => (S fun i => (ρ i).1 • P (π' i)).run f
        (fun a => (verdict (answer f (att π' ρ a)), offers a (answer f (att π' ρ a)))) π' (fun _ => none) = true)| ≤ b := by
  obtain ⟨e, he⟩ := noncesEquiv (CS := CS) (P := fun i => P (π i)) (P' := fun i => P (π' i)) (fun i => hP _) (fun i => hP _)
  have hel : ∀ ρ, (fun i => (e ρ i).1 • P (π' i)) = fun i => (ρ i).1 • P (π i) := fun ρ => funext fun i => he ρ i
  have hv : ∀ f ρ a, verdict (answer f (att π ρ a)) = verdict (answer f (att π' (e ρ) a)) := fun f ρ a =>
    h1 f ρ (e ρ) (fun i => (he ρ i).symm) a
  let call : Equiv.Perm (Fin n) → Table CS → (Fin n → Nonce CS) → A → W × (Fin n → Option Bytes) := fun π f ρ a =>
    (verdict (answer f (att π ρ a)), offers a (answer f (att π ρ a)))
  let bd : Equiv.Perm (Fin n) → Table CS → (Fin n → Nonce CS) → A → Prop := fun π f ρ a =>
    bad f (fun i => (ρ i).1 • P (π i)) a (verdict (answer f (att π ρ a)))
  have hbd : ∀ f ρ, bd π' f (e ρ) = bd π f ρ := by
    intro f ρ
    funext a
    show bad f _ a _ = bad f _ a _
    rw [hel ρ, hv]
  have hmatch : ∀ f ρ a, ¬ bd π f ρ a → Linker.Matching (out f) π π' (call π f ρ a).2 (call π' f (e ρ) a).2 := by
    intro f ρ a hb i
    have hb' : ¬ bd π' f (e ρ) a := by rw [hbd]; exact hb
    have hsome := ho a _ _ (hv f ρ a) i
    show (offers a _ i = none ∧ offers a _ i = none) ∨ _
    cases h : offers a (answer f (att π ρ a)) i with
    | none =>
      rw [h] at hsome
      cases h' : offers a (answer f (att π' (e ρ) a)) i with
      | none => exact .inl ⟨rfl, rfl⟩
      | some o' => rw [h'] at hsome; cases hsome
    | some o =>
      rw [h] at hsome
      cases h' : offers a (answer f (att π' (e ρ) a)) i with
      | none => rw [h'] at hsome; cases hsome
      | some o' =>
        refine .inr ⟨?_, ?_⟩
        · exact h.trans (congrArg some (h2 f π ρ a i o hb h))
        · exact h'.trans (congrArg some (h2 f π' (e ρ) a i o' hb' h'))
  let Bad : Equiv.Perm (Fin n) → Table CS → (Fin n → Nonce CS) → Prop := fun π f ρ =>
    (S fun i => (ρ i).1 • P (π i)).Hits f (call π f ρ) (bd π f ρ) π (fun _ => none)
  refine (average_close (H := fun f => chance (Bad π f)) fun f => chance_close e (B' := Bad π' f) (fun ρ hb => ?_)
    fun ρ hb => ?_).trans ?_
  · have key := Linker.run_congr f (out f) π π' (hv f ρ) (hmatch f ρ) (S fun i => (ρ i).1 • P (π i)) _ (fun _ => none)
      (fun i => .inl ⟨rfl, rfl⟩) hb
    constructor
    · rw [hel]; exact (congrArg (· = true) key.1).to_iff
    · show ¬ (S fun i => (e ρ i).1 • P (π' i)).Hits f _ (bd π' f (e ρ)) π' _
      rw [hel, hbd]; exact key.2
  · have hb' : ¬ (S fun i => (e ρ i).1 • P (π' i)).Hits f (call π' f (e ρ)) (bd π' f (e ρ)) π' (fun _ => none) := hb
    rw [hel, hbd] at hb'
    exact (Linker.run_congr f (out f) π' π (fun a => (hv f ρ a).symm) (fun a ha => (hmatch f ρ a ha).symm)
      (S fun i => (ρ i).1 • P (π i)) _ (fun _ => none) (fun i => .inl ⟨rfl, rfl⟩) hb').2
  · have : Nonempty (Nonce CS) := ⟨⟨1, one_ne_zero⟩⟩
    show average (fun f => average fun ρ => _) ≤ b
    rw [average_comm]
    refine (average_mono fun ρ => ?_).trans (average_const b).le
    have hw := Linker.player_within (att π ρ) verdict offers π (hok ρ) (hS fun i => (ρ i).1 • P (π i)) fun _ => none
    refine le_trans (chance_mono (P := fun f => Bad π f ρ) fun f hf => ?_) (h3 ρ _ hw.1 hw.2)
    exact Linker.player_hits f (answer f) (att π ρ) verdict offers (bd π f ρ) π _ _ hf

/-! ## Calls of `finalize` -/

theorem exists_blinds {n : Nat} {B : Type} {call : Fin n → Res B} (b₀ : Fin n → B) (h : ∀ i, call i = .ok (b₀ i))
    (F : (Fin n → B) → Prop) : (∃ b, (∀ i, call i = .ok (b i)) ∧ F b) ↔ F b₀ := by
  constructor
  · rintro ⟨b, hb, hF⟩
    have : b = b₀ := funext fun i => Res.ok.inj ((hb i).symm.trans (h i))
    rwa [← this]
  · exact fun hF => ⟨_, h, hF⟩

theorem gets_isSome {n : Nat} (j : Fin n) {r r' : Res Bytes} (h : outcome r = outcome r') (i : Fin n) :
    (gets j r i).isSome = (gets j r' i).isSome := by
  unfold gets
  split
  · cases r <;> cases r' <;> first | rfl | cases h
  · rfl

theorem gets_some {n : Nat} {j i : Fin n} {r : Res Bytes} {o : Bytes} (h : gets j r i = some o) : j = i ∧ r = .ok o := by
  unfold gets at h
  split at h
  · cases r with
    | ok o' => exact ⟨by assumption, congrArg Res.ok (Option.some.inj h)⟩
    | _ => cases h
  · cases h

theorem batchGets_isSome {n : Nat} (js : List (Fin n)) {r r' : Res (List (Res Bytes))} (h : batchOutcome r = batchOutcome r')
    (i : Fin n) : (batchGets js r i).isSome = (batchGets js r' i).isSome := by
  have main : ∀ (js : List (Fin n)) (l l' : List (Res Bytes)), l.map outcome = l'.map outcome →
      ((js.zip l).findSome? fun p => gets p.1 p.2 i).isSome = ((js.zip l').findSome? fun p => gets p.1 p.2 i).isSome := by
    intro js
    induction js with
    | nil => intro l l' _; rfl
    | cons j js ih =>
      intro l l' hl
      cases l with
      | nil => cases l' with
        | nil => rfl
        | cons _ _ => cases hl
      | cons r l => cases l' with
        | nil => cases hl
        | cons r' l' =>
          simp only [List.map_cons, List.cons.injEq] at hl
          have h1 := gets_isSome j hl.1 i
          simp only [List.zip_cons_cons, List.findSome?_cons]
          cases h2 : gets j r i with
          | some o =>
            rw [h2] at h1
            cases h3 : gets j r' i with
            | some o' => rfl
            | none => rw [h3] at h1; cases h1
          | none =>
            rw [h2] at h1
            cases h3 : gets j r' i with
            | some o' => rw [h3] at h1; cases h1
            | none => exact ih _ _ hl.2
  unfold batchGets
  cases r with
  | ok l => cases r' with
    | ok l' => exact main js l l' (Res.ok.inj h)
    | _ => cases h
  | _ => cases r' with
    | ok l' => cases h
    | _ => rfl

theorem batchGets_some {n : Nat} {js : List (Fin n)} {r : Res (List (Res Bytes))} {i : Fin n} {o : Bytes}
    (h : batchGets js r i = some o) : ∃ l : List (Res Bytes), r = .ok l ∧ ∃ p : Nat, js[p]? = some i ∧ l[p]? = some (Res.ok o) := by
  unfold batchGets at h
  cases r with
  | ok l =>
    obtain ⟨⟨j, r⟩, hm, hg⟩ := List.exists_of_findSome?_eq_some h
    obtain ⟨rfl, rfl⟩ := gets_some hg
    obtain ⟨p, hp⟩ := List.mem_iff_getElem?.mp hm
    exact ⟨l, rfl, p, List.getElem?_zip_eq_some.mp hp⟩
  | _ => cases h

theorem getElem?_zip3 {ι κ α β γ δ ε : Type} {is : List ι} {ms : List β} (F : ι → α) (g : ι → κ) (G : κ → γ) (M : β → δ)
    (H : α × γ × δ → ε) {p : Nat} {i : ι} {y : ε} (hi : is[p]? = some i)
    (h : (((is.map F).zip (((is.map g).map G).zip (ms.map M))).map H)[p]? = some y) :
    ∃ e, ms[p]? = some e ∧ y = H (F i, G (g i), M e) := by
  rw [List.getElem?_map, Option.map_eq_some_iff] at h
  obtain ⟨⟨a, c, d⟩, hz, rfl⟩ := h
  simp only [List.getElem?_zip_eq_some, List.getElem?_map, hi, Option.map_some, Option.some.injEq, Option.map_eq_some_iff] at hz
  obtain ⟨rfl, rfl, e, he, rfl⟩ := hz
  exact ⟨e, he, rfl⟩

theorem getElem?_zip3' {ι κ α β γ δ ε : Type} {is : List ι} {ms : List β} (F : ι → α) (g : ι → κ) (G : κ → γ) (M : β → δ)
    (H : (γ × δ) × α → ε) {p : Nat} {i : ι} {y : ε} (hi : is[p]? = some i)
    (h : (((((is.map g).map G).zip (ms.map M)).zip (is.map F)).map H)[p]? = some y) :
    ∃ e, ms[p]? = some e ∧ y = H ((G (g i), M e), F i) := by
  rw [List.getElem?_map, Option.map_eq_some_iff] at h
  obtain ⟨⟨⟨c, d⟩, a⟩, hz, rfl⟩ := h
  simp only [List.getElem?_zip_eq_some, List.getElem?_map, hi, Option.map_some, Option.some.injEq, Option.map_eq_some_iff] at hz
  obtain ⟨⟨rfl, e, he, rfl⟩, rfl⟩ := hz
  exact ⟨e, he, rfl⟩

section
variable {n : Nat} (x : Fin n → Bytes) (hl : ∀ j, (x j).length ≤ 65535) (P : Fin n → CS.Elem) (pk : CS.Elem)

/-- The call of `batch_finalize` when `a` is delivered. -/
def batchCall (π : Equiv.Perm (Fin n)) (ρ : Fin n → Nonce CS) (a : BatchAnswer CS n) : BatchAttempt CS :=
  ⟨a.clients.map fun i => x (π i), a.clients.map fun i => ((ρ i).1, (ρ i).1 • P (π i)), a.messages, a.c, a.s⟩

include hl in
theorem batchCall_good (f : Table CS) (π : Equiv.Perm (Fin n)) (ρ : Fin n → Nonce CS) (is : List (Fin n)) :
    AllGood (CS := oracleSuite CS f) (is.map fun i => ⟨x (π i), (ρ i).1, (ρ i).1 • P (π i)⟩) := by
  intro w hw
  obtain ⟨i, -, rfl⟩ := List.mem_map.mp hw
  exact ⟨(ρ i).2, hl _⟩

include hl in
theorem batchCall_voprf (π : Equiv.Perm (Fin n)) (ρ : Fin n → Nonce CS) (f : Table CS) (a : BatchAnswer CS n) :
    batchOutcome ((batchCall x P π ρ a).voprfFinalize f pk) =
      (verifyProof (oracleSuite CS f) CS.group.baseElem pk (a.clients.map fun i => (ρ i).1 • P (π i)) a.messages ⟨a.c, a.s⟩ .Voprf >>=
        fun _ => .ok (List.replicate (min a.clients.length a.messages.length) (.ok ()))) := by
  have h := batchOutcome_voprf (CS := oracleSuite CS f) (a.clients.map fun i => ⟨x (π i), (ρ i).1, (ρ i).1 • P (π i)⟩)
    (batchCall_good x hl P f π ρ a.clients) a.messages a.c a.s pk
  simp only [List.map_map, List.length_map, Function.comp_def] at h
  unfold batchCall BatchAttempt.voprfFinalize
  simp only [List.map_map, Function.comp_def]
  exact h

include hl in
theorem batchCall_poprf (wf : CS.WF) (info : Option Bytes) (π : Equiv.Perm (Fin n)) (ρ : Fin n → Nonce CS) (f : Table CS)
    (a : BatchAnswer CS n) :
    batchOutcome ((batchCall x P π ρ a).poprfFinalize f pk info) =
      (Poprf.computeTweakedKey (oracleSuite CS f) pk info >>= fun tk : CS.Elem =>
        verifyProof (oracleSuite CS f) CS.group.baseElem tk a.messages (a.clients.map fun i => (ρ i).1 • P (π i)) ⟨a.c, a.s⟩ .Poprf >>=
        fun _ => .ok (List.replicate (min a.clients.length a.messages.length)
          (if (info.getD []).length ≤ 65535 then .ok () else .err .Info))) := by
  have h := batchOutcome_poprf (CS := oracleSuite CS f) (oracle_wf wf f)
    (a.clients.map fun i => ⟨x (π i), (ρ i).1, (ρ i).1 • P (π i)⟩) (batchCall_good x hl P f π ρ a.clients) a.messages a.c a.s pk info
  simp only [List.map_map, List.length_map, Function.comp_def] at h
  unfold batchCall BatchAttempt.poprfFinalize
  simp only [List.map_map, Function.comp_def]
  exact h

/-- An output of a batch. -/
theorem batchCall_voprf_output (π : Equiv.Perm (Fin n)) (ρ : Fin n → Nonce CS) (f : Table CS) (a : BatchAnswer CS n)
    {l : List (Res Bytes)} (h : (batchCall x P π ρ a).voprfFinalize f pk = .ok l) {p : Nat} {i : Fin n} {o : Bytes}
    (hi : a.clients[p]? = some i) (ho : l[p]? = some (.ok o)) :
    ∃ e, a.messages[p]? = some e ∧ o = Spec.output CS (x (π i)) ((ρ i).1⁻¹ • e) := by
  have h' := (VoprfClient.batchFinalize_eq (CS := oracleSuite CS f) (a.clients.map fun i => x (π i))
    ((a.clients.map fun i => ((ρ i).1, (ρ i).1 • P (π i))).map fun p : CS.Scalar × CS.Elem => (⟨p.1, p.2⟩ : VoprfClient (oracleSuite CS f))) (by
      intro c hc
      obtain ⟨q, hq, rfl⟩ := List.mem_map.mp hc
      obtain ⟨i, -, rfl⟩ := List.mem_map.mp hq
      exact (ρ i).2) (a.messages.map fun e => (⟨e⟩ : EvaluationElement (oracleSuite CS f))) ⟨a.c, a.s⟩ pk).symm.trans h
  obtain ⟨-, -, h1⟩ := Res.bind_eq_ok.mp h'
  have h2 := Res.ok.inj h1
  subst h2
  obtain ⟨e, he, ho'⟩ := getElem?_zip3 _ _ _ _ _ hi ho
  refine ⟨e, he, ?_⟩
  unfold itemResult at ho'
  split at ho'
  · exact Res.ok.inj ho'
  · cases ho'

/-- An output of a batch. -/
theorem batchCall_poprf_output (wf : CS.WF) (info : Option Bytes) (π : Equiv.Perm (Fin n)) (ρ : Fin n → Nonce CS) (f : Table CS)
    (a : BatchAnswer CS n) {l : List (Res Bytes)} (h : (batchCall x P π ρ a).poprfFinalize f pk info = .ok l) {p : Nat} {i : Fin n}
    {o : Bytes} (hi : a.clients[p]? = some i) (ho : l[p]? = some (.ok o)) :
    ∃ e, a.messages[p]? = some e ∧ o = Spec.outputInfo CS (x (π i)) (info.getD []) ((ρ i).1⁻¹ • e) := by
  have h' := (PoprfClient.batchFinalize_eq (CS := oracleSuite CS f) (oracle_wf wf f) (a.clients.map fun i => x (π i))
    ((a.clients.map fun i => ((ρ i).1, (ρ i).1 • P (π i))).map fun p : CS.Scalar × CS.Elem => (⟨p.1, p.2⟩ : PoprfClient (oracleSuite CS f))) (by
      intro c hc
      obtain ⟨q, hq, rfl⟩ := List.mem_map.mp hc
      obtain ⟨i, -, rfl⟩ := List.mem_map.mp hq
      exact (ρ i).2) (a.messages.map fun e => (⟨e⟩ : EvaluationElement (oracleSuite CS f))) ⟨a.c, a.s⟩ pk info).symm.trans h
  obtain ⟨tk, -, h1⟩ := Res.bind_eq_ok.mp h'
  obtain ⟨u, -, h2⟩ := Res.bind_eq_ok.mp h1
  rw [if_pos (by simp)] at h2
  have h3 := Res.ok.inj h2
  subst h3
  obtain ⟨e, he, ho'⟩ := getElem?_zip3' _ _ _ _ _ hi ho
  refine ⟨e, he, ?_⟩
  unfold itemResultInfo at ho'
  split at ho'
  · split at ho'
    · exact Res.ok.inj ho'
    · cases ho'
  · cases ho'

/-- No output is made under a tweaked key that is the identity. -/
theorem poprfFinalize_tweak (wf : CS.WF) (info : Option Bytes) (f : Table CS) (a : BatchAttempt CS) {l : List (Res Bytes)}
    (h : a.poprfFinalize f pk info = .ok l) :
    Spec.hashToScalar (oracleSuite CS f) .Poprf (infoInput (info.getD [])) = .ok (f (tweakQ wf info)) ∧
      f (tweakQ wf info) • CS.group.baseElem + pk ≠ 0 := by
  rw [poprfFinalize_eq, tweakedKey_oracle wf] at h
  split at h
  · rename_i hil
    refine ⟨tweak_oracle wf f info hil, fun h0 => ?_⟩
    rw [if_pos ((isIdentityElem_iff _).mpr h0)] at h
    cases h
  · cases h

end

/-! ## The theorems -/

/-- C70, VOPRF: `n` clients with `n` inputs, in an unknown order. Whatever a malicious server does with at most `q` questions to
`hash_to_scalar` (a random oracle) and at most `d` deliveries, seeing the blinded elements, how every `finalize` ends and the outputs
in the order of the inputs, the probability of its guess differs by at most `(q + 2d) / |scalars|` between any two orders. -/
theorem C70_voprf (wf : CS.WF) {σ : Type} [RngCore σ] (draw : Nonce CS → σ) (hd : Draws draw) {n : Nat} (x : Fin n → Bytes)
    (h : ∀ j, Hidable CS .Voprf (x j)) (π π' : Equiv.Perm (Fin n)) (pk : CS.Elem) (q d : Nat)
    (S : (Fin n → CS.Elem) → Linker CS n (Answer CS n) (Res Unit)) (hS : ∀ es, (S es).Within (fun _ => True) q d) :
    |voprfLink draw pk x π S - voprfLink draw pk x π' S| ≤ (q + 2 * d) / Nat.card CS.Scalar := by
  choose hl P hP hP0 using h
  choose g hg using hd
  obtain ⟨k, hk⟩ := VGroup.Lawful.base_generates (G := CS.group) pk
  let att : Equiv.Perm (Fin n) → (Fin n → Nonce CS) → Answer CS n → VoprfAttempt CS :=
    fun π ρ a => ⟨(ρ a.client).1, (ρ a.client).1 • P (π a.client), x (π a.client), a.message, a.c, a.s, pk⟩
  have key : ∀ π : Equiv.Perm (Fin n), voprfLink draw pk x π S = average fun f : Table CS => chance fun ρ : Fin n → Nonce CS =>
      (S fun i => (ρ i).1 • P (π i)).run f
        (fun a => (outcome ((att π ρ a).finalize f), gets a.client ((att π ρ a).finalize f))) π (fun _ => none) = true := by
    intro π
    unfold voprfLink
    congr 1; funext f
    refine chance_congr fun ρ => Iff.trans (exists_blinds (fun i => (⟨⟨(ρ i).1, (ρ i).1 • P (π i)⟩, ⟨(ρ i).1 • P (π i)⟩⟩, g (ρ i)))
      (fun i => ?_) _) ?_
    swap
    · exact Iff.rfl
    rw [VoprfClient.blindInput_eq wf, hg]
    simp only [hP]
  rw [key, key]
  refine link_bound P hP0 π π' att (fun f a => a.finalize f) outcome (fun a r => gets a.client r)
    (fun _ es a w => w = .ok () ∧ ¬ SameKey CS pk (es a.client) a.message)
    (fun _ j => Spec.output CS (x j) (k • P j)) _ (ok' := fun _ => True) (fun _ _ _ => trivial) ?_
    (fun a v v' h i => gets_isSome a.client h i) ?_ ?_ S hS
  · intro f ρ ρ' hρ a
    refine (outcome_voprf (CS := oracleSuite CS f) ⟨x (π a.client), (ρ a.client).1, (ρ a.client).1 • P (π a.client)⟩
      ⟨(ρ a.client).2, hl _⟩ a.message a.c a.s pk).trans ?_
    refine Eq.trans ?_ (outcome_voprf (CS := oracleSuite CS f) ⟨x (π' a.client), (ρ' a.client).1, (ρ' a.client).1 • P (π' a.client)⟩
      ⟨(ρ' a.client).2, hl _⟩ a.message a.c a.s pk).symm
    exact congrArg (fun B : CS.Elem => verifyProof (oracleSuite CS f) CS.group.baseElem pk [B] [a.message] ⟨a.c, a.s⟩ .Voprf)
      (hρ a.client)
  · intro f π ρ a i o hb hgo
    obtain ⟨rfl, ho⟩ := gets_some hgo
    refine VoprfAttempt.right_output f (att π ρ a) o ho (ρ a.client).2 (P (π a.client)) k rfl hk ?_
    by_contra hw
    exact hb ⟨by rw [ho]; rfl, hw⟩
  · intro ρ T hT _
    refine le_trans (chance_mono fun f hf => ?_) (C65_voprf wf q d T hT)
    obtain ⟨a, hs, ho, hw⟩ := hf
    refine ⟨_, hs, ?_, hw⟩
    cases hr : (att π ρ a).finalize f with
    | ok o => exact ⟨o, rfl⟩
    | _ => rw [hr] at ho; cases ho

/-- C70, POPRF: the same with `(q + 3d) / |scalars|`, all clients using the same info. -/
theorem C70_poprf (wf : CS.WF) {σ : Type} [RngCore σ] (draw : Nonce CS → σ) (hd : Draws draw) {n : Nat} (x : Fin n → Bytes)
    (h : ∀ j, Hidable CS .Poprf (x j)) (π π' : Equiv.Perm (Fin n)) (pk : CS.Elem) (info : Option Bytes) (q d : Nat)
    (S : (Fin n → CS.Elem) → Linker CS n (Answer CS n) (Res Unit)) (hS : ∀ es, (S es).Within (fun _ => True) q d) :
    |poprfLink draw pk info x π S - poprfLink draw pk info x π' S| ≤ (q + 3 * d) / Nat.card CS.Scalar := by
  choose hl P hP hP0 using h
  choose g hg using hd
  obtain ⟨k, hk⟩ := VGroup.Lawful.base_generates (G := CS.group) pk
  let att : Equiv.Perm (Fin n) → (Fin n → Nonce CS) → Answer CS n → PoprfAttempt CS :=
    fun π ρ a => ⟨(ρ a.client).1, (ρ a.client).1 • P (π a.client), x (π a.client), a.message, a.c, a.s, pk, info⟩
  have key : ∀ π : Equiv.Perm (Fin n), poprfLink draw pk info x π S = average fun f : Table CS => chance fun ρ : Fin n → Nonce CS =>
      (S fun i => (ρ i).1 • P (π i)).run f
        (fun a => (outcome ((att π ρ a).finalize f), gets a.client ((att π ρ a).finalize f))) π (fun _ => none) = true := by
    intro π
    unfold poprfLink
    congr 1; funext f
    refine chance_congr fun ρ => Iff.trans (exists_blinds (fun i => (⟨⟨(ρ i).1, (ρ i).1 • P (π i)⟩, ⟨(ρ i).1 • P (π i)⟩⟩, g (ρ i)))
      (fun i => ?_) _) ?_
    swap
    · exact Iff.rfl
    rw [PoprfClient.blindInput_eq wf, hg]
    simp only [hP]
  rw [key, key]
  refine link_bound P hP0 π π' att (fun f a => a.finalize f) outcome (fun a r => gets a.client r)
    (fun f es a w => w = .ok () ∧ ∃ t : CS.Scalar, Spec.hashToScalar (oracleSuite CS f) .Poprf (infoInput (info.getD [])) = .ok t ∧
      ¬ SameKey CS (t • CS.group.baseElem + pk) a.message (es a.client))
    (fun f j => Spec.outputInfo CS (x j) (info.getD []) ((k + f (tweakQ wf info))⁻¹ • P j)) _ (ok' := fun _ => True)
    (fun _ _ _ => trivial) ?_ (fun a v v' h i => gets_isSome a.client h i) ?_ ?_ S hS
  · intro f ρ ρ' hρ a
    refine (outcome_poprf (CS := oracleSuite CS f) (oracle_wf wf f) ⟨x (π a.client), (ρ a.client).1, (ρ a.client).1 • P (π a.client)⟩
      ⟨(ρ a.client).2, hl _⟩ a.message a.c a.s pk info).trans ?_
    refine Eq.trans ?_ (outcome_poprf (CS := oracleSuite CS f) (oracle_wf wf f) ⟨x (π' a.client), (ρ' a.client).1,
      (ρ' a.client).1 • P (π' a.client)⟩ ⟨(ρ' a.client).2, hl _⟩ a.message a.c a.s pk info).symm
    exact congrArg (fun B : CS.Elem => Poprf.computeTweakedKey (oracleSuite CS f) pk info >>= fun tk : CS.Elem =>
        verifyProof (oracleSuite CS f) CS.group.baseElem tk [a.message] [B] ⟨a.c, a.s⟩ .Poprf >>= fun _ =>
        if (info.getD []).length ≤ 65535 then .ok () else .err .Info) (hρ a.client)
  · intro f π ρ a i o hb hgo
    obtain ⟨rfl, ho⟩ := gets_some hgo
    obtain ⟨t, ht, hil, -, -⟩ := PoprfAttempt.accepted wf f (att π ρ a) o ho
    have h2 : Spec.hashToScalar (oracleSuite CS f) .Poprf (infoInput (info.getD [])) = .ok (f (tweakQ wf info)) :=
      tweak_oracle wf f info hil
    refine PoprfAttempt.right_output wf f (att π ρ a) o ho (ρ a.client).2 (P (π a.client)) k _ h2 rfl hk ?_
    by_contra hc
    exact hb ⟨by rw [ho]; rfl, _, h2, hc⟩
  · intro ρ T hT _
    refine le_trans (chance_mono fun f hf => ?_) (C65_poprf wf q d T hT)
    obtain ⟨a, hs, ho, t, ht, hw⟩ := hf
    refine ⟨_, t, hs, ?_, ht, hw⟩
    cases hr : (att π ρ a).finalize f with
    | ok o => exact ⟨o, rfl⟩
    | _ => rw [hr] at ho; cases ho

/-- C70, VOPRF batches: the same when the server delivers to batches of at most `N` clients, with `(q + d(N + 1))^N / |scalars|`. -/
theorem C70_voprf_batch (wf : CS.WF) {σ : Type} [RngCore σ] (draw : Nonce CS → σ) (hd : Draws draw) {n : Nat} (x : Fin n → Bytes)
    (h : ∀ j, Hidable CS .Voprf (x j)) (π π' : Equiv.Perm (Fin n)) (pk : CS.Elem) (q d N : Nat)
    (S : (Fin n → CS.Elem) → Linker CS n (BatchAnswer CS n) (Res (List (Res Unit))))
    (hS : ∀ es, (S es).Within (fun a => a.clients.length ≤ N) q d) :
    |voprfBatchLink draw pk x π S - voprfBatchLink draw pk x π' S| ≤ (q + (N + 1) * d) ^ N / Nat.card CS.Scalar := by
  choose hl P hP hP0 using h
  choose g hg using hd
  obtain ⟨k, hk⟩ := VGroup.Lawful.base_generates (G := CS.group) pk
  have key : ∀ π : Equiv.Perm (Fin n), voprfBatchLink draw pk x π S = average fun f : Table CS => chance fun ρ : Fin n → Nonce CS =>
      (S fun i => (ρ i).1 • P (π i)).run f (fun a => (batchOutcome ((batchCall x P π ρ a).voprfFinalize f pk),
        batchGets a.clients ((batchCall x P π ρ a).voprfFinalize f pk))) π (fun _ => none) = true := by
    intro π
    unfold voprfBatchLink
    congr 1; funext f
    refine chance_congr fun ρ => Iff.trans (exists_blinds (fun i => (⟨⟨(ρ i).1, (ρ i).1 • P (π i)⟩, ⟨(ρ i).1 • P (π i)⟩⟩, g (ρ i)))
      (fun i => ?_) _) ?_
    swap
    · exact Iff.rfl
    rw [VoprfClient.blindInput_eq wf, hg]
    simp only [hP]
  rw [key, key]
  refine link_bound P hP0 π π' (batchCall x P) (fun f a => a.voprfFinalize f pk) batchOutcome (fun a r => batchGets a.clients r)
    (fun _ es a w => (∃ l, w = .ok l) ∧ ∃ (p : Nat) (i : Fin n) (e : CS.Elem), a.clients[p]? = some i ∧ a.messages[p]? = some e ∧
      ¬ SameKey CS pk (es i) e)
    (fun _ j => Spec.output CS (x j) (k • P j)) _ (ok' := fun a => a.clients.length ≤ N)
    (fun ρ a ha => by simpa [batchCall] using ha) ?_ (fun a v v' h i => batchGets_isSome a.clients h i) ?_ ?_ S hS
  · intro f ρ ρ' hρ a
    rw [batchCall_voprf x hl, batchCall_voprf x hl]
    simp only [hρ]
  · intro f π ρ a i o hb ho
    obtain ⟨l, hr, p, hp, hlp⟩ := batchGets_some ho
    obtain ⟨e, he, rfl⟩ := batchCall_voprf_output x P pk π ρ f a hr hp hlp
    have hs : SameKey CS pk ((ρ i).1 • P (π i)) e := by
      by_contra hc
      exact hb ⟨⟨_, by rw [hr]; rfl⟩, p, i, e, hp, he, hc⟩
    obtain ⟨k', h1, h2⟩ := hs
    have hkk : k' = k := smul_base_inj (h1.symm.trans hk)
    rw [h2, hkk, smul_comm k, inv_smul_smul₀ (ρ i).2]
  · intro ρ T hT hN
    refine le_trans (chance_mono fun f hf => ?_) (C65_voprf_batch wf q d N pk T hT hN)
    obtain ⟨a, hs, ⟨l, ho⟩, p, i, e, hp, he, hw⟩ := hf
    refine ⟨_, hs, ?_, p, ((ρ i).1, (ρ i).1 • P (π i)), e, by simp [batchCall, hp], he, hw⟩
    cases hr : (batchCall x P π ρ a).voprfFinalize f pk with
    | ok o => exact ⟨o, rfl⟩
    | _ => rw [hr] at ho; cases ho

/-- C70, POPRF batches: the same with `(q + d(N + 1) + 1)^N / |scalars|`. -/
theorem C70_poprf_batch (wf : CS.WF) {σ : Type} [RngCore σ] (draw : Nonce CS → σ) (hd : Draws draw) {n : Nat} (x : Fin n → Bytes)
    (h : ∀ j, Hidable CS .Poprf (x j)) (π π' : Equiv.Perm (Fin n)) (pk : CS.Elem) (info : Option Bytes) (q d N : Nat)
    (S : (Fin n → CS.Elem) → Linker CS n (BatchAnswer CS n) (Res (List (Res Unit))))
    (hS : ∀ es, (S es).Within (fun a => a.clients.length ≤ N) q d) :
    |poprfBatchLink draw pk info x π S - poprfBatchLink draw pk info x π' S| ≤ (q + (N + 1) * d + 1) ^ N / Nat.card CS.Scalar := by
  choose hl P hP hP0 using h
  choose g hg using hd
  obtain ⟨k, hk⟩ := VGroup.Lawful.base_generates (G := CS.group) pk
  have key : ∀ π : Equiv.Perm (Fin n), poprfBatchLink draw pk info x π S = average fun f : Table CS => chance fun ρ : Fin n → Nonce CS =>
      (S fun i => (ρ i).1 • P (π i)).run f (fun a => (batchOutcome ((batchCall x P π ρ a).poprfFinalize f pk info),
        batchGets a.clients ((batchCall x P π ρ a).poprfFinalize f pk info))) π (fun _ => none) = true := by
    intro π
    unfold poprfBatchLink
    congr 1; funext f
    refine chance_congr fun ρ => Iff.trans (exists_blinds (fun i => (⟨⟨(ρ i).1, (ρ i).1 • P (π i)⟩, ⟨(ρ i).1 • P (π i)⟩⟩, g (ρ i)))
      (fun i => ?_) _) ?_
    swap
    · exact Iff.rfl
    rw [PoprfClient.blindInput_eq wf, hg]
    simp only [hP]
  rw [key, key]
  refine link_bound P hP0 π π' (batchCall x P) (fun f a => a.poprfFinalize f pk info) batchOutcome (fun a r => batchGets a.clients r)
    (fun f es a w => (∃ l, w = .ok l) ∧ ∃ t : CS.Scalar,
      Spec.hashToScalar (oracleSuite CS f) .Poprf (infoInput (info.getD [])) = .ok t ∧
      ∃ (p : Nat) (i : Fin n) (e : CS.Elem), a.clients[p]? = some i ∧ a.messages[p]? = some e ∧
      ¬ SameKey CS (t • CS.group.baseElem + pk) e (es i))
    (fun f j => Spec.outputInfo CS (x j) (info.getD []) ((k + f (tweakQ wf info))⁻¹ • P j)) _ (ok' := fun a => a.clients.length ≤ N)
    (fun ρ a ha => by simpa [batchCall] using ha) ?_ (fun a v v' h i => batchGets_isSome a.clients h i) ?_ ?_ S hS
  · intro f ρ ρ' hρ a
    rw [batchCall_poprf x hl P pk wf, batchCall_poprf x hl P pk wf]
    simp only [hρ]
  · intro f π ρ a i o hb ho
    obtain ⟨l, hr, p, hp, hlp⟩ := batchGets_some ho
    obtain ⟨e, he, rfl⟩ := batchCall_poprf_output x P pk wf info π ρ f a hr hp hlp
    obtain ⟨ht, ht0⟩ := poprfFinalize_tweak pk wf info f _ hr
    have hs : SameKey CS (f (tweakQ wf info) • CS.group.baseElem + pk) e ((ρ i).1 • P (π i)) := by
      by_contra hc
      exact hb ⟨⟨_, by rw [hr]; rfl⟩, _, ht, p, i, e, hp, he, hc⟩
    obtain ⟨k', h1, h2⟩ := hs
    rw [hk, ← add_smul] at h1 ht0
    have hkk : f (tweakQ wf info) + k = k' := smul_base_inj h1
    have hk0 : k + f (tweakQ wf info) ≠ 0 := fun h0 => ht0 (by rw [add_comm, h0, zero_smul])
    have : e = (k + f (tweakQ wf info))⁻¹ • ((ρ i).1 • P (π i)) := by
      rw [h2, ← hkk, add_comm (f _), inv_smul_smul₀ hk0]
    rw [this, smul_comm (k + f (tweakQ wf info))⁻¹, inv_smul_smul₀ (ρ i).2]
  · intro ρ T hT hN
    refine le_trans (chance_mono fun f hf => ?_) (C65_poprf_batch wf q d N pk info T hT hN)
    obtain ⟨a, hs, ⟨l, ho⟩, t, ht, p, i, e, hp, he, hw⟩ := hf
    refine ⟨_, t, hs, ?_, ht, p, ((ρ i).1, (ρ i).1 • P (π i)), e, by simp [batchCall, hp], he, hw⟩
    cases hr : (batchCall x P π ρ a).poprfFinalize f pk info with
    | ok o => exact ⟨o, rfl⟩
    | _ => rw [hr] at ho; cases ho

/-- What a server of OPRF that answers client `i` with its key `i` sees. -/
theorem oprfLink_eq (wf : CS.WF) {σ : Type} [RngCore σ] (draw : Nonce CS → σ) (hd : Draws draw) {n : Nat} (x : Fin n → Bytes)
    (hl : ∀ j, (x j).length ≤ 65535) (P : Fin n → CS.Elem) (hP : ∀ j, Spec.hashToGroup CS .Oprf (x j) = .ok (P j))
    (π : Equiv.Perm (Fin n)) (keys : Fin n → OprfServer CS) (D : (Fin n → CS.Elem) → (Fin n → Bytes) → Bool) :
    oprfLink draw keys x π D = chance fun ρ : Fin n → Nonce CS =>
      D (fun i => (ρ i).1 • P (π i)) (fun j => Spec.output CS (x j) ((keys (π.symm j)).sk • P j)) = true := by
  choose g hg using hd
  unfold oprfLink
  refine chance_congr fun ρ => ?_
  have hb : ∀ i, OprfClient.blindInput CS (x (π i)) (draw (ρ i)) = .ok (⟨⟨(ρ i).1⟩, ⟨(ρ i).1 • P (π i)⟩⟩, g (ρ i)) := by
    intro i
    rw [OprfClient.blindInput_eq wf, hg]
    simp only [hP]
  have hf : ∀ i, OprfClient.finalize (CS := CS) ⟨(ρ i).1⟩ (x (π i)) ((keys i).blindEvaluate ⟨(ρ i).1 • P (π i)⟩) =
      .ok (Spec.output CS (x (π i)) ((keys i).sk • P (π i))) := by
    intro i
    rw [OprfClient.finalize_eq _ (ρ i).2, if_pos (hl _)]
    congr 2
    rw [OprfServer.blindEvaluate_value]
    show (ρ i).1⁻¹ • ((keys i).sk • ((ρ i).1 • P (π i))) = _
    rw [smul_comm (keys i).sk, inv_smul_smul₀ (ρ i).2]
  constructor
  · rintro ⟨b, hb', out, ho, hr⟩
    have : b = fun i => (⟨⟨(ρ i).1⟩, ⟨(ρ i).1 • P (π i)⟩⟩, g (ρ i)) :=
      funext fun i => Res.ok.inj ((hb' i).symm.trans (hb i))
    subst this
    have : out = fun j => Spec.output CS (x j) ((keys (π.symm j)).sk • P j) := funext fun j => by
      have := Res.ok.inj ((ho (π.symm j)).symm.trans (hf (π.symm j)))
      rwa [Equiv.apply_symm_apply] at this
    subst this
    exact hr
  · intro hr
    refine ⟨_, hb, _, fun i => ?_, hr⟩
    rw [Equiv.symm_apply_apply]
    exact hf i

/-- C70, OPRF: a server that answers with one key sees exactly the same with either order. -/
theorem C70_oprf (wf : CS.WF) {σ : Type} [RngCore σ] (draw : Nonce CS → σ) (hd : Draws draw) {n : Nat} (x : Fin n → Bytes)
    (h : ∀ j, Hidable CS .Oprf (x j)) (π π' : Equiv.Perm (Fin n)) (key : OprfServer CS)
    (D : (Fin n → CS.Elem) → (Fin n → Bytes) → Bool) :
    oprfLink draw (fun _ => key) x π D = oprfLink draw (fun _ => key) x π' D := by
  choose hl P hP hP0 using h
  rw [oprfLink_eq wf draw hd x hl P hP, oprfLink_eq wf draw hd x hl P hP]
  obtain ⟨e, he⟩ := noncesEquiv (CS := CS) (P := fun i => P (π i)) (P' := fun i => P (π' i)) (fun i => hP0 _) (fun i => hP0 _)
  exact chance_transport e _ _ fun ρ => by rw [show (fun i => (e ρ i).1 • P (π' i)) = fun i => (ρ i).1 • P (π i) from funext (he ρ)]

theorem chance_certain {α : Type} [Finite α] [Nonempty α] {P : α → Prop} (h : ∀ a, P a) : chance P = 1 := by
  rw [show P = fun _ => True from funext fun a => eq_true (h a)]
  simp [chance, average_const]

/-- C70, why verification is needed: an OPRF server that answers two clients with different keys (whose outputs on the first input
differ) tells the two orders apart with certainty. -/
theorem C70_oprf_tagging (wf : CS.WF) {σ : Type} [RngCore σ] (draw : Nonce CS → σ) (hd : Draws draw) (x : Fin 2 → Bytes)
    (h : ∀ j, Hidable CS .Oprf (x j)) (keys : Fin 2 → OprfServer CS)
    (hne : ∀ P, Spec.hashToGroup CS .Oprf (x 0) = .ok P →
      Spec.output CS (x 0) ((keys 0).sk • P) ≠ Spec.output CS (x 0) ((keys 1).sk • P)) :
    ∃ D : (Fin 2 → CS.Elem) → (Fin 2 → Bytes) → Bool,
      oprfLink draw keys x 1 D = 1 ∧ oprfLink draw keys x (Equiv.swap 0 1) D = 0 := by
  choose hl P hP hP0 using h
  have : Nonempty (Nonce CS) := ⟨⟨1, one_ne_zero⟩⟩
  refine ⟨fun _ o => decide (o 0 = Spec.output CS (x 0) ((keys 0).sk • P 0)), ?_, ?_⟩
  · rw [oprfLink_eq wf draw hd x hl P hP]
    exact chance_certain fun ρ => decide_eq_true rfl
  · rw [oprfLink_eq wf draw hd x hl P hP]
    refine chance_false fun ρ => ?_
    have := hne (P 0) (hP 0)
    simpa using fun h' => this h'.symm

/-! ## Examples -/

section examples
open Toy

/-- A server that delivers wrong answers to both clients, then asks for the outputs and looks at the first one. -/
def linkingServer : (Fin 2 → suite.Elem) → Linker suite 2 (Answer suite 2) (Res Unit) := fun es =>
  .ask ⟨([], []), by simp, by simp⟩ fun a =>
  .deliver ⟨0, es 1, a, (1 : F)⟩ fun _ => .deliver ⟨1, es 0, (2 : F), (3 : F)⟩ fun v =>
  .redeem fun o => .guess (match v, o with
    | .ok _, some o => o 0 == [1]
    | _, _ => false)

theorem linkingServer_within (es : Fin 2 → suite.Elem) : (linkingServer es).Within (fun _ => True) 1 2 :=
  .ask _ _ fun _ => .deliver _ _ trivial fun _ => .deliver _ _ trivial fun _ => .redeem _ fun _ => .guess _

/-- A server that delivers a batch with swapped answers. -/
example : ∃ S : (Fin 2 → suite.Elem) → Linker suite 2 (BatchAnswer suite 2) (Res (List (Res Unit))),
    ∀ es, (S es).Within (fun a => a.clients.length ≤ 2) 0 1 :=
  ⟨fun es => .deliver ⟨[0, 1], [es 1, es 0], (2 : F), (3 : F)⟩ fun v => .redeem fun o => .guess (v.isOk && o.isSome),
    fun _ => .deliver _ _ le_rfl fun _ => .redeem _ fun _ => .guess _⟩

/-- Over the toy suite this server links with an advantage of at most `5 / 251`. -/
example {σ : Type} [RngCore σ] (draw : Nonce suite → σ) (hd : Draws draw) :
    |voprfLink draw (7 : F) ![[1, 2, 3], [4, 5]] 1 linkingServer -
      voprfLink draw (7 : F) ![[1, 2, 3], [4, 5]] (Equiv.swap 0 1) linkingServer| ≤ 5 / 251 := by
  have h := C70_voprf Toy.wf draw hd ![[1, 2, 3], [4, 5]] (fun j => by
    fin_cases j
    · exact ⟨by decide, _, rfl, show (_ : F) ≠ 0 by decide +kernel⟩
    · exact ⟨by decide, _, rfl, show (_ : F) ≠ 0 by decide +kernel⟩) 1 (Equiv.swap 0 1) (7 : F) 1 2 linkingServer linkingServer_within
  have hc : Nat.card suite.Scalar = 251 := show Nat.card (ZMod 251) = 251 by simp
  rw [hc] at h
  norm_num at h ⊢
  exact h

/-- Two keys to which the tagging attack applies. -/
example : ∀ P, Spec.hashToGroup suite .Oprf [1, 2, 3] = .ok P →
    Spec.output suite [1, 2, 3] ((show suite.Scalar from (3 : F)) • P) ≠
      Spec.output suite [1, 2, 3] ((show suite.Scalar from (4 : F)) • P) := by
  intro P hP
  have : P = (_ : F) := (Except.ok.inj hP).symm
  subst this
  decide +kernel

end examples

end Voprf
