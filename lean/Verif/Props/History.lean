import Verif.Lemmas.System
import Verif.Props.Batch
import Verif.Props.Serialization

/-!
# C44, C45: histories

`Spec/System.lean` describes a deployment: one server, any number of clients, any schedule of calls with
duplicated, reordered and batched requests and strangers' requests in between, and values written out and
read back at any point.
-/

namespace Voprf

open Spec

variable {CS : CipherSuite} [L : CS.group.Lawful] {σ : Type} [RngCore σ]

/-! ## Reading back -/

theorem reload_faithful {α : Type} {w : WireFormat α}
    (h : ∀ x, (w.Valid x → w.deserialize (w.serialize x) = .ok x) ∧
      (¬ w.Valid x → w.deserialize (w.serialize x) = .err .Deserialization)) (x y : α)
    (hy : w.deserialize (w.serialize x) = .ok y) : y = x := by
  by_cases hv : w.Valid x
  · rw [(h x).1 hv] at hy; cases hy; rfl
  · rw [(h x).2 hv] at hy; cases hy

theorem reloadMessages_faithful (ms ms' : List (EvaluationElement CS))
    (h : reloadMessages CS ms = .ok ms') : ms' = ms := by
  have hr := (C17_roundtrip (CS := CS)).evaluationElement
  induction ms generalizing ms' with
  | nil => simp [reloadMessages, Res.collect] at h; exact h
  | cons m ms ih =>
    simp only [reloadMessages, List.map_cons, Res.collect, Res.bind_eq_ok, Res.pure_eq,
      Res.ok.injEq] at h
    obtain ⟨a, ha, as, has, rfl⟩ := h
    rw [reload_faithful hr m a ha, ih as has]

theorem reloadMessages_ok (ms : List (EvaluationElement CS)) (h : ∀ m ∈ ms, m.value ≠ 0) :
    reloadMessages CS ms = .ok ms := by
  have hr := (C17_roundtrip (CS := CS)).evaluationElement
  induction ms with
  | nil => rfl
  | cons m ms ih =>
    have h1 : EvaluationElement.deserialize CS m.serialize = .ok m := (hr m).1 (h m (by simp))
    have h2 := ih fun m hm => h m (List.mem_cons_of_mem _ hm)
    simp only [reloadMessages] at h2 ⊢
    simp [Res.collect, h1, h2]

theorem oprf_faithful : (oprf σ CS).Faithful where
  server := reload_faithful (C17_roundtrip (CS := CS)).oprfServer
  state := reload_faithful (C17_roundtrip (CS := CS)).oprfClient
  msg := reload_faithful (C17_roundtrip (CS := CS)).blindedElement
  resp1 := reload_faithful (C17_roundtrip (CS := CS)).evaluationElement
  respN x := x.elim

theorem voprf_faithful (pk : CS.Elem) : (voprf σ CS pk).Faithful where
  server := reload_faithful (C17_roundtrip (CS := CS)).voprfServer
  state := reload_faithful (C17_roundtrip (CS := CS)).voprfClient
  msg := reload_faithful (C17_roundtrip (CS := CS)).blindedElement
  resp1 := by
    rintro ⟨m, p⟩ y h
    obtain ⟨m', hm, h⟩ := Res.bind_eq_ok.mp h
    obtain ⟨p', hp, h⟩ := Res.bind_eq_ok.mp h
    cases h
    rw [reload_faithful (C17_roundtrip (CS := CS)).evaluationElement m m' hm,
      reload_faithful (C17_roundtrip (CS := CS)).proof p p' hp]
  respN := by
    rintro ⟨m, p⟩ y h
    obtain ⟨m', hm, h⟩ := Res.bind_eq_ok.mp h
    obtain ⟨p', hp, h⟩ := Res.bind_eq_ok.mp h
    cases h
    rw [reloadMessages_faithful m m' hm,
      reload_faithful (C17_roundtrip (CS := CS)).proof p p' hp]

theorem poprf_faithful (pk : CS.Elem) : (poprf σ CS pk).Faithful where
  server := reload_faithful (C17_roundtrip (CS := CS)).poprfServer
  state := reload_faithful (C17_roundtrip (CS := CS)).poprfClient
  msg := reload_faithful (C17_roundtrip (CS := CS)).blindedElement
  resp1 := by
    rintro ⟨m, p⟩ y h
    obtain ⟨m', hm, h⟩ := Res.bind_eq_ok.mp h
    obtain ⟨p', hp, h⟩ := Res.bind_eq_ok.mp h
    cases h
    rw [reload_faithful (C17_roundtrip (CS := CS)).evaluationElement m m' hm,
      reload_faithful (C17_roundtrip (CS := CS)).proof p p' hp]
  respN := by
    rintro ⟨m, p⟩ y h
    obtain ⟨m', hm, h⟩ := Res.bind_eq_ok.mp h
    obtain ⟨p', hp, h⟩ := Res.bind_eq_ok.mp h
    cases h
    rw [reloadMessages_faithful m m' hm,
      reload_faithful (C17_roundtrip (CS := CS)).proof p p' hp]

/-! ## What the server answers -/

theorem voprf_answer (wf : CS.WF) (s : VoprfServer CS) {σ' : Type} [RngCore σ'] {g g' : σ'}
    {m : BlindedElement CS} {r : VoprfServerEvaluateResult CS}
    (h : s.blindEvaluate g m = .ok (r, g')) : r.message = ⟨s.sk • m.value⟩ := by
  rw [VoprfServer.blindEvaluate_eq wf, Res.bind_eq_ok] at h
  obtain ⟨⟨p, g⟩, -, h⟩ := h
  simp only [Res.ok.injEq, Prod.mk.injEq] at h
  rw [← h.1]

theorem voprf_answers (s : VoprfServer CS) {σ' : Type} [RngCore σ'] {g g' : σ'}
    {ms : List (BlindedElement CS)} {r : VoprfServerBatchEvaluateResult CS}
    (h : s.batchBlindEvaluate g ms = .ok (r, g')) :
    r.messages = ms.map fun m => ⟨s.sk • m.value⟩ := by
  rw [VoprfServer.batch_eq, Res.bind_eq_ok] at h
  obtain ⟨⟨p, g⟩, -, h⟩ := h
  simp only [Res.ok.injEq, Prod.mk.injEq] at h
  rw [← h.1]

theorem poprf_answer (wf : CS.WF) (s : PoprfServer CS) {σ' : Type} [RngCore σ'] {g g' : σ'}
    {m : BlindedElement CS} {info : Option Bytes} {r : PoprfServerEvaluateResult CS}
    (h : s.blindEvaluate g m info = .ok (r, g')) :
    ∃ t, Poprf.computeTweak CS s.sk info = .ok t ∧ t ≠ 0 ∧ r.message = ⟨t⁻¹ • m.value⟩ := by
  rw [PoprfServer.blindEvaluate_eq wf, Res.bind_eq_ok] at h
  obtain ⟨t, ht, h⟩ := h
  obtain ⟨_, -, -, -, ht0⟩ := computeTweak_ok wf ht
  rw [Res.bind_eq_ok] at h
  obtain ⟨⟨p, g⟩, -, h⟩ := h
  simp only [Res.ok.injEq, Prod.mk.injEq] at h
  exact ⟨t, ht, ht0, by rw [← h.1]⟩

theorem poprf_answers (wf : CS.WF) (s : PoprfServer CS) {σ' : Type} [RngCore σ'] {g g' : σ'}
    {ms : List (BlindedElement CS)} {info : Option Bytes} {r : PoprfServerBatchEvaluateResult CS}
    (h : s.batchBlindEvaluate g ms info = .ok (r, g')) :
    ∃ t, Poprf.computeTweak CS s.sk info = .ok t ∧ t ≠ 0 ∧
      r.messages = ms.map fun m => ⟨t⁻¹ • m.value⟩ := by
  rw [PoprfServer.batch_eq wf, Res.bind_eq_ok] at h
  obtain ⟨t, ht, h⟩ := h
  obtain ⟨_, -, -, -, ht0⟩ := computeTweak_ok wf ht
  rw [Res.bind_eq_ok] at h
  obtain ⟨⟨p, g⟩, -, h⟩ := h
  simp only [Res.ok.injEq, Prod.mk.injEq] at h
  exact ⟨t, ht, ht0, by rw [← h.1]⟩

/-! ## C45: every outcome of every history is the PRF value -/

/-- C45, base mode: after any history, every result any client has obtained is the PRF value of its own
input under the server's key, whatever else happened in between. -/
theorem C45_oprf_history (wf : CS.WF) (s : OprfServer CS) (g : σ) (es : List (Event (oprf σ CS)))
    (w : World (oprf σ CS)) (h : run (init _ s g) es = some w) :
    ∀ o ∈ w.outcomes, ∃ input P, Spec.hashToGroup CS .Oprf input = .ok P ∧
      o = .one input () (prfResult CS input (s.sk • P)) := by
  have hI := inv_run oprf_faithful (inv_init s g) h
  intro o ho
  rcases hI.outcomes o ho with ⟨x, r, g₁, g₂, info, hx, ha, rfl⟩ | ⟨xs, r, g₁, g₂, info, hx, ha, rfl⟩
  · obtain ⟨g₃, g₄, hb⟩ := hI.sessions x hx
    simp only [oprf, Res.bind_eq_ok, Res.pure_eq, Res.ok.injEq, Prod.mk.injEq] at hb
    obtain ⟨⟨b, g₅⟩, hb, ⟨h1, h2⟩, -⟩ := hb
    have ha := Prod.mk.inj (Res.ok.inj ha)
    obtain ⟨⟨P, hP, hf, -⟩, -⟩ := C01_oprf_correct wf s x.input b ⟨σ, _, g₃, g₅, hb⟩
    refine ⟨x.input, P, hP, ?_⟩
    rw [← hf, h1, h2, ha.1]
  · simp [oprf] at ha

/-- C45, verifiable mode: after any history, every `finalize` and `batch_finalize` call made by honest
clients with the server's public key has succeeded, with the PRF value of each input in its place. -/
theorem C45_voprf_history (wf : CS.WF) (s : VoprfServer CS) (hs : s.Made) (g : σ)
    (es : List (Event (voprf σ CS s.getPublicKey))) (w : World (voprf σ CS s.getPublicKey))
    (h : run (init _ s g) es = some w) :
    ∀ o ∈ w.outcomes,
      (∃ input P, Spec.hashToGroup CS .Voprf input = .ok P ∧
        o = .one input () (prfResult CS input (s.sk • P))) ∨
      (∃ inputs outs, o = .batch inputs () (.ok outs) ∧ List.Forall₂ (fun input out =>
        ∃ P, Spec.hashToGroup CS .Voprf input = .ok P ∧ out = prfResult CS input (s.sk • P))
        inputs outs) := by
  have hI := inv_run (voprf_faithful _) (inv_init s g) h
  have hb' : ∀ x ∈ w.sessions, VoprfClient.Blinded x.input ⟨x.state, x.msg⟩ := by
    intro x hx
    obtain ⟨g₃, g₄, hb⟩ := hI.sessions x hx
    simp only [voprf, Res.bind_eq_ok, Res.pure_eq, Res.ok.injEq, Prod.mk.injEq] at hb
    obtain ⟨⟨b, g₅⟩, hb, ⟨h1, h2⟩, -⟩ := hb
    exact ⟨σ, _, g₃, g₅, by rw [hb, ← h1, ← h2]⟩
  intro o ho
  rcases hI.outcomes o ho with ⟨x, r, g₁, g₂, info, hx, ha, rfl⟩ | ⟨xs, r, g₁, g₂, info, hx, ha, rfl⟩
  · left
    obtain ⟨⟨P, hP, hf, -⟩, -⟩ := C02_voprf_correct wf s hs x.input _ (hb' x hx) g₁ g₂ r ha
    exact ⟨x.input, P, hP, congrArg (Outcome.one (P := voprf σ CS s.getPublicKey) x.input ()) hf⟩
  · right
    have hF : List.Forall₂ VoprfClient.Blinded (xs.map (·.input))
        (xs.map fun x => (⟨x.state, x.msg⟩ : VoprfClientBlindResult CS)) := by
      rw [List.forall₂_map_left_iff, List.forall₂_map_right_iff, List.forall₂_same]
      exact fun x hx' => hb' x (hx x hx')
    have := C03_voprf_batch_correct wf s hs _ _ hF g₁ g₂ r
      (by rw [List.map_map]; exact ha)
    obtain ⟨outs, h1, h2⟩ := this
    rw [List.map_map] at h1
    exact ⟨_, outs, congrArg (Outcome.batch (P := voprf σ CS s.getPublicKey) _ ()) h1, h2.imp fun _ _ ⟨⟨P, hP, h, _⟩, _⟩ => ⟨P, hP, h⟩⟩

/-- C45, partially oblivious mode: the same, with the PRF keyed by the info of each request. -/
theorem C45_poprf_history (wf : CS.WF) (s : PoprfServer CS) (hs : s.Made) (g : σ)
    (es : List (Event (poprf σ CS s.getPublicKey))) (w : World (poprf σ CS s.getPublicKey))
    (h : run (init _ s g) es = some w) :
    ∀ o ∈ w.outcomes,
      (∃ input info P t, Spec.hashToGroup CS .Poprf input = .ok P ∧ IsTweak CS s.sk (info.getD []) t ∧
        o = .one input info (prfResultInfo CS input (info.getD []) (t⁻¹ • P))) ∨
      (∃ inputs info t outs, IsTweak CS s.sk (info.getD []) t ∧ o = .batch inputs info (.ok outs) ∧
        List.Forall₂ (fun input out => ∃ P, Spec.hashToGroup CS .Poprf input = .ok P ∧
          out = prfResultInfo CS input (info.getD []) (t⁻¹ • P)) inputs outs) := by
  have hI := inv_run (poprf_faithful _) (inv_init s g) h
  have hb' : ∀ x ∈ w.sessions, PoprfClient.Blinded x.input ⟨x.state, x.msg⟩ := by
    intro x hx
    obtain ⟨g₃, g₄, hb⟩ := hI.sessions x hx
    simp only [poprf, Res.bind_eq_ok, Res.pure_eq, Res.ok.injEq, Prod.mk.injEq] at hb
    obtain ⟨⟨b, g₅⟩, hb, ⟨h1, h2⟩, -⟩ := hb
    exact ⟨σ, _, g₃, g₅, by rw [hb, ← h1, ← h2]⟩
  intro o ho
  rcases hI.outcomes o ho with ⟨x, r, g₁, g₂, info, hx, ha, rfl⟩ | ⟨xs, r, g₁, g₂, info, hx, ha, rfl⟩
  · left
    obtain ⟨⟨P, t, hP, ht, hf, -⟩, -⟩ := C04_poprf_correct wf s hs x.input info _ (hb' x hx) g₁ g₂ r ha
    exact ⟨x.input, info, P, t, hP, ht, congrArg (Outcome.one (P := poprf σ CS s.getPublicKey) x.input info) hf⟩
  · right
    have hF : List.Forall₂ PoprfClient.Blinded (xs.map (·.input))
        (xs.map fun x => (⟨x.state, x.msg⟩ : PoprfClientBlindResult CS)) := by
      rw [List.forall₂_map_left_iff, List.forall₂_map_right_iff, List.forall₂_same]
      exact fun x hx' => hb' x (hx x hx')
    have := C05_poprf_batch_correct wf s hs _ info _ hF g₁ g₂ r
      (by rw [List.map_map]; exact ha)
    obtain ⟨t, outs, ht, h1, h2⟩ := this
    rw [List.map_map] at h1
    exact ⟨_, info, t, outs, ht, congrArg (Outcome.batch (P := poprf σ CS s.getPublicKey) _ info) h1, h2.imp fun _ _ ⟨⟨P, hP, h, _⟩, _⟩ => ⟨P, hP, h⟩⟩

/-! ### The answer a request gets does not depend on the rest of the history -/

/-- C45, base mode: in any history, what the server returned for a request is what it returns for that
request in isolation. -/
theorem C45_oprf_alone (s : OprfServer CS) (g : σ) (es : List (Event (oprf σ CS)))
    (w : World (oprf σ CS)) (h : run (init _ s g) es = some w) :
    ∀ i info (r : EvaluationElement CS) x, .one i info r ∈ w.responses →
      w.sessions[i]? = some x → r = s.blindEvaluate x.msg := by
  have hI := inv_run oprf_faithful (inv_init s g) h
  intro i info r x hr hx
  obtain ⟨y, g₃, g₄, hy, hans⟩ := hI.one i info r hr
  rw [hx] at hy
  cases hy
  simp only [oprf, Res.ok.injEq, Prod.mk.injEq] at hans
  exact hans.1.symm

/-- C45: in any history, the element the server returned for a request (alone, or as the k-th of a batch)
is the element it returns for that request alone, at any time, with any generator. -/
theorem C45_voprf_alone (wf : CS.WF) (s : VoprfServer CS) (g : σ) (pk : CS.Elem)
    (es : List (Event (voprf σ CS pk))) (w : World (voprf σ CS pk))
    (h : run (init _ s g) es = some w) :
    (∀ i info (r : VoprfServerEvaluateResult CS) x, .one i info r ∈ w.responses →
      w.sessions[i]? = some x → ∀ {σ' : Type} [RngCore σ'] (g₁ g₂ : σ') (a),
        s.blindEvaluate g₁ x.msg = .ok (a, g₂) → r.message = a.message) ∧
    (∀ ids info (r : VoprfServerBatchEvaluateResult CS) (k i : Nat) x,
      .batch ids info r ∈ w.responses → ids[k]? = some i → w.sessions[i]? = some x →
      ∀ {σ' : Type} [RngCore σ'] (g₁ g₂ : σ') (a),
        s.blindEvaluate g₁ x.msg = .ok (a, g₂) → r.messages[k]? = some a.message) := by
  have hI := inv_run (voprf_faithful pk) (inv_init s g) h
  constructor
  · intro i info r x hr hx σ' _ g₁ g₂ a ha
    obtain ⟨y, g₃, g₄, hy, hans⟩ := hI.one i info r hr
    rw [hx] at hy
    cases hy
    rw [voprf_answer wf s ha, voprf_answer wf s hans]
  · intro ids info r k i x hr hk hx σ' _ g₁ g₂ a ha
    obtain ⟨ys, g₃, g₄, hy, hans⟩ := hI.batch ids info r hr
    have hyk := lookup_get hy hk
    rw [hx] at hyk
    rw [voprf_answer wf s ha, voprf_answers s hans, List.getElem?_map, List.getElem?_map, hyk]
    rfl

/-- C45, POPRF: likewise, per info. -/
theorem C45_poprf_alone (wf : CS.WF) (s : PoprfServer CS) (g : σ) (pk : CS.Elem)
    (es : List (Event (poprf σ CS pk))) (w : World (poprf σ CS pk))
    (h : run (init _ s g) es = some w) :
    (∀ i info (r : PoprfServerEvaluateResult CS) x, .one i info r ∈ w.responses →
      w.sessions[i]? = some x → ∀ {σ' : Type} [RngCore σ'] (g₁ g₂ : σ') (a),
        s.blindEvaluate g₁ x.msg info = .ok (a, g₂) → r.message = a.message) ∧
    (∀ ids info (r : PoprfServerBatchEvaluateResult CS) (k i : Nat) x,
      .batch ids info r ∈ w.responses → ids[k]? = some i → w.sessions[i]? = some x →
      ∀ {σ' : Type} [RngCore σ'] (g₁ g₂ : σ') (a),
        s.blindEvaluate g₁ x.msg info = .ok (a, g₂) → r.messages[k]? = some a.message) := by
  have hI := inv_run (poprf_faithful pk) (inv_init s g) h
  constructor
  · intro i info r x hr hx σ' _ g₁ g₂ a ha
    obtain ⟨y, g₃, g₄, hy, hans⟩ := hI.one i info r hr
    rw [hx] at hy
    cases hy
    obtain ⟨t, ht, -, h1⟩ := poprf_answer wf s ha
    obtain ⟨t', ht', -, h2⟩ := poprf_answer wf s hans
    rw [ht] at ht'
    cases ht'
    rw [h1, h2]
  · intro ids info r k i x hr hk hx σ' _ g₁ g₂ a ha
    obtain ⟨ys, g₃, g₄, hy, hans⟩ := hI.batch ids info r hr
    have hyk := lookup_get hy hk
    rw [hx] at hyk
    obtain ⟨t, ht, -, h1⟩ := poprf_answer wf s ha
    obtain ⟨t', ht', -, h2⟩ := poprf_answers wf s hans
    rw [ht] at ht'
    cases ht'
    rw [h1, h2, List.getElem?_map, List.getElem?_map, hyk]
    rfl

/-! ## C44: writing out and reading back at any point -/

/-- C44 (safety): if every party manages to read back what it wrote, the history ends exactly as it would
have without any reload: same sessions, same answers, same outcomes. -/
theorem C44_transparent (s₁ : OprfServer CS) (s₂ : VoprfServer CS) (s₃ : PoprfServer CS)
    (pk : CS.Elem) (g : σ) :
    (∀ es w, run (init (oprf σ CS) s₁ g) es = some w →
      run (init (oprf σ CS) s₁ g) (withoutReloads es) = some w) ∧
    (∀ es w, run (init (voprf σ CS pk) s₂ g) es = some w →
      run (init (voprf σ CS pk) s₂ g) (withoutReloads es) = some w) ∧
    (∀ es w, run (init (poprf σ CS pk) s₃ g) es = some w →
      run (init (poprf σ CS pk) s₃ g) (withoutReloads es) = some w) :=
  ⟨fun _ _ => run_withoutReloads oprf_faithful, fun _ _ => run_withoutReloads (voprf_faithful pk),
    fun _ _ => run_withoutReloads (poprf_faithful pk)⟩

/-- C44 (liveness), base mode: unless some input of the history hashes to the identity element, every
reload succeeds, so reloads can be inserted anywhere without changing anything. -/
theorem C44_oprf_reloads (wf : CS.WF) (s : OprfServer CS) (hs : s.Made) (g : σ)
    (es : List (Event (oprf σ CS))) (w : World (oprf σ CS))
    (h : run (init _ s g) (withoutReloads es) = some w)
    (h0 : ∀ x ∈ w.sessions, Spec.hashToGroup CS .Oprf x.input ≠ .ok 0) :
    run (init _ s g) es = some w := by
  refine run_reloads oprf_faithful h ?_
  have hI := inv_run oprf_faithful (inv_init s g) h
  have r := C17_roundtrip (CS := CS)
  have hsk := hs.sk_ne_zero wf
  have key : ∀ x ∈ w.sessions, (x.state : OprfClient CS).blind ≠ 0 ∧
      (x.msg : BlindedElement CS).value ≠ 0 := by
    intro x hx
    obtain ⟨g₃, g₄, hb⟩ := hI.sessions x hx
    simp only [oprf, Res.bind_eq_ok, Res.pure_eq, Res.ok.injEq, Prod.mk.injEq] at hb
    obtain ⟨⟨b, g₅⟩, hb, ⟨h1, h2⟩, -⟩ := hb
    obtain ⟨k, P, -, hk, hP, rfl⟩ := OprfClient.blindInput_ok wf hb
    rw [← h1, ← h2]
    refine ⟨hk, smul_ne_zero hk ?_⟩
    rintro rfl
    exact h0 x hx hP
  refine ⟨?_, ?_, ?_, ?_, ?_⟩
  · rw [hI.server]; exact (r.oprfServer s).1 hsk
  · exact fun x hx => (r.oprfClient x.state).1 (key x hx).1
  · exact fun x hx => (r.blindedElement x.msg).1 (key x hx).2
  · intro id info m hm
    obtain ⟨x, g₃, g₄, hx, ha⟩ := hI.one id info m hm
    have ha := Prod.mk.inj (Res.ok.inj ha)
    refine (r.evaluationElement m).1 ?_
    rw [← ha.1]
    change CS.group.elemMul (x.msg : BlindedElement CS).value s.sk ≠ 0
    rw [VGroup.Lawful.elemMul_eq]
    exact smul_ne_zero hsk (key x (List.mem_of_getElem? hx)).2
  · exact fun _ _ m => m.elim

/-- C44 (liveness), verifiable mode: reloads succeed unless an input hashes to the identity or a proof
contains a zero scalar (which `Proof::deserialize` refuses, see C17/C20). -/
theorem C44_voprf_reloads (wf : CS.WF) (s : VoprfServer CS) (hs : s.Made) (g : σ) (pk : CS.Elem)
    (es : List (Event (voprf σ CS pk))) (w : World (voprf σ CS pk))
    (h : run (init _ s g) (withoutReloads es) = some w)
    (h0 : ∀ x ∈ w.sessions, Spec.hashToGroup CS .Voprf x.input ≠ .ok 0)
    (h1 : ∀ i info (r : VoprfServerEvaluateResult CS), .one i info r ∈ w.responses →
      r.proof.cScalar ≠ 0 ∧ r.proof.sScalar ≠ 0)
    (h2 : ∀ i info (r : VoprfServerBatchEvaluateResult CS), .batch i info r ∈ w.responses →
      r.proof.cScalar ≠ 0 ∧ r.proof.sScalar ≠ 0) :
    run (init _ s g) es = some w := by
  refine run_reloads (voprf_faithful pk) h ?_
  have hI := inv_run (voprf_faithful pk) (inv_init s g) h
  have r := C17_roundtrip (CS := CS)
  obtain ⟨hsk, hpk⟩ := hs.key wf
  have key : ∀ x ∈ w.sessions, ((x.state : VoprfClient CS).blind ≠ 0 ∧
      (x.state : VoprfClient CS).blindedElement ≠ 0) ∧ (x.msg : BlindedElement CS).value ≠ 0 := by
    intro x hx
    obtain ⟨g₃, g₄, hb⟩ := hI.sessions x hx
    simp only [voprf, Res.bind_eq_ok, Res.pure_eq, Res.ok.injEq, Prod.mk.injEq] at hb
    obtain ⟨⟨b, g₅⟩, hb, ⟨e1, e2⟩, -⟩ := hb
    obtain ⟨k, P, -, hk, hP, rfl⟩ := VoprfClient.blindInput_ok wf hb
    rw [← e1, ← e2]
    have : k • P ≠ 0 := by
      refine smul_ne_zero hk ?_
      rintro rfl
      exact h0 x hx hP
    exact ⟨⟨hk, this⟩, this⟩
  refine ⟨?_, ?_, ?_, ?_, ?_⟩
  · rw [hI.server]
    refine (r.voprfServer s).1 ⟨hsk, ?_⟩
    rw [hpk, ne_eq, smul_base_eq_zero]; exact hsk
  · exact fun x hx => (r.voprfClient x.state).1 (key x hx).1
  · exact fun x hx => (r.blindedElement x.msg).1 (key x hx).2
  · intro id info m hm
    obtain ⟨x, g₃, g₄, hx, ha⟩ := hI.one id info m hm
    have ha := voprf_answer wf s ha
    have hp := h1 id info m hm
    have e1 : EvaluationElement.deserialize CS m.message.serialize = .ok m.message := by
      refine (r.evaluationElement m.message).1 ?_
      rw [ha]
      exact smul_ne_zero hsk (key x (List.mem_of_getElem? hx)).2
    have e2 : Proof.deserialize CS m.proof.serialize = .ok m.proof := (r.proof m.proof).1 hp
    simp only [voprf]
    rw [e1, Res.ok_bind, e2]
    rfl
  · intro ids info m hm
    obtain ⟨xs, g₃, g₄, hx, ha⟩ := hI.batch ids info m hm
    have ha := voprf_answers s ha
    have hp := h2 ids info m hm
    have e1 : reloadMessages CS m.messages = .ok m.messages := by
      apply reloadMessages_ok
      rw [ha]
      intro y hy
      simp only [List.map_map, List.mem_map, Function.comp_apply] at hy
      obtain ⟨x, hx', rfl⟩ := hy
      exact smul_ne_zero hsk (key x (lookup_mem hx x hx')).2
    have e2 : Proof.deserialize CS m.proof.serialize = .ok m.proof := (r.proof m.proof).1 hp
    simp only [voprf]
    rw [e1, Res.ok_bind, e2]
    rfl

/-- C44 (liveness), partially oblivious mode. -/
theorem C44_poprf_reloads (wf : CS.WF) (s : PoprfServer CS) (hs : s.Made) (g : σ) (pk : CS.Elem)
    (es : List (Event (poprf σ CS pk))) (w : World (poprf σ CS pk))
    (h : run (init _ s g) (withoutReloads es) = some w)
    (h0 : ∀ x ∈ w.sessions, Spec.hashToGroup CS .Poprf x.input ≠ .ok 0)
    (h1 : ∀ i info (r : PoprfServerEvaluateResult CS), .one i info r ∈ w.responses →
      r.proof.cScalar ≠ 0 ∧ r.proof.sScalar ≠ 0)
    (h2 : ∀ i info (r : PoprfServerBatchEvaluateResult CS), .batch i info r ∈ w.responses →
      r.proof.cScalar ≠ 0 ∧ r.proof.sScalar ≠ 0) :
    run (init _ s g) es = some w := by
  refine run_reloads (poprf_faithful pk) h ?_
  have hI := inv_run (poprf_faithful pk) (inv_init s g) h
  have r := C17_roundtrip (CS := CS)
  obtain ⟨hsk, hpk⟩ := hs.key wf
  have key : ∀ x ∈ w.sessions, ((x.state : PoprfClient CS).blind ≠ 0 ∧
      (x.state : PoprfClient CS).blindedElement ≠ 0) ∧ (x.msg : BlindedElement CS).value ≠ 0 := by
    intro x hx
    obtain ⟨g₃, g₄, hb⟩ := hI.sessions x hx
    simp only [poprf, Res.bind_eq_ok, Res.pure_eq, Res.ok.injEq, Prod.mk.injEq] at hb
    obtain ⟨⟨b, g₅⟩, hb, ⟨e1, e2⟩, -⟩ := hb
    obtain ⟨k, P, -, hk, hP, rfl⟩ := PoprfClient.blindInput_ok wf hb
    rw [← e1, ← e2]
    have : k • P ≠ 0 := by
      refine smul_ne_zero hk ?_
      rintro rfl
      exact h0 x hx hP
    exact ⟨⟨hk, this⟩, this⟩
  refine ⟨?_, ?_, ?_, ?_, ?_⟩
  · rw [hI.server]
    refine (r.poprfServer s).1 ⟨hsk, ?_⟩
    rw [hpk, ne_eq, smul_base_eq_zero]; exact hsk
  · exact fun x hx => (r.poprfClient x.state).1 (key x hx).1
  · exact fun x hx => (r.blindedElement x.msg).1 (key x hx).2
  · intro id info m hm
    obtain ⟨x, g₃, g₄, hx, ha⟩ := hI.one id info m hm
    obtain ⟨t, -, ht0, ha⟩ := poprf_answer wf s ha
    have hp := h1 id info m hm
    have e1 : EvaluationElement.deserialize CS m.message.serialize = .ok m.message := by
      refine (r.evaluationElement m.message).1 ?_
      rw [ha]
      exact smul_ne_zero (inv_ne_zero ht0) (key x (List.mem_of_getElem? hx)).2
    have e2 : Proof.deserialize CS m.proof.serialize = .ok m.proof := (r.proof m.proof).1 hp
    simp only [poprf]
    rw [e1, Res.ok_bind, e2]
    rfl
  · intro ids info m hm
    obtain ⟨xs, g₃, g₄, hx, ha⟩ := hI.batch ids info m hm
    obtain ⟨t, -, ht0, ha⟩ := poprf_answers wf s ha
    have hp := h2 ids info m hm
    have e1 : reloadMessages CS m.messages = .ok m.messages := by
      apply reloadMessages_ok
      rw [ha]
      intro y hy
      simp only [List.map_map, List.mem_map, Function.comp_apply] at hy
      obtain ⟨x, hx', rfl⟩ := hy
      exact smul_ne_zero (inv_ne_zero ht0) (key x (lookup_mem hx x hx')).2
    have e2 : Proof.deserialize CS m.proof.serialize = .ok m.proof := (r.proof m.proof).1 hp
    simp only [poprf]
    rw [e1, Res.ok_bind, e2]
    rfl

/-! ## A concrete history -/

section examples
open Toy

/-- Three clients; requests answered out of order, twice, in a batch with a repeated request, a stranger
in between; the server restarted, a client state and an answer reloaded. -/
def exampleHistory : List (Event (voprf Rng suite (7 : F))) :=
  [.blind [1, 2, 3] ⟨5⟩, .blind [4] ⟨6⟩, .reloadServer, .answerOne 1 (), .blind [4] ⟨100⟩,
   .strangerOne ⟨(9 : F)⟩ (), .answerBatch [2, 0, 2] (), .reloadState 0, .reloadResp 1, .finalize 1,
   .answerOne 1 (), .reloadMsg 1, .finalize 2, .finalize 0, .finalize 1]

/-- What is left of a run to look at: how many sessions, answers and outcomes. -/
def tally (w : World (voprf Rng suite (7 : F))) : Nat × Nat × Nat :=
  (w.sessions.length, w.responses.length, w.outcomes.length)

/-- The history runs to its end: three sessions, three answers, four outcomes; its hypotheses (a server
made by the API, all reloads successful) are those of C44 and C45. -/
example : (∃ s : VoprfServer suite, s.Made ∧ s.getPublicKey = (7 : F) ∧ s = ⟨7, 7⟩) ∧
    (run (init (voprf Rng suite (7 : F)) ⟨7, 7⟩ ⟨9⟩) exampleHistory).map tally = some (3, 3, 4) := by
  constructor
  · exact ⟨⟨7, 7⟩, .newWithKey [7] _ (by rfl), rfl, rfl⟩
  · decide +kernel

end examples

end Voprf
