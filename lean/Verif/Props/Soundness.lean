import Verif.Props.Batch
import Verif.Spec.Dleq
import Mathlib.Algebra.Module.LinearMap.Basic
import Mathlib.GroupTheory.Index
import Mathlib.Tactic.Ring
import Mathlib.Tactic.FieldSimp
import Mathlib.Tactic.LinearCombination

/-!
# C09–C12, C35–C37: what a verified response guarantees
-/

namespace Voprf

open Spec

variable {CS : CipherSuite} [L : CS.group.Lawful]

/-! ## C09 -/

/-- `verify_proof` accepts exactly the `Accepted` proofs. -/
theorem verifyProof_iff (wf : CS.WF) (B : CS.Elem) (Cs Ds : List CS.Elem) (proof : Proof CS)
    (mode : Mode) (hl : Cs.length = Ds.length) (hn : Cs.length ≤ 65535) :
    (verifyProof CS CS.group.baseElem B Cs Ds proof mode = .ok () ↔
      Accepted CS mode B Cs Ds proof.cScalar proof.sScalar) ∧
    (¬ Accepted CS mode B Cs Ds proof.cScalar proof.sScalar →
      verifyProof CS CS.group.baseElem B Cs Ds proof mode = .err .ProofVerification) := by
  obtain ⟨ws, hws, -⟩ := weights_ok wf mode B Cs Ds
  obtain ⟨c, hc⟩ := challenge_ok wf mode B (lincomb ws Cs) (lincomb ws Ds)
            (proof.sScalar • CS.group.baseElem + proof.cScalar • B)
            (proof.sScalar • lincomb ws Cs + proof.cScalar • lincomb ws Ds)
  have hacc : Accepted CS mode B Cs Ds proof.cScalar proof.sScalar ↔ c = proof.cScalar := by
    unfold Accepted AcceptedFor
    constructor
    · rintro ⟨ws', h1, h2⟩
      rw [hws] at h1
      cases Except.ok.inj h1
      rw [hc] at h2
      exact Except.ok.inj h2
    · intro h
      exact ⟨ws, hws, by rw [hc, h]⟩
  rw [verifyProof_eq wf, if_neg (by simp [hl]; omega), hacc]
  simp only [hws, hc]
  by_cases h : c = proof.cScalar
  · rw [if_pos ((VGroup.Lawful.scalarCtEq_iff _ _).mpr h)]
    simp [h]
  · rw [if_neg (fun h' => h ((VGroup.Lawful.scalarCtEq_iff _ _).mp h'))]
    simp [h]

/-- C09, VOPRF batch: for well-formed list lengths, outputs are released if and only if the proof's
challenge is the recomputed one; otherwise the whole call is `Error::ProofVerification`. -/
theorem C09_voprf_batch (wf : CS.WF) (inputs : List Bytes) (clients : List (VoprfClient CS))
    (messages : List (EvaluationElement CS)) (proof : Proof CS) (pk : CS.Elem)
    (hl : clients.length = messages.length) (hn : clients.length ≤ 65535) :
    ((∃ outs, VoprfClient.batchFinalize inputs clients messages proof pk = .ok outs) ↔
      Accepted CS .Voprf pk (clients.map (·.blindedElement)) (messages.map (·.value))
        proof.cScalar proof.sScalar) ∧
    (¬ Accepted CS .Voprf pk (clients.map (·.blindedElement)) (messages.map (·.value))
        proof.cScalar proof.sScalar →
      VoprfClient.batchFinalize inputs clients messages proof pk = .err .ProofVerification) := by
  obtain ⟨outs, ho⟩ := VoprfClient.batchFinalize_verify inputs clients messages proof pk
  obtain ⟨h1, h2⟩ := verifyProof_iff wf pk (clients.map (·.blindedElement)) (messages.map (·.value))
    proof .Voprf (by simpa using hl) (by simpa using hn)
  rw [ho, ← h1]
  constructor
  · constructor
    · rintro ⟨o, h⟩
      rw [Res.bind_eq_ok] at h
      obtain ⟨_, h, -⟩ := h
      exact h
    · intro h; exact ⟨outs, by rw [h]; rfl⟩
  · intro h; rw [h2 (fun ha => h (h1.mpr ha))]; rfl

/-- C09, VOPRF single call: an output is released only under an accepted proof, and without one the result
is `Error::ProofVerification`. -/
theorem C09_voprf_single (wf : CS.WF) (input : Bytes) (c : VoprfClient CS)
    (e : EvaluationElement CS) (proof : Proof CS) (pk : CS.Elem) :
    (∀ out, c.finalize input e proof pk = .ok out →
      Accepted CS .Voprf pk [c.blindedElement] [e.value] proof.cScalar proof.sScalar) ∧
    (¬ Accepted CS .Voprf pk [c.blindedElement] [e.value] proof.cScalar proof.sScalar →
      c.finalize input e proof pk = .err .ProofVerification) := by
  obtain ⟨h1, h2⟩ := C09_voprf_batch wf [input] [c] [e] proof pk rfl (by simp)
  constructor
  · intro out h
    unfold VoprfClient.finalize at h
    rw [Res.bind_eq_ok] at h
    obtain ⟨o, h, -⟩ := h
    exact h1.mp ⟨o, h⟩
  · intro h
    unfold VoprfClient.finalize
    rw [h2 h]; rfl

/-- C09, POPRF batch: the same under the tweaked key `HashToScalar("Info"⟨info⟩)·G + pk`; the roles of the
two lists are exchanged. -/
theorem C09_poprf_batch (wf : CS.WF) (inputs : List Bytes) (clients : List (PoprfClient CS))
    (hc : ∀ c ∈ clients, c.blind ≠ 0)
    (messages : List (EvaluationElement CS)) (proof : Proof CS) (pk : CS.Elem)
    (info : Option Bytes) (m : CS.Scalar) (hil : (info.getD []).length ≤ 65535)
    (hm : Spec.hashToScalar CS .Poprf (infoInput (info.getD [])) = .ok m)
    (htk : m • CS.group.baseElem + pk ≠ 0)
    (hl : clients.length = messages.length) (hn : clients.length ≤ 65535)
    (hi : inputs.length = clients.length) :
    ((∃ outs, PoprfClient.batchFinalize inputs clients messages proof pk info = .ok outs) ↔
      Accepted CS .Poprf (m • CS.group.baseElem + pk) (messages.map (·.value))
        (clients.map (·.blindedElement)) proof.cScalar proof.sScalar) ∧
    (¬ Accepted CS .Poprf (m • CS.group.baseElem + pk) (messages.map (·.value))
        (clients.map (·.blindedElement)) proof.cScalar proof.sScalar →
      PoprfClient.batchFinalize inputs clients messages proof pk info
        = .err .ProofVerification) := by
  obtain ⟨h1, h2⟩ := verifyProof_iff wf (m • CS.group.baseElem + pk) (messages.map (·.value))
    (clients.map (·.blindedElement)) proof .Poprf (by simpa using hl.symm) (by simp; omega)
  rw [PoprfClient.batchFinalize_eq wf _ _ hc, computeTweakedKey_eq wf, if_pos hil, hm]
  simp only
  rw [if_neg (by rw [isIdentityElem_iff]; exact htk), if_pos hi, ← h1]
  simp only [Res.ok_bind]
  constructor
  · constructor
    · rintro ⟨o, h⟩
      rw [Res.bind_eq_ok] at h
      obtain ⟨_, h, -⟩ := h
      exact h
    · intro h; exact ⟨_, by rw [h]; rfl⟩
  · intro h; rw [h2 (fun ha => h (h1.mpr ha))]; rfl

/-- C13, POPRF client, every error: given an acceptable info, `batch_finalize` returns `Error::Batch` exactly when the numbers
of clients and messages differ or exceed 65535, or the proof is accepted and the number of inputs differs; it returns
`Error::ProofVerification` exactly when the numbers fit and the proof is not accepted; and it returns no other error. -/
theorem C13_poprf_finalize_errors (wf : CS.WF) (inputs : List Bytes) (clients : List (PoprfClient CS))
    (hc : ∀ c ∈ clients, c.blind ≠ 0)
    (messages : List (EvaluationElement CS)) (proof : Proof CS) (pk : CS.Elem)
    (info : Option Bytes) (m : CS.Scalar) (hil : (info.getD []).length ≤ 65535)
    (hm : Spec.hashToScalar CS .Poprf (infoInput (info.getD [])) = .ok m)
    (htk : m • CS.group.baseElem + pk ≠ 0) (e : Error) :
    PoprfClient.batchFinalize inputs clients messages proof pk info = .err e ↔
      (e = .Batch ∧ (clients.length ≠ messages.length ∨ 65535 < clients.length ∨
        (inputs.length ≠ clients.length ∧
          Accepted CS .Poprf (m • CS.group.baseElem + pk) (messages.map (·.value))
            (clients.map (·.blindedElement)) proof.cScalar proof.sScalar))) ∨
      (e = .ProofVerification ∧ clients.length = messages.length ∧ clients.length ≤ 65535 ∧
        ¬ Accepted CS .Poprf (m • CS.group.baseElem + pk) (messages.map (·.value))
            (clients.map (·.blindedElement)) proof.cScalar proof.sScalar) := by
  rw [PoprfClient.batchFinalize_eq wf _ _ hc, computeTweakedKey_eq wf, if_pos hil, hm]
  simp only
  rw [if_neg (by rw [isIdentityElem_iff]; exact htk)]
  simp only [Res.ok_bind]
  by_cases hf : clients.length = messages.length ∧ clients.length ≤ 65535
  · obtain ⟨h1, h2⟩ := verifyProof_iff wf (m • CS.group.baseElem + pk) (messages.map (·.value))
      (clients.map (·.blindedElement)) proof .Poprf (by simpa using hf.1.symm) (by simp; omega)
    by_cases ha : Accepted CS .Poprf (m • CS.group.baseElem + pk) (messages.map (·.value))
        (clients.map (·.blindedElement)) proof.cScalar proof.sScalar
    · rw [h1.2 ha]
      by_cases hi : inputs.length = clients.length
      · simp [hi, hf.1, ha]; omega
      · simp [hi, ha, eq_comm]
    · rw [h2 ha]
      have : ¬ 65535 < clients.length := by omega
      have h3 : clients.length ≤ 65535 := hf.2
      rw [hf.1] at this h3
      simp [hf.1, ha, eq_comm, h3, this]
  · rcases verifyProof_cases wf CS.group.baseElem (m • CS.group.baseElem + pk) (messages.map (·.value))
      (clients.map (·.blindedElement)) proof .Poprf with ⟨h, h'⟩ | ⟨h1, h2, -⟩
    · rw [h']
      have hf' : clients.length ≠ messages.length ∨ 65535 < clients.length := by omega
      have hx : ¬ (clients.length = messages.length ∧ clients.length ≤ 65535 ∧
          ¬ Accepted CS .Poprf (m • CS.group.baseElem + pk) (messages.map (·.value))
            (clients.map (·.blindedElement)) proof.cScalar proof.sScalar) := fun h => hf ⟨h.1, h.2.1⟩
      constructor
      · intro he
        cases he
        exact .inl ⟨rfl, hf'.elim .inl fun h => .inr (.inl h)⟩
      · rintro (⟨rfl, -⟩ | ⟨-, hh⟩)
        · rfl
        · exact absurd hh hx
    · simp only [List.length_map] at h1 h2
      exact absurd ⟨h1.symm, by omega⟩ hf

/-- C09, POPRF single call: whatever the client state, an output is released only if the tweaked key could be
computed and the proof is accepted under it. -/
theorem C09_poprf_single (wf : CS.WF) (input : Bytes) (c : PoprfClient CS)
    (e : EvaluationElement CS) (proof : Proof CS) (pk : CS.Elem) (info : Option Bytes) :
    (∀ out, c.finalize input e proof pk info = .ok out →
      ∃ m, Spec.hashToScalar CS .Poprf (infoInput (info.getD [])) = .ok m ∧
        (info.getD []).length ≤ 65535 ∧ m • CS.group.baseElem + pk ≠ 0 ∧
        Accepted CS .Poprf (m • CS.group.baseElem + pk) [e.value] [c.blindedElement]
          proof.cScalar proof.sScalar) ∧
    (∀ m, Spec.hashToScalar CS .Poprf (infoInput (info.getD [])) = .ok m →
      (info.getD []).length ≤ 65535 → m • CS.group.baseElem + pk ≠ 0 →
      ¬ Accepted CS .Poprf (m • CS.group.baseElem + pk) [e.value] [c.blindedElement]
          proof.cScalar proof.sScalar →
      c.finalize input e proof pk info = .err .ProofVerification) := by
  constructor
  · intro out h
    unfold PoprfClient.finalize PoprfClient.batchFinalize Poprf.poprfUnblind at h
    simp only [computeTweakedKey_some_getD, bind_assoc] at h
    rw [Res.bind_eq_ok] at h
    obtain ⟨tk, htk, h⟩ := h
    rw [Res.bind_eq_ok] at h
    obtain ⟨_, hv, -⟩ := h
    rw [computeTweakedKey_eq wf] at htk
    split at htk
    · next hil =>
      cases hm : Spec.hashToScalar CS .Poprf (infoInput (info.getD [])) with
      | error _ => simp [hm] at htk
      | ok m =>
        simp only [hm] at htk
        split at htk
        · simp at htk
        · next hid =>
          simp only [Res.ok.injEq] at htk
          subst htk
          refine ⟨m, rfl, hil, fun h0 => hid ((isIdentityElem_iff _).mpr h0), ?_⟩
          exact (verifyProof_iff wf _ [e.value] [c.blindedElement] proof .Poprf rfl (by simp)).1.mp hv
    · simp at htk
  · intro m hm hil htk hacc
    unfold PoprfClient.finalize PoprfClient.batchFinalize Poprf.poprfUnblind
    simp only [computeTweakedKey_some_getD, bind_assoc]
    rw [computeTweakedKey_eq wf, if_pos hil, hm]
    simp only
    rw [if_neg (by rw [isIdentityElem_iff]; exact htk)]
    simp only [Res.ok_bind]
    have := (verifyProof_iff wf _ [e.value] [c.blindedElement] proof .Poprf rfl (by simp)).2 hacc
    simp only [List.map_cons, List.map_nil]
    rw [this]; rfl

section examples
open Toy

/-- An accepted and a rejected single finalization on the toy suite. -/
example : ∃ (c : VoprfClient suite) (e e' : EvaluationElement suite) (p : Proof suite)
    (pk : suite.Elem) (out : Bytes), c.finalize [1, 2, 3] e p pk = .ok out ∧
    c.finalize [1, 2, 3] e' p pk = .err .ProofVerification := by
  have hs : VoprfServer.newWithKey suite [7] = .ok ⟨7, 7⟩ := by rfl
  have h : ∀ x : Res (VoprfClientBlindResult suite × Rng), x =
      VoprfClient.blindInput suite [1, 2, 3] (⟨5⟩ : Rng) →
      ((do let (b, _) ← x
           let (r, _) ← (⟨7, 7⟩ : VoprfServer suite).blindEvaluate (⟨9⟩ : Rng) b.message
           b.state.finalize [1, 2, 3] ⟨suite.group.elemAdd r.message.value 3⟩ r.proof 7).err?
          = some .ProofVerification) := by
    rintro x rfl; decide +kernel
  obtain ⟨⟨b, g0⟩, hb⟩ := Res.exists_of_isOk
    (x := VoprfClient.blindInput suite [1, 2, 3] (⟨5⟩ : Rng)) (by decide +kernel)
  obtain ⟨o, ho⟩ := Res.exists_of_isOk
    (x := (⟨7, 7⟩ : VoprfServer suite).evaluate [1, 2, 3]) (by decide +kernel)
  obtain ⟨r, g, hr⟩ := C02_voprf_answers wf (⟨7, 7⟩ : VoprfServer suite) b.message (⟨9⟩ : Rng) rfl
  have h := h _ rfl
  rw [hb] at h
  simp only [Res.ok_bind, hr, Res.err?_eq] at h
  exact ⟨b.state, r.message, _, r.proof, _, o,
    (C02_voprf_correct wf _ (.newWithKey _ _ hs) _ b ⟨_, _, _, _, hb⟩ _ _ _ hr).2 o ho, h⟩

end examples

/-! ## C10 -/

/-- C10, special soundness: if the statement is false, at most one challenge is answerable for any
commitments. -/
theorem C10_unique_challenge (B M Z T2 T3 : CS.Elem) (h : ¬ SameKey CS B M Z) (c c' : CS.Scalar)
    (hc : Answerable CS B M Z T2 T3 c) (hc' : Answerable CS B M Z T2 T3 c') : c = c' := by
  obtain ⟨s, h2, h3⟩ := hc
  obtain ⟨s', h2', h3'⟩ := hc'
  by_contra hne
  apply h
  have hd : c' - c ≠ 0 := sub_ne_zero.mpr (Ne.symm hne)
  have e2 : (s - s') • CS.group.baseElem = (c' - c) • B := by
    have := h2.symm.trans h2'
    rw [sub_smul, sub_smul, sub_eq_sub_iff_add_eq_add, this, add_comm]
  have e3 : (s - s') • M = (c' - c) • Z := by
    have := h3.symm.trans h3'
    rw [sub_smul, sub_smul, sub_eq_sub_iff_add_eq_add, this, add_comm]
  refine ⟨(c' - c)⁻¹ * (s - s'), ?_, ?_⟩
  · rw [mul_smul, e2, inv_smul_smul₀ hd]
  · rw [mul_smul, e3, inv_smul_smul₀ hd]

/-- C10, extraction: two accepted answers to different challenges for the same commitments prove the
statement. -/
theorem C10_extraction (B M Z T2 T3 : CS.Elem) (c c' : CS.Scalar) (hne : c ≠ c')
    (hc : Answerable CS B M Z T2 T3 c) (hc' : Answerable CS B M Z T2 T3 c') : SameKey CS B M Z := by
  by_contra h
  exact hne (C10_unique_challenge B M Z T2 T3 h c c' hc hc')

/-- C10: an accepted proof of a false statement means that the hash of the transcript hit the single
answerable challenge. -/
theorem C10_false_statement_lucky (mode : Mode) (B M Z : CS.Elem) (c s : CS.Scalar)
    (h : ¬ SameKey CS B M Z) (ha : AcceptedFor CS mode B M Z c s) : LuckyHash CS mode B M Z c s :=
  ⟨ha, fun c' hc' => C10_unique_challenge B M Z _ _ h c' c hc' ⟨s, rfl, rfl⟩⟩

theorem sameKey_smul (B C D : CS.Elem) (w : CS.Scalar) (hw : w ≠ 0) :
    SameKey CS B (w • C) (w • D) ↔ SameKey CS B C D := by
  constructor
  · rintro ⟨k, hB, hD⟩
    refine ⟨k, hB, ?_⟩
    rw [smul_comm] at hD
    have := congrArg (fun X => w⁻¹ • X) hD
    simpa [inv_smul_smul₀ hw] using this
  · rintro ⟨k, hB, hD⟩
    exact ⟨k, hB, by rw [hD, smul_comm]⟩

theorem accepted_single (wf : CS.WF) (mode : Mode) (B C D : CS.Elem) (c s : CS.Scalar)
    (h : Accepted CS mode B [C] [D] c s) :
    ∃ w, weight CS mode B 0 C D = .ok w ∧ AcceptedFor CS mode B (w • C) (w • D) c s := by
  obtain ⟨ws, hws, ha⟩ := h
  obtain ⟨w, hw⟩ := weight_ok wf mode B 0 C D
  simp only [weights, List.zip_cons_cons, List.zip_nil_right, weightsFrom, hw, bind, Except.bind,
    pure, Except.pure, Except.ok.injEq] at hws
  subst hws
  exact ⟨w, hw, by simpa [lincomb] using ha⟩

/-- C10 at the API: if `VoprfClient::finalize` returns an output although the message is not the
key-multiple of the blinded element, then a hash coincidence happened: either the composite weight
hashed to zero or the challenge hash hit its single answerable value. -/
theorem C10_voprf_finalize_sound (wf : CS.WF) (client : VoprfClient CS) (input : Bytes)
    (e : EvaluationElement CS) (proof : Proof CS) (pk : CS.Elem) (out : Bytes)
    (h : client.finalize input e proof pk = .ok out)
    (hbad : ¬ SameKey CS pk client.blindedElement e.value) :
    weight CS .Voprf pk 0 client.blindedElement e.value = .ok 0 ∨
    ∃ w, weight CS .Voprf pk 0 client.blindedElement e.value = .ok w ∧
      LuckyHash CS .Voprf pk (w • client.blindedElement) (w • e.value) proof.cScalar proof.sScalar := by
  have ha := (C09_voprf_single wf input client e proof pk).1 out h
  obtain ⟨w, hw, ha⟩ := accepted_single wf _ _ _ _ _ _ ha
  by_cases h0 : w = 0
  · exact Or.inl (h0 ▸ hw)
  · refine Or.inr ⟨w, hw, C10_false_statement_lucky _ _ _ _ _ _ ?_ ha⟩
    rw [sameKey_smul _ _ _ _ h0]; exact hbad

/-- C10 at the API, POPRF: the statement is about the tweaked public key, and reads "the blinded element
is the tweaked-key multiple of the message". -/
theorem C10_poprf_finalize_sound (wf : CS.WF) (client : PoprfClient CS) (input : Bytes)
    (e : EvaluationElement CS) (proof : Proof CS) (pk : CS.Elem) (info : Option Bytes)
    (m : CS.Scalar) (hm : Spec.hashToScalar CS .Poprf (infoInput (info.getD [])) = .ok m)
    (out : Bytes) (h : client.finalize input e proof pk info = .ok out)
    (hbad : ¬ SameKey CS (m • CS.group.baseElem + pk) e.value client.blindedElement) :
    weight CS .Poprf (m • CS.group.baseElem + pk) 0 e.value client.blindedElement = .ok 0 ∨
    ∃ w, weight CS .Poprf (m • CS.group.baseElem + pk) 0 e.value client.blindedElement = .ok w ∧
      LuckyHash CS .Poprf (m • CS.group.baseElem + pk) (w • e.value)
        (w • client.blindedElement) proof.cScalar proof.sScalar := by
  obtain ⟨m', hm', -, -, ha⟩ := (C09_poprf_single wf input client e proof pk info).1 out h
  rw [hm] at hm'
  cases Except.ok.inj hm'
  obtain ⟨w, hw, ha⟩ := accepted_single wf _ _ _ _ _ _ ha
  by_cases h0 : w = 0
  · exact Or.inl (h0 ▸ hw)
  · refine Or.inr ⟨w, hw, C10_false_statement_lucky _ _ _ _ _ _ ?_ ha⟩
    rw [sameKey_smul _ _ _ _ h0]; exact hbad

/-- An accepted proof is about lists of equal length, at most 65535 long. -/
theorem verifyProof_ok (wf : CS.WF) (B : CS.Elem) (Cs Ds : List CS.Elem) (proof : Proof CS)
    (mode : Mode) (h : verifyProof CS CS.group.baseElem B Cs Ds proof mode = .ok ()) :
    Cs.length = Ds.length ∧ Cs.length ≤ 65535 ∧
      Accepted CS mode B Cs Ds proof.cScalar proof.sScalar := by
  have hne : ¬ (Cs.length ≠ Ds.length ∨ 65535 < Cs.length) := by
    intro hc
    rw [verifyProof_eq wf, if_pos hc] at h
    simp at h
  have hl : Cs.length = Ds.length := by by_contra hc; exact hne (.inl hc)
  have hn : Cs.length ≤ 65535 := by by_contra hc; exact hne (.inr (by omega))
  exact ⟨hl, hn, (verifyProof_iff wf B Cs Ds proof mode hl hn).1.mp h⟩

/-- C09, POPRF batch, whatever the client states: outputs are released only if the lengths fit, the tweaked
key could be computed and the proof is accepted under it. -/
theorem C09_poprf_batch_only (wf : CS.WF) (inputs : List Bytes) (clients : List (PoprfClient CS))
    (messages : List (EvaluationElement CS)) (proof : Proof CS) (pk : CS.Elem)
    (info : Option Bytes) (outs : List (Res Bytes))
    (h : PoprfClient.batchFinalize inputs clients messages proof pk info = .ok outs) :
    clients.length = messages.length ∧ clients.length ≤ 65535 ∧
    ∃ m, Spec.hashToScalar CS .Poprf (infoInput (info.getD [])) = .ok m ∧
      (info.getD []).length ≤ 65535 ∧ m • CS.group.baseElem + pk ≠ 0 ∧
      Accepted CS .Poprf (m • CS.group.baseElem + pk) (messages.map (·.value))
        (clients.map (·.blindedElement)) proof.cScalar proof.sScalar := by
  unfold PoprfClient.batchFinalize Poprf.poprfUnblind at h
  simp only [computeTweakedKey_some_getD, bind_assoc] at h
  rw [Res.bind_eq_ok] at h
  obtain ⟨tk, htk, h⟩ := h
  rw [Res.bind_eq_ok] at h
  obtain ⟨_, hv, -⟩ := h
  obtain ⟨hl, hn, hacc⟩ := verifyProof_ok wf _ _ _ proof .Poprf hv
  simp only [List.length_map] at hl hn
  refine ⟨hl.symm, by omega, ?_⟩
  rw [computeTweakedKey_eq wf] at htk
  split at htk
  · next hil =>
    cases hm : Spec.hashToScalar CS .Poprf (infoInput (info.getD [])) with
    | error _ => simp [hm] at htk
    | ok m =>
      simp only [hm] at htk
      split at htk
      · simp at htk
      · next hid =>
        simp only [Res.ok.injEq] at htk
        subst htk
        exact ⟨m, rfl, hil, fun h0 => hid ((isIdentityElem_iff _).mpr h0), hacc⟩
  · simp at htk

/-- C10 at the API, POPRF batch: outputs released for a batch whose composite statement under the tweaked
key is false mean a hash coincidence. -/
theorem C10_poprf_batch_sound (wf : CS.WF) (inputs : List Bytes) (clients : List (PoprfClient CS))
    (messages : List (EvaluationElement CS)) (proof : Proof CS) (pk : CS.Elem)
    (info : Option Bytes) (outs : List (Res Bytes))
    (h : PoprfClient.batchFinalize inputs clients messages proof pk info = .ok outs) :
    ∃ m ws, Spec.hashToScalar CS .Poprf (infoInput (info.getD [])) = .ok m ∧
      weights CS .Poprf (m • CS.group.baseElem + pk) (messages.map (·.value))
        (clients.map (·.blindedElement)) = .ok ws ∧
      (SameKey CS (m • CS.group.baseElem + pk) (lincomb ws (messages.map (·.value)))
        (lincomb ws (clients.map (·.blindedElement))) ∨
       LuckyHash CS .Poprf (m • CS.group.baseElem + pk) (lincomb ws (messages.map (·.value)))
        (lincomb ws (clients.map (·.blindedElement))) proof.cScalar proof.sScalar) := by
  obtain ⟨-, -, m, hm, -, -, ws, hws, ha⟩ := C09_poprf_batch_only wf inputs clients messages proof pk info outs h
  refine ⟨m, ws, hm, hws, ?_⟩
  by_cases hk : SameKey CS (m • CS.group.baseElem + pk) (lincomb ws (messages.map (·.value)))
        (lincomb ws (clients.map (·.blindedElement)))
  · exact Or.inl hk
  · exact Or.inr (C10_false_statement_lucky _ _ _ _ _ _ hk ha)

/-- C10 at the API, VOPRF batch: outputs released for a batch whose composite statement is false mean a
hash coincidence (C11 counts how rarely a bad batch has a true composite statement). -/
theorem C10_voprf_batch_sound (wf : CS.WF) (inputs : List Bytes) (clients : List (VoprfClient CS))
    (messages : List (EvaluationElement CS)) (proof : Proof CS) (pk : CS.Elem)
    (outs : List (Res Bytes))
    (h : VoprfClient.batchFinalize inputs clients messages proof pk = .ok outs) :
    ∃ ws, weights CS .Voprf pk (clients.map (·.blindedElement)) (messages.map (·.value)) = .ok ws ∧
      (SameKey CS pk (lincomb ws (clients.map (·.blindedElement)))
        (lincomb ws (messages.map (·.value))) ∨
       LuckyHash CS .Voprf pk (lincomb ws (clients.map (·.blindedElement)))
        (lincomb ws (messages.map (·.value))) proof.cScalar proof.sScalar) := by
  have hne : ¬ (clients.length ≠ messages.length ∨ 65535 < clients.length) := by
    rw [← (C13_voprf_finalize wf inputs clients messages proof pk).1, h]; simp
  have hl : clients.length = messages.length := by
    by_contra hc; exact hne (Or.inl hc)
  have hn : clients.length ≤ 65535 := by
    by_contra hc; exact hne (Or.inr (by omega))
  obtain ⟨ws, hws, ha⟩ := (C09_voprf_batch wf inputs clients messages proof pk hl hn).1.mp ⟨outs, h⟩
  refine ⟨ws, hws, ?_⟩
  by_cases hk : SameKey CS pk (lincomb ws (clients.map (·.blindedElement)))
        (lincomb ws (messages.map (·.value)))
  · exact Or.inl hk
  · exact Or.inr (C10_false_statement_lucky _ _ _ _ _ _ hk ha)

section examples
open Toy

/-- A false statement with an answerable challenge: `B = 1·G`, `M = 2`, `Z = 3`. -/
example : ¬ SameKey suite (1 : F) (2 : F) (3 : F) ∧
    Answerable suite (1 : F) (2 : F) (3 : F) (5 : F) (11 : F) (1 : F) := by
  constructor
  · have key : ∀ k : F, ¬ ((1 : F) = k * 1 ∧ (3 : F) = k * 2) := by
      rintro k ⟨h1, h2⟩
      rw [mul_one] at h1
      rw [← h1] at h2
      revert h2; decide
    rintro ⟨k, h⟩
    exact key k h
  · exact ⟨(4 : F), show (5 : F) = 4 * 1 + 1 * 1 by decide, show (11 : F) = 4 * 2 + 1 * 3 by decide⟩

end examples

end Voprf
