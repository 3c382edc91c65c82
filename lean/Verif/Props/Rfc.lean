import Verif.Props.Errors
import Verif.Spec.Rfc9497
import Mathlib.Tactic.Abel

/-!
# C40: the API computes the RFC 9497 functions

For every lawful ciphersuite whose hashes do not refuse (as RFC 9497 assumes), and all inputs and infos
within the 16-bit limits, each call returns exactly what the transcription of the RFC's pseudo-code in
`Spec/Rfc9497.lean` returns.  The deviations are theorems of their own.
-/

namespace Voprf

open Spec

section
variable (CS : CipherSuite) [L : CS.group.Lawful]

/-- The RFC's view of a ciphersuite: its functions as total mathematical functions. -/
def rfcSuite : Rfc9497.Suite CS.Scalar CS.Elem where
  identifier := CS.ID
  Hash := CS.hash.digest
  HashToGroupDST d x := match CS.group.hashToCurve CS.hash [x] [d] with
    | .ok P => P
    | .error _ => 0
  HashToScalarDST d x := match CS.group.hashToScalar CS.hash [x] [d] with
    | .ok k => k
    | .error _ => 0
  Generator := CS.group.baseElem
  SerializeElement := CS.group.serializeElem

end

/-- How the crate reports the RFC's failures. -/
def rfcError : Rfc9497.Failure → Error
  | .VerifyError => .ProofVerification
  | .InvalidInputError => .Input
  | .InverseError => .Protocol
  | .DeriveKeyPairError => .Protocol

/-- The RFC's result as a result of the crate. -/
def rfcRes {α : Type} : Except Rfc9497.Failure α → Res α
  | .ok a => .ok a
  | .error e => .err (rfcError e)

variable {CS : CipherSuite} [L : CS.group.Lawful]

theorem rfc_hashToGroup (th : CS.group.TotalHash) (mode : Mode) (x : Bytes) :
    Spec.hashToGroup CS mode x = .ok (Rfc9497.HashToGroup (rfcSuite CS) (modeByte mode) x) := by
  obtain ⟨P, hP⟩ := th.hashToCurve_ok CS.hash x (ascii "HashToGroup-" ++ contextString CS mode)
    (by simp [ascii_len_h2g]; omega)
  have h : Spec.hashToGroup CS mode x = .ok P := hP
  have h' : Rfc9497.HashToGroup (rfcSuite CS) (modeByte mode) x =
    (match Spec.hashToGroup CS mode x with | .ok P => P | .error _ => 0) := rfl
  rw [h', h]

theorem rfc_hashToScalar (th : CS.group.TotalHash) (mode : Mode) (x : Bytes) :
    Spec.hashToScalar CS mode x = .ok (Rfc9497.HashToScalar (rfcSuite CS) (modeByte mode) x) := by
  obtain ⟨P, hP⟩ := th.hashToScalar_ok CS.hash x (ascii "HashToScalar-" ++ contextString CS mode)
    (by simp [ascii_len_h2s]; omega)
  have h : Spec.hashToScalar CS mode x = .ok P := hP
  have h' : Rfc9497.HashToScalar (rfcSuite CS) (modeByte mode) x =
    (match Spec.hashToScalar CS mode x with | .ok P => P | .error _ => 0) := rfl
  rw [h', h]

theorem rfc_seed (mode : Mode) (B : CS.Elem) :
    Rfc9497.seed (rfcSuite CS) (modeByte mode) B = Spec.seed CS mode B := by
  simp only [Rfc9497.seed, Spec.seed, framed, List.append_assoc]
  rfl

theorem rfc_weight (th : CS.group.TotalHash) (mode : Mode) (B : CS.Elem) (i : Nat) (C D : CS.Elem) :
    weight CS mode B i C D =
      .ok (Rfc9497.di (rfcSuite CS) (modeByte mode) (Rfc9497.seed (rfcSuite CS) (modeByte mode) B)
        i C D) := by
  unfold weight
  rw [rfc_hashToScalar th, rfc_seed]
  simp only [Rfc9497.di, Spec.compositeInput, framed, List.append_assoc]
  rfl

theorem rfc_challenge (th : CS.group.TotalHash) (mode : Mode) (B M Z t2 t3 : CS.Elem) :
    challenge CS mode B M Z t2 t3 =
      .ok (Rfc9497.challenge (rfcSuite CS) (modeByte mode) B M Z t2 t3) := by
  unfold challenge
  rw [rfc_hashToScalar th]
  simp only [Rfc9497.challenge, Spec.challengeInput, framed, List.append_assoc]
  rfl

theorem rfc_loops (th : CS.group.TotalHash) (mode : Mode) (B : CS.Elem) : ∀ (Cs Ds : List CS.Elem)
    (i : Nat), Cs.length = Ds.length → ∃ ws, weightsFrom CS mode B i (Cs.zip Ds) = .ok ws ∧
      (∀ M Z, Rfc9497.compositesLoop (rfcSuite CS) (modeByte mode)
        (Rfc9497.seed (rfcSuite CS) (modeByte mode) B) i Cs Ds (M, Z) =
          (lincomb ws Cs + M, lincomb ws Ds + Z)) ∧
      (∀ M, Rfc9497.compositesFastLoop (rfcSuite CS) (modeByte mode)
        (Rfc9497.seed (rfcSuite CS) (modeByte mode) B) i Cs Ds M = lincomb ws Cs + M) := by
  intro Cs
  induction Cs with
  | nil =>
    intro Ds i h
    refine ⟨[], rfl, ?_, ?_⟩
    · intro M Z; cases Ds <;> simp [Rfc9497.compositesLoop, lincomb]
    · intro M; cases Ds <;> simp [Rfc9497.compositesFastLoop, lincomb]
  | cons C Cs ih =>
    intro Ds i h
    cases Ds with
    | nil => simp at h
    | cons D Ds =>
      obtain ⟨ws, hw, h1, h2⟩ := ih Ds (i + 1) (by simpa using h)
      refine ⟨_ :: ws, by
        simp only [List.zip_cons_cons, weightsFrom, rfc_weight th, hw]; rfl, ?_, ?_⟩
      · intro M Z
        simp only [Rfc9497.compositesLoop, h1, lincomb, List.zipWith_cons_cons, List.sum_cons]
        congr 1 <;> abel
      · intro M
        simp only [Rfc9497.compositesFastLoop, h2, lincomb, List.zipWith_cons_cons, List.sum_cons]
        abel

theorem rfc_generateProof (wf : CS.WF) (th : CS.group.TotalHash) {σ : Type} [RngCore σ] (rng rng' : σ)
    (r k : CS.Scalar) (hr : CS.group.randomScalar rng = some (r, rng')) (A B : CS.Elem)
    (Cs Ds : List CS.Elem) (mode : Mode) (hl : Cs.length = Ds.length) (hn : Cs.length ≤ 65535) :
    generateProof CS rng k A B Cs Ds mode =
      .ok (⟨(Rfc9497.GenerateProof (rfcSuite CS) (modeByte mode) r k A B Cs Ds).1,
        (Rfc9497.GenerateProof (rfcSuite CS) (modeByte mode) r k A B Cs Ds).2⟩, rng') := by
  obtain ⟨ws, hw, -, h2⟩ := rfc_loops th mode B Cs Ds 0 hl
  have hws : weights CS mode B Cs Ds = .ok ws := hw
  rw [generateProof_eq wf, if_neg (by simp [hl]; omega), hws]
  simp only [hr, rfc_challenge th, Rfc9497.GenerateProof, Rfc9497.ComputeCompositesFast, h2, add_zero]

theorem rfc_verifyProof (wf : CS.WF) (th : CS.group.TotalHash) [DecidableEq CS.Scalar] (A B : CS.Elem)
    (Cs Ds : List CS.Elem) (proof : Proof CS) (mode : Mode) (hl : Cs.length = Ds.length)
    (hn : Cs.length ≤ 65535) :
    verifyProof CS A B Cs Ds proof mode =
      if Rfc9497.VerifyProof (rfcSuite CS) (modeByte mode) A B Cs Ds (proof.cScalar, proof.sScalar)
        = false then .err .ProofVerification else .ok () := by
  obtain ⟨ws, hw, h1, -⟩ := rfc_loops th mode B Cs Ds 0 hl
  have hws : weights CS mode B Cs Ds = .ok ws := hw
  rw [verifyProof_eq wf, if_neg (by simp [hl]; omega), hws]
  simp only [rfc_challenge th, Rfc9497.VerifyProof, Rfc9497.ComputeComposites, h1, add_zero,
    VGroup.Lawful.scalarCtEq_iff, decide_eq_false_iff_not]
  split <;> simp_all

theorem rfc_output (input : Bytes) (blind : CS.Scalar) (e : CS.Elem) :
    Spec.output CS input (blind⁻¹ • e) = Rfc9497.Finalize (rfcSuite CS) input blind e := by
  simp only [Spec.output, Rfc9497.Finalize, finalizeInput, framed, List.append_assoc]
  rfl

/-! ## Theorems -/

/-- C40, `Blind` in all three modes, with `r` the scalar drawn from the generator: the same blind and
element as the RFC whenever the RFC does not fail. Where the RFC raises `InvalidInputError` (input hashing
to the identity) the crate returns the identity as message instead: **deviation**. -/
theorem C40_blind (wf : CS.WF) (th : CS.group.TotalHash) [DecidableEq CS.Elem] {σ : Type} [RngCore σ]
    (input : Bytes) (rng rng' : σ) (r : CS.Scalar) (hr : CS.group.randomScalar rng = some (r, rng')) :
    ((∀ k P, Rfc9497.Blind (rfcSuite CS) Rfc9497.modeOPRF r input = .ok (k, P) →
        OprfClient.blindInput CS input rng = .ok (⟨⟨k⟩, ⟨P⟩⟩, rng')) ∧
      (∀ f, Rfc9497.Blind (rfcSuite CS) Rfc9497.modeOPRF r input = .error f →
        f = .InvalidInputError ∧ OprfClient.blindInput CS input rng = .ok (⟨⟨r⟩, ⟨0⟩⟩, rng'))) ∧
    ((∀ k P, Rfc9497.Blind (rfcSuite CS) Rfc9497.modeVOPRF r input = .ok (k, P) →
        VoprfClient.blindInput CS input rng = .ok (⟨⟨k, P⟩, ⟨P⟩⟩, rng')) ∧
      (∀ f, Rfc9497.Blind (rfcSuite CS) Rfc9497.modeVOPRF r input = .error f →
        f = .InvalidInputError ∧ VoprfClient.blindInput CS input rng = .ok (⟨⟨r, 0⟩, ⟨0⟩⟩, rng'))) ∧
    ((∀ k P, Rfc9497.Blind (rfcSuite CS) Rfc9497.modePOPRF r input = .ok (k, P) →
        PoprfClient.blindInput CS input rng = .ok (⟨⟨k, P⟩, ⟨P⟩⟩, rng')) ∧
      (∀ f, Rfc9497.Blind (rfcSuite CS) Rfc9497.modePOPRF r input = .error f →
        f = .InvalidInputError ∧ PoprfClient.blindInput CS input rng = .ok (⟨⟨r, 0⟩, ⟨0⟩⟩, rng'))) := by
  have ho := rfc_hashToGroup th .Oprf input
  have hv := rfc_hashToGroup th .Voprf input
  have hp := rfc_hashToGroup th .Poprf input
  rw [show modeByte .Oprf = Rfc9497.modeOPRF from rfl] at ho
  rw [show modeByte .Voprf = Rfc9497.modeVOPRF from rfl] at hv
  rw [show modeByte .Poprf = Rfc9497.modePOPRF from rfl] at hp
  rw [OprfClient.blindInput_eq wf, VoprfClient.blindInput_eq wf, PoprfClient.blindInput_eq wf, hr]
  simp only [ho, hv, hp, Rfc9497.Blind]
  refine ⟨?_, ?_, ?_⟩ <;>
  · constructor
    · intro k P h
      split at h
      · simp at h
      · simp only [Except.ok.injEq, Prod.mk.injEq] at h
        obtain ⟨rfl, rfl⟩ := h
        rfl
    · intro f h
      split at h
      · next h0 =>
        simp only [Except.error.injEq] at h
        rw [h0, smul_zero]
        exact ⟨h.symm, rfl⟩
      · simp at h

/-- C40, base mode: `blind_evaluate`, `finalize` and `evaluate`. -/
theorem C40_oprf (wf : CS.WF) (th : CS.group.TotalHash) [DecidableEq CS.Elem] :
    (∀ (s : OprfServer CS) (b : BlindedElement CS),
      (s.blindEvaluate b).value = Rfc9497.BlindEvaluate s.sk b.value) ∧
    (∀ (c : OprfClient CS), c.Obtained → ∀ (input : Bytes) (e : EvaluationElement CS),
      input.length ≤ 65535 →
      c.finalize input e = .ok (Rfc9497.Finalize (rfcSuite CS) input c.blind e.value)) ∧
    (∀ (s : OprfServer CS) (input : Bytes), input.length ≤ 65535 →
      s.evaluate input = rfcRes (Rfc9497.Evaluate (rfcSuite CS) Rfc9497.modeOPRF s.sk input)) := by
  refine ⟨?_, ?_, ?_⟩
  · intro s b; rw [OprfServer.blindEvaluate_value]; rfl
  · intro c hc input e hl
    rw [OprfClient.finalize_eq c (hc.blind_ne_zero wf), if_pos hl, rfc_output]
  · intro s input hl
    rw [OprfServer.evaluate_eq wf, rfc_hashToGroup th]
    simp only [Rfc9497.Evaluate, isIdentityElem_iff, if_pos hl]
    rw [show modeByte .Oprf = Rfc9497.modeOPRF from rfl]
    split
    · rfl
    · simp only [rfcRes, Spec.output, finalizeInput, framed, List.append_assoc]
      rfl

/-- C40, verifiable mode: `BlindEvaluate`, `Finalize`, `Evaluate`. -/
theorem C40_voprf (wf : CS.WF) (th : CS.group.TotalHash) [DecidableEq CS.Elem] [DecidableEq CS.Scalar] :
    (∀ (s : VoprfServer CS) (b : BlindedElement CS) {σ : Type} [RngCore σ] (rng rng' : σ) (r : CS.Scalar),
      CS.group.randomScalar rng = some (r, rng') →
      ∃ D c z, Rfc9497.VerifiableBlindEvaluate (rfcSuite CS) r s.sk s.pk b.value = (D, (c, z)) ∧
        s.blindEvaluate rng b = .ok (⟨⟨D⟩, ⟨c, z⟩⟩, rng')) ∧
    (∀ (c : VoprfClient CS), c.Obtained → ∀ (input : Bytes) (e : EvaluationElement CS)
      (proof : Proof CS) (pk : CS.Elem), input.length ≤ 65535 →
      c.finalize input e proof pk = rfcRes (Rfc9497.VerifiableFinalize (rfcSuite CS) input c.blind
        e.value c.blindedElement pk (proof.cScalar, proof.sScalar))) ∧
    (∀ (s : VoprfServer CS) (input : Bytes), input.length ≤ 65535 →
      s.evaluate input = rfcRes (Rfc9497.Evaluate (rfcSuite CS) Rfc9497.modeVOPRF s.sk input)) := by
  refine ⟨?_, ?_, ?_⟩
  · intro s b σ _ rng rng' r hr
    refine ⟨_, _, _, rfl, ?_⟩
    rw [VoprfServer.blindEvaluate_eq wf,
      rfc_generateProof wf th rng rng' r _ hr _ _ _ _ _ (by simp) (by simp)]
    rfl
  · intro c hc input e proof pk hl
    rw [VoprfClient.finalize_eq c (hc.blind_ne_zero wf),
      rfc_verifyProof wf th _ _ _ _ _ _ (by simp) (by simp), Rfc9497.VerifiableFinalize]
    rw [show modeByte .Voprf = Rfc9497.modeVOPRF from rfl,
      show (rfcSuite CS).Generator = CS.group.baseElem from rfl]
    split
    · rfl
    · simp only [Res.ok_bind, itemResult, if_pos hl, rfc_output]
      rfl
  · intro s input hl
    rw [VoprfServer.evaluate_eq wf, rfc_hashToGroup th]
    simp only [Rfc9497.Evaluate, isIdentityElem_iff, if_pos hl]
    rw [show modeByte .Voprf = Rfc9497.modeVOPRF from rfl]
    split
    · rfl
    · simp only [rfcRes, Spec.output, finalizeInput, framed, List.append_assoc]
      rfl

/-- C40, verifiable batches: `GenerateProof`/`VerifyProof` on lists of any length up to 65535. -/
theorem C40_voprf_batch (wf : CS.WF) (th : CS.group.TotalHash) [DecidableEq CS.Scalar] :
    (∀ (s : VoprfServer CS) (bs : List (BlindedElement CS)), bs.length ≤ 65535 →
      ∀ {σ : Type} [RngCore σ] (rng rng' : σ) (r : CS.Scalar), CS.group.randomScalar rng = some (r, rng') →
      ∃ c z, Rfc9497.GenerateProof (rfcSuite CS) Rfc9497.modeVOPRF r s.sk CS.group.baseElem s.pk
          (bs.map (·.value)) (bs.map fun b => Rfc9497.BlindEvaluate s.sk b.value) = (c, z) ∧
        s.batchBlindEvaluate rng bs =
          .ok (⟨bs.map fun b => ⟨Rfc9497.BlindEvaluate s.sk b.value⟩, ⟨c, z⟩⟩, rng')) ∧
    (∀ (inputs : List Bytes) (cs : List (VoprfClient CS)), (∀ c ∈ cs, c.Obtained) →
      ∀ (es : List (EvaluationElement CS)) (proof : Proof CS) (pk : CS.Elem),
      cs.length = es.length → cs.length ≤ 65535 → (∀ x ∈ inputs, x.length ≤ 65535) →
      VoprfClient.batchFinalize inputs cs es proof pk =
        if Rfc9497.VerifyProof (rfcSuite CS) Rfc9497.modeVOPRF CS.group.baseElem pk
          (cs.map (·.blindedElement)) (es.map (·.value)) (proof.cScalar, proof.sScalar) = true
        then .ok ((inputs.zip (cs.zip es)).map fun p =>
          .ok (Rfc9497.Finalize (rfcSuite CS) p.1 p.2.1.blind p.2.2.value))
        else .err .ProofVerification) := by
  refine ⟨?_, ?_⟩
  · intro s bs hn σ _ rng rng' r hr
    refine ⟨_, _, rfl, ?_⟩
    rw [VoprfServer.batch_eq, rfc_generateProof wf th rng rng' r _ hr _ _ _ _ _ (by simp) (by simpa)]
    rfl
  · intro inputs cs hc es proof pk hl hn hi
    rw [VoprfClient.batchFinalize_eq _ _ (fun c h => (hc c h).blind_ne_zero wf),
      rfc_verifyProof wf th _ _ _ _ _ _ (by simpa using hl) (by simpa using hn)]
    rw [show modeByte .Voprf = Rfc9497.modeVOPRF from rfl]
    cases Rfc9497.VerifyProof (rfcSuite CS) Rfc9497.modeVOPRF CS.group.baseElem pk
          (cs.map (·.blindedElement)) (es.map (·.value)) (proof.cScalar, proof.sScalar) with
    | false => rfl
    | true =>
      simp only [Bool.true_eq_false, if_false, if_true, Res.ok_bind, Res.ok.injEq]
      apply List.map_congr_left
      rintro ⟨x, c, e⟩ hm
      have := hi x (List.of_mem_zip hm).1
      simp only [itemResult, if_pos this, rfc_output]

theorem rfc_infoScalar (th : CS.group.TotalHash) (info : Bytes) :
    Spec.hashToScalar CS .Poprf (infoInput info) = .ok (Rfc9497.infoScalar (rfcSuite CS) info) := by
  rw [rfc_hashToScalar th]
  simp only [Rfc9497.infoScalar, infoInput, framed, List.append_assoc]
  rfl

/-- C40, partially oblivious mode with explicit info: `BlindEvaluate`, `Finalize` (the tweaked key the RFC
computes in `Blind` is computed in `finalize`, and reported as `Error::Protocol` if it is the identity),
`Evaluate`. -/
theorem C40_poprf (wf : CS.WF) (th : CS.group.TotalHash) [DecidableEq CS.Elem] [DecidableEq CS.Scalar]
    (info : Bytes) (hil : info.length ≤ 65535) :
    (∀ (s : PoprfServer CS) (b : BlindedElement CS) {σ : Type} [RngCore σ] (rng rng' : σ) (r : CS.Scalar),
      CS.group.randomScalar rng = some (r, rng') →
      s.blindEvaluate rng b (some info) = rfcRes (do
        let (D, (c, z)) ← Rfc9497.PartialBlindEvaluate (rfcSuite CS) r s.sk b.value info
        return (⟨⟨D⟩, ⟨c, z⟩⟩, rng'))) ∧
    (∀ (c : PoprfClient CS), c.Obtained → ∀ (input : Bytes) (e : EvaluationElement CS)
      (proof : Proof CS) (pk : CS.Elem), input.length ≤ 65535 →
      c.finalize input e proof pk (some info) =
        match Rfc9497.TweakedKey (rfcSuite CS) info pk with
        | .error _ => .err .Protocol
        | .ok tweakedKey => rfcRes (Rfc9497.PartialFinalize (rfcSuite CS) input c.blind e.value
            c.blindedElement (proof.cScalar, proof.sScalar) info tweakedKey)) ∧
    (∀ (s : PoprfServer CS) (input : Bytes), input.length ≤ 65535 →
      s.evaluate input (some info) =
        rfcRes (Rfc9497.PartialEvaluate (rfcSuite CS) s.sk input info)) := by
  have hi := rfc_infoScalar th info
  refine ⟨?_, ?_, ?_⟩
  · intro s b σ _ rng rng' r hr
    rw [PoprfServer.blindEvaluate_eq wf, computeTweak_eq wf]
    simp only [Option.getD_some, if_pos hil, hi, Rfc9497.PartialBlindEvaluate,
      VGroup.Lawful.isZeroScalar_iff]
    split
    · rfl
    · simp only [Res.ok_bind]
      rw [rfc_generateProof wf th rng rng' r _ hr _ _ _ _ _ (by simp) (by simp)]
      rfl
  · intro c hc input e proof pk hl
    rw [PoprfClient.finalize_eq wf c (hc.blind_ne_zero wf), computeTweakedKey_eq wf]
    simp only [Option.getD_some, if_pos hil, hi, Rfc9497.TweakedKey, isIdentityElem_iff]
    rw [show (rfcSuite CS).Generator = CS.group.baseElem from rfl]
    split
    · rfl
    · simp only [Res.ok_bind]
      rw [rfc_verifyProof wf th _ _ _ _ _ _ (by simp) (by simp), Rfc9497.PartialFinalize]
      rw [show modeByte .Poprf = Rfc9497.modePOPRF from rfl,
        show (rfcSuite CS).Generator = CS.group.baseElem from rfl]
      split
      · rfl
      · simp only [Res.ok_bind, itemResultInfo, if_pos hl, if_pos hil, rfcRes, Spec.outputInfo,
          finalizeInputInfo, framed, List.append_assoc]
        rfl
  · intro s input hl
    rw [PoprfServer.evaluate_eq wf, computeTweak_eq wf, rfc_hashToGroup th]
    simp only [Option.getD_some, if_pos hil, hi, Rfc9497.PartialEvaluate, isIdentityElem_iff,
      VGroup.Lawful.isZeroScalar_iff]
    rw [show modeByte .Poprf = Rfc9497.modePOPRF from rfl]
    split
    · rfl
    · split
      · rfl
      · simp only [Res.ok_bind, rfcRes, Spec.outputInfo, finalizeInputInfo, framed, List.append_assoc]
        rfl

/-- C40, partially oblivious batches of at most 65535 elements. -/
theorem C40_poprf_batch (wf : CS.WF) (th : CS.group.TotalHash) [DecidableEq CS.Elem]
    [DecidableEq CS.Scalar] (info : Bytes) (hil : info.length ≤ 65535) (s : PoprfServer CS)
    (bs : List (BlindedElement CS)) (hn : bs.length ≤ 65535) {σ : Type} [RngCore σ] (rng rng' : σ)
    (r : CS.Scalar) (hr : CS.group.randomScalar rng = some (r, rng'))
    (t : CS.Scalar) (ht : t = s.sk + Rfc9497.infoScalar (rfcSuite CS) info) :
    (t = 0 → s.batchBlindEvaluate rng bs (some info) = .err .Protocol) ∧
    (t ≠ 0 → ∃ c z, Rfc9497.GenerateProof (rfcSuite CS) Rfc9497.modePOPRF r t CS.group.baseElem
          (t • CS.group.baseElem) (bs.map fun b => t⁻¹ • b.value) (bs.map (·.value)) = (c, z) ∧
      s.batchBlindEvaluate rng bs (some info) =
        .ok (⟨bs.map fun b => ⟨t⁻¹ • b.value⟩, ⟨c, z⟩⟩, rng')) := by
  have hi := rfc_infoScalar th info
  rw [PoprfServer.batch_eq wf, computeTweak_eq wf]
  simp only [Option.getD_some, if_pos hil, hi, ← ht, VGroup.Lawful.isZeroScalar_iff]
  constructor
  · intro h0; rw [if_pos h0]; rfl
  · intro h0
    refine ⟨_, _, rfl, ?_⟩
    rw [if_neg h0]
    simp only [Res.ok_bind]
    rw [rfc_generateProof wf th rng rng' r _ hr _ _ _ _ _ (by simp) (by simpa)]
    rfl

/-- What `Finalize` of RFC 9497 §3.3.3 returns once the proof has been verified. -/
def rfcPartialOutput (CS : CipherSuite) [CS.group.Lawful] (input : Bytes) (blind : CS.Scalar) (e : CS.Elem)
    (info : Bytes) : Bytes :=
  let N := CS.group.serializeElem (blind⁻¹ • e)
  CS.hash.digest (Rfc9497.I2OSP2 input.length ++ input ++ Rfc9497.I2OSP2 info.length ++ info ++
    Rfc9497.I2OSP2 N.length ++ N ++ Rfc9497.str "Finalize")

theorem rfcPartialOutput_spec [DecidableEq CS.Scalar] (input : Bytes) (blind : CS.Scalar) (e b : CS.Elem)
    (proof : CS.Scalar × CS.Scalar) (info : Bytes) (tk : CS.Elem) :
    Rfc9497.PartialFinalize (rfcSuite CS) input blind e b proof info tk =
      if Rfc9497.VerifyProof (rfcSuite CS) Rfc9497.modePOPRF CS.group.baseElem tk [e] [b] proof = false
      then .error .VerifyError else .ok (rfcPartialOutput CS input blind e info) := rfl

/-- C40, partially oblivious batches, the client: the tweaked key of the RFC, one `VerifyProof` over the lists
(evaluated elements first), then the output of `Finalize` for every item. -/
theorem C40_poprf_batch_finalize (wf : CS.WF) (th : CS.group.TotalHash) [DecidableEq CS.Elem]
    [DecidableEq CS.Scalar] (info : Bytes) (hil : info.length ≤ 65535) (inputs : List Bytes)
    (cs : List (PoprfClient CS)) (hc : ∀ c ∈ cs, c.Obtained) (es : List (EvaluationElement CS))
    (proof : Proof CS) (pk : CS.Elem) (hx : inputs.length = cs.length) (hl : cs.length = es.length)
    (hn : cs.length ≤ 65535) (hi : ∀ x ∈ inputs, x.length ≤ 65535) :
    PoprfClient.batchFinalize inputs cs es proof pk (some info) =
      match Rfc9497.TweakedKey (rfcSuite CS) info pk with
      | .error _ => .err .Protocol
      | .ok tweakedKey =>
        if Rfc9497.VerifyProof (rfcSuite CS) Rfc9497.modePOPRF CS.group.baseElem tweakedKey
          (es.map (·.value)) (cs.map (·.blindedElement)) (proof.cScalar, proof.sScalar) = true
        then .ok (((cs.zip es).zip inputs).map fun p =>
          .ok (rfcPartialOutput CS p.2 p.1.1.blind p.1.2.value info))
        else .err .ProofVerification := by
  have hm := rfc_infoScalar th info
  rw [PoprfClient.batchFinalize_eq wf _ _ (fun c h => (hc c h).blind_ne_zero wf), computeTweakedKey_eq wf]
  simp only [Option.getD_some, if_pos hil, hm, Rfc9497.TweakedKey, isIdentityElem_iff]
  rw [show (rfcSuite CS).Generator = CS.group.baseElem from rfl]
  split
  · rfl
  · simp only [Res.ok_bind]
    rw [rfc_verifyProof wf th _ _ _ _ _ _ (by simpa using hl.symm) (by simpa [← hl] using hn)]
    rw [show modeByte .Poprf = Rfc9497.modePOPRF from rfl]
    cases Rfc9497.VerifyProof (rfcSuite CS) Rfc9497.modePOPRF CS.group.baseElem
        (Rfc9497.infoScalar (rfcSuite CS) info • CS.group.baseElem + pk)
        (es.map (·.value)) (cs.map (·.blindedElement)) (proof.cScalar, proof.sScalar) with
    | false => rfl
    | true =>
      simp only [Bool.true_eq_false, if_false, if_true, Res.ok_bind, Res.ok.injEq]
      apply List.map_congr_left
      rintro ⟨⟨c, e⟩, x⟩ hmem
      have := hi x (List.of_mem_zip hmem).2
      simp only [itemResultInfo, if_pos this, if_pos hil, rfcPartialOutput, Spec.outputInfo,
        finalizeInputInfo, framed, List.append_assoc]
      rfl

/-- C40, `DeriveKeyPair`: `new_from_seed` in all three modes, for every seed and every info of at most 65535
bytes. -/
theorem C40_derive_key_pair (wf : CS.WF) (th : CS.group.TotalHash) [DecidableEq CS.Scalar]
    (seed info : Bytes) (hil : info.length ≤ 65535) :
    OprfServer.newFromSeed CS seed info =
      rfcRes (do let (sk, _) ← Rfc9497.DeriveKeyPair (rfcSuite CS) Rfc9497.modeOPRF seed info
                 return ⟨sk⟩) ∧
    VoprfServer.newFromSeed CS seed info =
      rfcRes (do let (sk, pk) ← Rfc9497.DeriveKeyPair (rfcSuite CS) Rfc9497.modeVOPRF seed info
                 return ⟨sk, pk⟩) ∧
    PoprfServer.newFromSeed CS seed info =
      rfcRes (do let (sk, pk) ← Rfc9497.DeriveKeyPair (rfcSuite CS) Rfc9497.modePOPRF seed info
                 return ⟨sk, pk⟩) := by
  have loop : ∀ (m : Mode) (fuel counter : Nat), deriveKeyLoop CS seed (be16 info.length) info
      ⟨ascii "DeriveKeyPair" ++ (ascii "OPRFV1-" ++ [modeByte m] ++ ascii "-"), CS.ID⟩ fuel counter =
      rfcRes (Rfc9497.deriveLoop (rfcSuite CS) (modeByte m)
        (seed ++ Rfc9497.I2OSP2 info.length ++ info) fuel counter) := by
    intro m fuel
    induction fuel with
    | zero => intro counter; rfl
    | succ fuel ih =>
      intro counter
      rw [deriveKeyLoop_eq, Rfc9497.deriveLoop]
      obtain ⟨k, hk⟩ := th.hashToScalar_ok CS.hash (seed ++ framed info ++ [UInt8.ofNat counter])
        (ascii "DeriveKeyPair" ++ contextString CS m) (by simp [ascii_len_dkp]; omega)
      have hk' : keyCandidate CS m seed info counter = .ok k := hk
      have hr : (rfcSuite CS).HashToScalarDST
          (Rfc9497.str "DeriveKeyPair" ++ Rfc9497.contextString (rfcSuite CS) (modeByte m))
          (seed ++ Rfc9497.I2OSP2 info.length ++ info ++ Rfc9497.I2OSP1 counter) = k := by
        have : seed ++ Rfc9497.I2OSP2 info.length ++ info ++ Rfc9497.I2OSP1 counter =
            seed ++ framed info ++ [UInt8.ofNat counter] := by
          simp only [framed, List.append_assoc]; rfl
        rw [this]
        change (match keyCandidate CS m seed info counter with | .ok k => k | .error _ => 0) = k
        rw [hk']
      simp only [hk', hr, VGroup.Lawful.isZeroScalar_iff]
      split
      · exact ih _
      · rfl
  have key : ∀ m : Mode, deriveKeyInternal CS seed info m =
      rfcRes (Rfc9497.deriveLoop (rfcSuite CS) (modeByte m)
        (seed ++ Rfc9497.I2OSP2 info.length ++ info) 256 0) := by
    intro m; rw [deriveKeyInternal_of_le wf _ _ _ hil, loop]
  refine ⟨?_, ?_, ?_⟩
  · unfold OprfServer.newFromSeed
    rw [key .Oprf]
    simp only [Rfc9497.DeriveKeyPair]
    rw [show modeByte .Oprf = Rfc9497.modeOPRF from rfl]
    cases Rfc9497.deriveLoop (rfcSuite CS) Rfc9497.modeOPRF
        (seed ++ Rfc9497.I2OSP2 info.length ++ info) 256 0 <;> rfl
  · unfold VoprfServer.newFromSeed deriveKeypair
    rw [key .Voprf]
    simp only [Rfc9497.DeriveKeyPair]
    rw [show modeByte .Voprf = Rfc9497.modeVOPRF from rfl]
    cases Rfc9497.deriveLoop (rfcSuite CS) Rfc9497.modeVOPRF
        (seed ++ Rfc9497.I2OSP2 info.length ++ info) 256 0 with
    | error e => rfl
    | ok k => simp only [rfcRes, Res.ok_bind, VGroup.Lawful.elemMul_eq]; rfl
  · unfold PoprfServer.newFromSeed deriveKeypair
    rw [key .Poprf]
    simp only [Rfc9497.DeriveKeyPair]
    rw [show modeByte .Poprf = Rfc9497.modePOPRF from rfl]
    cases Rfc9497.deriveLoop (rfcSuite CS) Rfc9497.modePOPRF
        (seed ++ Rfc9497.I2OSP2 info.length ++ info) 256 0 with
    | error e => rfl
    | ok k => simp only [rfcRes, Res.ok_bind, VGroup.Lawful.elemMul_eq]; rfl

/-- C40, **deviation**: `PoprfServer::evaluate(input, None)` hashes no info at all, so it returns the RFC's
`Evaluate` with empty info only if the hash collides on two different strings. -/
theorem C40_poprf_evaluate_none_deviates (wf : CS.WF) (th : CS.group.TotalHash) [DecidableEq CS.Elem]
    [DecidableEq CS.Scalar] (s : PoprfServer CS) (input : Bytes) (hl : input.length ≤ 65535) (out : Bytes)
    (h : Rfc9497.PartialEvaluate (rfcSuite CS) s.sk input [] = .ok out) :
    ∃ P t, Spec.hashToGroup CS .Poprf input = .ok P ∧ IsTweak CS s.sk [] t ∧
      out = CS.hash.digest (finalizeInputInfo input [] (CS.group.serializeElem (t⁻¹ • P))) ∧
      s.evaluate input none = .ok (CS.hash.digest (finalizeInput input (CS.group.serializeElem (t⁻¹ • P)))) ∧
      finalizeInput input (CS.group.serializeElem (t⁻¹ • P)) ≠
        finalizeInputInfo input [] (CS.group.serializeElem (t⁻¹ • P)) := by
  have h1 := (C40_poprf wf th [] (by simp)).2.2 s input hl
  rw [h] at h1
  rw [PoprfServer.evaluate_eq wf] at h1 ⊢
  cases hP : Spec.hashToGroup CS .Poprf input with
  | error e => rw [hP] at h1; simp [rfcRes] at h1
  | ok P =>
    rw [hP] at h1
    simp only at h1 ⊢
    by_cases h0 : CS.group.isIdentityElem P = true
    · rw [if_pos h0] at h1; simp [rfcRes] at h1
    · rw [if_neg h0] at h1 ⊢
      have hc : Poprf.computeTweak CS s.sk none = Poprf.computeTweak CS s.sk (some []) := rfl
      rw [hc]
      cases ht : Poprf.computeTweak CS s.sk (some []) with
      | ok t =>
        rw [ht] at h1
        simp [hl, rfcRes] at h1
        simp only [Res.ok_bind, if_pos hl]
        obtain ⟨m, -, hm, rfl, h0'⟩ := computeTweak_ok wf ht
        exact ⟨P, _, rfl, ⟨m, hm, rfl, h0'⟩, h1.symm, rfl, finalizeInput_ne_info input _ _ rfl⟩
      | err e => rw [ht] at h1; simp [rfcRes] at h1
      | panic => rw [ht] at h1; simp [rfcRes] at h1
      | diverge => rw [ht] at h1; simp [rfcRes] at h1

section examples
open Toy

/-- On the toy suite the RFC functions return values (so the equations above are not between failures). -/
example : (∃ x, Rfc9497.Blind (rfcSuite suite) Rfc9497.modeOPRF (5 : F) [1, 2, 3] = .ok x) ∧
    (∃ x, Rfc9497.Evaluate (rfcSuite suite) Rfc9497.modeVOPRF (5 : F) [1, 2, 3] = .ok x) ∧
    (∃ x, Rfc9497.PartialBlindEvaluate (rfcSuite suite) (5 : F) (7 : F) (9 : F) [4] = .ok x) ∧
    (∃ x, Rfc9497.PartialEvaluate (rfcSuite suite) (7 : F) [1, 2, 3] [4] = .ok x) ∧
    (∃ x, Rfc9497.DeriveKeyPair (rfcSuite suite) Rfc9497.modePOPRF [1] [2] = .ok x) := by
  have key : ∀ {α : Type} (x : Except Rfc9497.Failure α), x.isOk = true → ∃ a, x = .ok a := by
    intro α x h
    cases x with
    | ok a => exact ⟨a, rfl⟩
    | error e => simp [Except.isOk, Except.toBool] at h
  exact ⟨key _ (by decide +kernel), key _ (by decide +kernel), key _ (by decide +kernel),
    key _ (by decide +kernel), key _ (by decide +kernel)⟩

end examples

end Voprf
