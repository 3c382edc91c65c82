import Verif.Model.Serialization
import Verif.Spec.Contract
import Verif.Spec.Transcript

/-!
# Exact values of the functions of `common.rs` under the contract
-/

set_option linter.unusedSectionVars false

namespace Voprf

open Spec

attribute [simp] VGroup.Lawful.elemAdd_eq VGroup.Lawful.elemMul_eq VGroup.Lawful.scalarAdd_eq
  VGroup.Lawful.scalarMul_eq VGroup.Lawful.scalarSub_eq VGroup.Lawful.identityElem_eq
  VGroup.Lawful.baseElem_ne_zero

/-! ## Bytes -/

theorem u16ToBeBytes_eq (n : Nat) : u16ToBeBytes n = be16 n := by
  unfold u16ToBeBytes be16
  congr 1
  apply UInt8.toNat_inj.mp
  simp
  omega

theorem i2osp2_of_le {n : Nat} (h : n ≤ 65535) : i2osp2 n = .ok (be16 n) := by
  simp [i2osp2, u16TryFrom, h, u16ToBeBytes_eq]

theorem i2osp2_of_gt {n : Nat} (h : 65535 < n) : i2osp2 n = .error .I2osp := by
  simp [i2osp2, u16TryFrom, Nat.not_le.mpr h]

@[simp] theorem be16_length (n : Nat) : (be16 n).length = 2 := rfl

@[simp] theorem framed_length (x : Bytes) : (framed x).length = x.length + 2 := by
  simp [framed]; omega

theorem STR_FINALIZE_eq : STR_FINALIZE = ascii "Finalize" := by decide
theorem STR_SEED_eq : STR_SEED = ascii "Seed-" := by decide
theorem STR_DERIVE_KEYPAIR_eq : STR_DERIVE_KEYPAIR = ascii "DeriveKeyPair" := by decide
theorem STR_COMPOSITE_eq : STR_COMPOSITE = ascii "Composite" := by decide
theorem STR_CHALLENGE_eq : STR_CHALLENGE = ascii "Challenge" := by decide
theorem STR_INFO_eq : STR_INFO = ascii "Info" := by decide
theorem STR_OPRF_eq : STR_OPRF = ascii "OPRFV1-" := by decide
theorem STR_HASH_TO_SCALAR_eq : STR_HASH_TO_SCALAR = ascii "HashToScalar-" := by decide
theorem STR_HASH_TO_GROUP_eq : STR_HASH_TO_GROUP = ascii "HashToGroup-" := by decide

theorem modeByte_eq (m : Mode) : m.toU8 = modeByte m := by cases m <;> rfl

/-! ## Domain separation tags -/

variable {CS : CipherSuite}

theorem Dst.new_ok (wf : CS.WF) {par : Bytes} (h : par.length ≤ 13) (mode : Mode) :
    Dst.new CS par mode = .ok ⟨par ++ (ascii "OPRFV1-" ++ [modeByte mode] ++ ascii "-"), CS.ID⟩ := by
  have := wf.id_length
  have h2 : ([45] : Bytes) = ascii "-" := by decide
  have h3 : (ascii "OPRFV1-" ++ [modeByte mode] ++ ascii "-").length = 9 := by
    cases mode <;> decide
  simp only [Dst.new, STR_OPRF_eq, modeByte_eq, h2]
  rw [if_pos]
  rw [List.length_append, h3]; omega

theorem ascii_len_seed : (ascii "Seed-").length = 5 := by decide
theorem ascii_len_h2s : (ascii "HashToScalar-").length = 13 := by decide
theorem ascii_len_h2g : (ascii "HashToGroup-").length = 12 := by decide
theorem ascii_len_dkp : (ascii "DeriveKeyPair").length = 13 := by decide
theorem ascii_len_oprf : (ascii "OPRFV1-").length = 7 := by decide
theorem ascii_len_dash : (ascii "-").length = 1 := by decide
theorem ascii_len_composite : (ascii "Composite").length = 9 := by decide
theorem ascii_len_challenge : (ascii "Challenge").length = 9 := by decide
theorem ascii_len_info : (ascii "Info").length = 4 := by decide
theorem ascii_len_finalize : (ascii "Finalize").length = 8 := by decide

theorem contextString_length (mode : Mode) : (contextString CS mode).length = CS.ID.length + 9 := by
  simp [contextString, ascii_len_oprf, ascii_len_dash]; omega

theorem dst_flatten (par : Bytes) (mode : Mode) :
    ([par ++ (ascii "OPRFV1-" ++ [modeByte mode] ++ ascii "-"), CS.ID] : List Bytes).flatten
      = par ++ contextString CS mode := by
  simp [contextString]

variable [L : CS.group.Lawful]

theorem hashToScalar_dst (mode : Mode) (par : Bytes) (xs : List Bytes) :
    CS.group.hashToScalar CS.hash xs
      [par ++ (ascii "OPRFV1-" ++ [modeByte mode] ++ ascii "-"), CS.ID]
      = CS.group.hashToScalar CS.hash [xs.flatten] [par ++ contextString CS mode] := by
  rw [VGroup.Lawful.hashToScalar_flatten, dst_flatten]

theorem hashToCurve_dst (mode : Mode) (par : Bytes) (xs : List Bytes) :
    CS.group.hashToCurve CS.hash xs
      [par ++ (ascii "OPRFV1-" ++ [modeByte mode] ++ ascii "-"), CS.ID]
      = CS.group.hashToCurve CS.hash [xs.flatten] [par ++ contextString CS mode] := by
  rw [VGroup.Lawful.hashToCurve_flatten, dst_flatten]

theorem hashToGroup_eq (wf : CS.WF) (input : Bytes) (mode : Mode) :
    Voprf.hashToGroup CS input mode = Res.mapErr .Input (Spec.hashToGroup CS mode input) := by
  unfold Voprf.hashToGroup Spec.hashToGroup
  rw [STR_HASH_TO_GROUP_eq, Dst.new_ok wf (by decide)]
  simp [Dst.asDst, -List.append_assoc]
  rw [hashToCurve_dst]
  simp

theorem elemLenBytes_eq (P : CS.Elem) :
    elemLenBytes CS = be16 (CS.group.serializeElem P).length := by
  rw [elemLenBytes, u16ToBeBytes_eq, CS.group.serializeElem_length]

theorem compositesSeed_eq (wf : CS.WF) (B : CS.Elem) (mode : Mode) :
    compositesSeed CS B mode = .ok (Spec.seed CS mode B) := by
  have := wf.id_length
  unfold compositesSeed Spec.seed
  rw [STR_SEED_eq, Dst.new_ok wf (by decide)]
  have h : (ascii "Seed-" ++ (ascii "OPRFV1-" ++ [modeByte mode] ++ ascii "-")).length
      + CS.ID.length = (ascii "Seed-" ++ contextString CS mode).length := by
    simp [contextString]; omega
  simp only [Res.ok_bind, Dst.i2osp2, h, u16TryFrom]
  rw [if_pos (by
    rw [List.length_append, contextString_length, ascii_len_seed]; omega)]
  simp only [Res.unwrapOption_some, Res.pure_eq, Res.ok_bind]
  rw [elemLenBytes_eq B, u16ToBeBytes_eq]
  simp [Digest.finalize, Digest.new, Digest.chainUpdate, Digest.chainUpdateMulti, Dst.asDst, framed,
    contextString]

theorem compositeInput_flatten (sd : Bytes) (hsd : sd.length = CS.hash.outputSize)
    (i : Nat) (C D : CS.Elem) :
    (Voprf.compositeInput CS sd i C D).flatten =
      Spec.compositeInput sd i (CS.group.serializeElem C) (CS.group.serializeElem D) := by
  simp [Voprf.compositeInput, Spec.compositeInput, framed, i2osp2Array, u16ToBeBytes_eq, hsd,
    STR_COMPOSITE_eq, elemLenBytes, CS.group.serializeElem_length]

theorem seed_length (mode : Mode) (B : CS.Elem) :
    (Spec.seed CS mode B).length = CS.hash.outputSize := CS.hash.digest_length _

theorem challengeInput_flatten (B M Z t2 t3 : CS.Elem) :
    (Voprf.challengeInput CS B M Z t2 t3).flatten =
      Spec.challengeInput (CS.group.serializeElem B) (CS.group.serializeElem M)
        (CS.group.serializeElem Z) (CS.group.serializeElem t2) (CS.group.serializeElem t3) := by
  simp [Voprf.challengeInput, Spec.challengeInput, framed, u16ToBeBytes_eq,
    STR_CHALLENGE_eq, elemLenBytes, CS.group.serializeElem_length]

/-! ## Composites -/

theorem compositeStep_eq (wf : CS.WF) (kOpt : Option CS.Scalar) (B : CS.Elem) (mode : Mode)
    (m z : CS.Elem) (i : Nat) (C D : CS.Elem) :
    compositeStep CS kOpt (Spec.seed CS mode B) mode (m, z) (i, (C, D)) =
      match weight CS mode B i C D with
      | .ok w => .ok (w • C + m, match kOpt with | some _ => z | none => w • D + z)
      | .error _ => .panic := by
  unfold compositeStep weight Spec.hashToScalar
  rw [STR_HASH_TO_SCALAR_eq, Dst.new_ok wf (by decide)]
  simp only [Res.ok_bind, Dst.asDst]
  rw [hashToScalar_dst, compositeInput_flatten _ (seed_length _ _)]
  cases CS.group.hashToScalar CS.hash [Spec.compositeInput (Spec.seed CS mode B) i
    (CS.group.serializeElem C) (CS.group.serializeElem D)]
    [ascii "HashToScalar-" ++ contextString CS mode] <;> cases kOpt <;> simp

/-- The loop of `compute_composites` computes the two weighted sums. -/
theorem composites_loop (wf : CS.WF) (kOpt : Option CS.Scalar) (B : CS.Elem) (mode : Mode)
    (ps : List (CS.Elem × CS.Elem)) : ∀ (i : Nat) (m z : CS.Elem),
    ((List.range' i ps.length).zip ps).foldlM
      (compositeStep CS kOpt (Spec.seed CS mode B) mode) (m, z) =
      match weightsFrom CS mode B i ps with
      | .ok ws => .ok (m + lincomb ws (ps.map Prod.fst),
          match kOpt with | some _ => z | none => z + lincomb ws (ps.map Prod.snd))
      | .error _ => .panic := by
  induction ps with
  | nil => intro i m z; cases kOpt <;> simp [weightsFrom, lincomb]
  | cons p ps ih =>
    intro i m z
    obtain ⟨C, D⟩ := p
    simp only [List.length_cons, List.range'_succ, List.zip_cons_cons, List.foldlM_cons]
    rw [compositeStep_eq wf, weightsFrom]
    cases hw : weight CS mode B i C D with
    | error e => rfl
    | ok w =>
      simp only [Res.ok_bind]
      rw [ih]
      change _ = match (do let ws ← weightsFrom CS mode B (i + 1) ps; pure (w :: ws) :
        Except InternalError (List CS.Scalar)) with
        | .ok ws => _ | .error _ => _
      cases weightsFrom CS mode B (i + 1) ps with
      | error e => rfl
      | ok ws =>
        cases kOpt <;>
          simp [lincomb, bind, Except.bind, pure, Except.pure, add_comm (w • _), add_assoc]

/-- Exact value of `compute_composites`. -/
theorem computeComposites_eq (wf : CS.WF) (kOpt : Option CS.Scalar) (B : CS.Elem) (mode : Mode)
    (Cs Ds : List CS.Elem) :
    computeComposites CS kOpt B Cs Ds mode =
      if Cs.length ≠ Ds.length ∨ 65535 < Cs.length then .err .Batch
      else match weights CS mode B Cs Ds with
      | .ok ws => .ok (lincomb ws Cs,
          match kOpt with | some k => k • lincomb ws Cs | none => lincomb ws Ds)
      | .error _ => .panic := by
  unfold computeComposites
  by_cases hl : Cs.length = Ds.length
  · by_cases hn : Cs.length ≤ 65535
    · rw [if_neg (by simp [hl]), if_neg (by simp [hl]; omega)]
      simp only [u16TryFrom, hn, if_true, Res.okOr_some, Res.ok_bind, compositesSeed_eq wf,
        VGroup.Lawful.identityElem_eq]
      have hz : (Cs.zip Ds).length = Cs.length := by simp [hl]
      have := composites_loop wf kOpt B mode (Cs.zip Ds) 0 0 0
      rw [hz, ← List.range_eq_range'] at this
      rw [this, weights]
      have h1 : (Cs.zip Ds).map Prod.fst = Cs := List.map_fst_zip (by omega)
      have h2 : (Cs.zip Ds).map Prod.snd = Ds := List.map_snd_zip (by omega)
      rw [h1, h2]
      cases weightsFrom CS mode B 0 (Cs.zip Ds) with
      | error e => rfl
      | ok ws => cases kOpt <;> simp
    · rw [if_neg (by simp [hl]), if_pos (Or.inr (by omega))]
      simp [u16TryFrom, hn]
  · rw [if_pos hl, if_pos (Or.inl hl)]

/-! ## Proofs -/

theorem challenge_unwrap (wf : CS.WF) (mode : Mode) (B M Z t2 t3 : CS.Elem) :
    (do let dst ← Dst.new CS STR_HASH_TO_SCALAR mode
        Res.unwrapExcept (CS.group.hashToScalar CS.hash (Voprf.challengeInput CS B M Z t2 t3)
          dst.asDst) : Res CS.Scalar) = Res.unwrapExcept (challenge CS mode B M Z t2 t3) := by
  rw [STR_HASH_TO_SCALAR_eq, Dst.new_ok wf (by decide)]
  simp only [Res.ok_bind, Dst.asDst]
  rw [hashToScalar_dst, challengeInput_flatten]
  rfl

/-- Exact value of `generate_proof`. -/
theorem generateProof_eq (wf : CS.WF) {σ : Type} [RngCore σ] (rng : σ) (k : CS.Scalar)
    (A B : CS.Elem) (Cs Ds : List CS.Elem) (mode : Mode) :
    generateProof CS rng k A B Cs Ds mode =
      if Cs.length ≠ Ds.length ∨ 65535 < Cs.length then .err .Batch
      else match weights CS mode B Cs Ds with
      | .error _ => .panic
      | .ok ws =>
        match CS.group.randomScalar rng with
        | none => .diverge
        | some (r, rng') =>
          match challenge CS mode B (lincomb ws Cs) (k • lincomb ws Cs) (r • A)
            (r • lincomb ws Cs) with
          | .error _ => .panic
          | .ok c => .ok (⟨c, r - c * k⟩, rng') := by
  unfold generateProof
  rw [computeComposites_eq wf]
  split
  · rfl
  · cases weights CS mode B Cs Ds with
    | error e => rfl
    | ok ws =>
      simp only [Res.ok_bind]
      cases CS.group.randomScalar rng with
      | none => rfl
      | some rr =>
        obtain ⟨r, rng'⟩ := rr
        simp only [Res.ofLoop_some, Res.ok_bind, VGroup.Lawful.elemMul_eq]
        rw [← bind_assoc, challenge_unwrap wf]
        cases challenge CS mode B (lincomb ws Cs) (k • lincomb ws Cs) (r • A)
            (r • lincomb ws Cs) <;> simp

/-- Exact value of `verify_proof`. -/
theorem verifyProof_eq (wf : CS.WF) (A B : CS.Elem) (Cs Ds : List CS.Elem) (proof : Proof CS)
    (mode : Mode) :
    verifyProof CS A B Cs Ds proof mode =
      if Cs.length ≠ Ds.length ∨ 65535 < Cs.length then .err .Batch
      else match weights CS mode B Cs Ds with
      | .error _ => .panic
      | .ok ws =>
          match challenge CS mode B (lincomb ws Cs) (lincomb ws Ds)
            (proof.sScalar • A + proof.cScalar • B)
            (proof.sScalar • lincomb ws Cs + proof.cScalar • lincomb ws Ds) with
          | .error _ => .panic
          | .ok c => if CS.group.scalarCtEq c proof.cScalar then .ok () else .err .ProofVerification := by
  unfold verifyProof
  rw [computeComposites_eq wf]
  split
  · rfl
  · cases weights CS mode B Cs Ds with
    | error e => rfl
    | ok ws =>
      simp only [Res.ok_bind, VGroup.Lawful.elemMul_eq, VGroup.Lawful.elemAdd_eq]
      rw [← bind_assoc, challenge_unwrap wf]
      cases challenge CS mode B (lincomb ws Cs) (lincomb ws Ds)
            (proof.sScalar • A + proof.cScalar • B)
            (proof.sScalar • lincomb ws Cs + proof.cScalar • lincomb ws Ds) with
      | error e => rfl
      | ok c =>
        simp only [Res.unwrapExcept_ok, Res.ok_bind]
        cases CS.group.scalarCtEq c proof.cScalar <;> rfl

/-! ## Finalization -/

theorem Oprf.finalizeItem_eq (input : Bytes) (P : CS.Elem) :
    Oprf.finalizeItem CS (input, .ok P) =
      if input.length ≤ 65535 then .ok (Spec.output CS input P) else .err .Input := by
  unfold Oprf.finalizeItem
  by_cases h : input.length ≤ 65535
  · simp [h, i2osp2_of_le h, Digest.finalize, Digest.new, Digest.chainUpdate, Spec.output,
      finalizeInput, framed, STR_FINALIZE_eq, elemLenBytes_eq P]
  · simp [h, i2osp2_of_gt (Nat.lt_of_not_le h)]

theorem Verifiable.finalizeItem_eq (input : Bytes) (P : CS.Elem) :
    Verifiable.finalizeItem CS (input, .ok P) =
      if input.length ≤ 65535 then .ok (Spec.output CS input P) else .err .Input := by
  unfold Verifiable.finalizeItem
  by_cases h : input.length ≤ 65535
  · simp [h, i2osp2_of_le h, Digest.finalize, Digest.new, Digest.chainUpdate, Spec.output,
      finalizeInput, framed, STR_FINALIZE_eq, elemLenBytes_eq P]
  · simp [h, i2osp2_of_gt (Nat.lt_of_not_le h)]

theorem Poprf.finalizeItem_eq (input info : Bytes) (P : CS.Elem) :
    Poprf.finalizeItem CS ((.ok P, input), info) =
      if input.length ≤ 65535 then
        if info.length ≤ 65535 then .ok (Spec.outputInfo CS input info P) else .err .Info
      else .err .Input := by
  unfold Poprf.finalizeItem
  by_cases h : input.length ≤ 65535
  · by_cases h' : info.length ≤ 65535
    · simp [h, h', i2osp2_of_le h, i2osp2_of_le h', Digest.finalize, Digest.new,
        Digest.chainUpdate, Spec.outputInfo, finalizeInputInfo, framed, STR_FINALIZE_eq,
        elemLenBytes_eq P]
    · simp [h, h', i2osp2_of_le h, i2osp2_of_gt (Nat.lt_of_not_le h')]
  · simp [h, i2osp2_of_gt (Nat.lt_of_not_le h)]

theorem serialize_length_le (wf : CS.WF) (P : CS.Elem) :
    (CS.group.serializeElem P).length ≤ 65535 := by
  have := wf.elem_length
  rw [CS.group.serializeElem_length]; omega

theorem serverEvaluateHashInput_none (wf : CS.WF) (input : Bytes) (P : CS.Elem) :
    serverEvaluateHashInput CS input none (CS.group.serializeElem P) =
      if input.length ≤ 65535 then .ok (Spec.output CS input P) else .err .Input := by
  have hP := serialize_length_le wf P
  unfold serverEvaluateHashInput
  by_cases h : input.length ≤ 65535
  · simp [h, i2osp2_of_le h, i2osp2_of_le hP, Digest.finalize, Digest.new, Digest.chainUpdate,
      Spec.output, finalizeInput, framed, STR_FINALIZE_eq]
  · simp [h, i2osp2_of_gt (Nat.lt_of_not_le h)]

theorem serverEvaluateHashInput_some (wf : CS.WF) (input info : Bytes) (P : CS.Elem) :
    serverEvaluateHashInput CS input (some info) (CS.group.serializeElem P) =
      if input.length ≤ 65535 ∧ info.length ≤ 65535 then .ok (Spec.outputInfo CS input info P)
      else .err .Input := by
  have hP := serialize_length_le wf P
  unfold serverEvaluateHashInput
  by_cases h : input.length ≤ 65535
  · by_cases h' : info.length ≤ 65535
    · simp [h, h', i2osp2_of_le h, i2osp2_of_le h', i2osp2_of_le hP, Digest.finalize, Digest.new,
        Digest.chainUpdate, Spec.outputInfo, finalizeInputInfo, framed, STR_FINALIZE_eq]
    · simp [h', i2osp2_of_le h, i2osp2_of_gt (Nat.lt_of_not_le h')]
  · simp [h, i2osp2_of_gt (Nat.lt_of_not_le h)]

/-! ## Tweaks -/

theorem isIdentityElem_iff (P : CS.Elem) : CS.group.isIdentityElem P = true ↔ P = 0 := by
  rw [VGroup.isIdentityElem, VGroup.Lawful.elemCtEq_iff, VGroup.Lawful.identityElem_eq, eq_comm]

theorem isIdentityElem_eq_false (P : CS.Elem) : CS.group.isIdentityElem P = false ↔ P ≠ 0 := by
  rw [Ne, ← isIdentityElem_iff, Bool.not_eq_true]

theorem isZeroScalar_eq_false (k : CS.Scalar) : CS.group.isZeroScalar k = false ↔ k ≠ 0 := by
  rw [Ne, ← VGroup.Lawful.isZeroScalar_iff, Bool.not_eq_true]

theorem computeTweak_eq (wf : CS.WF) (sk : CS.Scalar) (info : Option Bytes) :
    Poprf.computeTweak CS sk info =
      if (info.getD []).length ≤ 65535 then
        match Spec.hashToScalar CS .Poprf (infoInput (info.getD [])) with
        | .error _ => .panic
        | .ok m => if CS.group.isZeroScalar (sk + m) then .err .Protocol else .ok (sk + m)
      else .err .Info := by
  unfold Poprf.computeTweak
  split
  · next h =>
    simp only [i2osp2_of_le h, Res.mapErr_ok, Res.ok_bind]
    rw [STR_HASH_TO_SCALAR_eq, Dst.new_ok wf (by decide)]
    simp only [Res.ok_bind, Dst.asDst]
    rw [hashToScalar_dst]
    have : ([STR_INFO, be16 (info.getD []).length, info.getD []] : List Bytes).flatten
        = infoInput (info.getD []) := by simp [infoInput, framed, STR_INFO_eq]
    rw [this, ← Spec.hashToScalar]
    cases Spec.hashToScalar CS .Poprf (infoInput (info.getD [])) with
    | error e => rfl
    | ok m =>
      simp only [Res.unwrapExcept_ok, Res.ok_bind, VGroup.Lawful.scalarAdd_eq]
      cases CS.group.isZeroScalar (sk + m) <;> rfl
  · next h => simp [i2osp2_of_gt (Nat.lt_of_not_le h)]

theorem computeTweakedKey_eq (wf : CS.WF) (pk : CS.Elem) (info : Option Bytes) :
    Poprf.computeTweakedKey CS pk info =
      if (info.getD []).length ≤ 65535 then
        match Spec.hashToScalar CS .Poprf (infoInput (info.getD [])) with
        | .error _ => .panic
        | .ok m =>
          if CS.group.isIdentityElem (m • CS.group.baseElem + pk) then .err .Protocol
          else .ok (m • CS.group.baseElem + pk)
      else .err .Info := by
  unfold Poprf.computeTweakedKey
  split
  · next h =>
    simp only [i2osp2_of_le h, Res.mapErr_ok, Res.ok_bind]
    rw [STR_HASH_TO_SCALAR_eq, Dst.new_ok wf (by decide)]
    simp only [Res.ok_bind, Dst.asDst]
    rw [hashToScalar_dst]
    have : ([STR_INFO, be16 (info.getD []).length, info.getD []] : List Bytes).flatten
        = infoInput (info.getD []) := by simp [infoInput, framed, STR_INFO_eq]
    rw [this, ← Spec.hashToScalar]
    cases Spec.hashToScalar CS .Poprf (infoInput (info.getD [])) with
    | error e => rfl
    | ok m =>
      simp only [Res.unwrapExcept_ok, Res.ok_bind, VGroup.Lawful.elemAdd_eq,
        VGroup.Lawful.elemMul_eq]
      cases CS.group.isIdentityElem (m • CS.group.baseElem + pk) <;> rfl
  · next h => simp [i2osp2_of_gt (Nat.lt_of_not_le h)]

/-! ## Vector-space facts -/

theorem smul_base_eq_zero (k : CS.Scalar) : k • CS.group.baseElem = 0 ↔ k = 0 := by
  rw [smul_eq_zero]; simp

theorem smul_base_inj {a b : CS.Scalar} (h : a • CS.group.baseElem = b • CS.group.baseElem) :
    a = b := by
  have : (a - b) • CS.group.baseElem = 0 := by rw [sub_smul, h, sub_self]
  exact sub_eq_zero.mp ((smul_base_eq_zero _).mp this)

end Voprf
