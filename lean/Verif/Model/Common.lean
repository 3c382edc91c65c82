import Verif.Model.Group

/-!
# Model of `src/common.rs`
-/

namespace Voprf

/-! ## Constants, `src/common.rs:32-40` -/

/-- `b"Finalize"`, `src/common.rs:32` -/
def STR_FINALIZE : Bytes := [70, 105, 110, 97, 108, 105, 122, 101]
/-- `b"Seed-"`, `src/common.rs:33` -/
def STR_SEED : Bytes := [83, 101, 101, 100, 45]
/-- `b"DeriveKeyPair"`, `src/common.rs:34` -/
def STR_DERIVE_KEYPAIR : Bytes := [68, 101, 114, 105, 118, 101, 75, 101, 121, 80, 97, 105, 114]
/-- `b"Composite"`, `src/common.rs:35` -/
def STR_COMPOSITE : Bytes := [67, 111, 109, 112, 111, 115, 105, 116, 101]
/-- `b"Challenge"`, `src/common.rs:36` -/
def STR_CHALLENGE : Bytes := [67, 104, 97, 108, 108, 101, 110, 103, 101]
/-- `b"Info"`, `src/common.rs:37` -/
def STR_INFO : Bytes := [73, 110, 102, 111]
/-- `b"OPRFV1-"`, `src/common.rs:38` -/
def STR_OPRF : Bytes := [79, 80, 82, 70, 86, 49, 45]
/-- `b"HashToScalar-"`, `src/common.rs:39` -/
def STR_HASH_TO_SCALAR : Bytes := [72, 97, 115, 104, 84, 111, 83, 99, 97, 108, 97, 114, 45]
/-- `b"HashToGroup-"`, `src/common.rs:40` -/
def STR_HASH_TO_GROUP : Bytes := [72, 97, 115, 104, 84, 111, 71, 114, 111, 117, 112, 45]

/-! ## Utility functions, `src/common.rs:561-576` -/

/-- `src/common.rs:566-570` (`i2osp_2`). -/
def i2osp2 (input : Nat) : Except InternalError Bytes :=
  match u16TryFrom input with
  | some n => .ok (u16ToBeBytes n)
  | none => .error .I2osp

/-- `src/common.rs:572-576` (`i2osp_2_array`): the type-level length `L < 256` of the array. -/
def i2osp2Array (len : Nat) : Bytes := u16ToBeBytes len

/-! ## Domain separation tags, `src/common.rs:501-542` -/

/-- `src/common.rs:501-504` (`struct Dst`). -/
structure Dst where
  dst1 : Bytes
  dst2 : Bytes

/-- `src/common.rs:507-531` (`Dst::new`); the `assert!` is the panic branch. -/
def Dst.new (CS : CipherSuite) (par1 : Bytes) (mode : Mode) : Res Dst :=
  let par2 := STR_OPRF ++ [mode.toU8] ++ [45]
  let dst1 := par1 ++ par2
  let dst2 := CS.ID
  if dst1.length + dst2.length ≤ 65535 then .ok ⟨dst1, dst2⟩ else .panic

/-- `src/common.rs:533-535` (`Dst::as_dst`). -/
def Dst.asDst (d : Dst) : List Bytes := [d.dst1, d.dst2]

/-- `src/common.rs:537-541` (`Dst::i2osp_2`). -/
def Dst.i2osp2 (d : Dst) : Res Bytes := do
  let n ← Res.unwrapOption (u16TryFrom (d.dst1.length + d.dst2.length))
  pure (u16ToBeBytes n)

/-! ## Message types, `src/common.rs:72-136` -/

/-- `src/common.rs:79-85` (`BlindedElement`). -/
@[ext] structure BlindedElement (CS : CipherSuite) where
  value : CS.Elem

/-- `src/common.rs:96-102` (`EvaluationElement`). -/
@[ext] structure EvaluationElement (CS : CipherSuite) where
  value : CS.Elem

/-- `src/common.rs:113-116` (`PreparedEvaluationElement`). -/
@[ext] structure PreparedEvaluationElement (CS : CipherSuite) where
  inner : EvaluationElement CS

/-- `src/common.rs:127-136` (`Proof`). -/
@[ext] structure Proof (CS : CipherSuite) where
  cScalar : CS.Scalar
  sScalar : CS.Scalar

section
variable (CS : CipherSuite)

/-- `ElemLen::U16.to_be_bytes()`, e.g. `src/common.rs:177`. -/
def elemLenBytes : Bytes := u16ToBeBytes CS.group.elemLen

/-! ## Proof functions, `src/common.rs:138-353` -/

/-- The seed computation inside `compute_composites`, `src/common.rs:301-311`. -/
def compositesSeed (b : CS.Elem) (mode : Mode) : Res Bytes := do
  let seedDst ← Dst.new CS STR_SEED mode
  let seedDstLen ← seedDst.i2osp2
  pure (Digest.new
    |>.chainUpdate (elemLenBytes CS)
    |>.chainUpdate (CS.group.serializeElem b)
    |>.chainUpdate seedDstLen
    |>.chainUpdateMulti seedDst.asDst
    |>.finalize CS.hash)

/-- `h2_input` of `compute_composites`, `src/common.rs:326-335`. -/
def compositeInput (seed : Bytes) (i : Nat) (c d : CS.Elem) : List Bytes :=
  let seedLen := i2osp2Array CS.hash.outputSize
  let ci := CS.group.serializeElem c
  let di := CS.group.serializeElem d
  [seedLen, seed, u16ToBeBytes i, elemLenBytes CS, ci, elemLenBytes CS, di, STR_COMPOSITE]

/-- One iteration of the loop of `compute_composites`, `src/common.rs:317-345`. -/
def compositeStep (kOption : Option CS.Scalar) (seed : Bytes) (mode : Mode)
    (acc : CS.Elem × CS.Elem) (item : Nat × (CS.Elem × CS.Elem)) : Res (CS.Elem × CS.Elem) := do
  let (m, z) := acc
  let (i, (c, d)) := item
  let h2Input := compositeInput CS seed i c d
  let dst ← Dst.new CS STR_HASH_TO_SCALAR mode
  let di ← Res.unwrapExcept (CS.group.hashToScalar CS.hash h2Input dst.asDst)
  let m := CS.group.elemAdd (CS.group.elemMul c di) m
  let z := match kOption with
    | some _ => z
    | none => CS.group.elemAdd (CS.group.elemMul d di) z
  pure (m, z)

/-- `src/common.rs:275-353` (`compute_composites`). -/
def computeComposites (kOption : Option CS.Scalar) (b : CS.Elem)
    (cSlice dSlice : List CS.Elem) (mode : Mode) : Res (CS.Elem × CS.Elem) := do
  if cSlice.length ≠ dSlice.length then
    Res.err .Batch
  else
    let len ← Res.okOr .Batch (u16TryFrom cSlice.length)
    let seed ← compositesSeed CS b mode
    let m := CS.group.identityElem
    let z := CS.group.identityElem
    let (m, z) ← ((List.range len).zip (cSlice.zip dSlice)).foldlM
      (compositeStep CS kOption seed mode) (m, z)
    let z := match kOption with
      | some k => CS.group.elemMul m k
      | none => z
    pure (m, z)

/-- `h2_input` of `generate_proof`/`verify_proof`, `src/common.rs:185-197` and `245-257`. -/
def challengeInput (b m z t2 t3 : CS.Elem) : List Bytes :=
  let bm := CS.group.serializeElem b
  let a0 := CS.group.serializeElem m
  let a1 := CS.group.serializeElem z
  let a2 := CS.group.serializeElem t2
  let a3 := CS.group.serializeElem t3
  let elemLen := elemLenBytes CS
  [elemLen, bm, elemLen, a0, elemLen, a1, elemLen, a2, elemLen, a3, STR_CHALLENGE]

/-- `src/common.rs:145-205` (`generate_proof`). The advanced RNG is returned along with the proof. -/
def generateProof {σ : Type} [RngCore σ] (rng : σ) (k : CS.Scalar) (a b : CS.Elem)
    (cs ds : List CS.Elem) (mode : Mode) : Res (Proof CS × σ) := do
  let (m, z) ← computeComposites CS (some k) b cs ds mode
  let (r, rng) ← Res.ofLoop (CS.group.randomScalar rng)
  let t2 := CS.group.elemMul a r
  let t3 := CS.group.elemMul m r
  let h2Input := challengeInput CS b m z t2 t3
  let dst ← Dst.new CS STR_HASH_TO_SCALAR mode
  let cScalar ← Res.unwrapExcept (CS.group.hashToScalar CS.hash h2Input dst.asDst)
  let sScalar := CS.group.scalarSub r (CS.group.scalarMul cScalar k)
  pure (⟨cScalar, sScalar⟩, rng)

/-- `src/common.rs:209-267` (`verify_proof`). -/
def verifyProof (a b : CS.Elem) (cs ds : List CS.Elem) (proof : Proof CS) (mode : Mode) :
    Res Unit := do
  let (m, z) ← computeComposites CS none b cs ds mode
  let t2 := CS.group.elemAdd (CS.group.elemMul a proof.sScalar) (CS.group.elemMul b proof.cScalar)
  let t3 := CS.group.elemAdd (CS.group.elemMul m proof.sScalar) (CS.group.elemMul z proof.cScalar)
  let h2Input := challengeInput CS b m z t2 t3
  let dst ← Dst.new CS STR_HASH_TO_SCALAR mode
  let c ← Res.unwrapExcept (CS.group.hashToScalar CS.hash h2Input dst.asDst)
  match CS.group.scalarCtEq c proof.cScalar with
  | true => pure ()
  | false => Res.err .ProofVerification

/-! ## Inner functions, `src/common.rs:355-499` -/

/-- The loop `for counter in 0_u8..=u8::MAX` of `derive_key_internal`, `src/common.rs:374-389`,
started at `counter` with `fuel` iterations left. -/
def deriveKeyLoop (seed infoLen info : Bytes) (dst : Dst) : (fuel counter : Nat) → Res CS.Scalar
  | 0, _ => Res.err .Protocol
  | fuel + 1, counter => do
      let skS ← Res.mapErr .DeriveKeyPair
        (CS.group.hashToScalar CS.hash [seed, infoLen, info, [UInt8.ofNat counter]] dst.asDst)
      if !CS.group.isZeroScalar skS then
        pure skS
      else
        deriveKeyLoop seed infoLen info dst fuel (counter + 1)

/-- `src/common.rs:361-390` (`derive_key_internal`). -/
def deriveKeyInternal (seed info : Bytes) (mode : Mode) : Res CS.Scalar := do
  let dst ← Dst.new CS STR_DERIVE_KEYPAIR mode
  let infoLen ← Res.mapErr .DeriveKeyPair (i2osp2 info.length)
  deriveKeyLoop CS seed infoLen info dst 256 0

/-- `src/common.rs:399-409` (`derive_key`, feature `danger`). -/
def deriveKey (seed info : Bytes) (mode : Mode) : Res CS.Scalar :=
  deriveKeyInternal CS seed info mode

/-- `src/common.rs:417-430` (`derive_keypair`). -/
def deriveKeypair (seed info : Bytes) (mode : Mode) : Res (CS.Scalar × CS.Elem) := do
  let skS ← deriveKeyInternal CS seed info mode
  let pkS := CS.group.elemMul CS.group.baseElem skS
  pure (skS, pkS)

/-- `src/common.rs:451-461` (`hash_to_group`). -/
def hashToGroup (input : Bytes) (mode : Mode) : Res CS.Elem := do
  let dst ← Dst.new CS STR_HASH_TO_GROUP mode
  Res.mapErr .Input (CS.group.hashToCurve CS.hash [input] dst.asDst)

/-- `src/common.rs:437-448` (`deterministic_blind_unchecked`). -/
def deterministicBlindUnchecked (input : Bytes) (blind : CS.Scalar) (mode : Mode) :
    Res CS.Elem := do
  let hashedPoint ← hashToGroup CS input mode
  pure (CS.group.elemMul hashedPoint blind)

/-- `src/common.rs:465-499` (`server_evaluate_hash_input`). -/
def serverEvaluateHashInput (input : Bytes) (info : Option Bytes) (issuedElement : Bytes) :
    Res Bytes := do
  let inputLen ← Res.mapErr .Input (i2osp2 input.length)
  let hash := Digest.new |>.chainUpdate inputLen |>.chainUpdate input
  let hash ← match info with
    | some info => do
        let infoLen ← Res.mapErr .Input (i2osp2 info.length)
        pure (hash.chainUpdate infoLen |>.chainUpdate info)
    | none => pure hash
  let elemLen ← Res.mapErr .Input (i2osp2 issuedElement.length)
  pure (hash.chainUpdate elemLen |>.chainUpdate issuedElement |>.chainUpdate STR_FINALIZE
    |>.finalize CS.hash)

end

end Voprf
