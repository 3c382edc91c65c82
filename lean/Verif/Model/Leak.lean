import Verif.Model.Oprf
import Verif.Model.Voprf
import Verif.Model.Poprf

/-!
# Control flow of the code as an observer sees it

The functions of the model again, instrumented: every operation on elements and scalars, every hash and every
conditional branch is recorded, with the lengths of the byte strings involved but without their contents.
`Verif/Props/Leak.lean` proves that forgetting the record gives back the functions of the model, and that the
record is the same for all secrets.

What one operation does internally (the arithmetic of the curve libraries, `ct_eq`) is a single event here.
-/

namespace Voprf.Leak

/-- The operations of the `Group` trait and of the hash, as called from `src/common.rs`, `src/oprf.rs`,
`src/voprf.rs` and `src/poprf.rs`. `src/group/mod.rs:31-118`, `src/common.rs:306-311,486-498`. -/
inductive Op
  | elemMul | elemAdd | scalarAdd | scalarSub | scalarMul | invertScalar | isZeroScalar | isIdentityElem
  | scalarCtEq | serializeElem | hashToCurve | hashToScalar | digest | randomScalar | fillBytes
  | deserializeScalar
  deriving DecidableEq, Repr

/-- How a fallible step ended. `src/error.rs:18-33`. -/
inductive Outcome
  | ok | err (e : Error) | panic | diverge
  deriving DecidableEq, Repr

/-- How a step of the model ended (`src/error.rs:14-33`) -/
def outcome {α : Type} : Res α → Outcome
  | .ok _ => .ok
  | .err e => .err e
  | .panic => .panic
  | .diverge => .diverge

/-- An observable event. An operation of `src/group/mod.rs:31-118` or a branch of the code that calls it. -/
inductive Event
  /-- an operation, with the lengths of its byte-string arguments -/
  | op (o : Op) (lens : List Nat)
  /-- a branch on a boolean -/
  | branch (b : Bool)
  /-- a branch on the outcome of a fallible step (`?`, `unwrap`) -/
  | outcome (r : Outcome)
  deriving DecidableEq, Repr

/-- A computation with its record of events. Instruments `src/common.rs:145-499`, `src/oprf.rs`, `src/voprf.rs`,
`src/poprf.rs`. -/
structure T (α : Type) where
  trace : List Event
  val : Res α

namespace T

/-- Continues only after `ok`. The `?` operator, as in `src/common.rs:160`. -/
protected def bind {α β : Type} (x : T α) (f : α → T β) : T β :=
  match x.val with
  | .ok a => ⟨x.trace ++ (f a).trace, (f a).val⟩
  | .err e => ⟨x.trace, .err e⟩
  | .panic => ⟨x.trace, .panic⟩
  | .diverge => ⟨x.trace, .diverge⟩

/-- The record grows by concatenation (sequencing, and the `?` operator as in `src/common.rs:160`) -/
instance : Monad T where
  pure a := ⟨[], .ok a⟩
  bind := T.bind

/-- An operation that always returns. As in `src/common.rs:163`. -/
def call {α : Type} (o : Op) (lens : List Nat) (a : α) : T α := ⟨[.op o lens], .ok a⟩

/-- An operation whose outcome is then branched on. As in `src/common.rs:378-382`. -/
def callRes {α : Type} (o : Op) (lens : List Nat) (r : Res α) : T α :=
  ⟨[.op o lens, .outcome (outcome r)], r⟩

/-- A check on lengths or tags, branched on. As in `src/common.rs:294-298`. -/
def check {α : Type} (r : Res α) : T α := ⟨[.outcome (outcome r)], r⟩

/-- A boolean test whose result is branched on. As in `src/common.rs:263,384`. -/
def test (o : Op) (b : Bool) : T Bool := ⟨[.op o [], .branch b], .ok b⟩

/-- `result.unwrap()` (as in `src/common.rs:201`) -/
def unwrap {α : Type} (x : T α) : T α := ⟨x.trace ++ [.outcome (outcome x.val)], Res.unwrap x.val⟩

/-- Runs the items of a lazy iterator in order. As in `src/voprf.rs:367-371`. -/
def collect {α : Type} : List (T α) → T (List α)
  | [] => pure []
  | x :: xs => do
      let a ← x
      let as ← collect xs
      pure (a :: as)

end T

variable {CS : CipherSuite}

/-- lengths of the parts of a hash input (for `src/common.rs:201,339,378-381`) -/
def lens (xs : List Bytes) : List Nat := xs.map List.length

section
variable (CS)

/-- `CS::Group::Elem * CS::Group::Scalar` (`src/group/mod.rs:37`, as in `src/common.rs:163`) -/
def mul (P : CS.Elem) (k : CS.Scalar) : T CS.Elem := .call .elemMul [] (CS.group.elemMul P k)
/-- `CS::Group::Elem + CS::Group::Elem` (`src/group/mod.rs:36`, as in `src/common.rs:223`) -/
def add (P Q : CS.Elem) : T CS.Elem := .call .elemAdd [] (CS.group.elemAdd P Q)
/-- `serialize_elem` (`src/group/mod.rs:85`, as in `src/common.rs:167`) -/
def ser (P : CS.Elem) : T Bytes := .call .serializeElem [] (CS.group.serializeElem P)
/-- a complete digest of the given parts (as in `src/common.rs:306-311,486-498`) -/
def digest (parts : List Bytes) : T Bytes :=
  .call .digest (lens parts) ((Digest.new.chainUpdateMulti parts).finalize CS.hash)

/-! ## `src/common.rs` -/

/-- `src/common.rs:301-311` (in `compute_composites`). -/
def compositesSeed (b : CS.Elem) (mode : Mode) : T Bytes := do
  let bytes ← ser CS b
  let seedDst ← T.check (Dst.new CS STR_SEED mode)
  let seedDstLen ← T.check seedDst.i2osp2
  digest CS ([elemLenBytes CS, bytes, seedDstLen] ++ seedDst.asDst)

/-- `src/common.rs:317-345` (loop body of `compute_composites`). -/
def compositeStep (kOption : Option CS.Scalar) (seed : Bytes) (mode : Mode)
    (acc : CS.Elem × CS.Elem) (item : Nat × (CS.Elem × CS.Elem)) : T (CS.Elem × CS.Elem) := do
  let seedLen := i2osp2Array CS.hash.outputSize
  let ci ← ser CS item.2.1
  let di ← ser CS item.2.2
  let input := [seedLen, seed, u16ToBeBytes item.1, elemLenBytes CS, ci, elemLenBytes CS, di, STR_COMPOSITE]
  let dst ← T.check (Dst.new CS STR_HASH_TO_SCALAR mode)
  let x ← T.callRes .hashToScalar (lens input)
    (Res.unwrapExcept (CS.group.hashToScalar CS.hash input dst.asDst))
  let cx ← mul CS item.2.1 x
  let m ← add CS cx acc.1
  let z ← match kOption with
    | some _ => pure acc.2
    | none => do
        let dx ← mul CS item.2.2 x
        add CS dx acc.2
  pure (m, z)

/-- The steps in order (`src/common.rs:317` (the loop of `compute_composites`)) -/
def compositeLoop (kOption : Option CS.Scalar) (seed : Bytes) (mode : Mode) :
    CS.Elem × CS.Elem → List (Nat × (CS.Elem × CS.Elem)) → T (CS.Elem × CS.Elem)
  | acc, [] => pure acc
  | acc, item :: items => do
      let acc ← compositeStep CS kOption seed mode acc item
      compositeLoop kOption seed mode acc items

/-- `src/common.rs:275-353` (`compute_composites`). -/
def computeComposites (kOption : Option CS.Scalar) (b : CS.Elem)
    (cSlice dSlice : List CS.Elem) (mode : Mode) : T (CS.Elem × CS.Elem) := do
  let _ ← T.check (if cSlice.length ≠ dSlice.length then Res.err .Batch else Res.ok ())
  let len ← T.check (Res.okOr .Batch (u16TryFrom cSlice.length))
  let seed ← compositesSeed CS b mode
  let (m, z) ← compositeLoop CS kOption seed mode (CS.group.identityElem, CS.group.identityElem)
    ((List.range len).zip (cSlice.zip dSlice))
  let z ← match kOption with
    | some k => mul CS m k
    | none => pure z
  pure (m, z)

/-- `src/common.rs:179-201` and `239-261`: the challenge of `generate_proof` and `verify_proof`. -/
def challenge (b m z t2 t3 : CS.Elem) (mode : Mode) : T CS.Scalar := do
  let bm ← ser CS b
  let a0 ← ser CS m
  let a1 ← ser CS z
  let a2 ← ser CS t2
  let a3 ← ser CS t3
  let elemLen := elemLenBytes CS
  let input := [elemLen, bm, elemLen, a0, elemLen, a1, elemLen, a2, elemLen, a3, STR_CHALLENGE]
  let dst ← T.check (Dst.new CS STR_HASH_TO_SCALAR mode)
  T.callRes .hashToScalar (lens input)
    (Res.unwrapExcept (CS.group.hashToScalar CS.hash input dst.asDst))

/-- `src/common.rs:145-205` (`generate_proof`). -/
def generateProof {σ : Type} [RngCore σ] (rng : σ) (k : CS.Scalar) (a b : CS.Elem)
    (cs ds : List CS.Elem) (mode : Mode) : T (Proof CS × σ) := do
  let (m, z) ← computeComposites CS (some k) b cs ds mode
  let (r, rng) ← T.callRes .randomScalar [] (Res.ofLoop (CS.group.randomScalar rng))
  let t2 ← mul CS a r
  let t3 ← mul CS m r
  let c ← challenge CS b m z t2 t3 mode
  let ck ← T.call .scalarMul [] (CS.group.scalarMul c k)
  let s ← T.call .scalarSub [] (CS.group.scalarSub r ck)
  pure (⟨c, s⟩, rng)

/-- `src/common.rs:209-267` (`verify_proof`). -/
def verifyProof (a b : CS.Elem) (cs ds : List CS.Elem) (proof : Proof CS) (mode : Mode) : T Unit := do
  let (m, z) ← computeComposites CS none b cs ds mode
  let as ← mul CS a proof.sScalar
  let bc ← mul CS b proof.cScalar
  let t2 ← add CS as bc
  let ms ← mul CS m proof.sScalar
  let zc ← mul CS z proof.cScalar
  let t3 ← add CS ms zc
  let c ← challenge CS b m z t2 t3 mode
  let same ← T.test .scalarCtEq (CS.group.scalarCtEq c proof.cScalar)
  match same with
  | true => pure ()
  | false => T.check (Res.err .ProofVerification)

/-- The loop of `derive_key_internal`, `src/common.rs:374-389`. -/
def deriveKeyLoop (seed infoLen info : Bytes) (dst : Dst) : (fuel counter : Nat) → T CS.Scalar
  | 0, _ => T.check (Res.err .Protocol)
  | fuel + 1, counter => do
      let input := [seed, infoLen, info, [UInt8.ofNat counter]]
      let skS ← T.callRes .hashToScalar (lens input)
        (Res.mapErr .DeriveKeyPair (CS.group.hashToScalar CS.hash input dst.asDst))
      let zero ← T.test .isZeroScalar (CS.group.isZeroScalar skS)
      match zero with
      | false => pure skS
      | true => deriveKeyLoop seed infoLen info dst fuel (counter + 1)

/-- `src/common.rs:361-390` (`derive_key_internal`). -/
def deriveKeyInternal (seed info : Bytes) (mode : Mode) : T CS.Scalar := do
  let dst ← T.check (Dst.new CS STR_DERIVE_KEYPAIR mode)
  let infoLen ← T.check (Res.mapErr .DeriveKeyPair (i2osp2 info.length))
  deriveKeyLoop CS seed infoLen info dst 256 0

/-- `src/common.rs:417-430` (`derive_keypair`). -/
def deriveKeypair (seed info : Bytes) (mode : Mode) : T (CS.Scalar × CS.Elem) := do
  let skS ← deriveKeyInternal CS seed info mode
  let pkS ← mul CS CS.group.baseElem skS
  pure (skS, pkS)

/-- `src/common.rs:451-461` (`hash_to_group`). -/
def hashToGroup (input : Bytes) (mode : Mode) : T CS.Elem := do
  let dst ← T.check (Dst.new CS STR_HASH_TO_GROUP mode)
  T.callRes .hashToCurve (lens [input])
    (Res.mapErr .Input (CS.group.hashToCurve CS.hash [input] dst.asDst))

/-- `src/common.rs:437-448` (`deterministic_blind_unchecked`). -/
def deterministicBlindUnchecked (input : Bytes) (blind : CS.Scalar) (mode : Mode) : T CS.Elem := do
  let hashedPoint ← hashToGroup CS input mode
  mul CS hashedPoint blind

/-- `src/common.rs:465-499` (`server_evaluate_hash_input`). -/
def serverEvaluateHashInput (input : Bytes) (info : Option Bytes) (issuedElement : Bytes) : T Bytes := do
  let inputLen ← T.check (Res.mapErr .Input (i2osp2 input.length))
  let infoParts ← match info with
    | some info => do
        let infoLen ← T.check (Res.mapErr .Input (i2osp2 info.length))
        pure [infoLen, info]
    | none => pure []
  let elemLen ← T.check (Res.mapErr .Input (i2osp2 issuedElement.length))
  digest CS ([inputLen, input] ++ infoParts ++ [elemLen, issuedElement, STR_FINALIZE])

end

/-! ## `src/oprf.rs` -/

/-- `src/oprf.rs:256-284` and `src/voprf.rs:550-577` (`finalize_after_unblind`), for one item. -/
def finalizeItem (CS : CipherSuite) (input : Bytes) (unblinded : T CS.Elem) : T Bytes := do
  let unblindedElement ← unblinded
  let inputLen ← T.check (Res.mapErr .Input (i2osp2 input.length))
  let bytes ← ser CS unblindedElement
  digest CS [inputLen, input, elemLenBytes CS, bytes, STR_FINALIZE]

/-- `src/oprf.rs:138`, `src/voprf.rs:540`, `src/poprf.rs:723`: `element * invert_scalar(blind)`. -/
def unblind (blind : CS.Scalar) (e : CS.Elem) : T CS.Elem := do
  let inv ← T.callRes .invertScalar [] (Res.unwrapOption (CS.group.invertScalar blind))
  mul CS e inv

namespace OprfClient

/-- `src/oprf.rs:89-95` (`OprfClient::blind`). -/
def blindInput (CS : CipherSuite) {σ : Type} [RngCore σ] (input : Bytes) (rng : σ) :
    T (OprfClientBlindResult CS × σ) := do
  let (blind, rng) ← T.callRes .randomScalar [] (Res.ofLoop (CS.group.randomScalar rng))
  let blindedElement ← deterministicBlindUnchecked CS input blind .Oprf
  pure ({ state := { blind := blind }, message := ⟨blindedElement⟩ }, rng)

/-- `src/oprf.rs:133-142` (`OprfClient::finalize`). -/
def finalize (self : OprfClient CS) (input : Bytes) (e : EvaluationElement CS) : T Bytes :=
  finalizeItem CS input (unblind self.blind e.value)

end OprfClient

namespace OprfServer

/-- `src/oprf.rs:192-195` (`OprfServer::new_from_seed`). -/
def newFromSeed (CS : CipherSuite) (seed info : Bytes) : T (OprfServer CS) := do
  let sk ← deriveKeyInternal CS seed info .Oprf
  pure ⟨sk⟩

/-- `src/oprf.rs:166-170` (`OprfServer::new`). -/
def new (CS : CipherSuite) {σ : Type} [RngCore σ] (rng : σ) : T (OprfServer CS × σ) := do
  let (seed, rng) ← T.call .fillBytes [CS.group.scalarLen] (RngCore.fillBytes rng CS.group.scalarLen)
  let s ← newFromSeed CS seed []
  pure (s, rng)

/-- `src/oprf.rs:178-181` (`OprfServer::new_with_key`). -/
def newWithKey (CS : CipherSuite) (key : Bytes) : T (OprfServer CS) := do
  let sk ← T.callRes .deserializeScalar (lens [key]) (Res.ofExcept (CS.group.deserializeScalar key))
  pure ⟨sk⟩

/-- `src/oprf.rs:206-208` (`OprfServer::blind_evaluate`). -/
def blindEvaluate (self : OprfServer CS) (b : BlindedElement CS) : T (EvaluationElement CS) := do
  let v ← mul CS b.value self.sk
  pure ⟨v⟩

/-- `src/oprf.rs:214-224` (`OprfServer::evaluate`); also `src/voprf.rs:380-390`. -/
def evaluateIn (CS : CipherSuite) (mode : Mode) (sk : CS.Scalar) (input : Bytes) : T Bytes := do
  let P ← hashToGroup CS input mode
  let zero ← T.test .isIdentityElem (CS.group.isIdentityElem P)
  match zero with
  | true => T.check (Res.err .Input)
  | false => do
    let Q ← mul CS P sk
    let issued ← ser CS Q
    serverEvaluateHashInput CS input none issued

/-- `src/oprf.rs:214-224` (`OprfServer::evaluate`). -/
def evaluate (self : OprfServer CS) (input : Bytes) : T Bytes := evaluateIn CS .Oprf self.sk input

end OprfServer

/-! ## `src/voprf.rs` -/

namespace VoprfClient

/-- `src/voprf.rs:91-97` (`VoprfClient::blind`). -/
def blindInput (CS : CipherSuite) {σ : Type} [RngCore σ] (input : Bytes) (rng : σ) :
    T (VoprfClientBlindResult CS × σ) := do
  let (blind, rng) ← T.callRes .randomScalar [] (Res.ofLoop (CS.group.randomScalar rng))
  let blindedElement ← deterministicBlindUnchecked CS input blind .Voprf
  pure ({ state := { blind := blind, blindedElement := blindedElement }, message := ⟨blindedElement⟩ }, rng)

/-- `src/voprf.rs:164-186` (`VoprfClient::batch_finalize`): the verification, then the lazy items. -/
def batchFinalize (inputs : List Bytes) (clients : List (VoprfClient CS))
    (messages : List (EvaluationElement CS)) (proof : Proof CS) (pk : CS.Elem) : T (List (T Bytes)) := do
  verifyProof CS CS.group.baseElem pk (clients.map fun c => c.blindedElement)
    (messages.map fun e => e.value) proof .Voprf
  pure ((inputs.zip ((clients.map fun c => c.blind).zip messages)).map fun (input, blind, e) =>
    finalizeItem CS input (unblind blind e.value))

/-- `src/voprf.rs:139-152` (`VoprfClient::finalize`). -/
def finalize (self : VoprfClient CS) (input : Bytes) (e : EvaluationElement CS)
    (proof : Proof CS) (pk : CS.Elem) : T Bytes := do
  let items ← batchFinalize [input] [self] [e] proof pk
  let item ← T.check (Res.unwrapOption items.head?)
  item

end VoprfClient

namespace VoprfServer

/-- `src/voprf.rs:244-247` (`VoprfServer::new_from_seed`). -/
def newFromSeed (CS : CipherSuite) (seed info : Bytes) : T (VoprfServer CS) := do
  let (sk, pk) ← deriveKeypair CS seed info .Voprf
  pure ⟨sk, pk⟩

/-- `src/voprf.rs:216-221` (`VoprfServer::new`). -/
def new (CS : CipherSuite) {σ : Type} [RngCore σ] (rng : σ) : T (VoprfServer CS × σ) := do
  let (seed, rng) ← T.call .fillBytes [CS.group.scalarLen] (RngCore.fillBytes rng CS.group.scalarLen)
  let s ← newFromSeed CS seed []
  pure (s, rng)

/-- `src/voprf.rs:229-233` (`VoprfServer::new_with_key`). -/
def newWithKey (CS : CipherSuite) (key : Bytes) : T (VoprfServer CS) := do
  let sk ← T.callRes .deserializeScalar (lens [key]) (Res.ofExcept (CS.group.deserializeScalar key))
  let pk ← mul CS CS.group.baseElem sk
  pure ⟨sk, pk⟩

/-- `src/voprf.rs:319-331` (`batch_blind_evaluate_prepare`), one item of the iterator. -/
def prepareItem (self : VoprfServer CS) (b : BlindedElement CS) : T (PreparedEvaluationElement CS) := do
  let v ← mul CS b.value self.sk
  pure ⟨⟨v⟩⟩

/-- `src/voprf.rs:339-374` (`batch_blind_evaluate_finish`). -/
def batchBlindEvaluateFinish {σ : Type} [RngCore σ] (self : VoprfServer CS) (rng : σ)
    (blindedElements : List (BlindedElement CS))
    (evaluationElements : List (PreparedEvaluationElement CS)) :
    T (VoprfServerBatchEvaluateResult CS × σ) := do
  let (proof, rng) ← generateProof CS rng self.sk CS.group.baseElem self.pk
    (blindedElements.map fun element => element.value)
    (evaluationElements.map fun element => element.inner.value) .Voprf
  pure (⟨evaluationElements.map fun element => ⟨element.inner.value⟩, proof⟩, rng)

/-- `src/voprf.rs:291-313` (`batch_blind_evaluate`). -/
def batchBlindEvaluate {σ : Type} [RngCore σ] (self : VoprfServer CS) (rng : σ)
    (blindedElements : List (BlindedElement CS)) : T (VoprfServerBatchEvaluateResult CS × σ) := do
  let prepared ← T.collect (blindedElements.map (prepareItem self))
  batchBlindEvaluateFinish self rng blindedElements prepared

/-- `src/voprf.rs:258-282` (`blind_evaluate`). -/
def blindEvaluate {σ : Type} [RngCore σ] (self : VoprfServer CS) (rng : σ)
    (b : BlindedElement CS) : T (VoprfServerEvaluateResult CS × σ) := do
  let prepared ← prepareItem self b
  let (r, rng) ← T.unwrap (batchBlindEvaluateFinish self rng [b] [prepared])
  let message ← T.check (Res.unwrapOption r.messages.head?)
  pure (⟨message, r.proof⟩, rng)

/-- `src/voprf.rs:380-390` (`VoprfServer::evaluate`). -/
def evaluate (self : VoprfServer CS) (input : Bytes) : T Bytes :=
  OprfServer.evaluateIn CS .Voprf self.sk input

end VoprfServer

/-! ## `src/poprf.rs` -/

namespace Poprf

/-- The hash of the info, `src/poprf.rs:607-620` and `645-657`. -/
def hashInfo (CS : CipherSuite) (info : Option Bytes) : T CS.Scalar := do
  let info := info.getD []
  let infoLen ← T.check (Res.mapErr .Info (i2osp2 info.length))
  let framedInfo := [STR_INFO, infoLen, info]
  let dst ← T.check (Dst.new CS STR_HASH_TO_SCALAR .Poprf)
  T.callRes .hashToScalar (lens framedInfo)
    (Res.unwrapExcept (CS.group.hashToScalar CS.hash framedInfo dst.asDst))

/-- `src/poprf.rs:598-630` (`compute_tweaked_key`). -/
def computeTweakedKey (CS : CipherSuite) (pk : CS.Elem) (info : Option Bytes) : T CS.Elem := do
  let m ← hashInfo CS info
  let t ← mul CS CS.group.baseElem m
  let tweakedKey ← add CS t pk
  let zero ← T.test .isIdentityElem (CS.group.isIdentityElem tweakedKey)
  match zero with
  | true => T.check (Res.err .Protocol)
  | false => pure tweakedKey

/-- `src/poprf.rs:636-666` (`compute_tweak`). -/
def computeTweak (CS : CipherSuite) (sk : CS.Scalar) (info : Option Bytes) : T CS.Scalar := do
  let m ← hashInfo CS info
  let t ← T.call .scalarAdd [] (CS.group.scalarAdd sk m)
  let zero ← T.test .isZeroScalar (CS.group.isZeroScalar t)
  match zero with
  | true => T.check (Res.err .Protocol)
  | false => pure t

/-- `src/poprf.rs:736-778` (`finalize_after_unblind`), for one item. -/
def finalizeItem (CS : CipherSuite) (input info : Bytes) (unblinded : T CS.Elem) : T Bytes := do
  let unblindedElement ← unblinded
  let inputLen ← T.check (Res.mapErr .Input (i2osp2 input.length))
  let infoLen ← T.check (Res.mapErr .Info (i2osp2 info.length))
  let bytes ← ser CS unblindedElement
  digest CS [inputLen, input, infoLen, info, elemLenBytes CS, bytes, STR_FINALIZE]

end Poprf

namespace PoprfClient

/-- `src/poprf.rs:91-97` (`PoprfClient::blind`). -/
def blindInput (CS : CipherSuite) {σ : Type} [RngCore σ] (input : Bytes) (rng : σ) :
    T (PoprfClientBlindResult CS × σ) := do
  let (blind, rng) ← T.callRes .randomScalar [] (Res.ofLoop (CS.group.randomScalar rng))
  let blindedElement ← deterministicBlindUnchecked CS input blind .Poprf
  pure ({ state := { blind := blind, blindedElement := blindedElement }, message := ⟨blindedElement⟩ }, rng)

/-- `src/poprf.rs:169-187` (`PoprfClient::batch_finalize`). -/
def batchFinalize (inputs : List Bytes) (clients : List (PoprfClient CS))
    (messages : List (EvaluationElement CS)) (proof : Proof CS) (pk : CS.Elem)
    (info : Option Bytes) : T (List (T Bytes)) := do
  let tweakedKey ← Poprf.computeTweakedKey CS pk (some (info.getD []))
  verifyProof CS CS.group.baseElem tweakedKey (messages.map fun e => e.value)
    (clients.map fun c => c.blindedElement) proof .Poprf
  let unblinded := (clients.map fun c => c.blind).zip messages
  let _ ← T.check (if unblinded.length ≠ inputs.length then Res.err .Batch else Res.ok ())
  pure ((unblinded.zip inputs).map fun ((blind, e), input) =>
    Poprf.finalizeItem CS input (info.getD []) (unblind blind e.value))

/-- `src/poprf.rs:141-155` (`PoprfClient::finalize`). -/
def finalize (self : PoprfClient CS) (input : Bytes) (e : EvaluationElement CS)
    (proof : Proof CS) (pk : CS.Elem) (info : Option Bytes) : T Bytes := do
  let items ← batchFinalize [input] [self] [e] proof pk info
  let item ← T.check (Res.unwrapOption items.head?)
  item

end PoprfClient

namespace PoprfServer

/-- `src/poprf.rs:233-236` (`PoprfServer::new_from_seed`). -/
def newFromSeed (CS : CipherSuite) (seed info : Bytes) : T (PoprfServer CS) := do
  let (sk, pk) ← deriveKeypair CS seed info .Poprf
  pure ⟨sk, pk⟩

/-- `src/poprf.rs:205-210` (`PoprfServer::new`). -/
def new (CS : CipherSuite) {σ : Type} [RngCore σ] (rng : σ) : T (PoprfServer CS × σ) := do
  let (seed, rng) ← T.call .fillBytes [CS.group.scalarLen] (RngCore.fillBytes rng CS.group.scalarLen)
  let s ← newFromSeed CS seed []
  pure (s, rng)

/-- `src/poprf.rs:218-222` (`PoprfServer::new_with_key`). -/
def newWithKey (CS : CipherSuite) (key : Bytes) : T (PoprfServer CS) := do
  let sk ← T.callRes .deserializeScalar (lens [key]) (Res.ofExcept (CS.group.deserializeScalar key))
  let pk ← mul CS CS.group.baseElem sk
  pure ⟨sk, pk⟩

/-- `src/poprf.rs:330-350` (`batch_blind_evaluate_prepare`), one item of the iterator. -/
def prepareItem (tweak : CS.Scalar) (b : BlindedElement CS) : T (PreparedEvaluationElement CS) := do
  let v ← unblind tweak b.value
  pure ⟨⟨v⟩⟩

/-- `src/poprf.rs:359-399` (`batch_blind_evaluate_finish`). -/
def batchBlindEvaluateFinish {σ : Type} [RngCore σ] (rng : σ)
    (blindedElements : List (BlindedElement CS))
    (prepared : List (PreparedEvaluationElement CS)) (tweak : CS.Scalar) :
    T (PoprfServerBatchEvaluateResult CS × σ) := do
  let tweakedKey ← mul CS CS.group.baseElem tweak
  let (proof, rng) ← generateProof CS rng tweak CS.group.baseElem tweakedKey
    (prepared.map fun element => element.inner.value)
    (blindedElements.map fun element => element.value) .Poprf
  pure (⟨prepared.map fun element => ⟨element.inner.value⟩, proof⟩, rng)

/-- `src/poprf.rs:289-320` (`batch_blind_evaluate`). -/
def batchBlindEvaluate {σ : Type} [RngCore σ] (self : PoprfServer CS) (rng : σ)
    (blindedElements : List (BlindedElement CS)) (info : Option Bytes) :
    T (PoprfServerBatchEvaluateResult CS × σ) := do
  let tweak ← Poprf.computeTweak CS self.sk info
  let prepared ← T.collect (blindedElements.map (prepareItem tweak))
  T.unwrap (batchBlindEvaluateFinish rng blindedElements prepared tweak)

/-- `src/poprf.rs:251-280` (`blind_evaluate`). -/
def blindEvaluate {σ : Type} [RngCore σ] (self : PoprfServer CS) (rng : σ)
    (b : BlindedElement CS) (info : Option Bytes) : T (PoprfServerEvaluateResult CS × σ) := do
  let tweak ← Poprf.computeTweak CS self.sk info
  let prepared ← prepareItem tweak b
  let (r, rng) ← T.unwrap (batchBlindEvaluateFinish rng [b] [prepared] tweak)
  let message ← T.check (Res.unwrapOption r.messages.head?)
  pure (⟨message, r.proof⟩, rng)

/-- `src/poprf.rs:405-422` (`PoprfServer::evaluate`). -/
def evaluate (self : PoprfServer CS) (input : Bytes) (info : Option Bytes) : T Bytes := do
  let P ← hashToGroup CS input .Poprf
  let zero ← T.test .isIdentityElem (CS.group.isIdentityElem P)
  match zero with
  | true => T.check (Res.err .Input)
  | false => do
    let tweak ← Poprf.computeTweak CS self.sk info
    let Q ← unblind tweak P
    let issued ← ser CS Q
    serverEvaluateHashInput CS input info issued

end PoprfServer

end Voprf.Leak
