import Verif.Model.Common

/-!
# Model of `src/poprf.rs` (partially oblivious, verifiable mode)
-/

namespace Voprf

/-- `src/poprf.rs:45-54` (`PoprfClient`). -/
@[ext] structure PoprfClient (CS : CipherSuite) where
  blind : CS.Scalar
  blindedElement : CS.Elem

/-- `src/poprf.rs:65-74` (`PoprfServer`). -/
@[ext] structure PoprfServer (CS : CipherSuite) where
  sk : CS.Scalar
  pk : CS.Elem

/-- `src/poprf.rs:483-492` (`PoprfClientBlindResult`). -/
structure PoprfClientBlindResult (CS : CipherSuite) where
  state : PoprfClient CS
  message : BlindedElement CS

/-- `src/poprf.rs:500-509` (`PoprfServerEvaluateResult`). -/
structure PoprfServerEvaluateResult (CS : CipherSuite) where
  message : EvaluationElement CS
  proof : Proof CS

/-- `src/poprf.rs:514-523` (`PoprfServerBatchEvaluateResult`) and `src/poprf.rs:577-587`
(`PoprfServerBatchEvaluateFinishResult`, whose `messages` is an iterator). -/
structure PoprfServerBatchEvaluateResult (CS : CipherSuite) where
  messages : List (EvaluationElement CS)
  proof : Proof CS

/-- `src/poprf.rs:545-551` (`PoprfPreparedTweak`). -/
@[ext] structure PoprfPreparedTweak (CS : CipherSuite) where
  value : CS.Scalar

/-- `src/poprf.rs:556-565` (`PoprfServerBatchEvaluatePrepareResult`); the prepared elements are a lazy
iterator whose closure calls `invert_scalar`. -/
structure PoprfServerBatchEvaluatePrepareResult (CS : CipherSuite) where
  preparedEvaluationElements : List (Res (PreparedEvaluationElement CS))
  preparedTweak : PoprfPreparedTweak CS

variable {CS : CipherSuite}

namespace Poprf

/-- `src/poprf.rs:598-630` (`compute_tweaked_key`). -/
def computeTweakedKey (CS : CipherSuite) (pk : CS.Elem) (info : Option Bytes) : Res CS.Elem := do
  let info := info.getD []
  let infoLen ← Res.mapErr .Info (i2osp2 info.length)
  let framedInfo := [STR_INFO, infoLen, info]
  let dst ← Dst.new CS STR_HASH_TO_SCALAR .Poprf
  let m ← Res.unwrapExcept (CS.group.hashToScalar CS.hash framedInfo dst.asDst)
  let t := CS.group.elemMul CS.group.baseElem m
  let tweakedKey := CS.group.elemAdd t pk
  match CS.group.isIdentityElem tweakedKey with
  | true => Res.err .Protocol
  | false => pure tweakedKey

/-- `src/poprf.rs:636-666` (`compute_tweak`). -/
def computeTweak (CS : CipherSuite) (sk : CS.Scalar) (info : Option Bytes) : Res CS.Scalar := do
  let info := info.getD []
  let infoLen ← Res.mapErr .Info (i2osp2 info.length)
  let framedInfo := [STR_INFO, infoLen, info]
  let dst ← Dst.new CS STR_HASH_TO_SCALAR .Poprf
  let m ← Res.unwrapExcept (CS.group.hashToScalar CS.hash framedInfo dst.asDst)
  let t := CS.group.scalarAdd sk m
  match CS.group.isZeroScalar t with
  | true => Res.err .Protocol
  | false => pure t

/-- `src/poprf.rs:686-725` (`poprf_unblind`). -/
def poprfUnblind (clients : List (PoprfClient CS)) (messages : List (EvaluationElement CS))
    (pk : CS.Elem) (proof : Proof CS) (info : Option Bytes) : Res (List (Res CS.Elem)) := do
  let info := info.getD []
  let tweakedKey ← computeTweakedKey CS pk (some info)
  let g := CS.group.baseElem
  let blinds := clients.map (fun x => x.blind)
  let evaluationElements := messages.map (fun element => element.value)
  let blindedElements := clients.map (fun client => client.blindedElement)
  verifyProof CS g tweakedKey evaluationElements blindedElements proof .Poprf
  pure ((blinds.zip messages).map fun (blind, x) => do
    let inv ← Res.unwrapOption (CS.group.invertScalar blind)
    pure (CS.group.elemMul x.value inv))

/-- `src/poprf.rs:736-778` (`finalize_after_unblind`), the closure applied to one item. -/
def finalizeItem (CS : CipherSuite) (item : (Res CS.Elem × Bytes) × Bytes) : Res Bytes := do
  let ((unblinded, input), info) := item
  let unblindedElement ← unblinded
  let elemLen := elemLenBytes CS
  let inputLen ← Res.mapErr .Input (i2osp2 input.length)
  let infoLen ← Res.mapErr .Info (i2osp2 info.length)
  pure (Digest.new
    |>.chainUpdate inputLen
    |>.chainUpdate input
    |>.chainUpdate infoLen
    |>.chainUpdate info
    |>.chainUpdate elemLen
    |>.chainUpdate (CS.group.serializeElem unblindedElement)
    |>.chainUpdate STR_FINALIZE
    |>.finalize CS.hash)

/-- `src/poprf.rs:736-778` (`finalize_after_unblind`). `zip(iter::repeat(info))` pairs every item with
`info`. -/
def finalizeAfterUnblind (CS : CipherSuite) (unblindedElements : List (Res CS.Elem))
    (inputs : List Bytes) (info : Option Bytes) : Res (List (Res Bytes)) :=
  if unblindedElements.length ≠ inputs.length then
    Res.err .Batch
  else
    let info := info.getD []
    Res.ok (((unblindedElements.zip inputs).map fun p => (p, info)).map (finalizeItem CS))

end Poprf

namespace PoprfClient

/-- `src/poprf.rs:119-131` (`deterministic_blind_unchecked_inner`). -/
def deterministicBlindUncheckedInner (CS : CipherSuite) (input : Bytes) (blind : CS.Scalar) :
    Res (PoprfClientBlindResult CS) := do
  let blindedElement ← Voprf.deterministicBlindUnchecked CS input blind .Poprf
  pure { state := { blind := blind, blindedElement := blindedElement },
         message := ⟨blindedElement⟩ }

/-- `src/poprf.rs:111-116` (`deterministic_blind_unchecked`, feature `danger`). -/
def deterministicBlindUnchecked (CS : CipherSuite) (input : Bytes) (blind : CS.Scalar) :
    Res (PoprfClientBlindResult CS) :=
  deterministicBlindUncheckedInner CS input blind

/-- `src/poprf.rs:91-97` (`PoprfClient::blind`). -/
def blindInput (CS : CipherSuite) {σ : Type} [RngCore σ] (input : Bytes) (rng : σ) :
    Res (PoprfClientBlindResult CS × σ) := do
  let (blind, rng) ← Res.ofLoop (CS.group.randomScalar rng)
  let r ← deterministicBlindUncheckedInner CS input blind
  pure (r, rng)

/-- `src/poprf.rs:169-187` (`PoprfClient::batch_finalize`). -/
def batchFinalize (inputs : List Bytes) (clients : List (PoprfClient CS))
    (messages : List (EvaluationElement CS)) (proof : Proof CS) (pk : CS.Elem)
    (info : Option Bytes) : Res (List (Res Bytes)) := do
  let unblindedElements ← Poprf.poprfUnblind clients messages pk proof info
  Poprf.finalizeAfterUnblind CS unblindedElements inputs info

/-- `src/poprf.rs:141-155` (`PoprfClient::finalize`). -/
def finalize (self : PoprfClient CS) (input : Bytes) (evaluationElement : EvaluationElement CS)
    (proof : Proof CS) (pk : CS.Elem) (info : Option Bytes) : Res Bytes := do
  let batchResult ← batchFinalize [input] [self] [evaluationElement] proof pk info
  let out ← Res.unwrapOption batchResult.head?
  out

end PoprfClient

namespace PoprfServer

/-- `src/poprf.rs:233-236` (`PoprfServer::new_from_seed`). -/
def newFromSeed (CS : CipherSuite) (seed info : Bytes) : Res (PoprfServer CS) := do
  let (sk, pk) ← deriveKeypair CS seed info .Poprf
  pure ⟨sk, pk⟩

/-- `src/poprf.rs:205-210` (`PoprfServer::new`). -/
def new (CS : CipherSuite) {σ : Type} [RngCore σ] (rng : σ) : Res (PoprfServer CS × σ) := do
  let (seed, rng) := RngCore.fillBytes rng CS.group.scalarLen
  let s ← newFromSeed CS seed []
  pure (s, rng)

/-- `src/poprf.rs:218-222` (`PoprfServer::new_with_key`). -/
def newWithKey (CS : CipherSuite) (key : Bytes) : Res (PoprfServer CS) := do
  let sk ← Res.ofExcept (CS.group.deserializeScalar key)
  let pk := CS.group.elemMul CS.group.baseElem sk
  pure ⟨sk, pk⟩

/-- `src/poprf.rs:330-350` (`PoprfServer::batch_blind_evaluate_prepare`). -/
def batchBlindEvaluatePrepare (self : PoprfServer CS) (blindedElements : List (BlindedElement CS))
    (info : Option Bytes) : Res (PoprfServerBatchEvaluatePrepareResult CS) := do
  let tweak ← Poprf.computeTweak CS self.sk info
  pure {
    preparedEvaluationElements := blindedElements.map fun blindedElement => do
      let inv ← Res.unwrapOption (CS.group.invertScalar tweak)
      pure ⟨⟨CS.group.elemMul blindedElement.value inv⟩⟩
    preparedTweak := ⟨tweak⟩ }

/-- `src/poprf.rs:359-399` (`PoprfServer::batch_blind_evaluate_finish`, an associated function). -/
def batchBlindEvaluateFinish {σ : Type} [RngCore σ] (rng : σ)
    (blindedElements : List (BlindedElement CS))
    (preparedEvaluationElements : List (PreparedEvaluationElement CS))
    (preparedTweak : PoprfPreparedTweak CS) :
    Res (PoprfServerBatchEvaluateResult CS × σ) := do
  let g := CS.group.baseElem
  let tweak := preparedTweak.value
  let tweakedKey := CS.group.elemMul g tweak
  let (proof, rng) ← generateProof CS rng tweak g tweakedKey
    (preparedEvaluationElements.map fun element => element.inner.value)
    (blindedElements.map fun element => element.value)
    .Poprf
  let messages := preparedEvaluationElements.map fun element => ⟨element.inner.value⟩
  pure (⟨messages, proof⟩, rng)

/-- `src/poprf.rs:289-320` (`PoprfServer::batch_blind_evaluate`, feature `alloc`); note the
`.unwrap()` on line 315. -/
def batchBlindEvaluate {σ : Type} [RngCore σ] (self : PoprfServer CS) (rng : σ)
    (blindedElements : List (BlindedElement CS)) (info : Option Bytes) :
    Res (PoprfServerBatchEvaluateResult CS × σ) := do
  let prep ← self.batchBlindEvaluatePrepare blindedElements info
  let preparedEvaluationElements ← Res.collect prep.preparedEvaluationElements
  let (r, rng) ← Res.unwrap
    (batchBlindEvaluateFinish rng blindedElements preparedEvaluationElements prep.preparedTweak)
  pure (⟨r.messages, r.proof⟩, rng)

/-- `src/poprf.rs:251-280` (`PoprfServer::blind_evaluate`). -/
def blindEvaluate {σ : Type} [RngCore σ] (self : PoprfServer CS) (rng : σ)
    (blindedElement : BlindedElement CS) (info : Option Bytes) :
    Res (PoprfServerEvaluateResult CS × σ) := do
  let prep ← self.batchBlindEvaluatePrepare [blindedElement] info
  let next ← Res.unwrapOption prep.preparedEvaluationElements.head?
  let preparedEvaluationElement ← next
  let preparedEvaluationElements := [preparedEvaluationElement]
  let (r, rng) ← Res.unwrap
    (batchBlindEvaluateFinish rng [blindedElement] preparedEvaluationElements prep.preparedTweak)
  let message ← Res.unwrapOption r.messages.head?
  pure (⟨message, r.proof⟩, rng)

/-- `src/poprf.rs:405-422` (`PoprfServer::evaluate`). -/
def evaluate (self : PoprfServer CS) (input : Bytes) (info : Option Bytes) : Res Bytes := do
  let inputElement ← hashToGroup CS input .Poprf
  if CS.group.isIdentityElem inputElement then
    Res.err .Input
  else
    let tweak ← Poprf.computeTweak CS self.sk info
    let inv ← Res.unwrapOption (CS.group.invertScalar tweak)
    let evaluatedElement := CS.group.elemMul inputElement inv
    let issuedElement := CS.group.serializeElem evaluatedElement
    serverEvaluateHashInput CS input info issuedElement

/-- `src/poprf.rs:425-427` (`PoprfServer::get_public_key`). -/
def getPublicKey (self : PoprfServer CS) : CS.Elem := self.pk

end PoprfServer

/-- `src/poprf.rs:442-444` (`BlindedElement::from_value_unchecked`, feature `danger`). -/
def BlindedElement.fromValueUnchecked (v : CS.Elem) : BlindedElement CS := ⟨v⟩
/-- `src/poprf.rs:448-450` (`BlindedElement::value`, feature `danger`). -/
def BlindedElement.getValue (e : BlindedElement CS) : CS.Elem := e.value
/-- `src/poprf.rs:465-467` (`EvaluationElement::from_value_unchecked`, feature `danger`). -/
def EvaluationElement.fromValueUnchecked (v : CS.Elem) : EvaluationElement CS := ⟨v⟩
/-- `src/poprf.rs:471-473` (`EvaluationElement::value`, feature `danger`). -/
def EvaluationElement.getValue (e : EvaluationElement CS) : CS.Elem := e.value

end Voprf
