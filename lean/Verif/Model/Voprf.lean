import Verif.Model.Common

/-!
# Model of `src/voprf.rs` (verifiable mode)
-/

namespace Voprf

/-- `src/voprf.rs:45-54` (`VoprfClient`). -/
@[ext] structure VoprfClient (CS : CipherSuite) where
  blind : CS.Scalar
  blindedElement : CS.Elem

/-- `src/voprf.rs:65-74` (`VoprfServer`). -/
@[ext] structure VoprfServer (CS : CipherSuite) where
  sk : CS.Scalar
  pk : CS.Elem

/-- `src/voprf.rs:405-414` (`VoprfClientBlindResult`). -/
structure VoprfClientBlindResult (CS : CipherSuite) where
  state : VoprfClient CS
  message : BlindedElement CS

/-- `src/voprf.rs:426-435` (`VoprfServerEvaluateResult`). -/
structure VoprfServerEvaluateResult (CS : CipherSuite) where
  message : EvaluationElement CS
  proof : Proof CS

/-- `src/voprf.rs:440-449` (`VoprfServerBatchEvaluateResult`) and `src/voprf.rs:473-483`
(`VoprfServerBatchEvaluateFinishResult`, whose `messages` is an iterator). -/
structure VoprfServerBatchEvaluateResult (CS : CipherSuite) where
  messages : List (EvaluationElement CS)
  proof : Proof CS

variable {CS : CipherSuite}

namespace Verifiable

/-- `src/voprf.rs:507-542` (`verifiable_unblind`). Unblinded elements are computed lazily, so a panic
of `invert_scalar` happens when the item is requested. -/
def verifiableUnblind (clients : List (VoprfClient CS)) (messages : List (EvaluationElement CS))
    (pk : CS.Elem) (proof : Proof CS) : Res (List (Res CS.Elem)) := do
  let g := CS.group.baseElem
  let blinds := clients.map (fun x => x.blind)
  let evaluationElements := messages.map (fun element => element.value)
  let blindedElements := clients.map (fun client => client.blindedElement)
  verifyProof CS g pk blindedElements evaluationElements proof .Voprf
  pure ((blinds.zip messages).map fun (blind, x) => do
    let inv ← Res.unwrapOption (CS.group.invertScalar blind)
    pure (CS.group.elemMul x.value inv))

/-- `src/voprf.rs:550-577` (`finalize_after_unblind`), the closure applied to one item. -/
def finalizeItem (CS : CipherSuite) (item : Bytes × Res CS.Elem) : Res Bytes := do
  let (input, unblinded) := item
  let unblindedElement ← unblinded
  let elemLen := elemLenBytes CS
  let inputLen ← Res.mapErr .Input (i2osp2 input.length)
  pure (Digest.new
    |>.chainUpdate inputLen
    |>.chainUpdate input
    |>.chainUpdate elemLen
    |>.chainUpdate (CS.group.serializeElem unblindedElement)
    |>.chainUpdate STR_FINALIZE
    |>.finalize CS.hash)

/-- `src/voprf.rs:550-577` (`finalize_after_unblind`). -/
def finalizeAfterUnblind (CS : CipherSuite) (items : List (Bytes × Res CS.Elem)) :
    List (Res Bytes) :=
  items.map (finalizeItem CS)

end Verifiable

namespace VoprfClient

/-- `src/voprf.rs:119-131` (`deterministic_blind_unchecked_inner`). -/
def deterministicBlindUncheckedInner (CS : CipherSuite) (input : Bytes) (blind : CS.Scalar) :
    Res (VoprfClientBlindResult CS) := do
  let blindedElement ← Voprf.deterministicBlindUnchecked CS input blind .Voprf
  pure { state := { blind := blind, blindedElement := blindedElement },
         message := ⟨blindedElement⟩ }

/-- `src/voprf.rs:111-116` (`deterministic_blind_unchecked`, feature `danger`). -/
def deterministicBlindUnchecked (CS : CipherSuite) (input : Bytes) (blind : CS.Scalar) :
    Res (VoprfClientBlindResult CS) :=
  deterministicBlindUncheckedInner CS input blind

/-- `src/voprf.rs:91-97` (`VoprfClient::blind`). -/
def blindInput (CS : CipherSuite) {σ : Type} [RngCore σ] (input : Bytes) (rng : σ) :
    Res (VoprfClientBlindResult CS × σ) := do
  let (blind, rng) ← Res.ofLoop (CS.group.randomScalar rng)
  let r ← deterministicBlindUncheckedInner CS input blind
  pure (r, rng)

/-- `src/voprf.rs:164-186` (`VoprfClient::batch_finalize`). The resulting iterator is the list of its
lazily computed items. -/
def batchFinalize (inputs : List Bytes) (clients : List (VoprfClient CS))
    (messages : List (EvaluationElement CS)) (proof : Proof CS) (pk : CS.Elem) :
    Res (List (Res Bytes)) := do
  let unblindedElements ← Verifiable.verifiableUnblind clients messages pk proof
  let inputsAndUnblindedElements := inputs.zip unblindedElements
  pure (Verifiable.finalizeAfterUnblind CS inputsAndUnblindedElements)

/-- `src/voprf.rs:139-152` (`VoprfClient::finalize`). -/
def finalize (self : VoprfClient CS) (input : Bytes) (evaluationElement : EvaluationElement CS)
    (proof : Proof CS) (pk : CS.Elem) : Res Bytes := do
  let batchResult ← batchFinalize [input] [self] [evaluationElement] proof pk
  let out ← Res.unwrapOption batchResult.head?
  out

end VoprfClient

namespace VoprfServer

/-- `src/voprf.rs:244-247` (`VoprfServer::new_from_seed`). -/
def newFromSeed (CS : CipherSuite) (seed info : Bytes) : Res (VoprfServer CS) := do
  let (sk, pk) ← deriveKeypair CS seed info .Voprf
  pure ⟨sk, pk⟩

/-- `src/voprf.rs:216-221` (`VoprfServer::new`). -/
def new (CS : CipherSuite) {σ : Type} [RngCore σ] (rng : σ) : Res (VoprfServer CS × σ) := do
  let (seed, rng) := RngCore.fillBytes rng CS.group.scalarLen
  let s ← newFromSeed CS seed []
  pure (s, rng)

/-- `src/voprf.rs:229-233` (`VoprfServer::new_with_key`). -/
def newWithKey (CS : CipherSuite) (key : Bytes) : Res (VoprfServer CS) := do
  let sk ← Res.ofExcept (CS.group.deserializeScalar key)
  let pk := CS.group.elemMul CS.group.baseElem sk
  pure ⟨sk, pk⟩

/-- `src/voprf.rs:319-331` (`VoprfServer::batch_blind_evaluate_prepare`). -/
def batchBlindEvaluatePrepare (self : VoprfServer CS) (blindedElements : List (BlindedElement CS)) :
    List (PreparedEvaluationElement CS) :=
  blindedElements.map fun blindedElement => ⟨⟨CS.group.elemMul blindedElement.value self.sk⟩⟩

/-- `src/voprf.rs:339-374` (`VoprfServer::batch_blind_evaluate_finish`). -/
def batchBlindEvaluateFinish {σ : Type} [RngCore σ] (self : VoprfServer CS) (rng : σ)
    (blindedElements : List (BlindedElement CS))
    (evaluationElements : List (PreparedEvaluationElement CS)) :
    Res (VoprfServerBatchEvaluateResult CS × σ) := do
  let g := CS.group.baseElem
  let (proof, rng) ← generateProof CS rng self.sk g self.pk
    (blindedElements.map fun element => element.value)
    (evaluationElements.map fun element => element.inner.value)
    .Voprf
  let messages := evaluationElements.map fun element => ⟨element.inner.value⟩
  pure (⟨messages, proof⟩, rng)

/-- `src/voprf.rs:291-313` (`VoprfServer::batch_blind_evaluate`, feature `alloc`). -/
def batchBlindEvaluate {σ : Type} [RngCore σ] (self : VoprfServer CS) (rng : σ)
    (blindedElements : List (BlindedElement CS)) :
    Res (VoprfServerBatchEvaluateResult CS × σ) := do
  let preparedEvaluationElements := self.batchBlindEvaluatePrepare blindedElements
  let (r, rng) ← self.batchBlindEvaluateFinish rng blindedElements preparedEvaluationElements
  pure (⟨r.messages, r.proof⟩, rng)

/-- `src/voprf.rs:258-282` (`VoprfServer::blind_evaluate`). The Rust function returns the value itself,
not a `Result`: the `Res.err` outcome does not occur because of the `unwrap`s. -/
def blindEvaluate {σ : Type} [RngCore σ] (self : VoprfServer CS) (rng : σ)
    (blindedElement : BlindedElement CS) : Res (VoprfServerEvaluateResult CS × σ) := do
  let preparedEvaluationElements := self.batchBlindEvaluatePrepare [blindedElement]
  let prepared ← Res.unwrapOption preparedEvaluationElements.head?
  let preparedEvaluationElement := [prepared]
  let (r, rng) ← Res.unwrap
    (self.batchBlindEvaluateFinish rng [blindedElement] preparedEvaluationElement)
  let message ← Res.unwrapOption r.messages.head?
  pure (⟨message, r.proof⟩, rng)

/-- `src/voprf.rs:380-390` (`VoprfServer::evaluate`). -/
def evaluate (self : VoprfServer CS) (input : Bytes) : Res Bytes := do
  let inputElement ← hashToGroup CS input .Voprf
  if CS.group.isIdentityElem inputElement then
    Res.err .Input
  else
    let evaluatedElement := CS.group.elemMul inputElement self.sk
    let issuedElement := CS.group.serializeElem evaluatedElement
    serverEvaluateHashInput CS input none issuedElement

/-- `src/voprf.rs:393-395` (`VoprfServer::get_public_key`). -/
def getPublicKey (self : VoprfServer CS) : CS.Elem := self.pk

end VoprfServer

end Voprf
