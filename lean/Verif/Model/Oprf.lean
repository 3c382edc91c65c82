import Verif.Model.Common

/-!
# Model of `src/oprf.rs` (base mode)
-/

namespace Voprf

/-- `src/oprf.rs:47-54` (`OprfClient`). -/
@[ext] structure OprfClient (CS : CipherSuite) where
  blind : CS.Scalar

/-- `src/oprf.rs:65-72` (`OprfServer`). -/
@[ext] structure OprfServer (CS : CipherSuite) where
  sk : CS.Scalar

/-- `src/oprf.rs:234-243` (`OprfClientBlindResult`). -/
structure OprfClientBlindResult (CS : CipherSuite) where
  state : OprfClient CS
  message : BlindedElement CS

variable {CS : CipherSuite}

namespace Oprf

/-- `src/oprf.rs:256-284` (`finalize_after_unblind`), the closure applied to one item. The unblinded
element is produced lazily by the preceding iterator, hence the `Res` argument. -/
def finalizeItem (CS : CipherSuite) (item : Bytes × Res CS.Elem) : Res Bytes := do
  let (input, unblinded) := item
  let unblindedElement ← unblinded
  let elemLen := elemLenBytes CS
  let inputLen ← Res.mapErr .Input (i2osp2 input.length)
  pure (Digest.new
    |>.chainUpdate inputLen
    |>.chainUpdate input
    |>.chainUpdate elemLen
    |>.chainUpdate (CS.group.serializeElem unblindedElement)
    |>.chainUpdate STR_FINALIZE
    |>.finalize CS.hash)

/-- `src/oprf.rs:256-284` (`finalize_after_unblind`). -/
def finalizeAfterUnblind (CS : CipherSuite) (items : List (Bytes × Res CS.Elem)) :
    List (Res Bytes) :=
  items.map (finalizeItem CS)

end Oprf

namespace OprfClient

/-- `src/oprf.rs:117-126` (`deterministic_blind_unchecked_inner`). -/
def deterministicBlindUncheckedInner (CS : CipherSuite) (input : Bytes) (blind : CS.Scalar) :
    Res (OprfClientBlindResult CS) := do
  let blindedElement ← Voprf.deterministicBlindUnchecked CS input blind .Oprf
  pure { state := { blind := blind }, message := ⟨blindedElement⟩ }

/-- `src/oprf.rs:109-114` (`deterministic_blind_unchecked`, feature `danger`). -/
def deterministicBlindUnchecked (CS : CipherSuite) (input : Bytes) (blind : CS.Scalar) :
    Res (OprfClientBlindResult CS) :=
  deterministicBlindUncheckedInner CS input blind

/-- `src/oprf.rs:89-95` (`OprfClient::blind`). -/
def blindInput (CS : CipherSuite) {σ : Type} [RngCore σ] (input : Bytes) (rng : σ) :
    Res (OprfClientBlindResult CS × σ) := do
  let (blind, rng) ← Res.ofLoop (CS.group.randomScalar rng)
  let r ← deterministicBlindUncheckedInner CS input blind
  pure (r, rng)

/-- `src/oprf.rs:133-142` (`OprfClient::finalize`). Note that the multiplication by the inverse happens
before the iterator is built. -/
def finalize (self : OprfClient CS) (input : Bytes) (evaluationElement : EvaluationElement CS) :
    Res Bytes := do
  let inv ← Res.unwrapOption (CS.group.invertScalar self.blind)
  let unblindedElement := CS.group.elemMul evaluationElement.value inv
  let outputs := Oprf.finalizeAfterUnblind CS [(input, .ok unblindedElement)]
  let out ← Res.unwrapOption outputs.head?
  out

/-- `src/oprf.rs:152-154` (`get_blind`, feature `danger`). -/
def getBlind (self : OprfClient CS) : CS.Scalar := self.blind

end OprfClient

namespace OprfServer

/-- `src/oprf.rs:192-195` (`OprfServer::new_from_seed`). -/
def newFromSeed (CS : CipherSuite) (seed info : Bytes) : Res (OprfServer CS) := do
  let sk ← deriveKeyInternal CS seed info .Oprf
  pure ⟨sk⟩

/-- `src/oprf.rs:166-170` (`OprfServer::new`). -/
def new (CS : CipherSuite) {σ : Type} [RngCore σ] (rng : σ) : Res (OprfServer CS × σ) := do
  let (seed, rng) := RngCore.fillBytes rng CS.group.scalarLen
  let s ← newFromSeed CS seed []
  pure (s, rng)

/-- `src/oprf.rs:178-181` (`OprfServer::new_with_key`). -/
def newWithKey (CS : CipherSuite) (privateKeyBytes : Bytes) : Res (OprfServer CS) := do
  let sk ← Res.ofExcept (CS.group.deserializeScalar privateKeyBytes)
  pure ⟨sk⟩

/-- `src/oprf.rs:206-208` (`OprfServer::blind_evaluate`). -/
def blindEvaluate (self : OprfServer CS) (blindedElement : BlindedElement CS) :
    EvaluationElement CS :=
  ⟨CS.group.elemMul blindedElement.value self.sk⟩

/-- `src/oprf.rs:214-224` (`OprfServer::evaluate`). -/
def evaluate (self : OprfServer CS) (input : Bytes) : Res Bytes := do
  let inputElement ← hashToGroup CS input .Oprf
  if CS.group.isIdentityElem inputElement then
    Res.err .Input
  else
    let evaluatedElement := CS.group.elemMul inputElement self.sk
    let issuedElement := CS.group.serializeElem evaluatedElement
    serverEvaluateHashInput CS input none issuedElement

end OprfServer

end Voprf
