import Verif.Spec.Transcript
import Verif.Model.Oprf
import Verif.Model.Voprf
import Verif.Model.Poprf

/-!
# Exchanging the hash functions of a ciphersuite

`rehash CS hc hs` is the ciphersuite `CS` with its two group hashes replaced by arbitrary functions of a
domain-separation tag and a message.  Comparing two such suites that agree on some tags only shows which
tags a function of the API consults.  The `…View` functions list what a caller can read off a result.
-/

namespace Voprf.Spec

/-- `CS` with `hash_to_curve` and `hash_to_scalar` replaced by `hc tag message` and `hs tag message`. -/
def rehash (CS : CipherSuite) (hc : Bytes → Bytes → Except InternalError CS.Elem)
    (hs : Bytes → Bytes → Except InternalError CS.Scalar) : CipherSuite :=
  { CS with group := { CS.group with
      hashToCurve := fun _ xs ds => hc ds.flatten xs.flatten
      hashToScalar := fun _ xs ds => hs ds.flatten xs.flatten } }

/-- Two functions of a tag and a message agree on one tag. -/
def AgreeOn {α : Type} (tag : Bytes) (h h' : Bytes → Bytes → α) : Prop := ∀ x, h tag x = h' tag x

section
variable {CS : CipherSuite} {σ : Type}

/-- `state.blind`, `message`, the generator afterwards. -/
def oprfBlindView (r : OprfClientBlindResult CS × σ) : CS.Scalar × CS.Elem × σ :=
  (r.1.state.blind, r.1.message.value, r.2)

/-- `state.blind`, `state.blinded_element`, `message`, the generator afterwards. -/
def voprfBlindView (r : VoprfClientBlindResult CS × σ) : CS.Scalar × CS.Elem × CS.Elem × σ :=
  (r.1.state.blind, r.1.state.blindedElement, r.1.message.value, r.2)

/-- `state.blind`, `state.blinded_element`, `message`, the generator afterwards. -/
def poprfBlindView (r : PoprfClientBlindResult CS × σ) : CS.Scalar × CS.Elem × CS.Elem × σ :=
  (r.1.state.blind, r.1.state.blindedElement, r.1.message.value, r.2)

/-- The message, the two scalars of the proof, the generator afterwards. -/
def voprfEvalView (r : VoprfServerEvaluateResult CS × σ) : CS.Elem × CS.Scalar × CS.Scalar × σ :=
  (r.1.message.value, r.1.proof.cScalar, r.1.proof.sScalar, r.2)

/-- The message, the two scalars of the proof, the generator afterwards. -/
def poprfEvalView (r : PoprfServerEvaluateResult CS × σ) : CS.Elem × CS.Scalar × CS.Scalar × σ :=
  (r.1.message.value, r.1.proof.cScalar, r.1.proof.sScalar, r.2)

/-- The messages, the two scalars of the proof, the generator afterwards. -/
def voprfBatchView (r : VoprfServerBatchEvaluateResult CS × σ) :
    List CS.Elem × CS.Scalar × CS.Scalar × σ :=
  (r.1.messages.map (·.value), r.1.proof.cScalar, r.1.proof.sScalar, r.2)

/-- The messages, the two scalars of the proof, the generator afterwards. -/
def poprfBatchView (r : PoprfServerBatchEvaluateResult CS × σ) :
    List CS.Elem × CS.Scalar × CS.Scalar × σ :=
  (r.1.messages.map (·.value), r.1.proof.cScalar, r.1.proof.sScalar, r.2)

end

end Voprf.Spec
