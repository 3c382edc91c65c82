import Verif.Model.Serialization
import Verif.Model.Iter

/-!
# Model of `#[derive_where(ZeroizeOnDrop)]`

For each type deriving `ZeroizeOnDrop`: the value its memory holds after `Drop::drop`.  The derive calls
`Zeroize::zeroize` on every field (for a field that is itself `ZeroizeOnDrop`, its own drop does it).
Copies the compiler or the caller may have made are not modelled.
-/

namespace Voprf

variable {CS : CipherSuite}

/-- `src/oprf.rs:40` -/
def OprfClient.dropped (x : OprfClient CS) : OprfClient CS := ⟨CS.group.scalarZeroize x.blind⟩
/-- `src/oprf.rs:58` -/
def OprfServer.dropped (x : OprfServer CS) : OprfServer CS := ⟨CS.group.scalarZeroize x.sk⟩
/-- `src/voprf.rs:38` -/
def VoprfClient.dropped (x : VoprfClient CS) : VoprfClient CS :=
  ⟨CS.group.scalarZeroize x.blind, CS.group.elemZeroize x.blindedElement⟩
/-- `src/voprf.rs:58` -/
def VoprfServer.dropped (x : VoprfServer CS) : VoprfServer CS :=
  ⟨CS.group.scalarZeroize x.sk, CS.group.elemZeroize x.pk⟩
/-- `src/poprf.rs:38` -/
def PoprfClient.dropped (x : PoprfClient CS) : PoprfClient CS :=
  ⟨CS.group.scalarZeroize x.blind, CS.group.elemZeroize x.blindedElement⟩
/-- `src/poprf.rs:58` -/
def PoprfServer.dropped (x : PoprfServer CS) : PoprfServer CS :=
  ⟨CS.group.scalarZeroize x.sk, CS.group.elemZeroize x.pk⟩
/-- `src/common.rs:72` -/
def BlindedElement.dropped (x : BlindedElement CS) : BlindedElement CS := ⟨CS.group.elemZeroize x.value⟩
/-- `src/common.rs:89` -/
def EvaluationElement.dropped (x : EvaluationElement CS) : EvaluationElement CS :=
  ⟨CS.group.elemZeroize x.value⟩
/-- `src/common.rs:106` -/
def PreparedEvaluationElement.dropped (x : PreparedEvaluationElement CS) :
    PreparedEvaluationElement CS := ⟨x.inner.dropped⟩
/-- `src/common.rs:120` -/
def Proof.dropped (x : Proof CS) : Proof CS :=
  ⟨CS.group.scalarZeroize x.cScalar, CS.group.scalarZeroize x.sScalar⟩
/-- `src/poprf.rs:538` -/
def PoprfPreparedTweak.dropped (x : PoprfPreparedTweak CS) : PoprfPreparedTweak CS :=
  ⟨CS.group.scalarZeroize x.value⟩

/-! The iterators of `batch_blind_evaluate_prepare` are `core::iter` adapters around a copy of a scalar.  Neither the adapters
nor the scalars of the shipped groups (which are `Copy`) implement `Drop`: dropping such an iterator changes nothing in its
storage. -/

/-- `src/voprf.rs:453-461` -/
def VoprfPrepared.dropped {I : Type} (x : Lazy.VoprfPrepared CS I) : Lazy.VoprfPrepared CS I := x
/-- `src/poprf.rs:527-535` -/
def PoprfPrepared.dropped {I : Type} (x : Lazy.PoprfPrepared CS I) : Lazy.PoprfPrepared CS I := x

end Voprf
