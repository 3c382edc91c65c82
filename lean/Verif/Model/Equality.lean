import Verif.Model.Oprf
import Verif.Model.Voprf
import Verif.Model.Poprf

/-!
# The derived `PartialEq`, `Ord` and `Hash`

`derive_where(PartialEq)` compares all fields in order with `&&`.  The comparison of elements and scalars is that of
the group (for both shipped groups `==` is implemented by `ct_eq`).

`derive_where(Ord)` compares the fields in order until one differs; it exists for a suite whose scalars (and elements) are
ordered, like the scalars of the NIST curves.

`derive_where(Hash)` feeds the fields, in order, to the hasher.
-/

namespace Voprf

variable {CS : CipherSuite}

/-- `src/common.rs:73` -/
def BlindedElement.eq (a b : BlindedElement CS) : Bool := CS.group.elemCtEq a.value b.value

/-- `src/common.rs:90` -/
def EvaluationElement.eq (a b : EvaluationElement CS) : Bool := CS.group.elemCtEq a.value b.value

/-- `src/common.rs:107` -/
def PreparedEvaluationElement.eq (a b : PreparedEvaluationElement CS) : Bool := a.inner.eq b.inner

/-- `src/common.rs:121` -/
def Proof.eq (a b : Proof CS) : Bool :=
  CS.group.scalarCtEq a.cScalar b.cScalar && CS.group.scalarCtEq a.sScalar b.sScalar

/-- `src/oprf.rs:41` -/
def OprfClient.eq (a b : OprfClient CS) : Bool := CS.group.scalarCtEq a.blind b.blind

/-- `src/oprf.rs:59` -/
def OprfServer.eq (a b : OprfServer CS) : Bool := CS.group.scalarCtEq a.sk b.sk

/-- `src/voprf.rs:39` -/
def VoprfClient.eq (a b : VoprfClient CS) : Bool :=
  CS.group.scalarCtEq a.blind b.blind && CS.group.elemCtEq a.blindedElement b.blindedElement

/-- `src/voprf.rs:59` -/
def VoprfServer.eq (a b : VoprfServer CS) : Bool :=
  CS.group.scalarCtEq a.sk b.sk && CS.group.elemCtEq a.pk b.pk

/-- `src/poprf.rs:39` -/
def PoprfClient.eq (a b : PoprfClient CS) : Bool :=
  CS.group.scalarCtEq a.blind b.blind && CS.group.elemCtEq a.blindedElement b.blindedElement

/-- `src/poprf.rs:59` -/
def PoprfServer.eq (a b : PoprfServer CS) : Bool :=
  CS.group.scalarCtEq a.sk b.sk && CS.group.elemCtEq a.pk b.pk

/-- `src/poprf.rs:539` -/
def PoprfPreparedTweak.eq (a b : PoprfPreparedTweak CS) : Bool := CS.group.scalarCtEq a.value b.value

/-! ## `Ord`: `sc` and `ec` are the `Ord::cmp` of the suite's scalars and elements -/

section ord

variable (sc : CS.Scalar → CS.Scalar → Ordering) (ec : CS.Elem → CS.Elem → Ordering)

/-- `src/common.rs:73` -/
def BlindedElement.cmp (a b : BlindedElement CS) : Ordering := ec a.value b.value

/-- `src/common.rs:90` -/
def EvaluationElement.cmp (a b : EvaluationElement CS) : Ordering := ec a.value b.value

/-- `src/common.rs:107` -/
def PreparedEvaluationElement.cmp (a b : PreparedEvaluationElement CS) : Ordering := a.inner.cmp ec b.inner

/-- `src/common.rs:121` -/
def Proof.cmp (a b : Proof CS) : Ordering :=
  match sc a.cScalar b.cScalar with
  | .eq => sc a.sScalar b.sScalar
  | o => o

/-- `src/oprf.rs:41` -/
def OprfClient.cmp (a b : OprfClient CS) : Ordering := sc a.blind b.blind

/-- `src/oprf.rs:59` -/
def OprfServer.cmp (a b : OprfServer CS) : Ordering := sc a.sk b.sk

/-- `src/voprf.rs:39` -/
def VoprfClient.cmp (a b : VoprfClient CS) : Ordering :=
  match sc a.blind b.blind with
  | .eq => ec a.blindedElement b.blindedElement
  | o => o

/-- `src/voprf.rs:59` -/
def VoprfServer.cmp (a b : VoprfServer CS) : Ordering :=
  match sc a.sk b.sk with
  | .eq => ec a.pk b.pk
  | o => o

/-- `src/poprf.rs:39` -/
def PoprfClient.cmp (a b : PoprfClient CS) : Ordering :=
  match sc a.blind b.blind with
  | .eq => ec a.blindedElement b.blindedElement
  | o => o

/-- `src/poprf.rs:59` -/
def PoprfServer.cmp (a b : PoprfServer CS) : Ordering :=
  match sc a.sk b.sk with
  | .eq => ec a.pk b.pk
  | o => o

/-- `src/poprf.rs:539` -/
def PoprfPreparedTweak.cmp (a b : PoprfPreparedTweak CS) : Ordering := sc a.value b.value

end ord

/-! ## `Hash`: `hs` and `he` are the `Hash::hash` of the suite's scalars and elements, for a hasher with state `H` -/

section hash

variable {H : Type} (hs : CS.Scalar → H → H) (he : CS.Elem → H → H)

/-- `src/common.rs:73` -/
def BlindedElement.hash (a : BlindedElement CS) (st : H) : H := he a.value st

/-- `src/common.rs:90` -/
def EvaluationElement.hash (a : EvaluationElement CS) (st : H) : H := he a.value st

/-- `src/common.rs:107` -/
def PreparedEvaluationElement.hash (a : PreparedEvaluationElement CS) (st : H) : H := a.inner.hash he st

/-- `src/common.rs:121` -/
def Proof.hash (a : Proof CS) (st : H) : H := hs a.sScalar (hs a.cScalar st)

/-- `src/oprf.rs:41` -/
def OprfClient.hash (a : OprfClient CS) (st : H) : H := hs a.blind st

/-- `src/oprf.rs:59` -/
def OprfServer.hash (a : OprfServer CS) (st : H) : H := hs a.sk st

/-- `src/voprf.rs:39` -/
def VoprfClient.hash (a : VoprfClient CS) (st : H) : H := he a.blindedElement (hs a.blind st)

/-- `src/voprf.rs:59` -/
def VoprfServer.hash (a : VoprfServer CS) (st : H) : H := he a.pk (hs a.sk st)

/-- `src/poprf.rs:39` -/
def PoprfClient.hash (a : PoprfClient CS) (st : H) : H := he a.blindedElement (hs a.blind st)

/-- `src/poprf.rs:59` -/
def PoprfServer.hash (a : PoprfServer CS) (st : H) : H := he a.pk (hs a.sk st)

/-- `src/poprf.rs:539` -/
def PoprfPreparedTweak.hash (a : PoprfPreparedTweak CS) (st : H) : H := hs a.value st

end hash

end Voprf
