import Verif.Model.Oprf
import Verif.Model.Voprf
import Verif.Model.Poprf

/-!
# Model of `src/serialization.rs` (byte-level API; `mod serde` is in `Model/Serde.lean`)

`GenericArray::concat` is list append.  A deserializer takes `mut input: &[u8]` and advances it, so the
readers below return the value together with the rest of the slice.
-/

namespace Voprf

/-- `src/serialization.rs:313-323` (`SliceExt::take_ext`). -/
def takeExt (input : Bytes) (take : Nat) : Option (Bytes × Bytes) :=
  if take > input.length then none
  else some (input.take take, input.drop take)

/-- `src/serialization.rs:295-300` (`deserialize_elem`). -/
def readElem (G : VGroup) (input : Bytes) : Res (G.Elem × Bytes) := do
  let (front, back) ← Res.okOr .Deserialization (takeExt input G.elemLen)
  let e ← Res.ofExcept (G.deserializeElem front)
  pure (e, back)

/-- `src/serialization.rs:302-307` (`deserialize_scalar`). -/
def readScalar (G : VGroup) (input : Bytes) : Res (G.Scalar × Bytes) := do
  let (front, back) ← Res.okOr .Deserialization (takeExt input G.scalarLen)
  let s ← Res.ofExcept (G.deserializeScalar front)
  pure (s, back)

variable {CS : CipherSuite}

/-- `src/serialization.rs:31` (`OprfClientLen`). -/
def OprfClientLen (CS : CipherSuite) : Nat := CS.group.scalarLen
/-- `src/serialization.rs:39-41` -/
def OprfClient.serialize (self : OprfClient CS) : Bytes := CS.group.serializeScalar self.blind
/-- `src/serialization.rs:47-51` -/
def OprfClient.deserialize (CS : CipherSuite) (input : Bytes) : Res (OprfClient CS) := do
  let (blind, _) ← readScalar CS.group input
  pure ⟨blind⟩

/-- `src/serialization.rs:55-58` (`VoprfClientLen`). -/
def VoprfClientLen (CS : CipherSuite) : Nat := CS.group.scalarLen + CS.group.elemLen
/-- `src/serialization.rs:66-73` -/
def VoprfClient.serialize (self : VoprfClient CS) : Bytes :=
  CS.group.serializeScalar self.blind ++ CS.group.serializeElem self.blindedElement
/-- `src/serialization.rs:79-87` -/
def VoprfClient.deserialize (CS : CipherSuite) (input : Bytes) : Res (VoprfClient CS) := do
  let (blind, input) ← readScalar CS.group input
  let (blindedElement, _) ← readElem CS.group input
  pure ⟨blind, blindedElement⟩

/-- `src/serialization.rs:91-94` (`PoprfClientLen`). -/
def PoprfClientLen (CS : CipherSuite) : Nat := CS.group.scalarLen + CS.group.elemLen
/-- `src/serialization.rs:102-109` -/
def PoprfClient.serialize (self : PoprfClient CS) : Bytes :=
  CS.group.serializeScalar self.blind ++ CS.group.serializeElem self.blindedElement
/-- `src/serialization.rs:115-123` -/
def PoprfClient.deserialize (CS : CipherSuite) (input : Bytes) : Res (PoprfClient CS) := do
  let (blind, input) ← readScalar CS.group input
  let (blindedElement, _) ← readElem CS.group input
  pure ⟨blind, blindedElement⟩

/-- `src/serialization.rs:127` (`OprfServerLen`). -/
def OprfServerLen (CS : CipherSuite) : Nat := CS.group.scalarLen
/-- `src/serialization.rs:135-137` -/
def OprfServer.serialize (self : OprfServer CS) : Bytes := CS.group.serializeScalar self.sk
/-- `src/serialization.rs:143-147` -/
def OprfServer.deserialize (CS : CipherSuite) (input : Bytes) : Res (OprfServer CS) := do
  let (sk, _) ← readScalar CS.group input
  pure ⟨sk⟩

/-- `src/serialization.rs:151-154` (`VoprfServerLen`). -/
def VoprfServerLen (CS : CipherSuite) : Nat := CS.group.scalarLen + CS.group.elemLen
/-- `src/serialization.rs:162-168` -/
def VoprfServer.serialize (self : VoprfServer CS) : Bytes :=
  CS.group.serializeScalar self.sk ++ CS.group.serializeElem self.pk
/-- `src/serialization.rs:174-179` -/
def VoprfServer.deserialize (CS : CipherSuite) (input : Bytes) : Res (VoprfServer CS) := do
  let (sk, input) ← readScalar CS.group input
  let (pk, _) ← readElem CS.group input
  pure ⟨sk, pk⟩

/-- `src/serialization.rs:183-186` (`PoprfServerLen`). -/
def PoprfServerLen (CS : CipherSuite) : Nat := CS.group.scalarLen + CS.group.elemLen
/-- `src/serialization.rs:194-200` -/
def PoprfServer.serialize (self : PoprfServer CS) : Bytes :=
  CS.group.serializeScalar self.sk ++ CS.group.serializeElem self.pk
/-- `src/serialization.rs:206-211` -/
def PoprfServer.deserialize (CS : CipherSuite) (input : Bytes) : Res (PoprfServer CS) := do
  let (sk, input) ← readScalar CS.group input
  let (pk, _) ← readElem CS.group input
  pure ⟨sk, pk⟩

/-- `src/serialization.rs:215-218` (`ProofLen`). -/
def ProofLen (CS : CipherSuite) : Nat := CS.group.scalarLen + CS.group.scalarLen
/-- `src/serialization.rs:226-233` -/
def Proof.serialize (self : Proof CS) : Bytes :=
  CS.group.serializeScalar self.cScalar ++ CS.group.serializeScalar self.sScalar
/-- `src/serialization.rs:239-244` -/
def Proof.deserialize (CS : CipherSuite) (input : Bytes) : Res (Proof CS) := do
  let (cScalar, input) ← readScalar CS.group input
  let (sScalar, _) ← readScalar CS.group input
  pure ⟨cScalar, sScalar⟩

/-- `src/serialization.rs:248` (`BlindedElementLen`). -/
def BlindedElementLen (CS : CipherSuite) : Nat := CS.group.elemLen
/-- `src/serialization.rs:256-258` -/
def BlindedElement.serialize (self : BlindedElement CS) : Bytes :=
  CS.group.serializeElem self.value
/-- `src/serialization.rs:264-268` -/
def BlindedElement.deserialize (CS : CipherSuite) (input : Bytes) : Res (BlindedElement CS) := do
  let (value, _) ← readElem CS.group input
  pure ⟨value⟩

/-- `src/serialization.rs:272` (`EvaluationElementLen`). -/
def EvaluationElementLen (CS : CipherSuite) : Nat := CS.group.elemLen
/-- `src/serialization.rs:280-282` -/
def EvaluationElement.serialize (self : EvaluationElement CS) : Bytes :=
  CS.group.serializeElem self.value
/-- `src/serialization.rs:288-292` -/
def EvaluationElement.deserialize (CS : CipherSuite) (input : Bytes) :
    Res (EvaluationElement CS) := do
  let (value, _) ← readElem CS.group input
  pure ⟨value⟩

end Voprf
