import Verif.Spec.Contract
import Verif.Model.Serialization

/-!
# The nine wire types

For each type with `serialize`/`deserialize`: the two functions, the published length constant, and when
a value is *valid* (no zero scalar, no identity element).
-/

namespace Voprf

/-- The byte-level interface of a type. -/
structure WireFormat (α : Type) where
  serialize : α → Bytes
  deserialize : Bytes → Res α
  len : Nat
  Valid : α → Prop

section
variable (CS : CipherSuite) [CS.group.Lawful]

def OprfClient.wire : WireFormat (OprfClient CS) :=
  ⟨OprfClient.serialize, OprfClient.deserialize CS, OprfClientLen CS, fun x => x.blind ≠ 0⟩
def VoprfClient.wire : WireFormat (VoprfClient CS) :=
  ⟨VoprfClient.serialize, VoprfClient.deserialize CS, VoprfClientLen CS,
    fun x => x.blind ≠ 0 ∧ x.blindedElement ≠ 0⟩
def PoprfClient.wire : WireFormat (PoprfClient CS) :=
  ⟨PoprfClient.serialize, PoprfClient.deserialize CS, PoprfClientLen CS,
    fun x => x.blind ≠ 0 ∧ x.blindedElement ≠ 0⟩
def OprfServer.wire : WireFormat (OprfServer CS) :=
  ⟨OprfServer.serialize, OprfServer.deserialize CS, OprfServerLen CS, fun x => x.sk ≠ 0⟩
def VoprfServer.wire : WireFormat (VoprfServer CS) :=
  ⟨VoprfServer.serialize, VoprfServer.deserialize CS, VoprfServerLen CS,
    fun x => x.sk ≠ 0 ∧ x.pk ≠ 0⟩
def PoprfServer.wire : WireFormat (PoprfServer CS) :=
  ⟨PoprfServer.serialize, PoprfServer.deserialize CS, PoprfServerLen CS,
    fun x => x.sk ≠ 0 ∧ x.pk ≠ 0⟩
def Proof.wire : WireFormat (Proof CS) :=
  ⟨Proof.serialize, Proof.deserialize CS, ProofLen CS, fun x => x.cScalar ≠ 0 ∧ x.sScalar ≠ 0⟩
def BlindedElement.wire : WireFormat (BlindedElement CS) :=
  ⟨BlindedElement.serialize, BlindedElement.deserialize CS, BlindedElementLen CS,
    fun x => x.value ≠ 0⟩
def EvaluationElement.wire : WireFormat (EvaluationElement CS) :=
  ⟨EvaluationElement.serialize, EvaluationElement.deserialize CS, EvaluationElementLen CS,
    fun x => x.value ≠ 0⟩

/-- `p` holds of all nine wire types. -/
structure AllWire (p : ∀ {α : Type}, WireFormat α → Prop) : Prop where
  oprfClient : p (OprfClient.wire CS)
  voprfClient : p (VoprfClient.wire CS)
  poprfClient : p (PoprfClient.wire CS)
  oprfServer : p (OprfServer.wire CS)
  voprfServer : p (VoprfServer.wire CS)
  poprfServer : p (PoprfServer.wire CS)
  proof : p (Proof.wire CS)
  blindedElement : p (BlindedElement.wire CS)
  evaluationElement : p (EvaluationElement.wire CS)

end

end Voprf
