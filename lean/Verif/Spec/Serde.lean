import Verif.Spec.Wire
import Verif.Model.Serde

/-!
# The eleven serde-enabled types

For each type: the document it is serialized to, the deserializer, when a value is *valid* (no zero
scalar, no identity element), and what its document should contain: the named fields, each with the
fixed-length byte string of that field.
-/

namespace Voprf.Serde

/-- The serde interface of a type. -/
structure SerdeType (α : Type) where
  ser : StructStyle → Bool → α → Doc
  de : Bool → Doc → Option α
  Valid : α → Prop
  /-- the bytes a value stands for, field after field -/
  bytes : α → Bytes

section
variable (CS : CipherSuite) [CS.group.Lawful]

def oprfClient : SerdeType (OprfClient CS) :=
  ⟨serOprfClient, deOprfClient CS, (OprfClient.wire CS).Valid, OprfClient.serialize⟩
def voprfClient : SerdeType (VoprfClient CS) :=
  ⟨serVoprfClient, deVoprfClient CS, (VoprfClient.wire CS).Valid, VoprfClient.serialize⟩
def poprfClient : SerdeType (PoprfClient CS) :=
  ⟨serPoprfClient, dePoprfClient CS, (PoprfClient.wire CS).Valid, PoprfClient.serialize⟩
def oprfServer : SerdeType (OprfServer CS) :=
  ⟨serOprfServer, deOprfServer CS, (OprfServer.wire CS).Valid, OprfServer.serialize⟩
def voprfServer : SerdeType (VoprfServer CS) :=
  ⟨serVoprfServer, deVoprfServer CS, (VoprfServer.wire CS).Valid, VoprfServer.serialize⟩
def poprfServer : SerdeType (PoprfServer CS) :=
  ⟨serPoprfServer, dePoprfServer CS, (PoprfServer.wire CS).Valid, PoprfServer.serialize⟩
def proof : SerdeType (Proof CS) :=
  ⟨serProof, deProof CS, (Proof.wire CS).Valid, Proof.serialize⟩
def blindedElement : SerdeType (BlindedElement CS) :=
  ⟨fun _ => serBlindedElement, deBlindedElement CS, (BlindedElement.wire CS).Valid,
    BlindedElement.serialize⟩
def evaluationElement : SerdeType (EvaluationElement CS) :=
  ⟨fun _ => serEvaluationElement, deEvaluationElement CS, (EvaluationElement.wire CS).Valid,
    EvaluationElement.serialize⟩
/-- has no byte-level API; stands for the encoding of its element -/
def preparedEvaluationElement : SerdeType (PreparedEvaluationElement CS) :=
  ⟨fun _ => serPreparedEvaluationElement, dePreparedEvaluationElement CS, fun x => x.inner.value ≠ 0,
    fun x => CS.group.serializeElem x.inner.value⟩
/-- has no byte-level API; stands for the encoding of its scalar -/
def poprfPreparedTweak : SerdeType (PoprfPreparedTweak CS) :=
  ⟨fun _ => serPoprfPreparedTweak, dePoprfPreparedTweak CS, fun x => x.value ≠ 0,
    fun x => CS.group.serializeScalar x.value⟩

/-- `p` holds of all eleven serde types. -/
structure AllSerde (p : ∀ {α : Type}, SerdeType α → Prop) : Prop where
  oprfClient : p (oprfClient CS)
  voprfClient : p (voprfClient CS)
  poprfClient : p (poprfClient CS)
  oprfServer : p (oprfServer CS)
  voprfServer : p (voprfServer CS)
  poprfServer : p (poprfServer CS)
  proof : p (proof CS)
  blindedElement : p (blindedElement CS)
  evaluationElement : p (evaluationElement CS)
  preparedEvaluationElement : p (preparedEvaluationElement CS)
  poprfPreparedTweak : p (poprfPreparedTweak CS)

end

/-! ## Reading documents -/

mutual
/-- All numbers in a document, in order. -/
def Doc.nums : Doc → List Int
  | .num n => [n]
  | .seq ds => seqNums ds
  | .map es => mapNums es
  | .newtype d => d.nums
  | .other => []
def seqNums : List Doc → List Int
  | [] => []
  | d :: ds => d.nums ++ seqNums ds
def mapNums : List (String × Doc) → List Int
  | [] => []
  | (_, d) :: es => d.nums ++ mapNums es
end

/-- The document is an array of `n` byte values, possibly followed by more items if the format does not
mind (`strict = false`); `bytes` are the first `n`. -/
def IsArray (strict : Bool) (n : Nat) (d : Doc) (bytes : Bytes) : Prop :=
  ∃ rest : List Doc, bytes.length = n ∧ (strict = true → rest = []) ∧
    d = .seq (bytes.map (fun b => .num b.toNat) ++ rest)

/-- The map has exactly one entry named `name`, and it holds `d`. -/
def HasField (es : List (String × Doc)) (name : String) (d : Doc) : Prop :=
  es.filter (fun e => decide (e.1 = name)) = [(name, d)]

end Voprf.Serde
