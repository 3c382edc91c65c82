import Verif.Spec.Simulator
import Verif.Model.Serialization

/-!
# Requests and responses that are altered on the way

A *channel* does what it likes with a request and with a response: it may flip bits, mix up items, drop or add some, replace
the proof.  It may know the key and everything that is sent; it does not look into `hash_to_scalar`, which is a random table.
-/

namespace Voprf.Spec

section
variable {CS : CipherSuite} [CS.group.Lawful]

/-- What is transmitted in a response: the evaluation elements and the two scalars of the proof. -/
abbrev Sent (CS : CipherSuite) : Type := List CS.Elem × CS.Scalar × CS.Scalar

/-- What arrives of a request and of a response. -/
structure Channel (CS : CipherSuite) where
  request : EvalRequest CS → EvalRequest CS
  response : Sent CS → Sent CS

/-- What arrives is well formed: deserialization refuses the identity element (C20). -/
structure Channel.Valid (ch : Channel CS) : Prop where
  request : ∀ r, ∀ b ∈ (ch.request r).elems, b ≠ 0
  response : ∀ v, ∀ e ∈ (ch.response v).1, e ≠ 0

/-- The channel changed something when `r` was sent and `v` was the response. -/
def Channel.Altered (ch : Channel CS) (r : EvalRequest CS) (v : Sent CS) : Prop :=
  (ch.request r).elems ≠ r.elems ∨ ch.response v ≠ v

/-! ## Channels for bytes -/

/-- What arrives of the bytes of a request (one message per blinded element) and of a response (one message per evaluation
element, and the proof). -/
structure Wires where
  request : List Bytes → List Bytes
  response : List Bytes × Bytes → List Bytes × Bytes

/-- One exchange over such a channel: the client states `clients` send their blinded elements, the server reads `bs` and
answers `v`, the clients read `w` and get `outs`. -/
structure Exchange (wires : Wires) (clients : List (CS.Scalar × CS.Elem)) (answer : EvalRequest CS → EvalResponse CS)
    (finalize : Sent CS → Res (List (Res Bytes))) (bs : List CS.Elem) (v w : Sent CS) (outs : List (Res Bytes)) : Prop where
  request : List.Forall₂ (fun bytes b => BlindedElement.deserialize CS bytes = .ok ⟨b⟩)
    (wires.request (clients.map fun c => BlindedElement.serialize (CS := CS) ⟨c.2⟩)) bs
  answer : ∃ h : bs.length ≤ 65535, answer (.batch bs h) = .ok v
  response : List.Forall₂ (fun bytes e => EvaluationElement.deserialize CS bytes = .ok ⟨e⟩)
    (wires.response (v.1.map fun e => EvaluationElement.serialize (CS := CS) ⟨e⟩, Proof.serialize (CS := CS) ⟨v.2.1, v.2.2⟩)).1 w.1
  proof : Proof.deserialize CS
    (wires.response (v.1.map fun e => EvaluationElement.serialize (CS := CS) ⟨e⟩, Proof.serialize (CS := CS) ⟨v.2.1, v.2.2⟩)).2 =
      .ok ⟨w.2.1, w.2.2⟩
  finalize : finalize w = .ok outs

/-- Every message arrives, in order, up to bytes appended to it. -/
def Arrive (sent arrived : List Bytes) : Prop := List.Forall₂ (fun s a => s <+: a) sent arrived

/-- The request of `clients` and the response `v` arrive unchanged, up to bytes appended to messages. -/
def Wires.Faithful (wires : Wires) (clients : List (CS.Scalar × CS.Elem)) (v : Sent CS) : Prop :=
  let request := clients.map fun c => BlindedElement.serialize (CS := CS) ⟨c.2⟩
  let elements := v.1.map fun e => EvaluationElement.serialize (CS := CS) ⟨e⟩
  let proof := Proof.serialize (CS := CS) ⟨v.2.1, v.2.2⟩
  Arrive request (wires.request request) ∧
  Arrive elements (wires.response (elements, proof)).1 ∧ proof <+: (wires.response (elements, proof)).2

end

end Voprf.Spec
