import Verif.Spec.Simulator
import Verif.Model.Oprf

/-!
# A malicious server watching its clients

Clients with secret inputs start one after the other, each blinding its input with a fresh random scalar.
The server sees the blinded elements, and may deliver any answer it likes to any of the waiting clients, one
at a time or as a batch, in any order and as often as it likes; it sees how each `finalize` ends
(accepted or not, with which error), but not the outputs.  In the end it makes a guess (one bit).
`Spy.play` is the probability of the guess `true`.
-/

namespace Voprf.Spec

/-- An input the client can hide: at most 65535 bytes, not hashing to the identity. -/
def Hidable (CS : CipherSuite) [CS.group.Lawful] (mode : Mode) (input : Bytes) : Prop :=
  input.length ≤ 65535 ∧ ∃ P : CS.Elem, hashToGroup CS mode input = .ok P ∧ P ≠ 0

/-- A client waiting for an answer: its input, its blind, and the blinded element it keeps
(OPRF clients keep none; the one sent is listed). -/
structure Waiting (CS : CipherSuite) where
  input : Bytes
  blind : CS.Scalar
  elem : CS.Elem

/-- A server strategy: it sees elements in `E`, delivers answers in `A` and sees verdicts in `W`. -/
inductive Spy (E A W : Type)
  | done (guess : Bool)
  | start (next : E → Spy E A W)
  | deliver (a : A) (next : W → Spy E A W)

/-- The probability that the server guesses `true` when the `i`-th client to start has the input `inputs i`,
blinds it by `blind` (giving its blind, the element it keeps and the one it sends) with a uniformly chosen
nonce, and answers end with the given verdict. A client that
fails to blind counts as guess `false`. -/
noncomputable def Spy.play {CS : CipherSuite} {N A W : Type} (blind : Bytes → N → Res (CS.Scalar × CS.Elem × CS.Elem))
    (verdict : List (Waiting CS) → A → W) (inputs : Nat → Bytes) :
    Spy CS.Elem A W → List (Waiting CS) → ℚ
  | .done g, _ => if g then 1 else 0
  | .start next, st => average fun ρ : N =>
      match blind (inputs st.length) ρ with
      | .ok (r, e, message) =>
        (next message).play blind verdict inputs (st ++ [⟨inputs st.length, r, e⟩])
      | _ => 0
  | .deliver a next, st => (next (verdict st a)).play blind verdict inputs st

/-- The waiting clients with the given numbers. -/
def pick {α : Type} (st : List α) (is : List Nat) : List α := is.filterMap fun i => st[i]?

/-- How a call ended: `Ok` or which error, without the outputs. -/
def outcome {α : Type} (r : Res α) : Res Unit := (fun _ => ()) <$> r

/-- How a batch call ended, and how each item ended. -/
def batchOutcome {α : Type} (r : Res (List (Res α))) : Res (List (Res Unit)) :=
  (fun l => l.map outcome) <$> r

section
variable {CS : CipherSuite} [CS.group.Lawful] {σ : Type} [RngCore σ] (draw : Nonce CS → σ)

/-! ## OPRF -/

/-- `OprfClient::blind` with a generator yielding the nonce `ρ`. -/
def oprfBlind (input : Bytes) (ρ : Nonce CS) : Res (CS.Scalar × CS.Elem × CS.Elem) :=
  (fun p => (p.1.state.blind, p.1.message.value, p.1.message.value)) <$>
    OprfClient.blindInput CS input (draw ρ)

/-- How `OprfClient::finalize` of client number `a.1` with the evaluation element `a.2` ends. -/
def oprfVerdict (st : List (Waiting CS)) (a : Nat × CS.Elem) : Option (Res Unit) :=
  st[a.1]?.map fun w => outcome (OprfClient.finalize (CS := CS) ⟨w.blind⟩ w.input ⟨a.2⟩)

/-! ## VOPRF and POPRF -/

/-- An answer: evaluation elements and a proof, delivered to one client by `finalize` or to several by
`batch_finalize`, with the public key and (POPRF) the info used in that call. -/
structure Delivery (CS : CipherSuite) where
  clients : Nat ⊕ List Nat
  messages : List CS.Elem
  c : CS.Scalar
  s : CS.Scalar
  pk : CS.Elem
  info : Option Bytes

/-- `VoprfClient::blind` with a generator yielding the nonce `ρ`. -/
def voprfBlind (input : Bytes) (ρ : Nonce CS) : Res (CS.Scalar × CS.Elem × CS.Elem) :=
  (fun p => (p.1.state.blind, p.1.state.blindedElement, p.1.message.value)) <$>
    VoprfClient.blindInput CS input (draw ρ)

/-- How `VoprfClient::finalize` or `VoprfClient::batch_finalize` ends. -/
def voprfVerdict (st : List (Waiting CS)) (a : Delivery CS) : Option (Res (List (Res Unit))) :=
  match a.clients with
  | .inl i => do
      let w ← st[i]?
      let e ← a.messages.head?
      pure ((fun u => [.ok u]) <$>
        outcome (VoprfClient.finalize (CS := CS) ⟨w.blind, w.elem⟩ w.input ⟨e⟩ ⟨a.c, a.s⟩ a.pk))
  | .inr is => some (batchOutcome (VoprfClient.batchFinalize (CS := CS)
      ((pick st is).map (·.input)) ((pick st is).map fun w => ⟨w.blind, w.elem⟩)
      (a.messages.map fun e => ⟨e⟩) ⟨a.c, a.s⟩ a.pk))

/-- `PoprfClient::blind` with a generator yielding the nonce `ρ`. -/
def poprfBlind (input : Bytes) (ρ : Nonce CS) : Res (CS.Scalar × CS.Elem × CS.Elem) :=
  (fun p => (p.1.state.blind, p.1.state.blindedElement, p.1.message.value)) <$>
    PoprfClient.blindInput CS input (draw ρ)

/-- How `PoprfClient::finalize` or `PoprfClient::batch_finalize` ends. -/
def poprfVerdict (st : List (Waiting CS)) (a : Delivery CS) : Option (Res (List (Res Unit))) :=
  match a.clients with
  | .inl i => do
      let w ← st[i]?
      let e ← a.messages.head?
      pure ((fun u => [.ok u]) <$>
        outcome (PoprfClient.finalize (CS := CS) ⟨w.blind, w.elem⟩ w.input ⟨e⟩ ⟨a.c, a.s⟩ a.pk a.info))
  | .inr is => some (batchOutcome (PoprfClient.batchFinalize (CS := CS)
      ((pick st is).map (·.input)) ((pick st is).map fun w => ⟨w.blind, w.elem⟩)
      (a.messages.map fun e => ⟨e⟩) ⟨a.c, a.s⟩ a.pk a.info))

end

end Voprf.Spec
