import Verif.Spec.Transcript
import Verif.Spec.Simulator
import Verif.Model.Oprf
import Verif.Model.Voprf
import Verif.Model.Poprf

/-!
# Predicting outputs

`digestSuite CS D` is the ciphersuite `CS` with the digest `CS::Hash` (the hash of `finalize`, `evaluate` and of
the batch seed) replaced by a table `D`; the group and its two hashes stay those of `CS`.  A *player* is an
arbitrary adaptive party of unlimited computing power that asks the table for entries and sends requests to a server.
-/

namespace Voprf.Spec

/-- A string the digest is asked for, of at most 262143 bytes (longer ones are never hashed by the crate under
`CipherSuite.WF`). -/
abbrev DigestQuestion : Type := {x : Bytes // x.length ≤ 262143}

/-- A digest value. -/
abbrev DigestValue (CS : CipherSuite) : Type := {y : Bytes // y.length = CS.hash.outputSize}

/-- A complete table of digests. -/
abbrev Digests (CS : CipherSuite) : Type := DigestQuestion → DigestValue CS

/-- The digest of a string of any length (zero bytes beyond the bound). -/
def Digests.answer {CS : CipherSuite} (D : Digests CS) (x : Bytes) : Bytes :=
  if h : x.length ≤ 262143 then (D ⟨x, h⟩).1 else List.replicate CS.hash.outputSize 0

theorem Digests.answer_length {CS : CipherSuite} (D : Digests CS) (x : Bytes) :
    (D.answer x).length = CS.hash.outputSize := by
  unfold Digests.answer
  split
  · exact (D _).2
  · simp

/-- The ciphersuite `CS` with the digest answered from a table; `hash_to_curve` and `hash_to_scalar` are unchanged. -/
def digestSuite (CS : CipherSuite) (D : Digests CS) : CipherSuite :=
  { CS with
    group := { CS.group with
      hashToCurve := fun _ => CS.group.hashToCurve CS.hash
      hashToScalar := fun _ => CS.group.hashToScalar CS.hash }
    hash := { CS.hash with digest := D.answer, digest_length := D.answer_length } }

/-- Replacing the digest by a table keeps the contract of the group. -/
@[reducible] instance digestLawful {CS : CipherSuite} [L : CS.group.Lawful] (D : Digests CS) : (digestSuite CS D).group.Lawful where
  field := L.field
  addCommGroup := L.addCommGroup
  module := L.module
  finite_scalar := L.finite_scalar
  elemAdd_eq := L.elemAdd_eq
  elemMul_eq := L.elemMul_eq
  elemCtEq_iff := L.elemCtEq_iff
  scalarAdd_eq := L.scalarAdd_eq
  scalarMul_eq := L.scalarMul_eq
  scalarSub_eq := L.scalarSub_eq
  scalarCtEq_iff := L.scalarCtEq_iff
  elemZeroize_eq := L.elemZeroize_eq
  scalarZeroize_eq := L.scalarZeroize_eq
  identityElem_eq := L.identityElem_eq
  baseElem_ne_zero := L.baseElem_ne_zero
  base_generates := L.base_generates
  isZeroScalar_iff := L.isZeroScalar_iff
  invertScalar_eq := L.invertScalar_eq
  randomScalar_ne_zero := L.randomScalar_ne_zero
  deserializeElem_serialize := L.deserializeElem_serialize
  deserializeElem_serialize_zero := L.deserializeElem_serialize_zero
  deserializeElem_ne_zero := L.deserializeElem_ne_zero
  deserializeElem_error := L.deserializeElem_error
  deserializeScalar_serialize := L.deserializeScalar_serialize
  deserializeScalar_serialize_zero := L.deserializeScalar_serialize_zero
  deserializeScalar_ne_zero := L.deserializeScalar_ne_zero
  deserializeScalar_error := L.deserializeScalar_error
  hashToCurve_flatten := fun _ => L.hashToCurve_flatten CS.hash
  hashToScalar_flatten := fun _ => L.hashToScalar_flatten CS.hash
  hashToCurve_ok := fun _ => L.hashToCurve_ok CS.hash
  hashToScalar_ok := fun _ => L.hashToScalar_ok CS.hash

/-- An adaptive party asking questions in `Q` with answers in `A`, sending requests in `R` with responses in `V`, and
ending with a value in `O`. -/
inductive Player (Q A R V O : Type)
  | done (o : O)
  | ask (q : Q) (next : A → Player Q A R V O)
  | request (r : R) (next : V → Player Q A R V O)

namespace Player
variable {Q A R V O : Type}

/-- What the player ends with when questions are answered by `f` and requests by `answer`. -/
def run (f : Q → A) (answer : R → V) : Player Q A R V O → O
  | done o => o
  | ask q next => run f answer (next (f q))
  | request r next => run f answer (next (answer r))

/-- The player asks the question `q₀`. -/
def Asks (f : Q → A) (answer : R → V) (q₀ : Q) : Player Q A R V O → Prop
  | done _ => False
  | ask q next => q = q₀ ∨ Asks f answer q₀ (next (f q))
  | request r next => Asks f answer q₀ (next (answer r))

/-- How many requests the player sends. -/
def requests (f : Q → A) (answer : R → V) : Player Q A R V O → Nat
  | done _ => 0
  | ask q next => requests f answer (next (f q))
  | request r next => requests f answer (next (answer r)) + 1

end Player

section
variable {CS : CipherSuite} [CS.group.Lawful]

/-- The response of the `OprfServer` with key `k` to `blind_evaluate`. -/
def oprfServe (k : CS.Scalar) (D : Digests CS) (b : CS.Elem) : CS.Elem :=
  (OprfServer.blindEvaluate (CS := digestSuite CS D) ⟨k⟩ ⟨b⟩).value

/-- The response of the `VoprfServer` with key pair `k`, `pk` to a request (`blind_evaluate` or
`batch_blind_evaluate`), run with the generator that comes with the request. -/
def voprfServe {σ : Type} [RngCore σ] (k : CS.Scalar) (pk : CS.Elem) (D : Digests CS)
    (r : EvalRequest CS × σ) : EvalResponse CS :=
  match r.1 with
  | .one b => (fun p => ([p.1.message.value], p.1.proof.cScalar, p.1.proof.sScalar)) <$>
      VoprfServer.blindEvaluate (CS := digestSuite CS D) ⟨k, pk⟩ r.2 ⟨b⟩
  | .batch bs _ =>
      (fun p => (p.1.messages.map (·.value), p.1.proof.cScalar, p.1.proof.sScalar)) <$>
      VoprfServer.batchBlindEvaluate (CS := digestSuite CS D) ⟨k, pk⟩ r.2 (bs.map fun b => ⟨b⟩)

/-- The response of the `PoprfServer` with key pair `k`, `pk` to a request with its info, run with the generator
that comes with the request. -/
def poprfServe {σ : Type} [RngCore σ] (k : CS.Scalar) (pk : CS.Elem) (D : Digests CS)
    (r : EvalRequest CS × Option Bytes × σ) : EvalResponse CS :=
  match r.1 with
  | .one b => (fun p => ([p.1.message.value], p.1.proof.cScalar, p.1.proof.sScalar)) <$>
      PoprfServer.blindEvaluate (CS := digestSuite CS D) ⟨k, pk⟩ r.2.2 ⟨b⟩ r.2.1
  | .batch bs _ =>
      (fun p => (p.1.messages.map (·.value), p.1.proof.cScalar, p.1.proof.sScalar)) <$>
      PoprfServer.batchBlindEvaluate (CS := digestSuite CS D) ⟨k, pk⟩ r.2.2 (bs.map fun b => ⟨b⟩) r.2.1

/-- The player asks the digest of the string that the output for `input` is the digest of: `⟨input⟩ ⟨e⟩ "Finalize"`, or
`⟨input⟩ ⟨info⟩ ⟨e⟩ "Finalize"`, where `e` is the encoding of the element `E`. -/
def Presents {R V O : Type} (D : Digests CS) (answer : R → V) (T : Player DigestQuestion (DigestValue CS) R V O)
    (input : Bytes) (info : Option Bytes) (E : CS.Elem) : Prop :=
  ∃ q : DigestQuestion, T.Asks D answer q ∧
    q.1 = match info with
      | none => finalizeInput input (CS.group.serializeElem E)
      | some i => finalizeInputInfo input i (CS.group.serializeElem E)

end

end Voprf.Spec
