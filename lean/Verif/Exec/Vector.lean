import Verif.Model.Serialization
import Verif.Model.Loops

/-!
# Test-vector harness

Translation of `src/tests/test_cfrg_vectors.rs` to the model.  The vectors themselves are in `Verif/Exec/Vectors/`.
They are tests of the model, not proofs of properties: they show that the model computes what the crate is
tested to compute.
-/

namespace Voprf.Exec

/-- `src/tests/mock_rng.rs:17-59` (`CycleRng`): cycles over a buffer. -/
structure CycleRng where
  v : Bytes

instance : RngCore CycleRng where
  fillBytes s n :=
    let len := min s.v.length n
    (s.v.take len ++ List.replicate (n - len) 0, ⟨s.v.drop len ++ s.v.take len⟩)
  fillBytes_length s n := by simp; omega

/-- `src/tests/test_cfrg_vectors.rs:28-43` (`VOPRFTestVectorParameters`). -/
structure Vector where
  seed : Bytes
  sksm : Bytes
  pksm : Bytes
  input : List Bytes
  info : Bytes
  keyInfo : Bytes
  blind : List Bytes
  blindedElement : List Bytes
  evaluationElement : List Bytes
  proof : Bytes
  proofRandomScalar : Bytes
  output : List Bytes

variable (CS : CipherSuite)

def isOk {α : Type} (x : Res α) (p : α → Bool) : Bool :=
  match x with
  | .ok a => p a
  | _ => false

/-- Compares without unfolding a decision procedure for lists of `UInt8`. -/
def same (x y : Bytes) : Bool := x == y

def zip4 (a b c d : List Bytes) : List (Bytes × Bytes × Bytes × Bytes) := a.zip (b.zip (c.zip d))

/-- `test_oprf_seed_to_key` -/
def oprfKey (v : Vector) : Bool :=
  isOk (OprfServer.newFromSeed CS v.seed v.keyInfo)
    (fun s => same (CS.group.serializeScalar s.sk) v.sksm)

/-- `test_oprf_blind` -/
def oprfBlind (v : Vector) : Bool :=
  (v.input.zip (v.blind.zip v.blindedElement)).all (fun (i, b, be) =>
    isOk (do
      let blind ← Res.ofExcept (CS.group.deserializeScalar b)
      OprfClient.deterministicBlindUnchecked CS i blind)
      (fun r => same (CS.group.serializeScalar r.state.blind) b && same r.message.serialize be))

/-- `test_oprf_blind_evaluate` -/
def oprfBlindEvaluate (v : Vector) : Bool :=
  (v.blindedElement.zip v.evaluationElement).all (fun (be, ee) =>
    isOk (do
      let s ← OprfServer.newWithKey CS v.sksm
      let be ← BlindedElement.deserialize CS be
      pure (s.blindEvaluate be)) (fun m => same m.serialize ee))

/-- `test_oprf_finalize` -/
def oprfFinalize (v : Vector) : Bool :=
  (zip4 v.input v.blind v.output v.evaluationElement).all (fun (i, b, o, ee) =>
    isOk (do
      let blind ← Res.ofExcept (CS.group.deserializeScalar b)
      let ee ← EvaluationElement.deserialize CS ee
      OprfClient.finalize (CS := CS) ⟨blind⟩ i ee) (same · o))

/-- `test_oprf_evaluate` -/
def oprfEvaluate (v : Vector) : Bool :=
  (v.input.zip v.output).all (fun (i, o) =>
    isOk (do
      let s ← OprfServer.newWithKey CS v.sksm
      s.evaluate i) (same · o))

def oprf (v : Vector) : Bool :=
  oprfKey CS v && oprfBlind CS v && oprfBlindEvaluate CS v && oprfFinalize CS v && oprfEvaluate CS v

/-- `test_voprf_seed_to_key` -/
def voprfKey (v : Vector) : Bool :=
  isOk (VoprfServer.newFromSeed CS v.seed v.keyInfo)
    (fun s => same (CS.group.serializeScalar s.sk) v.sksm &&
      same (CS.group.serializeElem s.getPublicKey) v.pksm)

/-- `test_voprf_blind` -/
def voprfBlind (v : Vector) : Bool :=
  (v.input.zip (v.blind.zip v.blindedElement)).all (fun (i, b, be) =>
    isOk (do
      let blind ← Res.ofExcept (CS.group.deserializeScalar b)
      VoprfClient.deterministicBlindUnchecked CS i blind)
      (fun r => same (CS.group.serializeScalar r.state.blind) b && same r.message.serialize be))

/-- `test_voprf_blind_evaluate` -/
def voprfBlindEvaluate (v : Vector) : Bool :=
  isOk (do
    let s ← VoprfServer.newWithKey CS v.sksm
    let bes ← Res.collect (v.blindedElement.map (BlindedElement.deserialize CS))
    let prep := s.batchBlindEvaluatePrepare bes
    s.batchBlindEvaluateFinish (CycleRng.mk v.proofRandomScalar) bes prep)
    (fun r => decide (r.1.messages.map (·.serialize) = v.evaluationElement) &&
      same r.1.proof.serialize v.proof)

/-- `test_voprf_finalize` -/
def voprfFinalize (v : Vector) : Bool :=
  isOk (do
    let clients ← Res.collect ((v.blind.zip v.blindedElement).map fun (b, be) => do
      let b ← Res.ofExcept (CS.group.deserializeScalar b)
      let be ← Res.ofExcept (CS.group.deserializeElem be)
      pure (VoprfClient.mk (CS := CS) b be))
    let messages ← Res.collect (v.evaluationElement.map (EvaluationElement.deserialize CS))
    let proof ← Proof.deserialize CS v.proof
    let pk ← Res.ofExcept (CS.group.deserializeElem v.pksm)
    let r ← VoprfClient.batchFinalize v.input clients messages proof pk
    Res.collect r) (fun r => decide (r = v.output))

/-- `test_voprf_evaluate` -/
def voprfEvaluate (v : Vector) : Bool :=
  (v.input.zip v.output).all (fun (i, o) =>
    isOk (do
      let s ← VoprfServer.newWithKey CS v.sksm
      s.evaluate i) (same · o))

def voprf (v : Vector) : Bool :=
  voprfKey CS v && voprfBlind CS v && voprfBlindEvaluate CS v && voprfFinalize CS v && voprfEvaluate CS v

/-- `test_poprf_seed_to_key` -/
def poprfKey (v : Vector) : Bool :=
  isOk (PoprfServer.newFromSeed CS v.seed v.keyInfo)
    (fun s => same (CS.group.serializeScalar s.sk) v.sksm &&
      same (CS.group.serializeElem s.getPublicKey) v.pksm)

/-- `test_poprf_blind` -/
def poprfBlind (v : Vector) : Bool :=
  (v.input.zip (v.blind.zip v.blindedElement)).all (fun (i, b, be) =>
    isOk (do
      let blind ← Res.ofExcept (CS.group.deserializeScalar b)
      PoprfClient.deterministicBlindUnchecked CS i blind)
      (fun r => same (CS.group.serializeScalar r.state.blind) b && same r.message.serialize be))

/-- `test_poprf_blind_evaluate` -/
def poprfBlindEvaluate (v : Vector) : Bool :=
  isOk (do
    let s ← PoprfServer.newWithKey CS v.sksm
    let bes ← Res.collect (v.blindedElement.map (BlindedElement.deserialize CS))
    let prep ← s.batchBlindEvaluatePrepare bes (some v.info)
    let ps ← Res.collect prep.preparedEvaluationElements
    PoprfServer.batchBlindEvaluateFinish (CycleRng.mk v.proofRandomScalar) bes ps prep.preparedTweak)
    (fun r => decide (r.1.messages.map (·.serialize) = v.evaluationElement) &&
      same r.1.proof.serialize v.proof)

/-- `test_poprf_finalize` -/
def poprfFinalize (v : Vector) : Bool :=
  isOk (do
    let clients ← Res.collect ((v.input.zip v.blind).map fun (i, b) => do
      let b ← Res.ofExcept (CS.group.deserializeScalar b)
      let r ← PoprfClient.deterministicBlindUnchecked CS i b
      pure r.state)
    let messages ← Res.collect (v.evaluationElement.map (EvaluationElement.deserialize CS))
    let proof ← Proof.deserialize CS v.proof
    let pk ← Res.ofExcept (CS.group.deserializeElem v.pksm)
    let r ← PoprfClient.batchFinalize v.input clients messages proof pk (some v.info)
    Res.collect r) (fun r => decide (r = v.output))

/-- `test_poprf_evaluate` -/
def poprfEvaluate (v : Vector) : Bool :=
  (v.input.zip v.output).all (fun (i, o) =>
    isOk (do
      let s ← PoprfServer.newWithKey CS v.sksm
      s.evaluate i (some v.info)) (same · o))

def poprf (v : Vector) : Bool :=
  poprfKey CS v && poprfBlind CS v && poprfBlindEvaluate CS v && poprfFinalize CS v && poprfEvaluate CS v

/-- A non-empty vector has inputs, so that the `all`s above are not vacuous. -/
def complete (v : Vector) : Bool :=
  decide (0 < v.input.length) && decide (v.blind.length = v.input.length) &&
  decide (v.blindedElement.length = v.input.length) && decide (v.evaluationElement.length = v.input.length) &&
  decide (v.output.length = v.input.length)

end Voprf.Exec
