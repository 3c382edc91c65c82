import Verif.Spec.Distinguisher

/-!
# Simulating the server's proofs without the key

The *real* answers are those of the API calls of the servers.  The *simulator* knows the public key and the
evaluation elements (which the protocol hands out), but not the private key: it picks a challenge `c` and a
response `s` at random and makes the table answer `c` to the hash of the resulting transcript.
-/

namespace Voprf.Spec

section
variable {CS : CipherSuite} [CS.group.Lawful]

/-- The table `f` with the entry for the tag `dst` and the message `msg` set to `c`. -/
noncomputable def Table.write (f : Table CS) (dst msg : Bytes) (c : CS.Scalar) : Table CS :=
  fun q => open Classical in if q.1 = (dst, msg) then c else f q

/-- The weights of a batch of pairs when `hash_to_scalar` is answered from `f`. -/
def weightsIn (f : Table CS) (mode : Mode) (B : CS.Elem) (Cs Ds : List CS.Elem) :
    Except InternalError (List CS.Scalar) :=
  weights (oracleSuite CS f) mode B Cs Ds

/-- The simulator's proof `(c, s)` for the statement "`Ds` are the `B`-multiples of `Cs`": the table after
it made the challenge of the transcript equal to `c`. -/
noncomputable def simulateProof (mode : Mode) (B : CS.Elem) (Cs Ds : List CS.Elem) (f : Table CS)
    (c s : CS.Scalar) : Table CS :=
  match weightsIn f mode B Cs Ds with
  | .ok ws =>
    let M := lincomb ws Cs
    let Z := lincomb ws Ds
    f.write (ascii "HashToScalar-" ++ contextString CS mode)
      (challengeInput (CS.group.serializeElem B) (CS.group.serializeElem M) (CS.group.serializeElem Z)
        (CS.group.serializeElem (s • CS.group.baseElem + c • B))
        (CS.group.serializeElem (s • M + c • Z))) c
  | .error _ => f

/-- The simulator's random choices for the public key `B`: a challenge `c` and a response `s` whose first
commitment is not the identity. -/
abbrev SimCoins (B : CS.Elem) : Type :=
  {p : CS.Scalar × CS.Scalar // p.2 • CS.group.baseElem + p.1 • B ≠ 0}

/-- The nonces of the server: the non-zero scalars. -/
abbrev Nonce (CS : CipherSuite) [CS.group.Lawful] : Type := {ρ : CS.Scalar // ρ ≠ 0}

/-- `draw ρ` is a generator from which `random_scalar` returns `ρ`. -/
def Draws {σ : Type} [RngCore σ] (draw : Nonce CS → σ) : Prop :=
  ∀ ρ : Nonce CS, ∃ g : σ, CS.group.randomScalar (draw ρ) = some (ρ.1, g)

/-- A request to a server: one blinded element, or a batch of at most 65535. -/
inductive EvalRequest (CS : CipherSuite)
  | one (b : CS.Elem)
  | batch (bs : List CS.Elem) (h : bs.length ≤ 65535)

/-- The blinded elements of a request. -/
def EvalRequest.elems : EvalRequest CS → List CS.Elem
  | .one b => [b]
  | .batch bs _ => bs

/-- What a client reads off the response: the evaluation elements and the two scalars of the proof. -/
abbrev EvalResponse (CS : CipherSuite) : Type := Res (List CS.Elem × CS.Scalar × CS.Scalar)

/-! ## VOPRF -/

/-- The response of the `VoprfServer` with key pair `k`, `pk` (`blind_evaluate` or `batch_blind_evaluate`) when
`hash_to_scalar` is answered from `f` and the generator is `rng`. -/
def voprfAnswer {σ : Type} [RngCore σ] (k : CS.Scalar) (pk : CS.Elem) (r : EvalRequest CS) (f : Table CS)
    (rng : σ) : EvalResponse CS :=
  match r with
  | .one b => (fun p => ([p.1.message.value], p.1.proof.cScalar, p.1.proof.sScalar)) <$>
      VoprfServer.blindEvaluate (CS := oracleSuite CS f) ⟨k, pk⟩ rng ⟨b⟩
  | .batch bs _ =>
      (fun p => (p.1.messages.map (·.value), p.1.proof.cScalar, p.1.proof.sScalar)) <$>
      VoprfServer.batchBlindEvaluate (CS := oracleSuite CS f) ⟨k, pk⟩ rng (bs.map fun b => ⟨b⟩)

/-- The simulator of a `VoprfServer`, given the evaluation `ev` of single elements and the public key. -/
noncomputable def voprfSimulator (ev : CS.Elem → CS.Elem) (pk : CS.Elem) (r : EvalRequest CS)
    (f : Table CS) (x : SimCoins pk) : EvalResponse CS × Table CS :=
  let Ds := r.elems.map ev
  (.ok (Ds, x.1.1, x.1.2), simulateProof .Voprf pk r.elems Ds f x.1.1 x.1.2)

/-! ## POPRF -/

/-- The response of the `PoprfServer` with key pair `k`, `pk` (`blind_evaluate` or `batch_blind_evaluate`). -/
def poprfAnswer {σ : Type} [RngCore σ] (k : CS.Scalar) (pk : CS.Elem)
    (r : EvalRequest CS × Option Bytes) (f : Table CS) (rng : σ) : EvalResponse CS :=
  match r.1 with
  | .one b => (fun p => ([p.1.message.value], p.1.proof.cScalar, p.1.proof.sScalar)) <$>
      PoprfServer.blindEvaluate (CS := oracleSuite CS f) ⟨k, pk⟩ rng ⟨b⟩ r.2
  | .batch bs _ =>
      (fun p => (p.1.messages.map (·.value), p.1.proof.cScalar, p.1.proof.sScalar)) <$>
      PoprfServer.batchBlindEvaluate (CS := oracleSuite CS f) ⟨k, pk⟩ rng (bs.map fun b => ⟨b⟩) r.2

/-- `HashToScalar("Info" ‖ ⟨info⟩)` read off the table. -/
def tweakOf (f : Table CS) (info : Option Bytes) : CS.Scalar :=
  f.answer (ascii "HashToScalar-" ++ contextString CS .Poprf) (infoInput (info.getD []))

/-- The simulator's random choices for a request: those for the tweaked public key. -/
abbrev PoprfCoins (pk : CS.Elem) (r : EvalRequest CS × Option Bytes) (f : Question → CS.Scalar) : Type :=
  SimCoins (tweakOf f r.2 • CS.group.baseElem + pk)

/-- The simulator of a `PoprfServer`, given the evaluation `ev m` of single elements under the tweak `m` and the
public key: too long infos and tweaks cancelling the key are refused. -/
noncomputable def poprfSimulator (ev : CS.Scalar → CS.Elem → CS.Elem) (pk : CS.Elem)
    (r : EvalRequest CS × Option Bytes) (f : Question → CS.Scalar)
    (x : PoprfCoins pk r f) : EvalResponse CS × (Question → CS.Scalar) :=
  let m := tweakOf f r.2
  let B := m • CS.group.baseElem + pk
  open Classical in
  if 65535 < (r.2.getD []).length then (.err .Info, f)
  else if B = 0 then (.err .Protocol, f)
  else
    let Ds := r.1.elems.map (ev m)
    (.ok (Ds, x.1.1, x.1.2), simulateProof .Poprf B Ds r.1.elems f x.1.1 x.1.2)

end

end Voprf.Spec
