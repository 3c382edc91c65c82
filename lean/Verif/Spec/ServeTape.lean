import Verif.Spec.Simulator
import Verif.Spec.Drawer

/-!
# A server that takes its nonces from one byte source

The conversations of `Verif/Spec/Distinguisher.lean` with the generator the server really uses: it is handed from call to
call.
-/

namespace Voprf.Spec

/-- The guess at the end of a conversation, when questions are answered from the table `f` and requests by `serve` with the
generator; none if a call does not return.  A call that fails with an error leaves the generator alone (C53). -/
def Distinguisher.run {Q A R V σ : Type} (f : Q → A) (serve : R → σ → Res (V × σ)) :
    Distinguisher Q A R (Res V) → σ → Option Bool
  | .done g, _ => some g
  | .ask q next, rng => (next (f q)).run f serve rng
  | .request r next, rng =>
      match serve r rng with
      | .ok (v, rng') => (next (.ok v)).run f serve rng'
      | .err e => (next (.err e)).run f serve rng
      | .panic => none
      | .diverge => none

section
variable {CS : CipherSuite} [CS.group.Lawful] {σ : Type} [RngCore σ]

/-- The response of the `VoprfServer` with key pair `k`, `pk` (`blind_evaluate` or `batch_blind_evaluate`) when
`hash_to_scalar` is answered from `f`, and the generator it leaves. -/
def voprfServeWith (k : CS.Scalar) (pk : CS.Elem) (r : EvalRequest CS) (f : Table CS) (rng : σ) :
    Res ((List CS.Elem × CS.Scalar × CS.Scalar) × σ) :=
  match r with
  | .one b => (fun p => (([p.1.message.value], p.1.proof.cScalar, p.1.proof.sScalar), p.2)) <$>
      VoprfServer.blindEvaluate (CS := oracleSuite CS f) ⟨k, pk⟩ rng ⟨b⟩
  | .batch bs _ =>
      (fun p => ((p.1.messages.map (·.value), p.1.proof.cScalar, p.1.proof.sScalar), p.2)) <$>
      VoprfServer.batchBlindEvaluate (CS := oracleSuite CS f) ⟨k, pk⟩ rng (bs.map fun b => ⟨b⟩)

/-- The response of the `PoprfServer` with key pair `k`, `pk`, and the generator it leaves. -/
def poprfServeWith (k : CS.Scalar) (pk : CS.Elem) (r : EvalRequest CS × Option Bytes) (f : Table CS) (rng : σ) :
    Res ((List CS.Elem × CS.Scalar × CS.Scalar) × σ) :=
  match r.1 with
  | .one b => (fun p => (([p.1.message.value], p.1.proof.cScalar, p.1.proof.sScalar), p.2)) <$>
      PoprfServer.blindEvaluate (CS := oracleSuite CS f) ⟨k, pk⟩ rng ⟨b⟩ r.2
  | .batch bs _ =>
      (fun p => ((p.1.messages.map (·.value), p.1.proof.cScalar, p.1.proof.sScalar), p.2)) <$>
      PoprfServer.batchBlindEvaluate (CS := oracleSuite CS f) ⟨k, pk⟩ rng (bs.map fun b => ⟨b⟩) r.2

end

/-- Whatever the key, and whatever a party that asks at most `n` questions and sends at most `m` requests, the server's answers,
computed with nonces from `len` uniform bytes, can be told from simulated ones with an advantage of at most `bound` only.
In VOPRF and POPRF. -/
def ZeroKnowledge (CS : CipherSuite) [CS.group.Lawful] (len n m : Nat) (bound : ℚ) : Prop :=
  ∀ k : CS.Scalar,
    (∀ S : Distinguisher Question CS.Scalar (EvalRequest CS) (EvalResponse CS), S.Within n m →
      |(average fun f : Table CS =>
          tapeChance len fun t => S.run f (fun r => voprfServeWith k (k • CS.group.baseElem) r f) t = some true) -
        (average fun f : Table CS => S.ideal (fun _ _ => SimCoins (k • CS.group.baseElem))
          (voprfSimulator (fun P => k • P) (k • CS.group.baseElem)) f)| ≤ bound) ∧
    (∀ S : Distinguisher Question CS.Scalar (EvalRequest CS × Option Bytes) (EvalResponse CS), S.Within n m →
      |(average fun f : Table CS =>
          tapeChance len fun t => S.run f (fun r => poprfServeWith k (k • CS.group.baseElem) r f) t = some true) -
        (average fun f : Table CS => S.ideal (PoprfCoins (k • CS.group.baseElem))
          (poprfSimulator (fun m P => (k + m)⁻¹ • P) (k • CS.group.baseElem)) f)| ≤ bound)

end Voprf.Spec
