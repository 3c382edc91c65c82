import Verif.Spec.Party
import Verif.Spec.ServeTape

/-!
# The game of C56 against a server that takes its nonces from one byte source
-/

namespace Voprf.Spec

/-- How the session ends, when `hash_to_scalar` is answered from `f`, the digest from `D` and requests by `serve` with the
generator: the number of evaluated elements, the digest questions, and the party's value; none if a call does not
return.  A call that fails with an error leaves the generator alone (C53). -/
def Party.run {CS : CipherSuite} {R O σ : Type} (f : Table CS) (D : Digests CS)
    (serve : R → σ → Res ((List CS.Elem × CS.Scalar × CS.Scalar) × σ)) (size : R → Nat) :
    Party CS R O → σ → (spent : Nat) → (asked : List DigestQuestion) → Option (Nat × List DigestQuestion × O)
  | done o, _, spent, asked => some (spent, asked, o)
  | scalar q next, rng, spent, asked => (next (f q)).run f D serve size rng spent asked
  | digest q next, rng, spent, asked => (next (D q)).run f D serve size rng spent (asked ++ [q])
  | evaluate r next, rng, spent, asked =>
      match serve r rng with
      | .ok (v, rng') => (next (.ok v)).run f D serve size rng' (spent + size r) asked
      | .err e => (next (.err e)).run f D serve size rng (spent + size r) asked
      | .panic => none
      | .diverge => none

section
variable {CS : CipherSuite} [CS.group.Lawful] {σ : Type} [RngCore σ]

/-- The response of the `VoprfServer` with key pair `k`, `pk` (`blind_evaluate` or `batch_blind_evaluate`), run with the
generator `rng`, and the generator it leaves. -/
def voprfRespondWith (k : CS.Scalar) (pk : CS.Elem) (f : Table CS) (D : Digests CS) (r : EvalRequest CS) (rng : σ) :
    Res ((List CS.Elem × CS.Scalar × CS.Scalar) × σ) :=
  match r with
  | .one b => (fun p => (([p.1.message.value], p.1.proof.cScalar, p.1.proof.sScalar), p.2)) <$>
      VoprfServer.blindEvaluate (CS := romSuite CS f D) ⟨k, pk⟩ rng ⟨b⟩
  | .batch bs _ =>
      (fun p => ((p.1.messages.map (·.value), p.1.proof.cScalar, p.1.proof.sScalar), p.2)) <$>
      VoprfServer.batchBlindEvaluate (CS := romSuite CS f D) ⟨k, pk⟩ rng (bs.map fun b => ⟨b⟩)

/-- The response of the `PoprfServer` with key pair `k`, `pk` to a request with its info, and the generator it leaves. -/
def poprfRespondWith (k : CS.Scalar) (pk : CS.Elem) (f : Table CS) (D : Digests CS) (r : EvalRequest CS × Option Bytes)
    (rng : σ) : Res ((List CS.Elem × CS.Scalar × CS.Scalar) × σ) :=
  match r.1 with
  | .one b => (fun p => (([p.1.message.value], p.1.proof.cScalar, p.1.proof.sScalar), p.2)) <$>
      PoprfServer.blindEvaluate (CS := romSuite CS f D) ⟨k, pk⟩ rng ⟨b⟩ r.2
  | .batch bs _ =>
      (fun p => ((p.1.messages.map (·.value), p.1.proof.cScalar, p.1.proof.sScalar), p.2)) <$>
      PoprfServer.batchBlindEvaluate (CS := romSuite CS f D) ⟨k, pk⟩ rng (bs.map fun b => ⟨b⟩) r.2

end

/-- Whatever the key, and whatever a client that asks at most `n` questions of `hash_to_scalar` and `d` of the digest, sends at most
`m` requests and makes at most `M` claims: with the server's nonces from `len` uniform bytes, it is right for more inputs than it had
elements evaluated with a probability that exceeds by at most `bound` the one that its digest questions, when it talks to a
simulator that only has an evaluation oracle, contain the evaluations of more inputs than that.  In VOPRF and POPRF. -/
def NoMoreOutputs (CS : CipherSuite) [CS.group.Lawful] (len n d m M : Nat) (bound : ℚ) : Prop :=
  ∀ k : CS.Scalar,
    (k ≠ 0 → ∀ T : Party CS (EvalRequest CS) (List (Bytes × Bytes)), T.Within (fun claims => claims.length ≤ M) n d m →
      (average fun f : Table CS => average fun D : Digests CS => tapeChance len fun t =>
          ∃ x, T.run f D (voprfRespondWith k (k • CS.group.baseElem) f D) (fun r => r.elems.length) t 0 [] = some x ∧
            VoprfClaimsMore k (k • CS.group.baseElem) f D x.1 x.2.2) ≤
        (average fun f : Table CS => average fun D : Digests CS =>
          T.ideal D (fun _ _ => SimCoins (k • CS.group.baseElem))
            (voprfSimulate (fun P => k • P) (k • CS.group.baseElem) D) (fun r => r.elems.length)
            (fun _ spent asked _ => VoprfFindsMore k spent asked) f 0 []) + bound) ∧
    (∀ T : Party CS (EvalRequest CS × Option Bytes) (List (Bytes × Option Bytes × Bytes)),
      T.Within (fun claims => claims.length ≤ M) n d m →
      (average fun f : Table CS => average fun D : Digests CS => tapeChance len fun t =>
          ∃ x, T.run f D (poprfRespondWith k (k • CS.group.baseElem) f D) (fun r => r.1.elems.length) t 0 [] = some x ∧
            PoprfClaimsMore k (k • CS.group.baseElem) f D x.1 x.2.2) ≤
        (average fun f : Table CS => average fun D : Digests CS =>
          T.ideal D (PoprfCoins (k • CS.group.baseElem))
            (poprfSimulate (fun t P => (k + t)⁻¹ • P) (k • CS.group.baseElem) D) (fun r => r.1.elems.length)
            (fun f spent asked _ => PoprfFindsMore k f spent asked) f 0 []) + bound)

end Voprf.Spec
