import Verif.Spec.OneMore

/-!
# A client facing a server with both hashes random

The game of C56.  A *party* is an arbitrary adaptive client of unlimited computing power.  It asks two tables, that of
`hash_to_scalar` and that of the digest, and has elements evaluated by a server, which answers with proofs.
`Party.real` is the game against the server's API; in `Party.ideal` a simulator that is handed single evaluations, and
nothing else that depends on the private key, makes up the proofs.
-/

namespace Voprf.Spec

/-- A client asking the table of `hash_to_scalar`, asking the table of digests, sending requests in `R`, and ending with
a value in `O`. -/
inductive Party (CS : CipherSuite) (R O : Type)
  | done (o : O)
  | scalar (q : Question) (next : CS.Scalar → Party CS R O)
  | digest (q : DigestQuestion) (next : DigestValue CS → Party CS R O)
  | evaluate (r : R) (next : EvalResponse CS → Party CS R O)

namespace Party
variable {CS : CipherSuite} {R O : Type}

/-- The party asks for at most `n` scalars and at most `d` digests and sends at most `m` requests, and ends with one of
the values in `good`. -/
def Within (good : O → Prop) : Party CS R O → (n d m : Nat) → Prop
  | done o, _, _, _ => good o
  | scalar _ _, 0, _, _ => False
  | scalar _ next, n + 1, d, m => ∀ a, (next a).Within good n d m
  | digest _ _, _, 0, _ => False
  | digest _ next, n, d + 1, m => ∀ a, (next a).Within good n d m
  | evaluate _ _, _, _, 0 => False
  | evaluate _ next, n, d, m + 1 => ∀ v, (next v).Within good n d m

/-- The probability that the party wins when `hash_to_scalar` is answered from `f`, the digest from `D`, and request `r` by
`answer r ρ` for a fresh uniformly chosen `ρ` in `N`.  `wins s qs o` says whether ending with `o` after `s` evaluated elements and
the digest questions `qs` is a win; `spent` and `asked` are the evaluated elements and the digest questions so far. -/
noncomputable def real {N : Type} (f : Table CS) (D : Digests CS) (answer : R → N → EvalResponse CS) (size : R → Nat)
    (wins : Nat → List DigestQuestion → O → Prop) :
    Party CS R O → (spent : Nat) → (asked : List DigestQuestion) → ℚ
  | done o, spent, asked => open Classical in if wins spent asked o then 1 else 0
  | scalar q next, spent, asked => (next (f q)).real f D answer size wins spent asked
  | digest q next, spent, asked => (next (D q)).real f D answer size wins spent (asked ++ [q])
  | evaluate r next, spent, asked =>
    average fun ρ : N => (next (answer r ρ)).real f D answer size wins (spent + size r) asked

/-- The same with a simulator for the server: to answer request `r` when the table of `hash_to_scalar` is `f`, it
chooses `x` uniformly in `Coins r f`; then `step r f x` is the response and the table from then on. -/
noncomputable def ideal (D : Digests CS) (Coins : R → Table CS → Type)
    (step : ∀ r f, Coins r f → EvalResponse CS × Table CS) (size : R → Nat)
    (wins : Table CS → Nat → List DigestQuestion → O → Prop) :
    Party CS R O → (f : Table CS) → (spent : Nat) → (asked : List DigestQuestion) → ℚ
  | done o, f, spent, asked => open Classical in if wins f spent asked o then 1 else 0
  | scalar q next, f, spent, asked => (next (f q)).ideal D Coins step size wins f spent asked
  | digest q next, f, spent, asked => (next (D q)).ideal D Coins step size wins f spent (asked ++ [q])
  | evaluate r next, f, spent, asked =>
    average fun x : Coins r f =>
      (next (step r f x).1).ideal D Coins step size wins (step r f x).2 (spent + size r) asked

end Party

section
variable {CS : CipherSuite} [CS.group.Lawful]

/-- The ciphersuite `CS` with `hash_to_scalar` answered from `f` and the digest from `D`. -/
def romSuite (CS : CipherSuite) [CS.group.Lawful] (f : Table CS) (D : Digests CS) : CipherSuite :=
  digestSuite (oracleSuite CS f) D

/-- The same request, for the ciphersuite with another digest. -/
def EvalRequest.withDigests (D : Digests CS) : EvalRequest CS → EvalRequest (digestSuite CS D)
  | .one b => .one b
  | .batch bs h => .batch bs h

/-! ## VOPRF -/

/-- The response of the `VoprfServer` with key pair `k`, `pk` (`blind_evaluate` or `batch_blind_evaluate`), run
with the generator `rng`. -/
def voprfRespond {σ : Type} [RngCore σ] (k : CS.Scalar) (pk : CS.Elem) (f : Table CS) (D : Digests CS)
    (r : EvalRequest CS) (rng : σ) : EvalResponse CS :=
  match r with
  | .one b => (fun p => ([p.1.message.value], p.1.proof.cScalar, p.1.proof.sScalar)) <$>
      VoprfServer.blindEvaluate (CS := romSuite CS f D) ⟨k, pk⟩ rng ⟨b⟩
  | .batch bs _ =>
      (fun p => (p.1.messages.map (·.value), p.1.proof.cScalar, p.1.proof.sScalar)) <$>
      VoprfServer.batchBlindEvaluate (CS := romSuite CS f D) ⟨k, pk⟩ rng (bs.map fun b => ⟨b⟩)

/-- The simulator of C52 when the digest is answered from `D`. -/
noncomputable def voprfSimulate (ev : CS.Elem → CS.Elem) (pk : CS.Elem) (D : Digests CS) (r : EvalRequest CS)
    (f : Table CS) (x : SimCoins pk) : EvalResponse CS × Table CS :=
  voprfSimulator (CS := digestSuite CS D) ev pk (r.withDigests D) f x

/-- More inputs have a right claim than elements were evaluated: a claim is right if it is what `evaluate` returns. -/
def VoprfClaimsMore (k : CS.Scalar) (pk : CS.Elem) (f : Table CS) (D : Digests CS) (spent : Nat)
    (claims : List (Bytes × Bytes)) : Prop :=
  spent < rightCount (fun x y => VoprfServer.evaluate (CS := romSuite CS f D) ⟨k, pk⟩ x = .ok y) claims

/-- The digest questions contain `k·HashToGroup(x)` for more inputs `x` than elements were evaluated. -/
def VoprfFindsMore (k : CS.Scalar) (spent : Nat) (asked : List DigestQuestion) : Prop :=
  spent < rightCount (fun x E => ∃ P, hashToGroup CS .Voprf x = .ok P ∧ E = k • P) (asked.flatMap (readPair CS))

/-! ## POPRF -/

/-- The response of the `PoprfServer` with key pair `k`, `pk` (`blind_evaluate` or `batch_blind_evaluate`) to a request with
its info, run with the generator `rng`. -/
def poprfRespond {σ : Type} [RngCore σ] (k : CS.Scalar) (pk : CS.Elem) (f : Table CS) (D : Digests CS)
    (r : EvalRequest CS × Option Bytes) (rng : σ) : EvalResponse CS :=
  match r.1 with
  | .one b => (fun p => ([p.1.message.value], p.1.proof.cScalar, p.1.proof.sScalar)) <$>
      PoprfServer.blindEvaluate (CS := romSuite CS f D) ⟨k, pk⟩ rng ⟨b⟩ r.2
  | .batch bs _ =>
      (fun p => (p.1.messages.map (·.value), p.1.proof.cScalar, p.1.proof.sScalar)) <$>
      PoprfServer.batchBlindEvaluate (CS := romSuite CS f D) ⟨k, pk⟩ rng (bs.map fun b => ⟨b⟩) r.2

/-- The simulator of C52 when the digest is answered from `D`. -/
noncomputable def poprfSimulate (ev : CS.Scalar → CS.Elem → CS.Elem) (pk : CS.Elem) (D : Digests CS)
    (r : EvalRequest CS × Option Bytes) (f : Table CS) (x : PoprfCoins pk r f) : EvalResponse CS × Table CS :=
  poprfSimulator (CS := digestSuite CS D) ev pk (r.1.withDigests D, r.2) f x

/-- More pairs of an input and an info have a right claim than elements were evaluated (an absent info counts as the
empty one). -/
def PoprfClaimsMore (k : CS.Scalar) (pk : CS.Elem) (f : Table CS) (D : Digests CS) (spent : Nat)
    (claims : List (Bytes × Option Bytes × Bytes)) : Prop :=
  spent < rightCount (fun xi iy => PoprfServer.evaluate (CS := romSuite CS f D) ⟨k, pk⟩ xi.1 iy.1 = .ok iy.2)
    (claims.map fun c => ((c.1, c.2.1.getD []), (c.2.1, c.2.2)))

/-- The digest questions contain `(k + t)⁻¹·HashToGroup(x)`, where `t` is the table's tweak for the info `i`, for more
pairs `(x, i)` than elements were evaluated. -/
def PoprfFindsMore (k : CS.Scalar) (f : Table CS) (spent : Nat) (asked : List DigestQuestion) : Prop :=
  spent < rightCount (fun xi E => ∃ P, hashToGroup CS .Poprf xi.1 = .ok P ∧ k + tweakOf f (some xi.2) ≠ 0 ∧
      E = (k + tweakOf f (some xi.2))⁻¹ • P)
    ((asked.flatMap (readTriple CS)).map fun c => ((c.1, c.2.1), c.2.2))

end

end Voprf.Spec
