import Verif.Spec.Party

/-!
# The hash to the group as a source of random targets

`pointSuite CS H` is the ciphersuite `CS` with `hash_to_curve` replaced by a table `H`.  An *attacker* is a client of
unlimited computing power that asks this table and that of the digest, and has elements evaluated.  The *one-more
Diffie-Hellman problem* is about the group alone: the solver obtains independent uniformly random elements, the targets, by
names of its choice, and has elements multiplied by the key; it wins by multiplying more targets than it had
multiplications.
-/

namespace Voprf.Spec

/-- A complete table of the hash to the group; a question is a domain-separation tag and a message. -/
abbrev Points (CS : CipherSuite) : Type := Question → CS.Elem

section
variable {CS : CipherSuite} [L : CS.group.Lawful]

/-- The answer of a table to a tag and a message of any length (the identity beyond the bound). -/
def Points.answer (H : Points CS) (dst msg : Bytes) : CS.Elem :=
  if h : dst.length ≤ 131071 ∧ msg.length ≤ 131071 then H ⟨(dst, msg), h⟩ else 0

variable (CS) in
/-- The ciphersuite `CS` with `hash_to_curve` answered from a table. -/
def pointSuite (H : Points CS) : CipherSuite :=
  { CS with group := { CS.group with hashToCurve := fun _ xs ds => .ok (H.answer ds.flatten xs.flatten) } }

/-- Replacing `hash_to_curve` by a table keeps the contract of the group. -/
@[reducible] instance pointLawful (H : Points CS) : (pointSuite CS H).group.Lawful where
  field := L.field
  addCommGroup := L.addCommGroup
  module := L.module
  finite_scalar := L.finite_scalar
  elemAdd_eq := L.elemAdd_eq
  elemMul_eq := L.elemMul_eq
  elemCtEq_iff := L.elemCtEq_iff
  scalarAdd_eq := L.scalarAdd_eq
  scalarMul_eq := L.scalarMul_eq
  scalarSub_eq := L.scalarSub_eq
  scalarCtEq_iff := L.scalarCtEq_iff
  elemZeroize_eq := L.elemZeroize_eq
  scalarZeroize_eq := L.scalarZeroize_eq
  identityElem_eq := L.identityElem_eq
  baseElem_ne_zero := L.baseElem_ne_zero
  base_generates := L.base_generates
  isZeroScalar_iff := L.isZeroScalar_iff
  invertScalar_eq := L.invertScalar_eq
  randomScalar_ne_zero := L.randomScalar_ne_zero
  deserializeElem_serialize := L.deserializeElem_serialize
  deserializeElem_serialize_zero := L.deserializeElem_serialize_zero
  deserializeElem_ne_zero := L.deserializeElem_ne_zero
  deserializeElem_error := L.deserializeElem_error
  deserializeScalar_serialize := L.deserializeScalar_serialize
  deserializeScalar_serialize_zero := L.deserializeScalar_serialize_zero
  deserializeScalar_ne_zero := L.deserializeScalar_ne_zero
  deserializeScalar_error := L.deserializeScalar_error
  hashToCurve_flatten := fun H xs ds => by
    show Except.ok _ = Except.ok _
    simp
  hashToScalar_flatten := L.hashToScalar_flatten
  hashToCurve_ok := fun H x d _ _ _ => ⟨_, rfl⟩
  hashToScalar_ok := L.hashToScalar_ok

/-- The tag of `HashToGroup`. -/
def pointTag (CS : CipherSuite) (mode : Mode) : Bytes := ascii "HashToGroup-" ++ contextString CS mode

/-- The question that `HashToGroup` of an input asks the table. -/
def pointQuestion (CS : CipherSuite) (mode : Mode) (x : Bytes) : Option Question :=
  if h : (pointTag CS mode).length ≤ 131071 ∧ x.length ≤ 131071 then some ⟨(pointTag CS mode, x), h⟩ else none

/-- A client asking the table of the hash to the group, asking the table of digests, having elements evaluated, and
ending with a value in `O`. -/
inductive Attacker (CS : CipherSuite) (O : Type)
  | done (o : O)
  | point (q : Question) (next : CS.Elem → Attacker CS O)
  | digest (q : DigestQuestion) (next : DigestValue CS → Attacker CS O)
  | evaluate (b : CS.Elem) (next : CS.Elem → Attacker CS O)

namespace Attacker
variable {O : Type}

/-- What the attacker ends with when the tables are `H` and `D` and elements are evaluated by `serve`. -/
def run (H : Points CS) (D : Digests CS) (serve : CS.Elem → CS.Elem) : Attacker CS O → O
  | done o => o
  | point q next => (next (H q)).run H D serve
  | digest q next => (next (D q)).run H D serve
  | evaluate b next => (next (serve b)).run H D serve

/-- How many elements it has evaluated. -/
def evaluations (H : Points CS) (D : Digests CS) (serve : CS.Elem → CS.Elem) : Attacker CS O → Nat
  | done _ => 0
  | point q next => (next (H q)).evaluations H D serve
  | digest q next => (next (D q)).evaluations H D serve
  | evaluate b next => (next (serve b)).evaluations H D serve + 1

/-- The solver made from the attacker: it answers the digest questions from `D`, asks for a target where the attacker asks for
the hash of a string, the string being the name, has multiplied what the attacker has evaluated, and lists the input and the
element it reads off each digest question. -/
def solver (D : Digests CS) : Attacker CS O → (found : List (Question × CS.Elem)) →
    Player Question CS.Elem CS.Elem CS.Elem (List (Question × CS.Elem))
  | done _, found => .done found
  | point q next, found => .ask q fun P => (next P).solver D found
  | digest q next, found => (next (D q)).solver D
      (found ++ (readPair CS q).filterMap fun p => (pointQuestion CS .Oprf p.1).map fun name => (name, p.2))
  | evaluate b next, found => .request b fun V => (next V).solver D found

end Attacker

/-- The probability that the solver wins the one-more Diffie-Hellman problem with the key `k`: it is right (for different
names) about more products of `k` with a target than it had elements multiplied by `k`. -/
noncomputable def oneMoreDH (k : CS.Scalar)
    (S : Player Question CS.Elem CS.Elem CS.Elem (List (Question × CS.Elem))) : ℚ :=
  chance fun target : Question → CS.Elem => S.requests target (fun P => k • P) <
    rightCount (fun name E => E = k • target name) (S.run target fun P => k • P)

/-! ## VOPRF -/

/-- A client asking the table of the hash to the group, the table of `hash_to_scalar` and the table of digests, sending
requests to a `VoprfServer`, and ending with a value in `O`. -/
inductive VerifiedAttacker (CS : CipherSuite) (O : Type)
  | done (o : O)
  | point (q : Question) (next : CS.Elem → VerifiedAttacker CS O)
  | scalar (q : Question) (next : CS.Scalar → VerifiedAttacker CS O)
  | digest (q : DigestQuestion) (next : DigestValue CS → VerifiedAttacker CS O)
  | evaluate (r : EvalRequest CS) (next : EvalResponse CS → VerifiedAttacker CS O)

/-- The same request, for the ciphersuite with another hash to the group. -/
def EvalRequest.withPoints (H : Points CS) : EvalRequest CS → EvalRequest (pointSuite CS H)
  | .one b => .one b
  | .batch bs h => .batch bs h

/-- A solver of the one-more Diffie-Hellman problem that may toss coins: it obtains targets by names, has elements multiplied,
draws two scalars (such that the commitment made of them and the element `B` is not the identity), and ends with a list of names
and elements. -/
inductive Solver (CS : CipherSuite) [CS.group.Lawful]
  | done (found : List (Question × CS.Elem))
  | target (name : Question) (next : CS.Elem → Solver CS)
  | multiply (P : CS.Elem) (next : CS.Elem → Solver CS)
  | toss (B : CS.Elem) (next : SimCoins B → Solver CS)

namespace Solver

/-- The probability, over its coins, that the solver wins when the key is `k` and the targets are those of `target`: it is right
about more products than it had elements multiplied (`spent` so far). -/
noncomputable def wins (k : CS.Scalar) (target : Question → CS.Elem) : Solver CS → (spent : Nat) → ℚ
  | done found, spent => open Classical in if spent < rightCount (fun name E => E = k • target name) found then 1 else 0
  | .target name next, spent => (next (target name)).wins k target spent
  | multiply P next, spent => (next (k • P)).wins k target (spent + 1)
  | toss _ next, spent => average fun x => (next x).wins k target spent

/-- The probability that the solver wins when the targets are independent and uniformly random. -/
noncomputable def oneMoreDH (k : CS.Scalar) (S : Solver CS) : ℚ := average fun target : Question → CS.Elem => S.wins k target 0

/-- Has the elements of a list multiplied, one after the other. -/
def multiplyEach : List CS.Elem → (List CS.Elem → Solver CS) → Solver CS
  | [], next => next []
  | P :: Ps, next => .multiply P fun V => multiplyEach Ps fun Vs => next (V :: Vs)

end Solver

namespace VerifiedAttacker
variable {O : Type}

/-- The client when the hash to the group is answered from `H`. -/
def toParty (H : Points CS) : VerifiedAttacker CS O → Party (pointSuite CS H) (EvalRequest (pointSuite CS H)) O
  | done o => .done o
  | point q next => (next (H q)).toParty H
  | scalar q next => .scalar q fun s => (next s).toParty H
  | digest q next => .digest q fun y => (next y).toParty H
  | evaluate r next => .evaluate (r.withPoints H) fun v => (next v).toParty H

/-- The client asks for at most `n` scalars and at most `d` digests, sends at most `m` requests, and ends with one of the values
in `good`; the number of questions to the hash to the group is not limited. -/
def Within (good : O → Prop) : VerifiedAttacker CS O → (n d m : Nat) → Prop
  | done o, _, _, _ => good o
  | point _ next, n, d, m => ∀ P, (next P).Within good n d m
  | scalar _ _, 0, _, _ => False
  | scalar _ next, n + 1, d, m => ∀ a, (next a).Within good n d m
  | digest _ _, _, 0, _ => False
  | digest _ next, n, d + 1, m => ∀ a, (next a).Within good n d m
  | evaluate _ _, _, _, 0 => False
  | evaluate _ next, n, d, m + 1 => ∀ v, (next v).Within good n d m

/-- The solver made from the client, given the public key `pk` and the tables `f` and `D` (which it may as well choose itself): it
asks for a target where the client asks for the hash of a string, has the elements of each request multiplied, makes up the proof
as in C12 (writing the challenge into `f`), and lists the input and the element it reads off each digest question. -/
noncomputable def solver (pk : CS.Elem) (D : Digests CS) :
    VerifiedAttacker CS O → (f : Table CS) → (found : List (Question × CS.Elem)) → Solver CS
  | done _, _, found => .done found
  | point q next, f, found => .target q fun P => (next P).solver pk D f found
  | scalar q next, f, found => (next (f q)).solver pk D f found
  | digest q next, f, found => (next (D q)).solver pk D f
      (found ++ (readPair CS q).filterMap fun p => (pointQuestion CS .Voprf p.1).map fun name => (name, p.2))
  | evaluate r next, f, found => Solver.multiplyEach r.elems fun Vs => .toss pk fun x =>
      (next (.ok (Vs, x.1.1, x.1.2))).solver pk D
        (simulateProof (CS := digestSuite CS D) .Voprf pk r.elems Vs f x.1.1 x.1.2) found

end VerifiedAttacker

end

end Voprf.Spec
