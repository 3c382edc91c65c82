import Verif.Spec.Dleq
import Verif.Model.Voprf
import Verif.Model.Poprf
import Mathlib.SetTheory.Cardinal.Finite

/-!
# The random-oracle reading of a ciphersuite

`oracleSuite CS f` is the ciphersuite `CS` with `hash_to_scalar` replaced by a table `f` (everything else,
in particular the group, the encodings and the digest, is that of `CS`).  A *strategy* is an arbitrary
adaptive adversary: a decision tree that may ask the table for any entry, look at the answer, and go on.
It has unlimited computing power; only its questions are counted.  "Probability" is the fraction of
tables.
-/

namespace Voprf.Spec

/-- A question to the oracle: a domain-separation tag and a message, both of at most 131071 bytes (longer
ones are never hashed by the crate under `CipherSuite.WF`). -/
def Question : Type := {p : Bytes × Bytes // p.1.length ≤ 131071 ∧ p.2.length ≤ 131071}

/-- A complete table of answers. -/
abbrev Table (CS : CipherSuite) : Type := Question → CS.Scalar

section
variable (CS : CipherSuite) [L : CS.group.Lawful]

/-- The answer of a table to a tag and a message of any length (zero beyond the bound). -/
def Table.answer {CS : CipherSuite} [CS.group.Lawful] (f : Table CS) (dst msg : Bytes) : CS.Scalar :=
  if h : dst.length ≤ 131071 ∧ msg.length ≤ 131071 then f ⟨(dst, msg), h⟩ else 0

/-- The group of `CS` with `hash_to_scalar` answered from a table. -/
def oracleGroup (f : Table CS) : VGroup :=
  { CS.group with hashToScalar := fun _ xs ds => .ok (f.answer ds.flatten xs.flatten) }

/-- The ciphersuite `CS` with `hash_to_scalar` answered from a table. -/
def oracleSuite (f : Table CS) : CipherSuite := { CS with group := oracleGroup CS f }

end

/-- An adaptive strategy asking questions in `Q`, receiving answers in `A`, ending with a value in `O`. -/
inductive Strategy (Q A O : Type)
  | done (o : O)
  | ask (q : Q) (next : A → Strategy Q A O)

namespace Strategy
variable {Q A O : Type}

/-- What the strategy ends with when the answers are those of `f`. -/
def run (f : Q → A) : Strategy Q A O → O
  | done o => o
  | ask q next => run f (next (f q))

/-- The strategy never asks more than `n` questions. -/
def Within : Nat → Strategy Q A O → Prop
  | _, done _ => True
  | 0, ask _ _ => False
  | n + 1, ask _ next => ∀ a, Within n (next a)

end Strategy

/-- Everything one call of `VoprfClient::finalize` looks at. -/
structure VoprfAttempt (CS : CipherSuite) where
  blind : CS.Scalar
  blindedElement : CS.Elem
  input : Bytes
  message : CS.Elem
  c : CS.Scalar
  s : CS.Scalar
  pk : CS.Elem

/-- Everything one call of `PoprfClient::finalize` looks at. -/
structure PoprfAttempt (CS : CipherSuite) where
  blind : CS.Scalar
  blindedElement : CS.Elem
  input : Bytes
  message : CS.Elem
  c : CS.Scalar
  s : CS.Scalar
  pk : CS.Elem
  info : Option Bytes

/-- Everything one call of `VoprfClient::batch_finalize` (or `PoprfClient::batch_finalize`) looks at, except
the public key and the info. A client state is a pair of a blind and a blinded element. -/
structure BatchAttempt (CS : CipherSuite) where
  inputs : List Bytes
  clients : List (CS.Scalar × CS.Elem)
  messages : List CS.Elem
  c : CS.Scalar
  s : CS.Scalar

section
variable {CS : CipherSuite} [CS.group.Lawful]

/-- The call `VoprfClient::batch_finalize` of an attempt against the public key `pk`, when
`hash_to_scalar` is answered from `f`. -/
def BatchAttempt.voprfFinalize (f : Table CS) (pk : CS.Elem) (a : BatchAttempt CS) :
    Res (List (Res Bytes)) :=
  VoprfClient.batchFinalize (CS := oracleSuite CS f) a.inputs
    (a.clients.map fun p => ⟨p.1, p.2⟩) (a.messages.map fun e => ⟨e⟩) ⟨a.c, a.s⟩ pk

/-- The call `PoprfClient::batch_finalize` of an attempt against `pk` and `info`, when
`hash_to_scalar` is answered from `f`. -/
def BatchAttempt.poprfFinalize (f : Table CS) (pk : CS.Elem) (info : Option Bytes)
    (a : BatchAttempt CS) : Res (List (Res Bytes)) :=
  PoprfClient.batchFinalize (CS := oracleSuite CS f) a.inputs
    (a.clients.map fun p => ⟨p.1, p.2⟩) (a.messages.map fun e => ⟨e⟩) ⟨a.c, a.s⟩ pk info

/-- Some item of the batch is wrong: its message is not the `pk`-multiple of its blinded element. -/
def BatchAttempt.SomeWrong (pk : CS.Elem) (a : BatchAttempt CS) : Prop :=
  ∃ (i : Nat) (p : CS.Scalar × CS.Elem) (e : CS.Elem),
    a.clients[i]? = some p ∧ a.messages[i]? = some e ∧ ¬ SameKey CS pk p.2 e

/-- Every item of the batch is wrong. -/
def BatchAttempt.AllWrong (pk : CS.Elem) (a : BatchAttempt CS) : Prop :=
  ∀ (i : Nat) (p : CS.Scalar × CS.Elem) (e : CS.Elem),
    a.clients[i]? = some p → a.messages[i]? = some e → ¬ SameKey CS pk p.2 e

/-- Every item of a POPRF batch is wrong. -/
def BatchAttempt.AllWrongTweaked (tk : CS.Elem) (a : BatchAttempt CS) : Prop :=
  ∀ (i : Nat) (p : CS.Scalar × CS.Elem) (e : CS.Elem),
    a.clients[i]? = some p → a.messages[i]? = some e → ¬ SameKey CS tk e p.2

/-- Some item of a POPRF batch is wrong: its blinded element is not the `tk`-multiple of its message. -/
def BatchAttempt.SomeWrongTweaked (tk : CS.Elem) (a : BatchAttempt CS) : Prop :=
  ∃ (i : Nat) (p : CS.Scalar × CS.Elem) (e : CS.Elem),
    a.clients[i]? = some p ∧ a.messages[i]? = some e ∧ ¬ SameKey CS tk e p.2

/-- The call `VoprfClient::finalize` of an attempt, when `hash_to_scalar` is answered from `f`. -/
def VoprfAttempt.finalize (f : Table CS) (a : VoprfAttempt CS) : Res Bytes :=
  VoprfClient.finalize (CS := oracleSuite CS f) ⟨a.blind, a.blindedElement⟩ a.input ⟨a.message⟩
    ⟨a.c, a.s⟩ a.pk

/-- The call `PoprfClient::finalize` of an attempt, when `hash_to_scalar` is answered from `f`. -/
def PoprfAttempt.finalize (f : Table CS) (a : PoprfAttempt CS) : Res Bytes :=
  PoprfClient.finalize (CS := oracleSuite CS f) ⟨a.blind, a.blindedElement⟩ a.input ⟨a.message⟩
    ⟨a.c, a.s⟩ a.pk a.info

end

end Voprf.Spec
