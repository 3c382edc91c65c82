import Verif.Spec.Pseudorandom
import Verif.Spec.DerivedKeys
import Verif.Spec.Party

/-!
# Telling the outputs of a freshly made server from random strings

Both `hash_to_scalar` and the digest are tables.  The server is made by `new` from a generator that yields uniform bytes; a party
asks for digests, asks `hash_to_scalar`, asks for outputs of `evaluate`, and guesses whether these come from the server or from a
random function.
-/

namespace Voprf.Spec

/-- A party that asks for digests, asks `hash_to_scalar` (`.inl`) and asks for outputs (`.inr`), and guesses. -/
abbrev OutputJudge (CS : CipherSuite) (X : Type) : Type :=
  Player DigestQuestion (DigestValue CS) (Question ⊕ X) (CS.Scalar ⊕ Option Bytes) Bool

/-- The party asks for at most `d` digests, `h` values of `hash_to_scalar` and `m` outputs. -/
inductive OutputJudge.Within {CS : CipherSuite} {X : Type} : (d h m : Nat) → OutputJudge CS X → Prop
  | done {d h m} (guess : Bool) : Within d h m (.done guess)
  | digest {d h m} (q : DigestQuestion) (next) : (∀ a, Within d h m (next a)) → Within (d + 1) h m (.ask q next)
  | scalar {d h m} (q : Question) (next) : (∀ a, Within d h m (next (.inl a))) → Within d (h + 1) m (.request (.inl q) next)
  | output {d h m} (x : X) (next) : (∀ o, Within d h m (next (.inr o))) → Within d h (m + 1) (.request (.inr x) next)

section
variable {CS : CipherSuite} [CS.group.Lawful]

/-- The party guesses `true` when facing the tables `f` and `D` and outputs computed by `output`. -/
def OutputJudge.Accepts {X : Type} (T : OutputJudge CS X) (f : Table CS) (D : Digests CS) (output : X → Option Bytes) : Prop :=
  T.run D (withOutputs f output) = true

/-- `OprfServer::new`, with a generator yielding the bytes of the seed, returns a server, and facing its outputs the party guesses
`true`. -/
def oprfFresh (T : OutputJudge CS Bytes) (seed : Seed CS) (f : Table CS) (D : Digests CS) : Prop :=
  ∃ s g, OprfServer.new (romSuite CS f D) (⟨seed.1⟩ : Tape) = .ok (s, g) ∧ T.Accepts f D fun x => success (s.evaluate x)

/-- The same for `VoprfServer::new`. -/
def voprfFresh (T : OutputJudge CS Bytes) (seed : Seed CS) (f : Table CS) (D : Digests CS) : Prop :=
  ∃ s g, VoprfServer.new (romSuite CS f D) (⟨seed.1⟩ : Tape) = .ok (s, g) ∧ T.Accepts f D fun x => success (s.evaluate x)

/-- The same for `PoprfServer::new`; outputs are asked for pairs of an input and an info. -/
def poprfFresh (T : OutputJudge CS (Bytes × Option Bytes)) (seed : Seed CS) (f : Table CS) (D : Digests CS) : Prop :=
  ∃ s g, PoprfServer.new (romSuite CS f D) (⟨seed.1⟩ : Tape) = .ok (s, g) ∧
    T.Accepts f D fun x => success (s.evaluate x.1 x.2)

open Classical in
/-- The output for `x` and `info` is that of the function, for an input and an info of at most 65535 bytes, the input not hashed to
the identity. -/
noncomputable def InfoOutputs.respond (F : InfoOutputs CS) (x : Bytes × Option Bytes) : Option Bytes :=
  if h : x.1.length ≤ 65535 ∧ (x.2.getD []).length ≤ 65535 ∧ Mapped CS .Poprf x.1 then
    some (F (⟨x.1, h.1⟩, ⟨x.2, h.2.1⟩)).1
  else none

end

end Voprf.Spec
