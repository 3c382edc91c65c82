import Verif.Spec.Oracle
import Verif.Spec.Simulator
import Verif.Spec.Distinguisher
import Verif.Spec.Tape
import Verif.Model.Oprf

/-!
# Keys made from seeds, `hash_to_scalar` being a random oracle
-/

namespace Voprf.Spec

/-- A call of `new_from_seed(seed, info)` of the server of one mode. -/
structure KeyRequest where
  mode : Mode
  seed : Bytes
  info : Bytes

namespace KeyRequest
variable {CS : CipherSuite} [CS.group.Lawful]

/-- The private key of the server made by the call, when `hash_to_scalar` is answered from `f`. -/
def key (f : Table CS) (r : KeyRequest) : Res CS.Scalar :=
  match r.mode with
  | .Oprf => OprfServer.newFromSeed (oracleSuite CS f) r.seed r.info >>= fun s => .ok s.sk
  | .Voprf => VoprfServer.newFromSeed (oracleSuite CS f) r.seed r.info >>= fun s => .ok s.sk
  | .Poprf => PoprfServer.newFromSeed (oracleSuite CS f) r.seed r.info >>= fun s => .ok s.sk

/-- The info has at most 65535 bytes (a longer one is refused), and the seed at most 65533. -/
def Sized (r : KeyRequest) : Prop := r.seed.length ≤ 65533 ∧ r.info.length ≤ 65535

/-- What a derivation hashes, but for the tag and a counter: the seed, then the info preceded by its length. -/
def hashed (r : KeyRequest) : Bytes := r.seed ++ framed r.info

/-- The questions a derivation may ask. -/
def Asks (CS : CipherSuite) (r : KeyRequest) (q : Question) : Prop :=
  ∃ counter : UInt8, q.1 = (ascii "DeriveKeyPair" ++ contextString CS r.mode, r.hashed ++ [counter])

end KeyRequest

/-- An event that does not depend on the entries of the table for the questions in `Q`. -/
def Unrelated {CS : CipherSuite} (E : Table CS → Prop) (Q : Question → Prop) : Prop :=
  ∀ f f' : Table CS, (∀ q, ¬ Q q → f q = f' q) → E f → E f'

section
variable (CS : CipherSuite) [CS.group.Lawful]

/-- A seed as drawn by `new`: `ScalarLen` bytes. -/
abbrev Seed : Type := {b : Bytes // b.length = CS.group.scalarLen}

/-- A party that is given a private key, asks the oracle, and guesses. -/
abbrev KeyJudge : Type := CS.Scalar → Strategy Question CS.Scalar Bool

variable {CS}

/-- The private key of the server made by `new` from a generator that yields the bytes of the seed, when `hash_to_scalar` is
answered from `f`. -/
def Seed.newKey (s : Seed CS) (f : Table CS) : Mode → Res CS.Scalar
  | .Oprf => OprfServer.new (oracleSuite CS f) (⟨s.1⟩ : Tape) >>= fun s => .ok s.1.sk
  | .Voprf => VoprfServer.new (oracleSuite CS f) (⟨s.1⟩ : Tape) >>= fun s => .ok s.1.sk
  | .Poprf => PoprfServer.new (oracleSuite CS f) (⟨s.1⟩ : Tape) >>= fun s => .ok s.1.sk

/-- The probability of the guess `true` for the key of a server made by `new` from uniform bytes (there is no guess if `new`
fails). -/
noncomputable def KeyJudge.real (J : KeyJudge CS) (mode : Mode) : ℚ :=
  chance fun w : Seed CS × Table CS => ∃ k : CS.Scalar, w.1.newKey w.2 mode = .ok k ∧ (J k).run w.2 = true

/-- The probability of the guess `true` for a uniformly chosen non-zero key. -/
noncomputable def KeyJudge.ideal (J : KeyJudge CS) : ℚ :=
  chance fun w : Nonce CS × Table CS => (J w.1.1).run w.2 = true

end

end Voprf.Spec
