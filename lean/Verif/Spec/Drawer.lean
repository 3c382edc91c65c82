import Verif.Spec.Tape
import Verif.Spec.Distinguisher

/-!
# Computations that draw random scalars

Any computation, interactive or not, whose only randomness is `random_scalar`, with and without the generator: on a tape of
bytes, and with uniformly chosen non-zero scalars in place of the drawn ones.
-/

namespace Voprf.Spec

/-- A computation that asks for random scalars one at a time and ends with a result. -/
inductive Drawer (X R : Type)
  | done (r : R)
  | draw (next : X → Drawer X R)

namespace Drawer
variable {R : Type}

/-- It asks for at most `m` scalars. -/
def AtMost {X : Type} : Nat → Drawer X R → Prop
  | _, .done _ => True
  | 0, .draw _ => False
  | m + 1, .draw next => ∀ x, (next x).AtMost m

/-- The result when the scalars come from the generator by `random_scalar`; none if it runs dry. -/
def run (G : VGroup) {σ : Type} [RngCore σ] : Drawer G.Scalar R → σ → Option R
  | .done r, _ => some r
  | .draw next, rng =>
      match G.randomScalar rng with
      | some (x, rng') => (next x).run G rng'
      | none => none

/-- The probability of an event when every scalar is chosen uniformly among the non-zero ones. -/
noncomputable def prob (G : VGroup) [G.Lawful] (event : R → Prop) : Drawer G.Scalar R → ℚ
  | .done r => open Classical in if event r then 1 else 0
  | .draw next => average fun x : {x : G.Scalar // x ≠ 0} => (next x.1).prob G event

end Drawer

/-- The probability of an event over the tapes of `len` bytes. -/
noncomputable def tapeChance (len : Nat) (event : Tape → Prop) : ℚ := (tapes len event).ncard / 256 ^ len

/-- The tape does not yield `m` scalars. -/
def RunsDry (G : VGroup) (m : Nat) (t : Tape) : Prop := ¬ ∃ xs : List G.Scalar, xs.length = m ∧ Drawing G xs t

end Voprf.Spec
