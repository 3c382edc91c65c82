import Verif.Spec.Oracle
import Verif.Spec.Pseudorandom

/-!
# Attacks on many calls of `finalize`

A malicious server asks `hash_to_scalar` and has clients finalize answers of its own making, as often as it likes, in any order,
seeing what each call returns before it goes on.
-/

namespace Voprf.Spec.Player

variable {Q A R V O : Type}

/-- The player asks at most `n` questions and sends at most `m` requests, whatever the answers. -/
inductive Within : (n m : Nat) → Player Q A R V O → Prop
  | done {n m} (o : O) : Within n m (.done o)
  | ask {n m} (q : Q) (next : A → Player Q A R V O) : (∀ a, Within n m (next a)) → Within (n + 1) m (.ask q next)
  | request {n m} (r : R) (next : V → Player Q A R V O) : (∀ v, Within n m (next v)) → Within n (m + 1) (.request r next)

/-- The player only sends requests satisfying `P`. -/
def Only (P : R → Prop) : Player Q A R V O → Prop
  | done _ => True
  | ask _ next => ∀ a, Only P (next a)
  | request r next => P r ∧ ∀ v, Only P (next v)

end Voprf.Spec.Player
