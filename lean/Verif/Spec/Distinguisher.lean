import Verif.Spec.Oracle
import Mathlib.Algebra.BigOperators.Finprod
import Mathlib.Algebra.Field.Rat

/-!
# Conversations with a server and a random oracle

A *distinguisher* is an arbitrary adaptive party that asks the table for entries and sends requests to a server,
looks at the answers, and ends with a guess (one bit).  It has unlimited computing power; only its
questions and its requests are counted.  `Distinguisher.real` and `Distinguisher.ideal` are the probabilities of the
guess `true` in two worlds: with a server answering from its key, and with a simulator in its place that
may also write entries into the table.
-/

namespace Voprf.Spec

/-- The average of a quantity over a finite type: its expected value for a uniformly chosen argument. -/
noncomputable def average {α : Type} (F : α → ℚ) : ℚ := (∑ᶠ x, F x) / Nat.card α

/-- The probability of an event for a uniformly chosen argument. -/
noncomputable def chance {α : Type} (P : α → Prop) : ℚ :=
  average fun x => open Classical in if P x then 1 else 0

/-- A session asking questions in `Q` with answers in `A`, sending requests in `R` with responses in `V`. -/
inductive Distinguisher (Q A R V : Type)
  | done (guess : Bool)
  | ask (q : Q) (next : A → Distinguisher Q A R V)
  | request (r : R) (next : V → Distinguisher Q A R V)

namespace Distinguisher
variable {Q A R V : Type}

/-- The session asks at most `n` questions and sends at most `m` requests. -/
def Within : Distinguisher Q A R V → Nat → Nat → Prop
  | done _, _, _ => True
  | ask _ _, 0, _ => False
  | ask _ next, n + 1, m => ∀ a, (next a).Within n m
  | request _ _, _, 0 => False
  | request _ next, n, m + 1 => ∀ v, (next v).Within n m

/-- The probability that the session ends with `true` when questions are answered from the table `f` and
request `r` is answered by `answer r ρ` for a fresh uniformly chosen `ρ` in `N`. -/
noncomputable def real {N : Type} (f : Q → A) (answer : R → N → V) : Distinguisher Q A R V → ℚ
  | done g => if g then 1 else 0
  | ask q next => (next (f q)).real f answer
  | request r next => average fun ρ : N => (next (answer r ρ)).real f answer

/-- The probability that the session ends with `true` when questions are answered from a table, initially
`f`, and request `r` is answered by a simulator: it chooses `x` uniformly in `Coins r f`; then `step r f x`
is the response and the table from then on. -/
noncomputable def ideal (Coins : R → (Q → A) → Type) (step : ∀ r f, Coins r f → V × (Q → A)) :
    Distinguisher Q A R V → (Q → A) → ℚ
  | done g, _ => if g then 1 else 0
  | ask q next, f => (next (f q)).ideal Coins step f
  | request r next, f =>
    average fun x : Coins r f => (next (step r f x).1).ideal Coins step (step r f x).2

end Distinguisher

end Voprf.Spec
