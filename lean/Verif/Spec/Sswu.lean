import Mathlib.Algebra.Field.Defs
import Mathlib.Algebra.Group.Even
import Mathlib.Algebra.GroupWithZero.Basic

/-!
# RFC 9380 §6.6.2: the simplified Shallue-van de Woestijne-Ulas map

Stated as a relation between the argument `u` and the resulting point `(x, y)`: the square root of step
7/8 is only determined up to sign, and step 9 fixes the sign. Independent of the model.
-/

namespace Rfc9380

variable {K : Type} [Field K]

/-- `g(x) = x³ + A x + B` -/
def curveRhs (A B x : K) : K := x ^ 3 + A * x + B

open Classical in
/-- §6.6.2 steps 1-3: `x1` (`inv0(0) = 0`, which is Lean's `0⁻¹ = 0`). -/
noncomputable def sswuX1 (A B Z u : K) : K :=
  let tv1 := (Z ^ 2 * u ^ 4 + Z * u ^ 2)⁻¹
  if tv1 = 0 then B / (Z * A) else (-B / A) * (1 + tv1)

/-- §6.6.2 step 5: `x2`. -/
noncomputable def sswuX2 (A B Z u : K) : K := Z * u ^ 2 * sswuX1 A B Z u

/-- §6.6.2: `(x, y)` is the result of `map_to_curve_simple_swu(u)`. -/
structure IsSswu (A B Z : K) (sgn0 : K → Bool) (u x y : K) : Prop where
  /-- steps 7, 8: `x` is `x1` if `g(x1)` is square, and `x2` otherwise -/
  x_square : IsSquare (curveRhs A B (sswuX1 A B Z u)) → x = sswuX1 A B Z u
  x_nonsquare : ¬ IsSquare (curveRhs A B (sswuX1 A B Z u)) → x = sswuX2 A B Z u
  /-- steps 7, 8: `y` is a square root of `g(x)` -/
  y_sqrt : y ^ 2 = curveRhs A B x
  /-- step 9: it has the sign of `u` (zero has only one sign) -/
  y_sign : y = 0 ∨ sgn0 y = sgn0 u

end Rfc9380
