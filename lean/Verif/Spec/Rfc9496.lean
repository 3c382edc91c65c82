import Mathlib.Algebra.Field.Defs
import Mathlib.Algebra.Group.Even
import Mathlib.Algebra.GroupWithZero.Basic

/-!
# RFC 9496 §4.3 as mathematics

The encoding and the one-way map of ristretto255 as relations between field elements and points of
`-x² + y² = 1 + d x² y²`, without algorithms.  Independent of the model.
-/

namespace Rfc9496

variable {K : Type} [Field K]

/-- §4.3.1, §4.3.2: `s` encodes the class of the point `(x, y)`, and `(x, y)` is what decoding `s` computes. -/
structure Encodes (Nonneg : K → Prop) (s x y : K) : Prop where
  s_nonneg : Nonneg s
  x_nonneg : Nonneg x
  t_nonneg : Nonneg (x * y)
  y_ne_zero : y ≠ 0
  s_sq : 1 + s ^ 2 ≠ 0
  y_eq : y = (1 - s ^ 2) / (1 + s ^ 2)

/-- §4.3.4: `(x, y)` is the result of `MAP(t)`; `i` is `SQRT_M1` and `k` is `SQRT_AD_MINUS_ONE`.  (If `v = 0` then
`s = 0` and the result is the neutral element, which `u / 0 = 0` gives too.) -/
def IsMap (Nonneg : K → Prop) (d i k t x y : K) : Prop :=
  let r := i * t ^ 2
  let u := (r + 1) * (1 - d ^ 2)
  let v := (-1 - r * d) * (r + d)
  ∃ s c : K,
    (IsSquare (u / v) → Nonneg s ∧ s ^ 2 = u / v ∧ c = -1) ∧
    (¬ IsSquare (u / v) → Nonneg (-s) ∧ s ^ 2 = r * (u / v) ∧ c = r) ∧
    x = 2 * s * v / ((c * (r - 1) * (d - 1) ^ 2 - v) * k) ∧
    y = (1 - s ^ 2) / (1 + s ^ 2)

end Rfc9496
