import Mathlib.Algebra.Field.Basic
import Mathlib.Algebra.Group.Even
import Mathlib.Tactic.FieldSimp
import Mathlib.Tactic.LinearCombination
import Mathlib.Tactic.Ring
import Mathlib.Tactic.Abel
import Mathlib.Algebra.Group.Subgroup.Lattice

/-!
# Twisted Edwards curves `-x² + y² = 1 + d x² y²`

Over a field in which `-1` is a square and `d` is not, the addition law has no exceptional cases and makes the
points an abelian group.  (Used for edwards25519 in `Curve/Edwards25519.lean`.)
-/

namespace Voprf.Curve.Edwards

/-- The conditions for completeness of the addition law. -/
class Complete {F : Type*} [Field F] (d : F) : Prop where
  neg_one : IsSquare (-1 : F)
  nonsquare : ¬ IsSquare d
  two : (2 : F) ≠ 0

/-- An affine point. -/
@[ext]
structure Pt {F : Type*} [Field F] (d : F) where
  x : F
  y : F
  eq : -x ^ 2 + y ^ 2 = 1 + d * x ^ 2 * y ^ 2

variable {F : Type*} [Field F] {d : F}

section identities

variable {x1 y1 x2 y2 x3 y3 : F}

theorem closure (h1 : -x1 ^ 2 + y1 ^ 2 = 1 + d * x1 ^ 2 * y1 ^ 2) (h2 : -x2 ^ 2 + y2 ^ 2 = 1 + d * x2 ^ 2 * y2 ^ 2) :
    -((x1 * y2 + x2 * y1) * (1 - d * x1 * x2 * y1 * y2)) ^ 2 + ((y1 * y2 + x1 * x2) * (1 + d * x1 * x2 * y1 * y2)) ^ 2 =
      ((1 + d * x1 * x2 * y1 * y2) * (1 - d * x1 * x2 * y1 * y2)) ^ 2 +
        d * (x1 * y2 + x2 * y1) ^ 2 * (y1 * y2 + x1 * x2) ^ 2 := by
  linear_combination
    (x1^2*y1^2*x2^4*y2^4*d^3 - x1^2*x2^4*y2^4*d^2 - x1^2*x2^4*y2^2*d + x1^2*x2^2*y2^4*d + y1^2*x2^4*y2^4*d^2 +
    y1^2*x2^4*y2^2*d - y1^2*x2^2*y2^4*d - x2^4*y2^4*d^2 - 2*x2^4*y2^4*d - 2*x2^4*y2^2 + x2^4 + 2*x2^2*y2^4 -
    2*x2^2*y2^2*d - 4*x2^2*y2^2 + y2^4) * h1 + (x1^4*x2^2*y2^2*d + 2*x1^2*x2^2*y2^2*d + 2*x1^2*x2^2*y2^2 -
    x1^2*x2^2 + x1^2*y2^2 + y1^4*x2^2*y2^2*d - 2*y1^2*x2^2*y2^2*d - 2*y1^2*x2^2*y2^2 + y1^2*x2^2 - y1^2*y2^2 +
    x2^2*y2^2*d + 2*x2^2*y2^2 - x2^2 + y2^2 + 1) * h2

theorem assoc_x (h1 : -x1 ^ 2 + y1 ^ 2 = 1 + d * x1 ^ 2 * y1 ^ 2) (h2 : -x2 ^ 2 + y2 ^ 2 = 1 + d * x2 ^ 2 * y2 ^ 2)
    (h3 : -x3 ^ 2 + y3 ^ 2 = 1 + d * x3 ^ 2 * y3 ^ 2) :
    ((x1 * y2 + x2 * y1) * (1 - d * x1 * x2 * y1 * y2) * y3 + x3 * (y1 * y2 + x1 * x2) * (1 + d * x1 * x2 * y1 * y2)) *
      ((1 + d * x2 * x3 * y2 * y3) * (1 - d * x2 * x3 * y2 * y3) +
        d * (x2 * y3 + x3 * y2) * (y2 * y3 + x2 * x3) * x1 * y1) =
    ((x2 * y3 + x3 * y2) * (1 - d * x2 * x3 * y2 * y3) * y1 + x1 * (y2 * y3 + x2 * x3) * (1 + d * x2 * x3 * y2 * y3)) *
      ((1 + d * x1 * x2 * y1 * y2) * (1 - d * x1 * x2 * y1 * y2) +
        d * (x1 * y2 + x2 * y1) * (y1 * y2 + x1 * x2) * x3 * y3) := by
  linear_combination
    (- x1*x2^4*y2^3*x3^2*y3*d^2 - x1*x2^4*y2*x3^2*y3*d - x1*x2^3*y2^4*x3*y3^2*d^2 - x1*x2^3*y2^2*x3^3*d -
    x1*x2^3*y2^2*x3*d + x1*x2^2*y2^3*y3^3*d - x1*x2^2*y2^3*y3*d + x1*x2*y2^4*x3*y3^2*d +
    y1*x2^4*y2^3*x3*y3^2*d^2 + y1*x2^4*y2*x3*y3^2*d + y1*x2^3*y2^4*x3^2*y3*d^2 + y1*x2^3*y2^2*y3^3*d -
    y1*x2^3*y2^2*y3*d - y1*x2^2*y2^3*x3^3*d - y1*x2^2*y2^3*x3*d - y1*x2*y2^4*x3^2*y3*d) * h1 +
    (x1^3*x2^2*y2*x3^2*y3*d + x1^3*x2*y2^2*x3*y3^2*d + x1^3*x2*x3^3*y3^2*d + x1^3*x2*x3^3 - x1^3*x2*x3*y3^2 +
    x1^3*x2*x3 + x1^3*y2*x3^2*y3^3*d + x1^3*y2*x3^2*y3 - x1^3*y2*y3^3 + x1^3*y2*y3 +
    x1^2*y1*x2^2*y2*x3^3*y3^2*d^2 - x1^2*y1*x2^2*y2*x3*y3^2*d - x1^2*y1*x2*y2^2*x3^2*y3^3*d^2 -
    x1^2*y1*x2*y2^2*x3^2*y3*d + x1^2*y1*x2*x3^2*y3^3*d + x1^2*y1*x2*x3^2*y3 - x1^2*y1*x2*y3^3 + x1^2*y1*x2*y3 +
    x1^2*y1*y2*x3^3*y3^2*d + x1^2*y1*y2*x3^3 - x1^2*y1*y2*x3*y3^2 + x1^2*y1*y2*x3 -
    x1*y1^2*x2^2*y2*x3^2*y3^3*d^2 - x1*y1^2*x2^2*y2*x3^2*y3*d + x1*y1^2*x2*y2^2*x3^3*y3^2*d^2 -
    x1*y1^2*x2*y2^2*x3*y3^2*d - x1*y1^2*x2*x3^3*y3^2*d - x1*y1^2*x2*x3^3 + x1*y1^2*x2*x3*y3^2 - x1*y1^2*x2*x3 -
    x1*y1^2*y2*x3^2*y3^3*d - x1*y1^2*y2*x3^2*y3 + x1*y1^2*y2*y3^3 - x1*y1^2*y2*y3 + x1*x2^2*y2*x3^2*y3*d +
    x1*x2*y2^2*x3*y3^2*d + x1*x2*x3^3*y3^2*d + x1*x2*x3^3 - x1*x2*x3*y3^2 + x1*x2*x3 + x1*y2*x3^2*y3^3*d +
    x1*y2*x3^2*y3 - x1*y2*y3^3 + x1*y2*y3 + y1^3*x2^2*y2*x3*y3^2*d + y1^3*x2*y2^2*x3^2*y3*d -
    y1^3*x2*x3^2*y3^3*d - y1^3*x2*x3^2*y3 + y1^3*x2*y3^3 - y1^3*x2*y3 - y1^3*y2*x3^3*y3^2*d - y1^3*y2*x3^3 +
    y1^3*y2*x3*y3^2 - y1^3*y2*x3 - y1*x2^2*y2*x3*y3^2*d - y1*x2*y2^2*x3^2*y3*d + y1*x2*x3^2*y3^3*d +
    y1*x2*x3^2*y3 - y1*x2*y3^3 + y1*x2*y3 + y1*y2*x3^3*y3^2*d + y1*y2*x3^3 - y1*y2*x3*y3^2 + y1*y2*x3) * h2 + (-
    x1^3*x2^3*x3 - x1^3*x2^2*y2*y3 + x1^3*x2*y2^2*x3 - x1^3*x2*x3 + x1^3*y2^3*y3 - x1^3*y2*y3 - x1^2*y1*x2^3*y3
    - x1^2*y1*x2^2*y2*x3*d - x1^2*y1*x2^2*y2*x3 + x1^2*y1*x2*y2^2*y3*d + x1^2*y1*x2*y2^2*y3 - x1^2*y1*x2*y3 +
    x1^2*y1*y2^3*x3 - x1^2*y1*y2*x3 + x1*y1^2*x2^3*x3 + x1*y1^2*x2^2*y2*y3*d + x1*y1^2*x2^2*y2*y3 -
    x1*y1^2*x2*y2^2*x3*d - x1*y1^2*x2*y2^2*x3 + x1*y1^2*x2*x3 - x1*y1^2*y2^3*y3 + x1*y1^2*y2*y3 - x1*x2^3*x3 -
    x1*x2^2*y2*y3 + x1*x2*y2^2*x3 - x1*x2*x3 + x1*y2^3*y3 - x1*y2*y3 + y1^3*x2^3*y3 + y1^3*x2^2*y2*x3 -
    y1^3*x2*y2^2*y3 + y1^3*x2*y3 - y1^3*y2^3*x3 + y1^3*y2*x3 - y1*x2^3*y3 - y1*x2^2*y2*x3 + y1*x2*y2^2*y3 -
    y1*x2*y3 + y1*y2^3*x3 - y1*y2*x3) * h3

theorem assoc_y (h1 : -x1 ^ 2 + y1 ^ 2 = 1 + d * x1 ^ 2 * y1 ^ 2) (h2 : -x2 ^ 2 + y2 ^ 2 = 1 + d * x2 ^ 2 * y2 ^ 2)
    (h3 : -x3 ^ 2 + y3 ^ 2 = 1 + d * x3 ^ 2 * y3 ^ 2) :
    ((y1 * y2 + x1 * x2) * (1 + d * x1 * x2 * y1 * y2) * y3 + (x1 * y2 + x2 * y1) * (1 - d * x1 * x2 * y1 * y2) * x3) *
      ((1 + d * x2 * x3 * y2 * y3) * (1 - d * x2 * x3 * y2 * y3) -
        d * (x2 * y3 + x3 * y2) * (y2 * y3 + x2 * x3) * x1 * y1) =
    ((y2 * y3 + x2 * x3) * (1 + d * x2 * x3 * y2 * y3) * y1 + (x2 * y3 + x3 * y2) * (1 - d * x2 * x3 * y2 * y3) * x1) *
      ((1 + d * x1 * x2 * y1 * y2) * (1 - d * x1 * x2 * y1 * y2) -
        d * (x1 * y2 + x2 * y1) * (y1 * y2 + x1 * x2) * x3 * y3) := by
  linear_combination
    (x1*x2^4*y2^3*x3*y3^2*d^2 + x1*x2^4*y2*x3*y3^2*d + x1*x2^3*y2^4*x3^2*y3*d^2 + x1*x2^3*y2^2*y3^3*d -
    x1*x2^3*y2^2*y3*d - x1*x2^2*y2^3*x3^3*d - x1*x2^2*y2^3*x3*d - x1*x2*y2^4*x3^2*y3*d -
    y1*x2^4*y2^3*x3^2*y3*d^2 - y1*x2^4*y2*x3^2*y3*d - y1*x2^3*y2^4*x3*y3^2*d^2 - y1*x2^3*y2^2*x3^3*d -
    y1*x2^3*y2^2*x3*d + y1*x2^2*y2^3*y3^3*d - y1*x2^2*y2^3*y3*d + y1*x2*y2^4*x3*y3^2*d) * h1 + (-
    x1^3*x2^2*y2*x3*y3^2*d - x1^3*x2*y2^2*x3^2*y3*d + x1^3*x2*x3^2*y3^3*d + x1^3*x2*x3^2*y3 - x1^3*x2*y3^3 +
    x1^3*x2*y3 + x1^3*y2*x3^3*y3^2*d + x1^3*y2*x3^3 - x1^3*y2*x3*y3^2 + x1^3*y2*x3 +
    x1^2*y1*x2^2*y2*x3^2*y3^3*d^2 + x1^2*y1*x2^2*y2*x3^2*y3*d - x1^2*y1*x2*y2^2*x3^3*y3^2*d^2 +
    x1^2*y1*x2*y2^2*x3*y3^2*d + x1^2*y1*x2*x3^3*y3^2*d + x1^2*y1*x2*x3^3 - x1^2*y1*x2*x3*y3^2 + x1^2*y1*x2*x3 +
    x1^2*y1*y2*x3^2*y3^3*d + x1^2*y1*y2*x3^2*y3 - x1^2*y1*y2*y3^3 + x1^2*y1*y2*y3 -
    x1*y1^2*x2^2*y2*x3^3*y3^2*d^2 + x1*y1^2*x2^2*y2*x3*y3^2*d + x1*y1^2*x2*y2^2*x3^2*y3^3*d^2 +
    x1*y1^2*x2*y2^2*x3^2*y3*d - x1*y1^2*x2*x3^2*y3^3*d - x1*y1^2*x2*x3^2*y3 + x1*y1^2*x2*y3^3 - x1*y1^2*x2*y3 -
    x1*y1^2*y2*x3^3*y3^2*d - x1*y1^2*y2*x3^3 + x1*y1^2*y2*x3*y3^2 - x1*y1^2*y2*x3 - x1*x2^2*y2*x3*y3^2*d -
    x1*x2*y2^2*x3^2*y3*d + x1*x2*x3^2*y3^3*d + x1*x2*x3^2*y3 - x1*x2*y3^3 + x1*x2*y3 + x1*y2*x3^3*y3^2*d +
    x1*y2*x3^3 - x1*y2*x3*y3^2 + x1*y2*x3 - y1^3*x2^2*y2*x3^2*y3*d - y1^3*x2*y2^2*x3*y3^2*d -
    y1^3*x2*x3^3*y3^2*d - y1^3*x2*x3^3 + y1^3*x2*x3*y3^2 - y1^3*x2*x3 - y1^3*y2*x3^2*y3^3*d - y1^3*y2*x3^2*y3 +
    y1^3*y2*y3^3 - y1^3*y2*y3 + y1*x2^2*y2*x3^2*y3*d + y1*x2*y2^2*x3*y3^2*d + y1*x2*x3^3*y3^2*d + y1*x2*x3^3 -
    y1*x2*x3*y3^2 + y1*x2*x3 + y1*y2*x3^2*y3^3*d + y1*y2*x3^2*y3 - y1*y2*y3^3 + y1*y2*y3) * h2 + (- x1^3*x2^3*y3
    - x1^3*x2^2*y2*x3 + x1^3*x2*y2^2*y3 - x1^3*x2*y3 + x1^3*y2^3*x3 - x1^3*y2*x3 - x1^2*y1*x2^3*x3 -
    x1^2*y1*x2^2*y2*y3*d - x1^2*y1*x2^2*y2*y3 + x1^2*y1*x2*y2^2*x3*d + x1^2*y1*x2*y2^2*x3 - x1^2*y1*x2*x3 +
    x1^2*y1*y2^3*y3 - x1^2*y1*y2*y3 + x1*y1^2*x2^3*y3 + x1*y1^2*x2^2*y2*x3*d + x1*y1^2*x2^2*y2*x3 -
    x1*y1^2*x2*y2^2*y3*d - x1*y1^2*x2*y2^2*y3 + x1*y1^2*x2*y3 - x1*y1^2*y2^3*x3 + x1*y1^2*y2*x3 - x1*x2^3*y3 -
    x1*x2^2*y2*x3 + x1*x2*y2^2*y3 - x1*x2*y3 + x1*y2^3*x3 - x1*y2*x3 + y1^3*x2^3*x3 + y1^3*x2^2*y2*y3 -
    y1^3*x2*y2^2*x3 + y1^3*x2*x3 - y1^3*y2^3*y3 + y1^3*y2*y3 - y1*x2^3*x3 - y1*x2^2*y2*y3 + y1*x2*y2^2*x3 -
    y1*x2*x3 + y1*y2^3*y3 - y1*y2*y3) * h3

end identities


theorem curve_of_cleared {X Y A B : F} (hA : A ≠ 0) (hB : B ≠ 0)
    (h : -(X * B) ^ 2 + (Y * A) ^ 2 = (A * B) ^ 2 + d * X ^ 2 * Y ^ 2) :
    -(X / A) ^ 2 + (Y / B) ^ 2 = 1 + d * (X / A) ^ 2 * (Y / B) ^ 2 := by
  field_simp
  linear_combination h

theorem clear_x {X Y A B X' Y' A' B' x y x' y' : F} (hA : A ≠ 0) (hB : B ≠ 0) (hA' : A' ≠ 0) (hB' : B' ≠ 0)
    (h : (X * B * y + x * Y * A) * (A' * B' + d * X' * Y' * x' * y') =
      (X' * B' * y' + x' * Y' * A') * (A * B + d * X * Y * x * y)) :
    (X / A * y + x * (Y / B)) * (1 + d * x' * (X' / A') * y' * (Y' / B')) =
      (x' * (Y' / B') + X' / A' * y') * (1 + d * (X / A) * x * (Y / B) * y) := by
  field_simp
  linear_combination h

theorem clear_y {X Y A B X' Y' A' B' x y x' y' : F} (hA : A ≠ 0) (hB : B ≠ 0) (hA' : A' ≠ 0) (hB' : B' ≠ 0)
    (h : (Y * A * y + X * B * x) * (A' * B' - d * X' * Y' * x' * y') =
      (Y' * A' * y' + X' * B' * x') * (A * B - d * X * Y * x * y)) :
    (Y / B * y + X / A * x) * (1 - d * x' * (X' / A') * y' * (Y' / B')) =
      (y' * (Y' / B') + x' * (X' / A')) * (1 - d * (X / A) * x * (Y / B) * y) := by
  field_simp
  linear_combination h

/-- The denominators of the addition law do not vanish. -/
theorem prod_ne [C : Complete d] (P Q : Pt d) : (d * P.x * Q.x * P.y * Q.y) ^ 2 ≠ 1 := by
  intro he
  obtain ⟨i, hi⟩ := C.neg_one
  obtain ⟨x1, y1, h1⟩ := P
  obtain ⟨x2, y2, h2⟩ := Q
  simp only at he
  set e := d * x1 * x2 * y1 * y2 with hedef
  have hx1 : x1 ≠ 0 := by rintro rfl; simp [hedef] at he
  have hy1 : y1 ≠ 0 := by rintro rfl; simp [hedef] at he
  have hy2 : y2 ≠ 0 := by rintro rfl; simp [hedef] at he
  have k1 : (i * x1 + e * y1) ^ 2 = d * (x1 * y1 * (i * x2 + y2)) ^ 2 := by
    rw [hedef] at he ⊢
    linear_combination h1 - d * x1 ^ 2 * y1 ^ 2 * h2 + (y1 ^ 2 - 1) * he - (x1 ^ 2 - d * x1 ^ 2 * x2 ^ 2 * y1 ^ 2) * hi
  have k2 : (i * x1 - e * y1) ^ 2 = d * (x1 * y1 * (i * x2 - y2)) ^ 2 := by
    rw [hedef] at he ⊢
    linear_combination h1 - d * x1 ^ 2 * y1 ^ 2 * h2 + (y1 ^ 2 - 1) * he - (x1 ^ 2 - d * x1 ^ 2 * x2 ^ 2 * y1 ^ 2) * hi
  have sq : ∀ a b : F, a ^ 2 = d * b ^ 2 → b = 0 := fun a b h => by
    by_contra hb
    exact C.nonsquare ⟨a / b, by field_simp; linear_combination -h⟩
  have z1 := sq _ _ k1
  have z2 := sq _ _ k2
  have w1 : i * x2 + y2 = 0 := by simpa [hx1, hy1] using z1
  have w2 : i * x2 - y2 = 0 := by simpa [hx1, hy1] using z2
  have : 2 * y2 = 0 := by linear_combination w1 - w2
  exact (mul_ne_zero C.two hy2) this

theorem plus_ne [Complete d] (P Q : Pt d) : 1 + d * P.x * Q.x * P.y * Q.y ≠ 0 := fun h =>
  prod_ne P Q (by linear_combination (d * P.x * Q.x * P.y * Q.y - 1) * h)

theorem minus_ne [Complete d] (P Q : Pt d) : 1 - d * P.x * Q.x * P.y * Q.y ≠ 0 := fun h =>
  prod_ne P Q (by linear_combination (-d * P.x * Q.x * P.y * Q.y - 1) * h)

namespace Pt

/-- The addition law. -/
def add [Complete d] (P Q : Pt d) : Pt d where
  x := (P.x * Q.y + Q.x * P.y) / (1 + d * P.x * Q.x * P.y * Q.y)
  y := (P.y * Q.y + P.x * Q.x) / (1 - d * P.x * Q.x * P.y * Q.y)
  eq := by
    have h1 := plus_ne P Q
    have h2 := minus_ne P Q
    exact curve_of_cleared h1 h2 (closure P.eq Q.eq)

instance : Zero (Pt d) := ⟨⟨0, 1, by ring⟩⟩
instance : Neg (Pt d) := ⟨fun P => ⟨-P.x, P.y, by linear_combination P.eq⟩⟩

@[simp] theorem zero_x : (0 : Pt d).x = 0 := rfl
@[simp] theorem zero_y : (0 : Pt d).y = 1 := rfl
@[simp] theorem neg_x (P : Pt d) : (-P).x = -P.x := rfl
@[simp] theorem neg_y (P : Pt d) : (-P).y = P.y := rfl

variable [Complete d]

instance : Add (Pt d) := ⟨add⟩

theorem add_x (P Q : Pt d) : (P + Q).x = (P.x * Q.y + Q.x * P.y) / (1 + d * P.x * Q.x * P.y * Q.y) := rfl
theorem add_y (P Q : Pt d) : (P + Q).y = (P.y * Q.y + P.x * Q.x) / (1 - d * P.x * Q.x * P.y * Q.y) := rfl

theorem add_comm' (P Q : Pt d) : P + Q = Q + P := by
  ext
  · rw [add_x, add_x]; congr 1 <;> ring
  · rw [add_y, add_y]; congr 1 <;> ring

theorem zero_add' (P : Pt d) : 0 + P = P := by
  ext
  · rw [add_x]; simp
  · rw [add_y]; simp

theorem neg_add' (P : Pt d) : -P + P = 0 := by
  have h2 := minus_ne (-P) P
  ext
  · rw [add_x]; simp [mul_comm]
  · rw [add_y, div_eq_iff h2]
    simp
    linear_combination P.eq

theorem add_assoc' (P Q R : Pt d) : P + Q + R = P + (Q + R) := by
  have a1 := plus_ne P Q
  have a2 := minus_ne P Q
  have b1 := plus_ne Q R
  have b2 := minus_ne Q R
  have c1 := plus_ne (P + Q) R
  have c2 := minus_ne (P + Q) R
  have d1 := plus_ne P (Q + R)
  have d2 := minus_ne P (Q + R)
  ext
  · rw [add_x (P + Q) R, add_x P (Q + R), div_eq_div_iff c1 d1, add_x P Q, add_y P Q, add_x Q R, add_y Q R]
    exact clear_x a1 a2 b1 b2 (assoc_x P.eq Q.eq R.eq)
  · rw [add_y (P + Q) R, add_y P (Q + R), div_eq_div_iff c2 d2, add_x P Q, add_y P Q, add_x Q R, add_y Q R]
    exact clear_y a1 a2 b1 b2 (assoc_y P.eq Q.eq R.eq)

instance : AddCommGroup (Pt d) where
  add_assoc := add_assoc'
  zero_add := zero_add'
  add_zero P := by rw [add_comm', zero_add']
  nsmul := nsmulRec
  zsmul := zsmulRec
  neg_add_cancel := neg_add'
  add_comm := add_comm'

end Pt


namespace Pt

variable [C : Complete d]

theorem double_x (P : Pt d) : (P + P).x = 2 * (P.x * P.y) / (1 + d * P.x * P.x * P.y * P.y) := by
  rw [add_x]; congr 1; ring

theorem sub_x (P Q : Pt d) : (P - Q).x = (P.x * Q.y - Q.x * P.y) / (1 - d * P.x * Q.x * P.y * Q.y) := by
  rw [sub_eq_add_neg, add_x]; congr 1 <;> simp <;> ring

theorem sub_y (P Q : Pt d) : (P - Q).y = (P.y * Q.y - P.x * Q.x) / (1 + d * P.x * Q.x * P.y * Q.y) := by
  rw [sub_eq_add_neg, add_y]; congr 1 <;> simp; ring

/-- The points with a zero coordinate. -/
def four (d : F) [C : Complete d] : AddSubgroup (Pt d) where
  carrier := {P | P.x * P.y = 0}
  zero_mem' := by simp
  add_mem' {P Q} hP hQ := by
    simp only [Set.mem_ofPred_eq] at hP hQ ⊢
    rw [add_x, add_y, div_mul_div_comm, div_eq_zero_iff]
    left
    linear_combination (Q.x ^ 2 + Q.y ^ 2) * hP + (P.x ^ 2 + P.y ^ 2) * hQ
  neg_mem' {P} hP := by
    simp only [Set.mem_ofPred_eq] at hP ⊢
    simpa using hP

theorem mem_four {P : Pt d} : P ∈ four d ↔ P.x * P.y = 0 := Iff.rfl

/-- Two points are in the same coset. -/
theorem sub_mem_four (P Q : Pt d) : P - Q ∈ four d ↔ P.x * Q.y = P.y * Q.x ∨ P.y * Q.y = P.x * Q.x := by
  have h1 := plus_ne P Q
  have h2 := minus_ne P Q
  rw [mem_four, mul_eq_zero, sub_x, sub_y, div_eq_zero_iff, div_eq_zero_iff, or_iff_left h2, or_iff_left h1, sub_eq_zero,
    sub_eq_zero, mul_comm Q.x]

/-- The four points of a coset. -/
theorem coset {i : F} (hi : i ^ 2 = -1) {P Q : Pt d} (h : P - Q ∈ four d) :
    (Q.x = P.x ∧ Q.y = P.y) ∨ (Q.x = -P.x ∧ Q.y = -P.y) ∨ (Q.x = i * P.y ∧ Q.y = i * P.x) ∨
      (Q.x = -(i * P.y) ∧ Q.y = -(i * P.x)) := by
  set R := Q - P with hR
  have hm : R ∈ four d := by rw [hR, ← neg_sub]; exact neg_mem h
  have hQ : Q = P + R := by rw [hR]; abel
  have hx : Q.x = P.x * R.y + R.x * P.y ∧ Q.y = P.y * R.y + P.x * R.x := by
    have h0 := mem_four.mp hm
    have : d * P.x * R.x * P.y * R.y = 0 := by linear_combination d * P.x * P.y * h0
    rw [hQ, add_x, add_y, this]
    simp
  rcases mul_eq_zero.mp (mem_four.mp hm) with h0 | h0
  · have := R.eq
    rw [h0] at this hx
    have : (R.y - 1) * (R.y + 1) = 0 := by linear_combination this
    rcases mul_eq_zero.mp this with h1 | h1
    · left; rw [hx.1, hx.2, sub_eq_zero.mp h1]; simp
    · right; left; rw [hx.1, hx.2, eq_neg_of_add_eq_zero_left h1]; simp
  · have := R.eq
    rw [h0] at this hx
    have : (R.x - i) * (R.x + i) = 0 := by linear_combination -this - hi
    rcases mul_eq_zero.mp this with h1 | h1
    · right; right; left; rw [hx.1, hx.2, sub_eq_zero.mp h1]; simp [mul_comm]
    · right; right; right; rw [hx.1, hx.2, eq_neg_of_add_eq_zero_left h1]; simp [mul_comm]

/-- If `4 P = 0` then a coordinate of `P` is zero. -/
theorem mem_four_of_nsmul {P : Pt d} (h : 4 • P = 0) : P ∈ four d := by
  have h4 : P + P + (P + P) = 0 := by rw [← h]; abel
  have hx : ∀ Q : Pt d, (Q + Q).x = 0 → Q.x * Q.y = 0 := fun Q h => by
    rw [double_x, div_eq_zero_iff, or_iff_left (plus_ne Q Q)] at h
    exact (mul_eq_zero.mp h).resolve_left C.two
  set Q := P + P
  rcases mul_eq_zero.mp (hx Q (by rw [h4]; rfl)) with h0 | h0
  · exact hx P h0
  · exfalso
    have e := Q.eq
    have hy : (Q + Q).y = 1 := by rw [h4]; rfl
    rw [add_y, h0] at hy
    simp only [mul_zero, sub_zero, div_one, zero_add] at hy
    rw [h0] at e
    exact C.two (by linear_combination -e - hy)

theorem w_ne_zero (P : Pt d) : 1 + d * P.y ^ 2 ≠ 0 := by
  intro h
  obtain ⟨i, hi⟩ := C.neg_one
  have hy : P.y ≠ 0 := by rintro hy; rw [hy] at h; simp at h
  exact C.nonsquare ⟨i / P.y, by field_simp; linear_combination h + hi⟩

theorem even_identity (P Q : Pt d) :
    (1 + d * P.y ^ 2) * (1 + d * Q.y ^ 2) * (1 + d * (P + Q).y ^ 2) * (1 - d * P.x * Q.x * P.y * Q.y) ^ 2 =
      (1 + d) * (1 + d * P.y ^ 2 * Q.y ^ 2) ^ 2 := by
  have h2 := minus_ne P Q
  have h : (P + Q).y * (1 - d * P.x * Q.x * P.y * Q.y) = P.y * Q.y + P.x * Q.x := by
    rw [add_y, div_mul_cancel₀ _ h2]
  have hP := P.eq
  have hQ := Q.eq
  set x1 := P.x
  set y1 := P.y
  set x2 := Q.x
  set y2 := Q.y
  set y3 := (P + Q).y
  linear_combination (-y1^2*x2^2*y2^4*d^3 - y1^2*x2^2*y2^2*d^2 - x2^2*y2^2*d^2 - x2^2*d) * hP +
    (-y1^4*y2^2*d^2 + y1^2*y2^2*d^2 - y1^2*d + d) * hQ +
    (1 + d * y1 ^ 2) * (1 + d * y2 ^ 2) * d * (y3 * (1 - d * x1 * x2 * y1 * y2) + (y1 * y2 + x1 * x2)) * h

/-- The points for which `1 + d y²` is a square (the doubles, if there is one point outside). -/
def even (d : F) [C : Complete d] (h1 : IsSquare (1 + d)) : AddSubgroup (Pt d) where
  carrier := {P | IsSquare (1 + d * P.y ^ 2)}
  zero_mem' := by simpa using h1
  add_mem' {P Q} hP hQ := by
    simp only [Set.mem_ofPred_eq] at hP hQ ⊢
    have e := even_identity P Q
    have n1 := w_ne_zero P
    have n2 := w_ne_zero Q
    have n3 := minus_ne P Q
    obtain ⟨a, ha⟩ := hP
    obtain ⟨b, hb⟩ := hQ
    obtain ⟨c, hc⟩ := h1
    have na : a ≠ 0 := by rintro rfl; exact n1 (by rw [ha]; simp)
    have nb : b ≠ 0 := by rintro rfl; exact n2 (by rw [hb]; simp)
    set D := 1 - d * P.x * Q.x * P.y * Q.y
    refine ⟨c * (1 + d * P.y ^ 2 * Q.y ^ 2) / (a * b * D), ?_⟩
    rw [ha, hb, hc] at e
    rw [div_mul_div_comm, eq_div_iff (by simp [na, nb, n3])]
    linear_combination e
  neg_mem' {P} hP := hP

theorem mem_even {h1 : IsSquare (1 + d)} {P : Pt d} : P ∈ even d h1 ↔ IsSquare (1 + d * P.y ^ 2) := Iff.rfl

theorem four_le_even (h1 : IsSquare (1 + d)) : four d ≤ even d h1 := by
  intro P hP
  rw [mem_even]
  have e := P.eq
  rcases mul_eq_zero.mp (mem_four.mp hP) with h | h
  · rw [h] at e
    have : P.y ^ 2 = 1 := by linear_combination e
    rwa [this, mul_one]
  · rw [h]; simp

end Pt

end Voprf.Curve.Edwards
