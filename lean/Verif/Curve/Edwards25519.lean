import Verif.Curve.Edwards
import Verif.Curve.Primes
import Verif.Model.Ristretto
import Verif.Model.Ristretto255
import Mathlib.Algebra.Field.ZMod
import Mathlib.GroupTheory.OrderOfElement
import Mathlib.FieldTheory.Finite.Basic

/-!
# edwards25519

The curve `-x² + y² = 1 + d x² y²` over the integers modulo `2^255 - 19` has `8 ℓ` points, and a point for which
`1 + d y²` is a square has an order dividing `4 ℓ`.
-/

namespace Voprf.Ristretto.Formula

open Curve Curve.Edwards

instance : Fact p.Prime := ⟨Curve.p25519_prime⟩

theorem p_val : p = 57896044618658097711785492504343953926634992332820282019728792003956564819949 := rfl
theorem p_mod_eight : p % 8 = 5 := by decide +kernel
theorem p_two : 2 < p := by decide +kernel

/-- The field. -/
abbrev Fp := ZMod p

/-! ## The operations on representatives -/

theorem cast_mul (x y : Nat) : ((mul x y : Nat) : Fp) = x * y := by
  rw [mul, ZMod.natCast_mod, Nat.cast_mul]

theorem cast_add (x y : Nat) : ((add x y : Nat) : Fp) = x + y := by
  rw [add, ZMod.natCast_mod, Nat.cast_add]

theorem cast_sub (x y : Nat) : ((sub x y : Nat) : Fp) = x - y := by
  have h : y % p ≤ p := (Nat.mod_lt _ (by have := p_two; omega)).le
  rw [sub, ZMod.natCast_mod, Nat.cast_add, Nat.cast_sub h, ZMod.natCast_self, ZMod.natCast_mod]
  ring

theorem cast_neg (x : Nat) : ((neg x : Nat) : Fp) = -x := by
  have h : x % p ≤ p := (Nat.mod_lt _ (by have := p_two; omega)).le
  rw [neg, ZMod.natCast_mod, Nat.cast_sub h, ZMod.natCast_self, ZMod.natCast_mod]
  ring

theorem mul_lt (x y : Nat) : mul x y < p := Nat.mod_lt _ (by have := p_two; omega)
theorem neg_lt (x : Nat) : neg x < p := Nat.mod_lt _ (by have := p_two; omega)
theorem mod_lt (x : Nat) : x % p < p := Nat.mod_lt _ (by have := p_two; omega)

theorem cast_inj {x y : Nat} (hx : x < p) (hy : y < p) : x = y ↔ (x : Fp) = y := by
  rw [ZMod.natCast_eq_natCast_iff', Nat.mod_eq_of_lt hx, Nat.mod_eq_of_lt hy]

theorem two_ne : (2 : Fp) ≠ 0 := by
  have : ((2 : ℕ) : Fp) ≠ 0 := by
    rw [Ne, ZMod.natCast_eq_zero_iff]
    intro h
    have := Nat.le_of_dvd (by decide) h
    have := p_two
    omega
  simpa using this

/-! ## Constants -/

/-- The curve constant. -/
def dd : Fp := (D : Nat)

/-- A square root of `-1`. -/
def im : Fp := (SQRT_M1 : Nat)

theorem eq_of_mod {a b : Nat} (h : a % p = b % p) : (a : Fp) = b := (ZMod.natCast_eq_natCast_iff' _ _ _).mpr h

theorem im_sq : im ^ 2 = -1 := by
  have : ((SQRT_M1 * SQRT_M1 + 1 : Nat) : Fp) = ((0 : Nat) : Fp) := eq_of_mod (by decide +kernel)
  push_cast at this
  rw [im]
  linear_combination this

theorem im_ne_zero : im ≠ 0 := by
  intro h
  have := im_sq
  rw [h] at this
  exact one_ne_zero (α := Fp) (by linear_combination this)

/-- A square has `((p-1)/2)`-th power one. -/
theorem sq_pow (a : Fp) (ha : a ≠ 0) : (a ^ 2) ^ ((p - 1) / 2) = 1 := by
  have h8 := p_mod_eight
  rw [← pow_mul, show 2 * ((p - 1) / 2) = p - 1 by omega]
  exact ZMod.pow_card_sub_one_eq_one ha

theorem dd_pow : dd ^ ((p - 1) / 2) = -1 := by
  have : ((powMod D ((p - 1) / 2) p : Nat) : Fp) = ((p - 1 : Nat) : Fp) := eq_of_mod (by decide +kernel)
  rw [powMod_eq, Nat.cast_sub (by have := p_two; omega), ZMod.natCast_self] at this
  rw [dd, this]
  simp

theorem one_add_dd_pow : (1 + dd) ^ ((p - 1) / 4) = -1 := by
  have : ((powMod (1 + D) ((p - 1) / 4) p : Nat) : Fp) = ((p - 1 : Nat) : Fp) := eq_of_mod (by decide +kernel)
  rw [powMod_eq, Nat.cast_sub (by have := p_two; omega), ZMod.natCast_self] at this
  push_cast at this
  rw [dd, this]
  simp

theorem one_ne_neg_one : (1 : Fp) ≠ -1 := fun h => two_ne (by linear_combination h)

theorem dd_ne_zero : dd ≠ 0 := by
  intro h
  have := dd_pow
  have h8 := p_mod_eight
  have h2 : (p - 1) / 2 ≠ 0 := by have := p_two; omega
  rw [h, zero_pow h2] at this
  exact one_ne_zero (α := Fp) (by linear_combination this)

instance complete : Complete dd where
  neg_one := ⟨im, by rw [← sq, im_sq]⟩
  nonsquare := by
    rintro ⟨a, ha⟩
    have h0 : a ≠ 0 := by rintro rfl; exact dd_ne_zero (by rw [ha]; ring)
    have := sq_pow a h0
    rw [sq, ← ha, dd_pow] at this
    exact one_ne_neg_one this.symm
  two := two_ne

/-- `1/√(a-d)` -/
theorem invsqrt_a_minus_d : (-1 - dd) * ((INVSQRT_A_MINUS_D : Nat) : Fp) ^ 2 = 1 := by
  have : (((1 + D) * (INVSQRT_A_MINUS_D * INVSQRT_A_MINUS_D) + 1 : Nat) : Fp) = ((0 : Nat) : Fp) :=
    eq_of_mod (by decide +kernel)
  push_cast at this
  rw [dd]
  linear_combination -this

theorem one_add_dd_square : IsSquare (1 + dd) := by
  have h := invsqrt_a_minus_d
  have h0 : ((INVSQRT_A_MINUS_D : Nat) : Fp) ≠ 0 := by
    intro h'
    rw [h'] at h
    exact one_ne_zero (α := Fp) (by linear_combination -h)
  refine ⟨im / (INVSQRT_A_MINUS_D : Nat), ?_⟩
  rw [div_mul_div_comm, eq_div_iff (mul_ne_zero h0 h0)]
  linear_combination -h - im_sq

theorem one_add_dd_ne_zero : 1 + dd ≠ 0 := by
  intro h
  have := invsqrt_a_minus_d
  exact one_ne_zero (α := Fp) (by linear_combination -this - ((INVSQRT_A_MINUS_D : Nat) : Fp) ^ 2 * h)

/-- `i` is not a square. -/
theorem im_nonsquare : ¬ IsSquare im := by
  rintro ⟨a, ha⟩
  have h0 : a ≠ 0 := by rintro rfl; exact im_ne_zero (by rw [ha]; ring)
  have h4 : a ^ 4 = -1 := by rw [← im_sq, ha]; ring
  have h := ZMod.pow_card_sub_one_eq_one h0
  have h8 := p_mod_eight
  rw [show p - 1 = 4 * (2 * (p / 8) + 1) by omega, pow_mul, h4] at h
  have : (-1 : Fp) ^ (2 * (p / 8) + 1) = -1 := Odd.neg_one_pow ⟨_, rfl⟩
  exact one_ne_neg_one (h.symm.trans this)

/-! ## Signs -/

/-- RFC 9496: a field element is negative if its least non-negative representative is odd. -/
def Negative (a : Fp) : Prop := a.val % 2 = 1

instance (a : Fp) : Decidable (Negative a) := inferInstanceAs (Decidable (_ = _))

theorem isNeg_iff (x : Nat) : isNeg x = true ↔ Negative (x : Fp) := by
  rw [isNeg, Negative, ZMod.val_natCast, beq_iff_eq]

theorem not_negative_zero : ¬ Negative 0 := by rw [Negative, ZMod.val_zero]; decide

theorem negative_neg {a : Fp} (h : a ≠ 0) : Negative (-a) ↔ ¬ Negative a := by
  rw [Negative, Negative]
  have : NeZero a := ⟨h⟩
  rw [ZMod.val_neg_of_ne_zero]
  have := ZMod.val_lt a
  have h8 := p_mod_eight
  omega

/-- Square roots that are not negative are unique. -/
theorem root_unique {a b : Fp} (ha : ¬ Negative a) (hb : ¬ Negative b) (h : a ^ 2 = b ^ 2) : a = b := by
  rcases sq_eq_sq_iff_eq_or_eq_neg.mp h with h | h
  · exact h
  · by_cases h0 : b = 0
    · rw [h, h0, neg_zero]
    · rw [h, negative_neg h0] at ha
      exact absurd hb ha

theorem abs_spec (x : Nat) : abs x < p ∧ ¬ Negative ((abs x : Nat) : Fp) ∧
    (((abs x : Nat) : Fp) = x ∨ ((abs x : Nat) : Fp) = -x) := by
  unfold abs
  by_cases h : isNeg x = true
  · rw [if_pos h]
    refine ⟨neg_lt x, ?_, Or.inr (cast_neg x)⟩
    rw [cast_neg]
    have h' := (isNeg_iff x).mp h
    have h0 : (x : Fp) ≠ 0 := fun h0 => not_negative_zero (h0 ▸ h')
    rw [negative_neg h0]
    exact not_not.mpr h'
  · rw [if_neg h]
    refine ⟨mod_lt x, ?_, Or.inl (ZMod.natCast_mod _ _)⟩
    rw [ZMod.natCast_mod, ← isNeg_iff]
    exact h

theorem abs_sq (x : Nat) : ((abs x : Nat) : Fp) ^ 2 = (x : Fp) ^ 2 := by
  rcases (abs_spec x).2.2 with h | h <;> rw [h]
  ring

/-! ## Extended coordinates -/

/-- The affine points. -/
abbrev Ed := Pt dd

/-- Extended coordinates `(X : Y : Z : T)` of an affine point. -/
structure Rep (P : Point) (A : Ed) : Prop where
  z : (P.z : Fp) ≠ 0
  x : (P.x : Fp) = A.x * P.z
  y : (P.y : Fp) = A.y * P.z
  t : (P.t : Fp) = A.x * A.y * P.z

theorem Rep.unique {P : Point} {A B : Ed} (hA : Rep P A) (hB : Rep P B) : A = B := by
  ext
  · exact mul_right_cancel₀ hA.z (hA.x.symm.trans hB.x)
  · exact mul_right_cancel₀ hA.z (hA.y.symm.trans hB.y)

theorem rep_zero : Rep zero 0 where
  z := by simp [zero]
  x := by simp [zero]
  y := by simp [zero]
  t := by simp [zero]

/-- The same for the other coordinate systems. -/
structure RepP (P : Projective) (A : Ed) : Prop where
  z : (P.z : Fp) ≠ 0
  x : (P.x : Fp) = A.x * P.z
  y : (P.y : Fp) = A.y * P.z

structure RepC (P : Completed) (A : Ed) : Prop where
  z : (P.z : Fp) ≠ 0
  t : (P.t : Fp) ≠ 0
  x : (P.x : Fp) = A.x * P.z
  y : (P.y : Fp) = A.y * P.t

structure RepN (P : Niels) (A : Ed) : Prop where
  z : (P.z : Fp) ≠ 0
  plus : (P.yPlusX : Fp) = (A.y + A.x) * P.z
  minus : (P.yMinusX : Fp) = (A.y - A.x) * P.z
  t : (P.t2d : Fp) = 2 * dd * A.x * A.y * P.z

theorem cast_D2 : ((D2 : Nat) : Fp) = 2 * dd := by
  have : ((D2 : Nat) : Fp) = ((2 * D : Nat) : Fp) := eq_of_mod (by decide +kernel)
  rw [this, dd, Nat.cast_mul, Nat.cast_ofNat]

theorem Rep.niels {P : Point} {A : Ed} (h : Rep P A) : RepN P.niels A where
  z := h.z
  plus := by rw [Point.niels, cast_add, h.x, h.y]; ring
  minus := by rw [Point.niels, cast_sub, h.x, h.y]; ring
  t := by rw [Point.niels, cast_mul, h.t, cast_D2]; ring

theorem repN_zero : RepN Niels.zero 0 where
  z := by simp [Niels.zero]
  plus := by simp [Niels.zero]
  minus := by simp [Niels.zero]
  t := by simp [Niels.zero]

theorem RepN.neg {P : Niels} {A : Ed} (h : RepN P A) : RepN P.neg (-A) where
  z := h.z
  plus := by rw [Niels.neg, h.minus, Pt.neg_x, Pt.neg_y]; ring
  minus := by rw [Niels.neg, h.plus, Pt.neg_x, Pt.neg_y]; ring
  t := by rw [Niels.neg, cast_neg, h.t, Pt.neg_x, Pt.neg_y]; ring

theorem RepC.extended {P : Completed} {A : Ed} (h : RepC P A) : Rep P.extended A where
  z := by rw [Completed.extended, cast_mul]; exact mul_ne_zero h.z h.t
  x := by simp only [Completed.extended, cast_mul, h.x]; ring
  y := by simp only [Completed.extended, cast_mul, h.y]; ring
  t := by simp only [Completed.extended, cast_mul, h.x, h.y]; ring

theorem RepC.projective {P : Completed} {A : Ed} (h : RepC P A) : RepP P.projective A where
  z := by rw [Completed.projective, cast_mul]; exact mul_ne_zero h.z h.t
  x := by simp only [Completed.projective, cast_mul, h.x]; ring
  y := by simp only [Completed.projective, cast_mul, h.y]; ring

theorem Rep.addNiels {P : Point} {N : Niels} {A B : Ed} (hP : Rep P A) (hN : RepN N B) :
    RepC (addNiels P N) (A + B) := by
  have n1 := plus_ne A B
  have n2 := minus_ne A B
  have hx : (A + B).x * (1 + dd * A.x * B.x * A.y * B.y) = A.x * B.y + B.x * A.y := by
    rw [Pt.add_x, div_mul_cancel₀ _ n1]
  have hy : (A + B).y * (1 - dd * A.x * B.x * A.y * B.y) = A.y * B.y + A.x * B.x := by
    rw [Pt.add_y, div_mul_cancel₀ _ n2]
  have e : (P.z : Fp) * N.z ≠ 0 := mul_ne_zero hP.z hN.z
  have hz : ((Formula.addNiels P N).z : Fp) = 2 * (P.z * N.z) * (1 + dd * A.x * B.x * A.y * B.y) := by
    simp only [Formula.addNiels, cast_mul, cast_add, hP.t, hN.t]; ring
  have ht : ((Formula.addNiels P N).t : Fp) = 2 * (P.z * N.z) * (1 - dd * A.x * B.x * A.y * B.y) := by
    simp only [Formula.addNiels, cast_mul, cast_add, cast_sub, hP.t, hN.t]; ring
  refine ⟨?_, ?_, ?_, ?_⟩
  · rw [hz]; exact mul_ne_zero (mul_ne_zero two_ne e) n1
  · rw [ht]; exact mul_ne_zero (mul_ne_zero two_ne e) n2
  · rw [hz]
    simp only [Formula.addNiels, cast_mul, cast_add, cast_sub, hP.x, hP.y, hN.plus, hN.minus]
    linear_combination -2 * (P.z * N.z) * hx
  · rw [ht]
    simp only [Formula.addNiels, cast_mul, cast_add, cast_sub, hP.x, hP.y, hN.plus, hN.minus]
    linear_combination -2 * (P.z * N.z) * hy

theorem RepP.double {P : Projective} {A : Ed} (h : RepP P A) : RepC P.double (A + A) := by
  have n1 := plus_ne A A
  have n2 := minus_ne A A
  have hx : (A + A).x * (1 + dd * A.x * A.x * A.y * A.y) = A.x * A.y + A.x * A.y := by
    rw [Pt.add_x, div_mul_cancel₀ _ n1]
  have hy : (A + A).y * (1 - dd * A.x * A.x * A.y * A.y) = A.y * A.y + A.x * A.x := by
    rw [Pt.add_y, div_mul_cancel₀ _ n2]
  have hz : (P.double.z : Fp) = (P.z : Fp) ^ 2 * (1 + dd * A.x * A.x * A.y * A.y) := by
    simp only [Projective.double, cast_mul, cast_sub, h.x, h.y]
    linear_combination (P.z : Fp) ^ 2 * A.eq
  have ht : (P.double.t : Fp) = (P.z : Fp) ^ 2 * (1 - dd * A.x * A.x * A.y * A.y) := by
    simp only [Projective.double, cast_mul, cast_add, cast_sub, h.x, h.y]
    linear_combination -(P.z : Fp) ^ 2 * A.eq
  refine ⟨?_, ?_, ?_, ?_⟩
  · rw [hz]; exact mul_ne_zero (pow_ne_zero _ h.z) n1
  · rw [ht]; exact mul_ne_zero (pow_ne_zero _ h.z) n2
  · rw [hz]
    simp only [Projective.double, cast_mul, cast_add, cast_sub, h.x, h.y]
    linear_combination -(P.z : Fp) ^ 2 * hx
  · rw [ht]
    simp only [Projective.double, cast_mul, cast_add, h.x, h.y]
    linear_combination -(P.z : Fp) ^ 2 * hy

theorem Rep.padd {P Q : Point} {A B : Ed} (hP : Rep P A) (hQ : Rep Q B) : Rep (padd P Q) (A + B) :=
  (hP.addNiels hQ.niels).extended

/-! ## Scalar multiplication -/

theorem RepN.tableFrom {P : Point} {A : Ed} (hP : Rep P A) : ∀ n {N : Niels} {m : Nat}, RepN N (m • A) →
    ∀ j, j < n → ∃ M, (tableFrom P n N)[j]? = some M ∧ RepN M ((m + j) • A)
  | 0, _, _, _, _, hj => absurd hj (Nat.not_lt_zero _)
  | n + 1, N, m, hN, 0, _ => ⟨N, rfl, hN⟩
  | n + 1, N, m, hN, j + 1, hj => by
      have h1 : RepN (Formula.addNiels P N).extended.niels ((m + 1) • A) := by
        rw [add_nsmul, one_nsmul, add_comm]
        exact (hP.addNiels hN).extended.niels
      obtain ⟨M, hM, h2⟩ := RepN.tableFrom hP n h1 j (by omega)
      refine ⟨M, hM, ?_⟩
      rw [show m + (j + 1) = m + 1 + j by omega]
      exact h2

/-- The selected multiple. -/
theorem Rep.select {P : Point} {A : Ed} (hP : Rep P A) (x : Int) (hx : x.natAbs ≤ 8) :
    RepN (select (table P) x) (x • A) := by
  have ht : RepN (if x.natAbs = 0 then Niels.zero else ((table P)[x.natAbs - 1]?).getD Niels.zero)
      (x.natAbs • A) := by
    split
    · next h => rw [h, zero_nsmul]; exact repN_zero
    · next h =>
      obtain ⟨M, hM, h2⟩ := RepN.tableFrom hP 8 (N := P.niels) (m := 1) (by rw [one_nsmul]; exact hP.niels)
        (x.natAbs - 1) (by omega)
      rw [table, hM, Option.getD_some]
      rw [show 1 + (x.natAbs - 1) = x.natAbs by omega] at h2
      exact h2
  unfold Formula.select
  simp only
  split
  · next h =>
    have : x • A = -(x.natAbs • A) := by
      rw [← natCast_zsmul, ← neg_zsmul]
      congr 1
      omega
    rw [this]
    exact ht.neg
  · next h =>
    have : x • A = x.natAbs • A := by
      rw [← natCast_zsmul]
      congr 1
      omega
    rw [this]
    exact ht

/-- The number written by signed digits. -/
def digitsValue : List Int → Int
  | [] => 0
  | d :: ds => d + 16 * digitsValue ds

theorem radix16_value : ∀ n k carry, k < 16 ^ (n + 1) → digitsValue (radix16 n k carry) = k + carry
  | 0, k, carry, h => by
      simp only [radix16, digitsValue]
      have : k % 16 = k := Nat.mod_eq_of_lt (by simpa using h)
      omega
  | n + 1, k, carry, h => by
      have ih := radix16_value n (k / 16) ((k % 16 + carry + 8) / 16) (by
        rw [pow_succ] at h
        exact Nat.div_lt_of_lt_mul (by rw [mul_comm]; exact h))
      simp only [radix16, digitsValue]
      rw [ih]
      omega

theorem radix16_bound : ∀ n k carry, carry ≤ 1 → k < 8 * 16 ^ n → ∀ x ∈ radix16 n k carry, x.natAbs ≤ 8
  | 0, k, carry, hc, h, x, hx => by
      simp only [radix16, List.mem_singleton] at hx
      omega
  | n + 1, k, carry, hc, h, x, hx => by
      simp only [radix16, List.mem_cons] at hx
      rcases hx with hx | hx
      · omega
      · refine radix16_bound n _ _ ?_ ?_ x hx
        · omega
        · rw [pow_succ] at h
          exact Nat.div_lt_of_lt_mul (by linarith)

theorem RepC.four {C : Completed} {A : Ed} (h : RepC C A) :
    RepC C.projective.double.projective.double.projective.double.projective.double ((16 : Int) • A) := by
  have h2 := h.projective.double.projective.double.projective.double.projective.double
  convert h2 using 1
  module

theorem Rep.mulDigits {P : Point} {A : Ed} (hP : Rep P A) : ∀ ds : List Int, (∀ x ∈ ds, x.natAbs ≤ 8) →
    RepC (mulDigits (table P) ds) (digitsValue ds • A)
  | [], _ => by
      rw [digitsValue, zero_zsmul]
      have := rep_zero.addNiels repN_zero
      rw [add_zero] at this
      exact this
  | [d], h => by
      have := rep_zero.addNiels (hP.select d (h d (List.mem_singleton_self d)))
      rw [zero_add] at this
      rw [digitsValue, digitsValue, mul_zero, add_zero]
      exact this
  | d :: e :: ds, h => by
      have ih := Rep.mulDigits hP (e :: ds) (fun x hx => h x (List.mem_cons_of_mem _ hx))
      have := ih.four.extended.addNiels (hP.select d (h d List.mem_cons_self))
      rw [← mul_zsmul', ← add_zsmul, add_comm, mul_comm] at this
      rw [digitsValue]
      exact this

/-- The multiple is right for every scalar below `2^255`. -/
theorem Rep.pmul {P : Point} {A : Ed} (hP : Rep P A) (k : Nat) (hk : k < 2 ^ 255) : Rep (pmul k P) (k • A) := by
  have hb : (2 : Nat) ^ 255 = 8 * 16 ^ 63 := by decide +kernel
  have := (hP.mulDigits (radix16 63 k 0) (radix16_bound 63 k 0 (by omega) (hb ▸ hk))).extended
  rw [radix16_value 63 k 0 (by
    refine lt_of_lt_of_le (hb ▸ hk) ?_
    rw [pow_succ 16 63]
    omega)] at this
  rw [show ((k : Int) + (0 : Nat)) = k by simp, natCast_zsmul] at this
  exact this

/-- Double-and-add, for the order of the group. -/
def chain : (fuel k : Nat) → Point → Point
  | 0, _, _ => zero
  | fuel + 1, k, P =>
      if k = 0 then zero
      else
        let Q := chain fuel (k / 2) P
        let R := Formula.padd Q Q
        if k % 2 = 1 then Formula.padd R P else R

theorem Rep.chain {P : Point} {A : Ed} (hP : Rep P A) : ∀ fuel k, k < 2 ^ fuel → Rep (chain fuel k P) (k • A)
  | 0, k, h => by
      have : k = 0 := by simpa using h
      subst this
      rw [zero_nsmul]
      exact rep_zero
  | fuel + 1, k, h => by
      unfold Formula.chain
      by_cases h0 : k = 0
      · rw [if_pos h0, h0, zero_nsmul]; exact rep_zero
      · rw [if_neg h0]
        have ih := Rep.chain hP fuel (k / 2) (by rw [pow_succ] at h; omega)
        have hk : k • A = (k / 2) • A + (k / 2) • A + (k % 2) • A := by
          rw [← add_nsmul, ← add_nsmul]
          congr 1
          omega
        rw [hk]
        rcases Nat.mod_two_eq_zero_or_one k with h1 | h1
        · rw [if_neg (by omega), h1, zero_nsmul, add_zero]
          exact ih.padd ih
        · rw [if_pos h1, h1, one_nsmul]
          exact (ih.padd ih).padd hP

/-- An affine point given by numbers. -/
theorem exists_pt (x y : Nat) (h : (y * y + (p - 1) * (x * x)) % p = (1 + D * (x * x) * (y * y)) % p) :
    ∃ A : Ed, A.x = x ∧ A.y = y := by
  refine ⟨⟨x, y, ?_⟩, rfl, rfl⟩
  have := eq_of_mod h
  push_cast at this
  rw [Nat.cast_sub (by have := p_two; omega), ZMod.natCast_self] at this
  rw [dd]
  linear_combination this

/-- Coordinates with `Z = 1`. -/
theorem rep_affine {x y : Nat} {A : Ed} (hx : A.x = x) (hy : A.y = y) : Rep ⟨x, y, 1, mul x y⟩ A where
  z := by simp
  x := by simp [hx]
  y := by simp [hy]
  t := by simp [hx, hy, cast_mul]

/-- A multiple is the identity if the computed coordinates say so. -/
theorem nsmul_eq_zero {P : Point} {A : Ed} (hP : Rep P A) (fuel k : Nat) (hk : k < 2 ^ fuel)
    (h : (chain fuel k P).x % p = 0 ∧ (chain fuel k P).y % p = (chain fuel k P).z % p) : k • A = 0 := by
  have r := hP.chain fuel k hk
  have hx := r.x
  have hy := r.y
  rw [(ZMod.natCast_eq_zero_iff _ _).mpr (Nat.dvd_of_mod_eq_zero h.1)] at hx
  rw [eq_of_mod h.2] at hy
  ext
  · exact (mul_eq_zero.mp hx.symm).resolve_right r.z
  · exact mul_right_cancel₀ r.z (by rw [← hy]; simp)

/-! ## The order of the group -/

theorem rep_base : ∃ A : Ed, Rep base A ∧ A ≠ 0 ∧ A ∈ Pt.even dd one_add_dd_square ∧ A ∉ Pt.four dd := by
  obtain ⟨A, hx, hy⟩ := exists_pt 15112221349535400772501151409588531511454012693041857206046113283949847762202
    46316835694926478169428394003475163141307993866256225615783033603165251855960 (by decide +kernel)
  have h4 : A ∉ Pt.four dd := by
    rw [Pt.mem_four, hx, hy, ← Nat.cast_mul, ZMod.natCast_eq_zero_iff, Nat.dvd_iff_mod_eq_zero]
    decide +kernel
  refine ⟨A, rep_affine hx hy, fun h => h4 (h ▸ zero_mem _), ?_, h4⟩
  rw [Pt.mem_even, hy]
  refine ⟨(11289634553956971726608993696803148889032301632624247332101973700115054183815 : Nat), ?_⟩
  rw [dd, sq, ← Nat.cast_mul, ← Nat.cast_mul, ← Nat.cast_mul, ← Nat.cast_one, ← Nat.cast_add]
  exact eq_of_mod (by decide +kernel)

/-- The base point has order ℓ. -/
theorem ell_nsmul_base {A : Ed} (h : Rep base A) : ell • A = 0 :=
  nsmul_eq_zero h 256 ell (by rw [ell_val]; decide +kernel) (by decide +kernel)

/-- There is a point of order 8. -/
theorem exists_order_eight : ∃ A : Ed, addOrderOf A = 8 := by
  obtain ⟨A, hx, hy⟩ := exists_pt 14399317868200118260347934320527232580618823971194345261214217575416788799818
    2707385501144840649318225287225658788936804267575313519463743609750303402022 (by decide +kernel)
  refine ⟨A, ?_⟩
  have h8 : 8 • A = 0 := nsmul_eq_zero (rep_affine hx hy) 4 8 (by decide) (by decide +kernel)
  have h4 : ¬ 4 • A = 0 := fun h => by
    have := Pt.mem_four_of_nsmul h
    rw [Pt.mem_four, hx, hy, ← Nat.cast_mul, ZMod.natCast_eq_zero_iff, Nat.dvd_iff_mod_eq_zero] at this
    revert this
    decide +kernel
  exact addOrderOf_eq_prime_pow (p := 2) (n := 2) h4 h8

/-- A point is determined by `y` and the sign of `x`. -/
def code (A : Ed) : Fp × Bool := (A.y, decide (Negative A.x))

theorem code_injective : Function.Injective code := by
  intro A B h
  have hy : A.y = B.y := congrArg Prod.fst h
  have hn : Negative A.x ↔ Negative B.x := by
    have := congrArg Prod.snd h
    exact decide_eq_decide.mp this
  have hw := Pt.w_ne_zero A
  have hs : A.x ^ 2 = B.x ^ 2 := by
    have ea := A.eq
    have eb := B.eq
    rw [← hy] at eb
    exact mul_right_cancel₀ hw (by linear_combination eb - ea)
  ext
  · rcases sq_eq_sq_iff_eq_or_eq_neg.mp hs with h | h
    · exact h
    · by_cases h0 : B.x = 0
      · rw [h, h0, neg_zero]
      · rw [h, negative_neg h0] at hn
        tauto
  · exact hy

instance : Finite Ed := Finite.of_injective _ code_injective

theorem card_le : Nat.card Ed ≤ 2 * p := by
  have := Nat.card_le_card_of_injective _ code_injective
  rwa [Nat.card_prod, Nat.card_zmod, Nat.card_eq_fintype_card (α := Bool), Fintype.card_bool, mul_comm] at this

theorem ell_prime : ell.Prime := Fact.out

/-- edwards25519 has `8 ℓ` points. -/
theorem card_ed : Nat.card Ed = 8 * ell := by
  obtain ⟨B, hB, h0, _⟩ := rep_base
  obtain ⟨T, hT⟩ := exists_order_eight
  have h1 : ell ∣ Nat.card Ed := by
    have := addOrderOf_eq_prime (p := ell) (ell_nsmul_base hB) h0
    rw [← this]
    exact addOrderOf_dvd_natCard B
  have h2 : 8 ∣ Nat.card Ed := hT ▸ addOrderOf_dvd_natCard T
  have hc : Nat.Coprime 8 ell := by rw [ell_val]; decide +kernel
  obtain ⟨k, hk⟩ := hc.mul_dvd_of_dvd_of_dvd h2 h1
  have hle := card_le
  have hpos : 0 < Nat.card Ed := Nat.card_pos
  have hlt : 2 * p < 2 * (8 * ell) := by rw [ell_val]; decide +kernel
  have hk1 : k = 1 := by
    rcases k with _ | _ | k
    · omega
    · rfl
    · exfalso
      have : (8 * ell) * 2 ≤ (8 * ell) * (k + 1 + 1) := Nat.mul_le_mul_left _ (by omega)
      omega
  rw [hk, hk1, mul_one]

/-- No even point has order 8. -/
theorem no_even_eight {A : Ed} (hA : A ∈ Pt.even dd one_add_dd_square) (h8 : 8 • A = 0) : A ∈ Pt.four dd := by
  have h2 : A + A ∈ Pt.four dd := Pt.mem_four_of_nsmul (by rw [← h8]; abel)
  rcases mul_eq_zero.mp (Pt.mem_four.mp h2) with h | h
  · rw [Pt.double_x, div_eq_zero_iff, or_iff_left (plus_ne A A)] at h
    exact (mul_eq_zero.mp h).resolve_left two_ne
  · exfalso
    rw [Pt.add_y, div_eq_zero_iff, or_iff_left (minus_ne A A)] at h
    obtain ⟨a, ha⟩ := Pt.mem_even.mp hA
    have hw := Pt.w_ne_zero A
    have ha0 : a ≠ 0 := by rintro rfl; exact hw (by rw [ha]; ring)
    have e := A.eq
    have h4 : a ^ 4 = 1 + dd := by
      have : (1 + dd * A.y ^ 2) ^ 2 = 1 + dd := by linear_combination dd * e + dd * (1 + dd * A.y ^ 2) * h
      rw [← this, ha]
      ring
    have h8' := p_mod_eight
    have hp := ZMod.pow_card_sub_one_eq_one ha0
    rw [show p - 1 = 4 * ((p - 1) / 4) by omega, pow_mul, h4, one_add_dd_pow] at hp
    exact one_ne_neg_one hp.symm

/-- ℓ times an even point is in the small subgroup. -/
theorem ell_nsmul_even {A : Ed} (hA : A ∈ Pt.even dd one_add_dd_square) : ell • A ∈ Pt.four dd := by
  refine no_even_eight (nsmul_mem hA _) ?_
  rw [← mul_nsmul', ← card_ed]
  exact card_nsmul_eq_zero'

end Voprf.Ristretto.Formula
