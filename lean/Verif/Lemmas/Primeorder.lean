import Verif.Model.Primeorder
import Verif.Lemmas.Nist

/-!
# The complete projective formulas of `primeorder` compute the group law
-/

namespace Voprf.Nist.Primeorder

open WeierstrassCurve.Affine

variable {c : Params}

/-- Projective coordinates of an affine point. -/
def Rep (P : Proj c) : c.Point → Prop
  | .zero => P.x = 0 ∧ P.y ≠ 0 ∧ P.z = 0
  | .some x y _ => P.z ≠ 0 ∧ P.x = x * P.z ∧ P.y = y * P.z

theorem rep_zero {P : Proj c} : Rep P 0 ↔ P.x = 0 ∧ P.y ≠ 0 ∧ P.z = 0 := Iff.rfl

theorem rep_some {P : Proj c} {x y : c.Fp} (h : c.curve.Nonsingular x y) :
    Rep P (.some x y h) ↔ P.z ≠ 0 ∧ P.x = x * P.z ∧ P.y = y * P.z := Iff.rfl

/-- `a = -3`, as in the NIST curves. -/
def MinusThree (c : Params) : Prop := (c.a : c.Fp) = -3

theorem curve_eq3 (ha : MinusThree c) {x y : c.Fp} (h : c.curve.Nonsingular x y) :
    (c.b : c.Fp) = y ^ 2 - x ^ 3 + 3 * x := by
  have h1 := curve_eq h
  unfold rhs at h1
  rw [ha] at h1
  linear_combination -h1

theorem two_ne (c : Params) : (2 : c.Fp) ≠ 0 := by
  have : ((2 : ℕ) : c.Fp) ≠ 0 := by
    rw [Ne, ZMod.natCast_eq_zero_iff]
    intro hd
    have := (Nat.prime_dvd_prime_iff_eq c.p_prime Nat.prime_two).mp hd
    have := c.p_mod_four
    omega
  simpa using this

/-- The chord construction with explicit coordinates. -/
theorem chord {x₁ y₁ x₂ y₂ : c.Fp} (h₁ : c.curve.Nonsingular x₁ y₁) (h₂ : c.curve.Nonsingular x₂ y₂)
    (hx : x₁ ≠ x₂) : ∃ x₃ y₃ h₃, (.some x₁ y₁ h₁ : c.Point) + .some x₂ y₂ h₂ = .some x₃ y₃ h₃ ∧
      (x₁ - x₂) ^ 2 * x₃ = (y₁ - y₂) ^ 2 - (x₁ - x₂) ^ 2 * (x₁ + x₂) ∧
      (x₁ - x₂) ^ 3 * y₃ = (y₁ - y₂) * ((x₁ - x₂) ^ 2 * (2 * x₁ + x₂) - (y₁ - y₂) ^ 2) - (x₁ - x₂) ^ 3 * y₁ := by
  have hd : x₁ - x₂ ≠ 0 := sub_ne_zero.mpr hx
  refine ⟨_, _, _, Point.add_of_X_ne hx, ?_, ?_⟩
  · rw [slope_of_X_ne hx]
    simp only [addX, Params.curve]
    field_simp
    ring
  · rw [slope_of_X_ne hx]
    simp only [addY, negAddY, negY, addX, Params.curve]
    field_simp
    ring

/-- The tangent construction with explicit coordinates. -/
theorem tangent (ha : MinusThree c) {x y : c.Fp} (h : c.curve.Nonsingular x y) (hy0 : y ≠ 0) :
    ∃ x₃ y₃ h₃, (.some x y h : c.Point) + .some x y h = .some x₃ y₃ h₃ ∧
      4 * y ^ 2 * x₃ = 9 * (x ^ 2 - 1) ^ 2 - 8 * x * y ^ 2 ∧
      8 * y ^ 3 * y₃ = 36 * (x ^ 2 - 1) * x * y ^ 2 - 27 * (x ^ 2 - 1) ^ 3 - 8 * y ^ 4 := by
  have h2 := two_ne c
  have hy : y ≠ c.curve.negY x y := by
    simp only [negY, Params.curve, zero_mul, sub_zero]
    intro he
    have : (2 : c.Fp) * y = 0 := by linear_combination he
    rcases mul_eq_zero.mp this with h | h
    · exact h2 h
    · exact hy0 h
  have hs : c.curve.slope x x y y = 3 * (x ^ 2 - 1) / (2 * y) := by
    rw [slope_of_Y_ne rfl hy]
    simp only [negY, Params.curve]
    have ha' : (c.a : c.Fp) = -3 := ha
    rw [ha']
    congr 1 <;> ring
  refine ⟨_, _, _, Point.add_self_of_Y_ne hy, ?_, ?_⟩
  · rw [hs]
    simp only [addX, Params.curve]
    field_simp
    ring
  · rw [hs]
    simp only [addY, negAddY, negY, addX, Params.curve]
    field_simp
    ring

section
variable [PO : PrimeOrder c]

/-- Adding points with different `x`. -/
theorem rep_add_chord (ha : MinusThree c) {P Q : Proj c} {x₁ y₁ x₂ y₂ : c.Fp}
    (h₁ : c.curve.Nonsingular x₁ y₁) (h₂ : c.curve.Nonsingular x₂ y₂) (hx : x₁ ≠ x₂)
    (hP : Rep P (.some x₁ y₁ h₁)) (hQ : Rep Q (.some x₂ y₂ h₂)) :
    Rep (P.add Q) ((.some x₁ y₁ h₁ : c.Point) + .some x₂ y₂ h₂) := by
  obtain ⟨hz1, hx1, hy1⟩ := hP
  obtain ⟨hz2, hx2, hy2⟩ := hQ
  have hb := curve_eq3 ha h₁
  have hr : y₂ ^ 2 = x₂ ^ 3 - 3 * x₂ + (y₁ ^ 2 - x₁ ^ 3 + 3 * x₁) := by
    rw [← hb, curve_eq3 ha h₂]; ring
  have hd : x₁ - x₂ ≠ 0 := sub_ne_zero.mpr hx
  obtain ⟨x₃, y₃, h₃, he, hx3, hy3⟩ := chord h₁ h₂ hx
  -- the difference of the two points, whose `y` is not zero
  obtain ⟨xd, yd, h₄, -, -, hyd⟩ := chord h₁ (neg_nonsingular h₂) hx
  have hyd0 := y_ne_zero h₄
  rw [he, rep_some]
  obtain ⟨X, Y, Z⟩ := P
  obtain ⟨X', Y', Z'⟩ := Q
  simp only at hz1 hx1 hy1 hz2 hx2 hy2
  subst hx1 hy1 hx2 hy2
  have hZ : (Proj.add (⟨x₁ * Z, y₁ * Z, Z⟩ : Proj c) ⟨x₂ * Z', y₂ * Z', Z'⟩).z
      = -((Z * Z') ^ 2 * ((x₁ - x₂) ^ 3 * yd)) := by
    rw [hyd]
    simp only [Proj.add, hb]
    linear_combination (Z * Z') ^ 2 * (-2 * y₁ - y₂) * hr
  have hz : (Proj.add (⟨x₁ * Z, y₁ * Z, Z⟩ : Proj c) ⟨x₂ * Z', y₂ * Z', Z'⟩).z ≠ 0 := by
    rw [hZ]
    exact neg_ne_zero.mpr (mul_ne_zero (pow_ne_zero _ (mul_ne_zero hz1 hz2))
      (mul_ne_zero (pow_ne_zero _ hd) hyd0))
  refine ⟨hz, ?_, ?_⟩
  · apply mul_left_cancel₀ (pow_ne_zero 2 hd)
    rw [← mul_assoc, hx3]
    simp only [Proj.add, hb]
    linear_combination (Z * Z') ^ 2 * (3*x₁^3*y₂ + 3*x₁^2*y₁*x₂ - 3*x₁^2*x₂*y₂ - 3*x₁*y₁*x₂^2 - 3*x₁*y₁
      - 3*x₁*y₂ + 3*y₁^3 - 2*y₁^2*y₂ + 3*y₁*x₂ - y₁*y₂^2 + 3*x₂*y₂) * hr
  · apply mul_left_cancel₀ (pow_ne_zero 3 hd)
    rw [← mul_assoc, hy3]
    simp only [Proj.add, hb]
    linear_combination (Z * Z') ^ 2 * (-9*x₁^6 + 18*x₁^5*x₂ - 9*x₁^4*x₂^2 + 18*x₁^4 + 12*x₁^3*y₁^2
      - 3*x₁^3*y₁*y₂ - 36*x₁^3*x₂ + 3*x₁^3*y₂^2 - 27*x₁^2*y₁^2*x₂ + 6*x₁^2*y₁*x₂*y₂ + 18*x₁^2*x₂^2
      - 3*x₁^2*x₂*y₂^2 - 9*x₁^2 + 15*x₁*y₁^2*x₂^2 + 3*x₁*y₁^2 - 3*x₁*y₁*x₂^2*y₂ + 18*x₁*x₂ - 3*x₁*y₂^2
      - 3*y₁^4 + 5*y₁^3*y₂ - 3*y₁^2*x₂ - y₁^2*y₂^2 - y₁*y₂^3 - 9*x₂^2 + 3*x₂*y₂^2) * hr

omit PO in
theorem eight_ne : (8 : c.Fp) ≠ 0 := by
  have : (8 : c.Fp) = 2 ^ 3 := by norm_num
  rw [this]
  exact pow_ne_zero _ (two_ne c)

/-- Adding a point to itself. -/
theorem rep_add_self (ha : MinusThree c) {P Q : Proj c} {x y : c.Fp} (h : c.curve.Nonsingular x y)
    (hP : Rep P (.some x y h)) (hQ : Rep Q (.some x y h)) :
    Rep (P.add Q) ((.some x y h : c.Point) + .some x y h) := by
  obtain ⟨hz1, hx1, hy1⟩ := hP
  obtain ⟨hz2, hx2, hy2⟩ := hQ
  have hb := curve_eq3 ha h
  have hy0 := y_ne_zero h
  obtain ⟨x₃, y₃, h₃, he, hx3, hy3⟩ := tangent ha h hy0
  rw [he, rep_some]
  obtain ⟨X, Y, Z⟩ := P
  obtain ⟨X', Y', Z'⟩ := Q
  simp only at hz1 hx1 hy1 hz2 hx2 hy2
  subst hx1 hy1 hx2 hy2
  have hZ : (Proj.add (⟨x * Z, y * Z, Z⟩ : Proj c) ⟨x * Z', y * Z', Z'⟩).z = (Z * Z') ^ 2 * (8 * y ^ 3) := by
    simp only [Proj.add, hb]
    ring
  have hw : (Z * Z') ^ 2 * (8 * y ^ 3) ≠ 0 :=
    mul_ne_zero (pow_ne_zero _ (mul_ne_zero hz1 hz2)) (mul_ne_zero eight_ne (pow_ne_zero _ hy0))
  refine ⟨by rw [hZ]; exact hw, ?_, ?_⟩
  · rw [hZ]
    simp only [Proj.add, hb]
    linear_combination (-2 * y * (Z * Z') ^ 2) * hx3
  · rw [hZ]
    simp only [Proj.add, hb]
    linear_combination (-(Z * Z') ^ 2) * hy3

/-- Adding opposite points. -/
theorem rep_add_neg (ha : MinusThree c) {P Q : Proj c} {x y : c.Fp} (h : c.curve.Nonsingular x y)
    (hP : Rep P (.some x y h)) (hQ : Rep Q (.some x (-y) (neg_nonsingular h))) : Rep (P.add Q) 0 := by
  obtain ⟨hz1, hx1, hy1⟩ := hP
  obtain ⟨hz2, hx2, hy2⟩ := hQ
  have hb := curve_eq3 ha h
  have hy0 := y_ne_zero h
  obtain ⟨x₃, y₃, h₃, he, hx3, hy3⟩ := tangent ha h hy0
  have hy30 := y_ne_zero h₃
  rw [rep_zero]
  obtain ⟨X, Y, Z⟩ := P
  obtain ⟨X', Y', Z'⟩ := Q
  simp only at hz1 hx1 hy1 hz2 hx2 hy2
  subst hx1 hy1 hx2 hy2
  have hY : (Proj.add (⟨x * Z, y * Z, Z⟩ : Proj c) ⟨x * Z', -y * Z', Z'⟩).y
      = (Z * Z') ^ 2 * (8 * y ^ 3 * y₃) := by
    rw [hy3]
    simp only [Proj.add, hb]
    ring
  refine ⟨?_, ?_, ?_⟩
  · simp only [Proj.add, hb]
    ring
  · rw [hY]
    exact mul_ne_zero (pow_ne_zero _ (mul_ne_zero hz1 hz2))
      (mul_ne_zero (mul_ne_zero eight_ne (pow_ne_zero _ hy0)) hy30)
  · simp only [Proj.add, hb]
    ring

/-- The addition formulas are complete. -/
theorem rep_add (ha : MinusThree c) {P Q : Proj c} {A B : c.Point} (hP : Rep P A) (hQ : Rep Q B) :
    Rep (P.add Q) (A + B) := by
  cases A with
  | zero =>
      obtain ⟨hx, hy, hz⟩ := hP
      rw [← Point.zero_def, zero_add]
      cases B with
      | zero =>
          obtain ⟨hx', hy', hz'⟩ := hQ
          refine ⟨?_, ?_, ?_⟩
          · simp [Proj.add, hx, hx', hz, hz']
          · simp only [Proj.add, hx, hx', hz, hz']
            ring_nf
            exact mul_ne_zero (pow_ne_zero _ hy) (pow_ne_zero _ hy')
          · simp [Proj.add, hx, hx', hz, hz']
      | some x y h =>
          obtain ⟨hz', hx', hy'⟩ := hQ
          have hy0 := y_ne_zero h
          refine ⟨?_, ?_, ?_⟩
          · simp only [Proj.add, hx, hx', hz, hy']
            ring_nf
            exact mul_ne_zero (mul_ne_zero (pow_ne_zero _ hy) hy0) (pow_ne_zero _ hz')
          · simp only [Proj.add, hx, hx', hz, hy']
            ring
          · simp only [Proj.add, hx, hx', hz, hy']
            ring
  | some x₁ y₁ h₁ =>
      cases B with
      | zero =>
          obtain ⟨hx, hy, hz⟩ := hQ
          rw [← Point.zero_def, add_zero]
          obtain ⟨hz', hx', hy'⟩ := hP
          have hy0 := y_ne_zero h₁
          refine ⟨?_, ?_, ?_⟩
          · simp only [Proj.add, hx, hx', hz, hy']
            ring_nf
            exact mul_ne_zero (mul_ne_zero hy0 (pow_ne_zero _ hz')) (pow_ne_zero _ hy)
          · simp only [Proj.add, hx, hx', hz, hy']
            ring
          · simp only [Proj.add, hx, hx', hz, hy']
            ring
      | some x₂ y₂ h₂ =>
          by_cases hx : x₁ = x₂
          · subst hx
            have hy : (y₂ - y₁) * (y₂ + y₁) = 0 := by
              have e1 := curve_eq h₁
              have e2 := curve_eq h₂
              linear_combination e2 - e1
            rcases mul_eq_zero.mp hy with hy | hy
            · obtain rfl : y₂ = y₁ := sub_eq_zero.mp hy
              exact rep_add_self ha h₁ hP hQ
            · obtain rfl : y₂ = -y₁ := eq_neg_of_add_eq_zero_left hy
              rw [← neg_eq h₁, add_neg_cancel]
              exact rep_add_neg ha h₁ hP hQ
          · exact rep_add_chord ha h₁ h₂ hx hP hQ

/-- The doubling formulas are complete. -/
theorem rep_double (ha : MinusThree c) {P : Proj c} {A : c.Point} (hP : Rep P A) :
    Rep P.double (A + A) := by
  cases A with
  | zero =>
      obtain ⟨hx, hy, hz⟩ := hP
      rw [← Point.zero_def, zero_add]
      refine ⟨?_, ?_, ?_⟩
      · simp [Proj.double, hx, hz]
      · simp only [Proj.double, hx, hz]
        ring_nf
        exact pow_ne_zero _ hy
      · simp [Proj.double, hz]
  | some x y h =>
      obtain ⟨hz1, hx1, hy1⟩ := hP
      have hb := curve_eq3 ha h
      have hy0 := y_ne_zero h
      obtain ⟨x₃, y₃, h₃, he, hx3, hy3⟩ := tangent ha h hy0
      rw [he, rep_some]
      obtain ⟨X, Y, Z⟩ := P
      simp only at hz1 hx1 hy1
      subst hx1 hy1
      have hZ : (Proj.double (⟨x * Z, y * Z, Z⟩ : Proj c)).z = Z ^ 4 * (8 * y ^ 3) := by
        simp only [Proj.double]
        ring
      refine ⟨?_, ?_, ?_⟩
      · rw [hZ]
        exact mul_ne_zero (pow_ne_zero _ hz1) (mul_ne_zero eight_ne (pow_ne_zero _ hy0))
      · rw [hZ]
        simp only [Proj.double, hb]
        linear_combination (-2 * y * Z ^ 4) * hx3
      · rw [hZ]
        simp only [Proj.double, hb]
        linear_combination (-Z ^ 4) * hy3

omit PO in
theorem rep_identity : Rep (.IDENTITY : Proj c) 0 := ⟨rfl, one_ne_zero, rfl⟩

omit PO in
theorem rep_neg {P : Proj c} {A : c.Point} (hP : Rep P A) : Rep P.neg (-A) := by
  cases A with
  | zero =>
      obtain ⟨hx, hy, hz⟩ := hP
      rw [← Point.zero_def, neg_zero]
      exact ⟨hx, neg_ne_zero.mpr hy, hz⟩
  | some x y h =>
      obtain ⟨hz, hx, hy⟩ := hP
      rw [neg_eq h]
      exact ⟨hz, hx, by simp only [Proj.neg]; rw [hy]; ring⟩

theorem rep_sub (ha : MinusThree c) {P Q : Proj c} {A B : c.Point} (hP : Rep P A) (hQ : Rep Q B) :
    Rep (P.sub Q) (A - B) := by
  rw [sub_eq_add_neg]
  exact rep_add ha hP (rep_neg hQ)

/-! ## Scalar multiplication -/

theorem rep_table (ha : MinusThree c) {P : Proj c} {A : c.Point} (hP : Rep P A) :
    ∀ i, Rep (table P i) (i • A)
  | 0 => by
      rw [table, zero_nsmul]
      exact rep_identity
  | 1 => by
      rw [table, one_nsmul]
      exact hP
  | i + 2 => by
      rw [table]
      split
      · next h =>
        have := rep_double ha (rep_table ha hP ((i + 2) / 2))
        rw [← add_nsmul] at this
        convert this using 2
        omega
      · have := rep_add ha (rep_table ha hP (i + 1)) hP
        rw [← succ_nsmul] at this
        exact this
termination_by i => i
decreasing_by all_goals omega

omit PO in
theorem lookup_eq (P : Proj c) {slot : Nat} (h : slot < 16) : lookup P slot = table P slot := by
  unfold lookup
  rw [show List.range' 1 15 = [1, 2, 3, 4, 5, 6, 7, 8, 9, 10, 11, 12, 13, 14, 15] from rfl]
  simp only [List.foldl_cons, List.foldl_nil]
  interval_cases slot <;> simp [table]

theorem rep_mulLoop (ha : MinusThree c) {P : Proj c} {A : c.Point} (hP : Rep P A) (k : Nat) :
    ∀ w (Q : Proj c) (B : c.Point), Rep Q B →
      Rep (mulLoop P k w Q) (16 ^ w • B + (k % 16 ^ (w + 1)) • A)
  | 0, Q, B, hQ => by
      rw [mulLoop, lookup_eq P (Nat.mod_lt _ (by omega)), pow_zero, one_nsmul, zero_add, pow_one]
      exact rep_add ha hQ (rep_table ha hP _)
  | w + 1, Q, B, hQ => by
      rw [mulLoop, lookup_eq P (Nat.mod_lt _ (by omega))]
      have h1 := rep_add ha hQ (rep_table ha hP (k / 2 ^ (4 * (w + 1)) % 16))
      have h2 := rep_double ha (rep_double ha (rep_double ha (rep_double ha h1)))
      have h3 := rep_mulLoop ha hP k w _ _ h2
      convert h3 using 1
      have e : (2 : Nat) ^ (4 * (w + 1)) = 16 ^ (w + 1) := by rw [pow_mul]; norm_num
      rw [e, Nat.pow_succ 16 (w + 1), Nat.mod_mul, pow_succ]
      generalize k / 16 ^ (w + 1) % 16 = s
      generalize k % 16 ^ (w + 1) = r
      module

/-- The windowed multiplication is right when the windows cover the scalar. -/
theorem rep_mul (ha : MinusThree c) {P : Proj c} {A : c.Point} (hP : Rep P A) (windows : Nat)
    (hw : c.n ≤ 16 ^ windows) (k : c.Fn) : Rep (P.mul windows k) (k • A) := by
  unfold Proj.mul
  have h0 : 0 < windows := by
    rcases Nat.eq_zero_or_pos windows with h | h
    · subst h
      have := c.two_lt_n
      omega
    · exact h
  have := rep_mulLoop ha hP k.val (windows - 1) _ _ rep_identity
  rw [nsmul_zero, zero_add, Nat.sub_add_cancel h0, Nat.mod_eq_of_lt (lt_of_lt_of_le (ZMod.val_lt k) hw),
    val_smul] at this
  exact this

/-! ## Conversions and comparison -/

/-- The affine coordinates of a point; the identity is `(0, 0, infinity)`. -/
def affine : c.Point → Affine c
  | .zero => ⟨0, 0, true⟩
  | .some x y _ => ⟨x, y, false⟩

omit PO in
theorem affine_injective : Function.Injective (affine (c := c)) := by
  intro A B h
  cases A with
  | zero => cases B with
    | zero => rfl
    | some => simp [affine] at h
  | some => cases B with
    | zero => simp [affine] at h
    | some =>
        simp only [affine, Affine.mk.injEq, and_true] at h
        obtain ⟨rfl, rfl⟩ := h
        rfl

omit PO in
theorem toAffine_eq {P : Proj c} {A : c.Point} (hP : Rep P A) : P.toAffine = affine A := by
  unfold Proj.toAffine
  cases A with
  | zero =>
      obtain ⟨-, -, hz⟩ := hP
      rw [if_pos hz]
      rfl
  | some x y h =>
      obtain ⟨hz, hx, hy⟩ := hP
      rw [if_neg hz, hx, hy]
      simp only [affine, mul_assoc, mul_inv_cancel₀ hz, mul_one]

omit PO in
theorem ctEq_iff {P Q : Proj c} {A B : c.Point} (hP : Rep P A) (hQ : Rep Q B) :
    P.ctEq Q = true ↔ A = B := by
  rw [← affine_injective.eq_iff, ← toAffine_eq hP, ← toAffine_eq hQ]
  unfold Proj.ctEq
  simp only [Bool.and_eq_true, decide_eq_true_eq, beq_iff_eq]
  constructor
  · rintro ⟨⟨h1, h2⟩, h3⟩
    cases h : P.toAffine
    cases h' : Q.toAffine
    rw [h, h'] at h1 h2 h3
    simp only at h1 h2 h3
    rw [h1, h2, h3]
  · intro h
    rw [h]
    simp

omit PO in
theorem isIdentity_iff {P : Proj c} {A : c.Point} (hP : Rep P A) : P.isIdentity = true ↔ A = 0 :=
  ctEq_iff hP rep_identity

omit PO in
theorem rep_ofAffine (A : c.Point) : Rep (.ofAffine (affine A)) A := by
  cases A with
  | zero => exact rep_identity
  | some x y h =>
      refine ⟨one_ne_zero, ?_, ?_⟩
      · exact (mul_one x).symm
      · exact (mul_one y).symm

omit PO in
theorem rep_generator : Rep (.GENERATOR : Proj c) (baseElem c) :=
  ⟨one_ne_zero, (mul_one _).symm, (mul_one _).symm⟩

end
end Voprf.Nist.Primeorder
