import Verif.Curve.Pocklington
import Mathlib.AlgebraicGeometry.EllipticCurve.Affine.Point
import Mathlib.Data.ZMod.Basic
import Mathlib.Tactic.FieldSimp

/-!
# Verified Jacobian arithmetic on natural numbers

Coordinates are taken modulo `N`; every step checks that it divides by a unit modulo `N`, so the result is
right modulo every prime factor `r` of `N`.
-/

namespace Voprf.Curve

/-- The curve `y² = x³ + a x + b` over the integers modulo `r`. -/
def short (r a b : Nat) : WeierstrassCurve.Affine (ZMod r) := ⟨0, 0, 0, a, b⟩

/-- Jacobian coordinates: `(X, Y, Z)` stands for `(X / Z², Y / Z³)`. -/
structure Jac where
  X : Nat
  Y : Nat
  Z : Nat

/-- Doubling; fails unless `Y` is a unit modulo `p`. -/
def jdbl (p a : Nat) (P : Jac) : Option Jac :=
  if Nat.gcd P.Y p ≠ 1 then none
  else
    let yy := P.Y * P.Y % p
    let zz := P.Z * P.Z % p
    let S := 4 * (P.X * yy) % p
    let M := (3 * (P.X * P.X) + a * (zz * zz)) % p
    let X' := (M * M + (p - 2 * S % p)) % p
    let Y' := (M * (S + (p - X' % p)) + (p - 8 * (yy * yy) % p)) % p
    some ⟨X', Y', 2 * (P.Y * P.Z) % p⟩

/-- Addition of an affine point; fails unless the difference of the `x` coordinates is a unit. -/
def jadd (p : Nat) (P : Jac) (Q : Nat × Nat) : Option Jac :=
  let zz := P.Z * P.Z % p
  let H := (Q.1 * zz + (p - P.X % p)) % p
  if Nat.gcd H p ≠ 1 then none
  else
    let R := (Q.2 * (zz * P.Z % p) + (p - P.Y % p)) % p
    let hh := H * H % p
    let hhh := hh * H % p
    let V := P.X * hh % p
    let X' := (R * R + (p - hhh % p) + (p - 2 * V % p)) % p
    let Y' := (R * (V + (p - X' % p)) + (p - P.Y * hhh % p)) % p
    some ⟨X', Y', P.Z * H % p⟩

/-- Double-and-add. -/
def jmul (p a : Nat) : (fuel k : Nat) → Nat × Nat → Option Jac
  | 0, _, _ => none
  | fuel + 1, k, P =>
      if k = 1 then some ⟨P.1, P.2, 1⟩
      else
        match jmul p a fuel (k / 2) P with
        | none => none
        | some Q =>
            match jdbl p a Q with
            | none => none
            | some R => if k % 2 = 1 then jadd p R P else some R

variable {r a b : Nat} [Fact r.Prime]

theorem cast_mod {N : Nat} (hN : r ∣ N) (x : Nat) : ((x % N : Nat) : ZMod r) = x :=
  (ZMod.natCast_eq_natCast_iff' _ _ _).mpr (Nat.mod_mod_of_dvd x hN)

theorem cast_sub {N : Nat} (hN : r ∣ N) (h0 : 0 < N) (x : Nat) :
    ((N - x % N : Nat) : ZMod r) = -(x : ZMod r) := by
  rw [Nat.cast_sub (Nat.mod_lt _ h0).le, (ZMod.natCast_eq_zero_iff _ _).mpr hN, zero_sub, cast_mod hN]

theorem inv_of {N : Nat} (hN : r ∣ N) (d i : Nat) (h : d * i % N = 1) :
    (d : ZMod r) ≠ 0 ∧ (i : ZMod r) = (d : ZMod r)⁻¹ := by
  have h1 : (d : ZMod r) * (i : ZMod r) = 1 := by
    rw [← Nat.cast_mul, ← cast_mod hN, h, Nat.cast_one]
  have h0 : (d : ZMod r) ≠ 0 := by
    intro h0
    rw [h0, zero_mul] at h1
    exact zero_ne_one h1
  exact ⟨h0, eq_inv_of_mul_eq_one_right h1⟩

theorem ne_zero_of_gcd {N x : Nat} (hN : r ∣ N) (h : Nat.gcd x N = 1) : (x : ZMod r) ≠ 0 := by
  rw [Ne, ZMod.natCast_eq_zero_iff]
  intro hd
  have := Nat.dvd_gcd hd hN
  rw [h] at this
  exact (Fact.out : r.Prime).one_lt.ne' (Nat.dvd_one.mp this)

/-- The triple represents the point `Q`. -/
def JRep (P : Jac) (Q : (short r a b).Point) : Prop :=
  (P.Z : ZMod r) ≠ 0 ∧ ∃ h, Q = .some ((P.X : ZMod r) / P.Z ^ 2) ((P.Y : ZMod r) / P.Z ^ 3) h

theorem jrep_some {P : Jac} {x y : ZMod r} {h : (short r a b).Nonsingular x y} (hz : (P.Z : ZMod r) ≠ 0)
    (hx : (P.X : ZMod r) / P.Z ^ 2 = x) (hy : (P.Y : ZMod r) / P.Z ^ 3 = y) : JRep P (.some x y h : (short r a b).Point) := by
  subst hx hy
  exact ⟨hz, h, rfl⟩

theorem jdbl_rep {N : Nat} (hN : r ∣ N) (hpos : 0 < N) (h2 : (2 : ZMod r) ≠ 0) {P R : Jac} {Q : (short r a b).Point} (hP : JRep P Q) (h : jdbl N a P = some R) : JRep R (Q + Q) := by
  obtain ⟨hz, hn, rfl⟩ := hP
  unfold jdbl at h
  split at h
  · simp at h
  next hY =>
  have hY : (P.Y : ZMod r) ≠ 0 := by
    exact ne_zero_of_gcd hN (not_not.mp hY)
  simp only [Option.some.injEq] at h
  subst h
  have hy : (P.Y : ZMod r) / P.Z ^ 3 ≠ (short r a b).negY ((P.X : ZMod r) / P.Z ^ 2) ((P.Y : ZMod r) / P.Z ^ 3) := by
    simp only [WeierstrassCurve.Affine.negY, short, zero_mul, sub_zero]
    intro he
    have : (2 : ZMod r) * ((P.Y : ZMod r) / P.Z ^ 3) = 0 := by linear_combination he
    rcases mul_eq_zero.mp this with h | h
    · exact h2 h
    · exact div_ne_zero hY (pow_ne_zero _ hz) h
  rw [WeierstrassCurve.Affine.Point.add_self_of_Y_ne hy]
  have hs : (short r a b).slope ((P.X : ZMod r) / P.Z ^ 2) ((P.X : ZMod r) / P.Z ^ 2) ((P.Y : ZMod r) / P.Z ^ 3)
      ((P.Y : ZMod r) / P.Z ^ 3) = (3 * (P.X : ZMod r) ^ 2 + a * P.Z ^ 4) / (2 * P.Y * P.Z) := by
    rw [WeierstrassCurve.Affine.slope_of_Y_ne rfl hy]
    simp only [WeierstrassCurve.Affine.negY, short]
    have : (P.Y : ZMod r) / P.Z ^ 3 - (-(P.Y / P.Z ^ 3) - 0 * (P.X / P.Z ^ 2) - 0) = 2 * P.Y / P.Z ^ 3 := by ring
    rw [this]
    field_simp
    ring
  refine jrep_some ?_ ?_ ?_
  · simp only [cast_mod hN, Nat.cast_mul, Nat.cast_ofNat]
    exact mul_ne_zero h2 (mul_ne_zero hY hz)
  · simp only [WeierstrassCurve.Affine.addX, hs, cast_mod hN, Nat.cast_mul, Nat.cast_add, Nat.cast_ofNat,
      cast_sub hN hpos]
    simp only [short]
    field_simp
    ring
  · simp only [WeierstrassCurve.Affine.addY, WeierstrassCurve.Affine.negY, WeierstrassCurve.Affine.negAddY,
      WeierstrassCurve.Affine.addX, hs, cast_mod hN, Nat.cast_mul, Nat.cast_add, Nat.cast_ofNat,
      cast_sub hN hpos]
    simp only [short]
    field_simp
    ring

theorem jadd_rep {N : Nat} (hN : r ∣ N) (hpos : 0 < N) {P R : Jac} {Q : Nat × Nat} {A B : (short r a b).Point} (hP : JRep P A)
    (hQ : ∃ h, B = .some (Q.1 : ZMod r) (Q.2 : ZMod r) h) (h : jadd N P Q = some R) : JRep R (A + B) := by
  obtain ⟨hz, hn, rfl⟩ := hP
  obtain ⟨hn', rfl⟩ := hQ
  unfold jadd at h
  simp only at h
  split at h
  · simp at h
  next hH =>
  have hH : (Q.1 : ZMod r) * P.Z ^ 2 - P.X ≠ 0 := by
    have hc : ((Q.1 * (P.Z * P.Z % N) + (N - P.X % N) : Nat) : ZMod r) = Q.1 * P.Z ^ 2 - P.X := by
      simp only [Nat.cast_add, Nat.cast_mul, cast_mod hN, cast_sub hN hpos]
      ring
    rw [← hc, ← cast_mod hN]
    exact ne_zero_of_gcd hN (not_not.mp hH)
  simp only [Option.some.injEq] at h
  subst h
  have hx : (P.X : ZMod r) / P.Z ^ 2 ≠ (Q.1 : ZMod r) := by
    intro he
    apply hH
    rw [← he]
    field_simp
    ring
  have hx' : (P.X : ZMod r) / P.Z ^ 2 - (Q.1 : ZMod r) ≠ 0 := sub_ne_zero.mpr hx
  rw [WeierstrassCurve.Affine.Point.add_of_X_ne hx]
  have hs : (short r a b).slope ((P.X : ZMod r) / P.Z ^ 2) (Q.1 : ZMod r) ((P.Y : ZMod r) / P.Z ^ 3) (Q.2 : ZMod r) =
      (Q.2 * (P.Z : ZMod r) ^ 3 - P.Y) / (P.Z * (Q.1 * (P.Z : ZMod r) ^ 2 - P.X)) := by
    rw [WeierstrassCurve.Affine.slope_of_X_ne hx, div_eq_div_iff hx' (mul_ne_zero hz hH)]
    field_simp
    ring
  refine jrep_some ?_ ?_ ?_
  · simp only [cast_mod hN, Nat.cast_mul, Nat.cast_add, cast_sub hN hpos]
    refine mul_ne_zero hz ?_
    rw [← sub_eq_add_neg, ← sq]
    exact hH
  · simp only [WeierstrassCurve.Affine.addX, hs, cast_mod hN, Nat.cast_mul, Nat.cast_add, Nat.cast_ofNat,
      cast_sub hN hpos]
    simp only [short, ← sub_eq_add_neg, ← sq]
    obtain ⟨H, hHd⟩ : ∃ H, (P.X : ZMod r) = Q.1 * P.Z ^ 2 - H := ⟨Q.1 * P.Z ^ 2 - P.X, by ring⟩
    rw [hHd, sub_sub_cancel] at hH
    simp only [hHd, sub_sub_cancel]
    field_simp
    ring
  · simp only [WeierstrassCurve.Affine.addY, WeierstrassCurve.Affine.negY, WeierstrassCurve.Affine.negAddY,
      WeierstrassCurve.Affine.addX, hs, cast_mod hN, Nat.cast_mul, Nat.cast_add, Nat.cast_ofNat,
      cast_sub hN hpos]
    simp only [short, ← sub_eq_add_neg, ← sq]
    obtain ⟨H, hHd⟩ : ∃ H, (P.X : ZMod r) = Q.1 * P.Z ^ 2 - H := ⟨Q.1 * P.Z ^ 2 - P.X, by ring⟩
    rw [hHd, sub_sub_cancel] at hH
    simp only [hHd, sub_sub_cancel]
    field_simp
    ring

theorem jmul_rep {N : Nat} (hN : r ∣ N) (hpos : 0 < N) (h2 : (2 : ZMod r) ≠ 0) {P : Nat × Nat} {Q : (short r a b).Point} (hP : ∃ h, Q = .some (P.1 : ZMod r) (P.2 : ZMod r) h) :
    ∀ fuel k R, jmul N a fuel k P = some R → JRep R (k • Q)
  | 0, _, _, h => by simp [jmul] at h
  | fuel + 1, k, R, h => by
      unfold jmul at h
      split at h
      · next hk =>
        simp only [Option.some.injEq] at h
        subst h hk
        rw [one_nsmul]
        obtain ⟨hn, rfl⟩ := hP
        refine jrep_some ?_ ?_ ?_ <;> simp
      · split at h
        · simp at h
        · next S hS =>
          have ih := jmul_rep hN hpos h2 hP fuel (k / 2) S hS
          split at h
          · simp at h
          · next T hT =>
            have hT := jdbl_rep hN hpos h2 ih hT
            rw [← add_nsmul] at hT
            have hdm := Nat.div_add_mod k 2
            split at h
            · next hodd =>
              have := jadd_rep hN hpos hT hP h
              rw [← succ_nsmul] at this
              rwa [show k / 2 + k / 2 + 1 = k by omega] at this
            · next heven =>
              simp only [Option.some.injEq] at h
              subst h
              rwa [show k / 2 + k / 2 = k by omega] at hT


/-- `(q - 1) · P = -P`, without inversions. -/
def negCheck (N a : Nat) (P : Nat × Nat) (q : Nat) : Bool :=
  match jmul N a (Nat.log2 q + 2) (q - 1) P with
  | some R => decide (R.X % N = P.1 * (R.Z * R.Z) % N) && decide ((R.Y + P.2 * (R.Z * R.Z * R.Z)) % N = 0)
  | none => false

theorem order_of_negCheck {N : Nat} (hN : r ∣ N) (hpos : 0 < N) (h2 : (2 : ZMod r) ≠ 0) {P : Nat × Nat} {q : Nat}
    (hq : 2 ≤ q) (hn : (short r a b).Nonsingular (P.1 : ZMod r) (P.2 : ZMod r)) (h : negCheck N a P q = true) :
    q • (.some _ _ hn : (short r a b).Point) = 0 := by
  unfold negCheck at h
  split at h
  case h_2 => simp at h
  next R hR =>
  simp only [Bool.and_eq_true, decide_eq_true_eq] at h
  obtain ⟨hz, hn', hQ⟩ := jmul_rep (r := r) (b := b) hN hpos h2 (Q := .some _ _ hn) ⟨hn, rfl⟩ _ _ _ hR
  have hx : (R.X : ZMod r) / R.Z ^ 2 = P.1 := by
    have : ((R.X % N : Nat) : ZMod r) = ((P.1 * (R.Z * R.Z) % N : Nat) : ZMod r) := by rw [h.1]
    rw [cast_mod hN, cast_mod hN] at this
    push_cast at this
    rw [this]
    field_simp
  have hy : (R.Y : ZMod r) / R.Z ^ 3 = -P.2 := by
    have : ((R.Y + P.2 * (R.Z * R.Z * R.Z) : Nat) : ZMod r) = 0 := by rw [← cast_mod hN, h.2, Nat.cast_zero]
    push_cast at this
    rw [div_eq_iff (pow_ne_zero _ hz)]
    linear_combination this
  have hneg : (q - 1) • (.some _ _ hn : (short r a b).Point) = -(.some _ _ hn) := by
    rw [hQ, WeierstrassCurve.Affine.Point.neg_some]
    simp only [hx, hy, WeierstrassCurve.Affine.negY, short, zero_mul, sub_zero]
  have : q = (q - 1) + 1 := by omega
  rw [this, succ_nsmul, hneg, neg_add_cancel]

end Voprf.Curve
