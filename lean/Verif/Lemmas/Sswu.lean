import Verif.Model.Nist
import Verif.Spec.Sswu
import Mathlib.Tactic.FieldSimp
import Mathlib.Tactic.LinearCombination

/-!
# The straight-line program for the SWU map computes the RFC 9380 map
-/

namespace Voprf.Nist

open Rfc9380

variable {c : Params}

theorem p_odd (c : Params) : c.p % 2 = 1 := by have := c.p_mod_four; omega

theorem p_ne_two (c : Params) : c.p ≠ 2 := by have := c.p_mod_four; omega

theorem two_ne_zero' (c : Params) : (2 : c.Fp) ≠ 0 := by
  have : ((2 : ℕ) : c.Fp) ≠ 0 := by
    rw [Ne, ZMod.natCast_eq_zero_iff]
    intro hd
    have := (Nat.prime_dvd_prime_iff_eq c.p_prime Nat.prime_two).mp hd
    exact p_ne_two c this
  simpa using this

theorem isOdd_neg {y : c.Fp} (h : y ≠ 0) : isOdd (-y) = !isOdd y := by
  have hv : (-y).val = c.p - y.val := by
    rw [ZMod.neg_val, if_neg h]
  have hlt := ZMod.val_lt y
  have hp := p_odd c
  unfold isOdd
  rw [hv]
  rcases Nat.mod_two_eq_zero_or_one y.val with h2 | h2
  · have : (c.p - y.val) % 2 = 1 := by omega
    simp [h2, this]
  · have : (c.p - y.val) % 2 = 0 := by omega
    simp [h2, this]

theorem z_ne_zero (c : Params) : (c.z : c.Fp) ≠ 0 := by
  intro h
  exact c.z_nonsquare (by rw [h]; exact IsSquare.zero)

/-- The arithmetic core, over the field: what the straight-line program computes before the sign fix. -/
theorem swu_core (t u gx1 gxd : c.Fp) (hgxd : gxd ≠ 0) (ht : t = c.z * u ^ 2)
    (y1 : c.Fp) (hy1 : y1 = (gxd ^ 2 * (gx1 * gxd)) ^ ((c.p - 3) / 4) * (gx1 * gxd)) :
    (IsSquare (gx1 / gxd) → y1 ^ 2 * gxd = gx1) ∧
    (¬ IsSquare (gx1 / gxd) → y1 ^ 2 * gxd ≠ gx1 ∧
      (y1 * c.c2 * u ^ 2 * u) ^ 2 = t ^ 3 * (gx1 / gxd)) := by
  set s := gxd ^ 2 * (gx1 * gxd) with hs
  have he : 2 * ((c.p - 3) / 4) + 1 = c.p / 2 := by
    have := c.p_mod_four
    omega
  have hkey : y1 ^ 2 * gxd = s ^ (c.p / 2) * gx1 := by
    rw [← he, hy1, pow_add, pow_mul', hs]
    ring
  have hquot : s = gx1 / gxd * (gxd ^ 2) ^ 2 := by
    rw [hs]; field_simp
  have hsq : IsSquare (gx1 / gxd) ↔ IsSquare s := by
    constructor
    · rintro ⟨r, hr⟩
      exact ⟨r * gxd ^ 2, by rw [hquot, hr]; ring⟩
    · rintro ⟨r, hr⟩
      refine ⟨r / gxd ^ 2, ?_⟩
      have : gx1 / gxd = s / (gxd ^ 2) ^ 2 := by rw [hquot]; field_simp
      rw [this, hr]
      field_simp
  by_cases h0 : gx1 = 0
  · constructor
    · intro _
      rw [hkey, h0, mul_zero]
    · intro hns
      exact absurd (by rw [h0, zero_div]; exact IsSquare.zero) hns
  · have hs0 : s ≠ 0 := by
      rw [hs]
      exact mul_ne_zero (pow_ne_zero _ hgxd) (mul_ne_zero h0 hgxd)
    constructor
    · intro h
      have := (ZMod.euler_criterion c.p hs0).mp (hsq.mp h)
      rw [hkey, this, one_mul]
    · intro h
      have hne : s ^ (c.p / 2) ≠ 1 := fun h' => h (hsq.mpr ((ZMod.euler_criterion c.p hs0).mpr h'))
      have hm1 : s ^ (c.p / 2) = -1 := by
        rcases ZMod.pow_div_two_eq_neg_one_or_one c.p hs0 with h' | h'
        · exact absurd h' hne
        · exact h'
      rw [hm1] at hkey
      refine ⟨?_, ?_⟩
      · rw [hkey]
        intro h'
        have : (2 : c.Fp) * gx1 = 0 := by linear_combination -h'
        rcases mul_eq_zero.mp this with h2 | h2
        · exact two_ne_zero' c h2
        · exact h0 h2
      · have hc2 := c.c2_sq
        have h1 : y1 ^ 2 = -(gx1 / gxd) := by
          field_simp
          linear_combination hkey
        have : (y1 * c.c2 * u ^ 2 * u) ^ 2 = y1 ^ 2 * (c.c2 ^ 2 : c.Fp) * u ^ 6 := by ring
        rw [this, h1, hc2, ht]
        ring

theorem sign_fix (u y : c.Fp) :
    (if sgn0 u = sgn0 y then y else -y) = 0 ∨
      sgn0 (if sgn0 u = sgn0 y then y else -y) = sgn0 u := by
  by_cases h : sgn0 u = sgn0 y
  · right; rw [if_pos h]; exact h.symm
  · by_cases hy : y = 0
    · left; rw [if_neg h, hy, neg_zero]
    · right
      have hn : sgn0 (-y) = !sgn0 y := isOdd_neg hy
      rw [if_neg h, hn]
      revert h
      cases sgn0 u <;> cases sgn0 y <;> simp

/-- `osswu` computes RFC 9380 `map_to_curve_simple_swu`. -/
theorem osswu_isSswu (c : Params) (u : c.Fp) :
    IsSswu (c.a : c.Fp) (c.b : c.Fp) (c.z : c.Fp) sgn0 u (osswu c u).1 (osswu c u).2 := by
  have hA := c.a_ne_zero
  have hZ := z_ne_zero c
  set A : c.Fp := (c.a : c.Fp) with hAd
  set B : c.Fp := (c.b : c.Fp) with hBd
  set Z : c.Fp := (c.z : c.Fp) with hZd
  -- names for the intermediate values of the program
  set D : c.Fp := (Z * u ^ 2) ^ 2 + Z * u ^ 2 with hD
  set xd : c.Fp := if D * -A = 0 then Z * A else D * -A with hxd
  set x1n : c.Fp := B * (D + 1) with hx1n
  set gxd : c.Fp := xd ^ 2 * xd with hgxd
  set gx1 : c.Fp := x1n * (A * xd ^ 2 + x1n ^ 2) + gxd * B with hgx1
  set y1 : c.Fp := (gxd ^ 2 * (gx1 * gxd)) ^ ((c.p - 3) / 4) * (gx1 * gxd) with hy1
  set y2 : c.Fp := y1 * c.c2 * u ^ 2 * u with hy2
  have hD0 : D * -A = 0 ↔ D = 0 := by simp [hA]
  have hxd0 : xd ≠ 0 := by
    rw [hxd]
    split
    · exact mul_ne_zero hZ hA
    · assumption
  have hgxd0 : gxd ≠ 0 := mul_ne_zero (pow_ne_zero _ hxd0) hxd0
  -- x1 of the RFC
  have hx1 : sswuX1 A B Z u = x1n / xd := by
    unfold sswuX1
    simp only
    have hDD : Z ^ 2 * u ^ 4 + Z * u ^ 2 = D := by rw [hD]; ring
    rw [hDD]
    by_cases h : D = 0
    · rw [if_pos (by rw [h, inv_zero]), hxd, if_pos (hD0.mpr h), hx1n, h]
      ring
    · rw [if_neg (inv_ne_zero h), hxd, if_neg (fun h' => h (hD0.mp h')), hx1n]
      field_simp
  have hg1 : curveRhs A B (sswuX1 A B Z u) = gx1 / gxd := by
    rw [hx1, curveRhs, hgx1, hgxd]
    field_simp
    ring
  have hcore := swu_core (Z * u ^ 2) u gx1 gxd hgxd0 rfl y1 hy1
  have hx2 : sswuX2 A B Z u = Z * u ^ 2 * x1n / xd := by
    rw [sswuX2, hx1]
    ring
  -- g(x2) = (Z u²)³ g(x1) away from the exceptional case
  have hexc : D = 0 → IsSquare (gx1 / gxd) := by
    intro h
    obtain ⟨w, hw⟩ := c.z_exceptional
    refine ⟨w, ?_⟩
    have hxd' : xd = Z * A := by rw [hxd, if_pos (hD0.mpr h)]
    have hx1n' : x1n = B := by rw [hx1n, h]; ring
    rw [div_eq_iff hgxd0, hgx1, hx1n', hgxd, hxd']
    linear_combination -hw
  have hg2 : ¬ IsSquare (gx1 / gxd) →
      curveRhs A B (sswuX2 A B Z u) = (Z * u ^ 2) ^ 3 * (gx1 / gxd) := by
    intro hns
    have hDne : D ≠ 0 := fun h => hns (hexc h)
    have hxd' : xd = D * -A := by rw [hxd, if_neg (fun h' => hDne (hD0.mp h'))]
    rw [hx2, curveRhs, hgx1, hgxd, hxd', hx1n]
    generalize hT : Z * u ^ 2 = T
    have hDT : D = T ^ 2 + T := by rw [hD, hT]
    field_simp
    rw [hDT]
    ring
  -- the program, in these names
  have hval : osswu c u =
      ((if y1 ^ 2 * gxd = gx1 then x1n else Z * u ^ 2 * x1n) * xd⁻¹,
        (if sgn0 u = sgn0 (if y1 ^ 2 * gxd = gx1 then y1 else y2)
          then (if y1 ^ 2 * gxd = gx1 then y1 else y2)
          else -(if y1 ^ 2 * gxd = gx1 then y1 else y2))) := rfl
  have hsign := sign_fix (c := c) u
  have hsq : ∀ y : c.Fp, (if sgn0 u = sgn0 y then y else -y) ^ 2 = y ^ 2 := by
    intro y
    split <;> simp
  rw [hval]
  by_cases hS : IsSquare (gx1 / gxd)
  · have he2 := hcore.1 hS
    have hg1S : IsSquare (curveRhs A B (sswuX1 A B Z u)) := by rw [hg1]; exact hS
    simp only [he2, if_true]
    constructor
    · intro _; rw [hx1, div_eq_mul_inv]
    · intro h; exact absurd hg1S h
    · rw [hsq]
      rw [← div_eq_mul_inv, ← hx1, hg1, eq_div_iff hgxd0]
      exact he2
    · exact hsign y1
  · obtain ⟨he2, hy⟩ := hcore.2 hS
    have hg1S : ¬ IsSquare (curveRhs A B (sswuX1 A B Z u)) := by rw [hg1]; exact hS
    simp only [he2, if_false]
    constructor
    · intro h; exact absurd h hg1S
    · intro _; rw [hx2, div_eq_mul_inv]
    · rw [hsq]
      rw [← div_eq_mul_inv, ← hx2, hg2 hS]
      exact hy
    · exact hsign y2

/-- The result of the SWU map is on the curve, so `mapToCurve` never takes its fallback. -/
theorem osswu_on_curve (c : Params) (u : c.Fp) : (osswu c u).2 ^ 2 = rhs c (osswu c u).1 :=
  (osswu_isSswu c u).y_sqrt

end Voprf.Nist
