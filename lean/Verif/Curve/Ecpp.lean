import Verif.Curve.Jacobian
import Mathlib.AlgebraicGeometry.EllipticCurve.Affine.Point
import Mathlib.GroupTheory.OrderOfElement
import Mathlib.GroupTheory.Coset.Card

/-!
# The Goldwasser–Kilian primality criterion

If `q · P = 0` for an affine point `P` of a curve modulo `N`, with `q` prime and `q > 2 √N + 1`, then `N` is
prime: otherwise, modulo the smallest prime factor `r ≤ √N`, `P` would have order `q` in a group with at most
`2 r + 1` elements.  (With Hasse's theorem, `q > (N^(1/4) + 1)²` would do.)
-/

namespace Voprf.Curve

variable {r a b : Nat} [Fact r.Prime]

theorem odd_neg (hr : r % 2 = 1) {y : ZMod r} (h : y ≠ 0) : (-y).val % 2 = 1 - y.val % 2 := by
  have : NeZero y := ⟨h⟩
  have h1 : (-y).val = r - y.val := ZMod.val_neg_of_ne_zero y
  have h2 := ZMod.val_lt y
  rw [h1]
  omega

/-- A point is determined by `x` and the parity of `y`. -/
def codeOf : (short r a b).Point → Option (ZMod r × Bool)
  | .zero => none
  | .some x y _ => some (x, y.val % 2 == 1)

theorem short_eq {x y : ZMod r} (h : (short r a b).Nonsingular x y) : y ^ 2 = x ^ 3 + a * x + b := by
  have := (WeierstrassCurve.Affine.equation_iff _ _).mp h.1
  simpa [short] using this

theorem codeOf_injective (hr : r % 2 = 1) : Function.Injective (codeOf (r := r) (a := a) (b := b)) := by
  intro P Q h
  cases P with
  | zero =>
      cases Q with
      | zero => rfl
      | some x y hn => simp [codeOf] at h
  | some x y hn =>
      cases Q with
      | zero => simp [codeOf] at h
      | some x' y' hn' =>
          simp only [codeOf, Option.some.injEq, Prod.mk.injEq] at h
          obtain ⟨rfl, ho⟩ := h
          have hy : y = y' := by
            have hsq : y ^ 2 = y' ^ 2 := by rw [short_eq hn, short_eq hn']
            rcases sq_eq_sq_iff_eq_or_eq_neg.mp hsq with h | h
            · exact h
            · by_cases h0 : y' = 0
              · rw [h, h0, neg_zero]
              · exfalso
                rw [h, odd_neg hr h0] at ho
                rcases Nat.mod_two_eq_zero_or_one y'.val with h1 | h1 <;> rw [h1] at ho <;> simp at ho
          subst hy
          rfl

theorem card_short (hr : r % 2 = 1) :
    Finite (short r a b).Point ∧ Nat.card (short r a b).Point ≤ 2 * r + 1 := by
  refine ⟨Finite.of_injective codeOf (codeOf_injective hr), ?_⟩
  have h := Nat.card_le_card_of_injective _ (codeOf_injective (r := r) (a := a) (b := b) hr)
  have hc : Nat.card (Option (ZMod r × Bool)) = 2 * r + 1 := by
    rw [Finite.card_option, Nat.card_prod, Nat.card_zmod, Nat.card_eq_fintype_card, Fintype.card_bool]
    ring
  rwa [hc] at h

/-- The part of a certificate checked by computation: `P` is on the curve, `(q - 1) · P = -P`, the
discriminant is a unit, and `q` is large. -/
def ecCheck (N a b : Nat) (P : Nat × Nat) (q : Nat) : Bool :=
  decide (2 ≤ N) && decide (N % 2 = 1) && decide (Nat.gcd (4 * a ^ 3 + 27 * b ^ 2) N = 1) &&
  decide (P.2 ^ 2 % N = (P.1 ^ 3 + a * P.1 + b) % N) && decide (4 * N < (q - 1) * (q - 1)) &&
  negCheck N a P q

theorem ecpp (N a b : Nat) (P : Nat × Nat) (q : Nat) (hq : q.Prime) (h : ecCheck N a b P q = true) :
    N.Prime := by
  unfold ecCheck at h
  simp only [Bool.and_eq_true, decide_eq_true_eq] at h
  obtain ⟨⟨⟨⟨⟨hN, hodd⟩, hdisc⟩, hon⟩, hbig⟩, h⟩ := h
  by_contra hp
  set r := N.minFac with hrd
  have hrp : r.Prime := Nat.minFac_prime (by omega)
  have hr : r ∣ N := Nat.minFac_dvd N
  have : Fact r.Prime := ⟨hrp⟩
  have hr2 : r % 2 = 1 := by
    rcases Nat.mod_two_eq_zero_or_one r with h0 | h1
    · have := (Nat.dvd_of_mod_eq_zero h0).trans hr
      omega
    · exact h1
  have hcast : ∀ x y : Nat, x % N = y % N → (x : ZMod r) = y := by
    intro x y hxy
    rw [← cast_mod hr x, hxy, cast_mod hr]
  have h2 : (2 : ZMod r) ≠ 0 := by
    have : ((2 : ℕ) : ZMod r) ≠ 0 := by
      rw [Ne, ZMod.natCast_eq_zero_iff]
      intro hd
      have := (Nat.prime_dvd_prime_iff_eq hrp Nat.prime_two).mp hd
      omega
    simpa using this
  have hd : (4 * (a : ZMod r) ^ 3 + 27 * (b : ZMod r) ^ 2) ≠ 0 := by
    intro h0
    have : ((4 * a ^ 3 + 27 * b ^ 2 : Nat) : ZMod r) = 0 := by push_cast; exact h0
    have := Nat.dvd_gcd ((ZMod.natCast_eq_zero_iff _ _).mp this) hr
    rw [hdisc] at this
    exact hrp.one_lt.ne' (Nat.dvd_one.mp this)
  have hΔ : (short r a b).Δ ≠ 0 := by
    have h : (short r a b).Δ = -16 * (4 * (a : ZMod r) ^ 3 + 27 * (b : ZMod r) ^ 2) := by
      simp only [short, WeierstrassCurve.Δ, WeierstrassCurve.b₂, WeierstrassCurve.b₄,
        WeierstrassCurve.b₆, WeierstrassCurve.b₈]
      ring
    rw [h]
    refine mul_ne_zero ?_ hd
    rw [show (-16 : ZMod r) = -(2 ^ 4) by norm_num]
    exact neg_ne_zero.mpr (pow_ne_zero _ h2)
  have hns : (short r a b).Nonsingular (P.1 : ZMod r) (P.2 : ZMod r) := by
    rw [← WeierstrassCurve.Affine.equation_iff_nonsingular_of_Δ_ne_zero (hΔ := hΔ),
      WeierstrassCurve.Affine.equation_iff]
    have := hcast _ _ hon
    push_cast at this
    simpa [short] using this
  set Q : (short r a b).Point := .some _ _ hns with hQd
  have hord : q • Q = 0 := order_of_negCheck hr (by omega) h2 hq.two_le hns h
  have hQ0 : Q ≠ 0 := by rw [hQd]; exact WeierstrassCurve.Affine.Point.some_ne_zero _
  have ho : addOrderOf Q = q := by
    rcases (Nat.dvd_prime hq).mp (addOrderOf_dvd_of_nsmul_eq_zero hord) with h | h
    · exact absurd (AddMonoid.addOrderOf_eq_one_iff.mp h) hQ0
    · exact h
  obtain ⟨hfin, hcard⟩ := card_short (r := r) (a := a) (b := b) hr2
  have hle : q ≤ 2 * r + 1 := ho ▸ (addOrderOf_le_card.trans hcard)
  have hsq : r ^ 2 ≤ N := Nat.minFac_sq_le_self (by omega) hp
  have : q - 1 ≤ 2 * r := by omega
  nlinarith

end Voprf.Curve
