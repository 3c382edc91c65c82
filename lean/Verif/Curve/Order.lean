import Verif.Lemmas.Nist
import Verif.Curve.Jacobian
import Mathlib.GroupTheory.Perm.Cycle.Type
import Mathlib.GroupTheory.Coset.Card

/-!
# Proving that a concrete curve has prime order

Three checks by kernel computation: `(n-1)·G = -G` with verified arithmetic on natural numbers;
`x^p mod (x³ + a x + b)` with a Bézout certificate, showing that the cubic has no root (no point of order 2);
and `2 p + 1 < 3 n`.  Since every `x` carries at most two points, the group has at most `2 p + 1` elements;
its order is a multiple of `n`, so it is `n` or `2 n`, and it is odd.
-/

namespace Voprf.Curve

open Nist

variable {c : Params}

theorem cast_sub' (c : Params) (x : Nat) : ((c.p - x % c.p : Nat) : c.Fp) = -(x : c.Fp) :=
  cast_sub dvd_rfl c.p_prime.pos x

/-- `n · G = 0` by computation. -/
def orderCheck (c : Params) : Bool := negCheck c.p c.a (c.gx, c.gy) c.n

theorem order_of_check (h : orderCheck c = true) : c.n • baseElem c = 0 :=
  order_of_negCheck (r := c.p) (b := c.b) dvd_rfl c.p_prime.pos (two_ne_zero' c)
    (by have := c.two_lt_n; omega) (nonsingular_of_eq c.generator) h

/-! ## The cubic has no root -/

/-- Polynomials of degree at most two, with coefficients taken modulo `p`. -/
abbrev Quad := Nat × Nat × Nat

/-- The product modulo `x³ + a x + b`. -/
def qmul (p a b : Nat) (f g : Quad) : Quad :=
  let (f0, f1, f2) := f
  let (g0, g1, g2) := g
  let c0 := f0 * g0
  let c1 := f0 * g1 + f1 * g0
  let c2 := f0 * g2 + f1 * g1 + f2 * g0
  let c3 := (f1 * g2 + f2 * g1) % p
  let c4 := f2 * g2 % p
  -- x³ = -a x - b, x⁴ = -a x² - b x
  ((c0 + (p - c3) * b) % p, (c1 + (p - c3) * a + (p - c4) * b) % p, (c2 + (p - c4) * a) % p)

def qpow (p a b : Nat) : (fuel e : Nat) → (base acc : Quad) → Quad
  | 0, _, _, acc => acc
  | fuel + 1, e, base, acc =>
      if e = 0 then acc
      else qpow p a b fuel (e / 2) (qmul p a b base base)
        (if e % 2 = 1 then qmul p a b acc base else acc)

def qeval (c : Params) (f : Quad) (x : c.Fp) : c.Fp := f.1 + f.2.1 * x + f.2.2 * x ^ 2

theorem qmul_eval {x : c.Fp} (hx : rhs c x = 0) (f g : Quad) :
    qeval c (qmul c.p c.a c.b f g) x = qeval c f x * qeval c g x := by
  have hp : ∀ m : Nat, ((c.p - m % c.p : Nat) : c.Fp) = -(m : c.Fp) := cast_sub' c
  obtain ⟨f0, f1, f2⟩ := f
  obtain ⟨g0, g1, g2⟩ := g
  simp only [qmul, qeval, ZMod.natCast_mod, Nat.cast_add, Nat.cast_mul, hp]
  unfold rhs at hx
  linear_combination (-(f1 * g2 + f2 * g1 : c.Fp) - f2 * g2 * x) * hx

theorem qpow_eval {x : c.Fp} (hx : rhs c x = 0) : ∀ fuel e base acc, e < 2 ^ fuel →
    qeval c (qpow c.p c.a c.b fuel e base acc) x = qeval c acc x * qeval c base x ^ e
  | 0, e, base, acc, h => by
      have : e = 0 := by simpa using h
      simp [qpow, this]
  | fuel + 1, e, base, acc, h => by
      unfold qpow
      by_cases he : e = 0
      · simp [he]
      · rw [if_neg he, qpow_eval hx fuel _ _ _ (by rw [pow_succ] at h; omega), qmul_eval hx, ← sq,
          ← pow_mul]
        have hd := Nat.div_add_mod e 2
        rcases Nat.mod_two_eq_zero_or_one e with h0 | h1
        · rw [if_neg (by omega)]
          congr 2
          omega
        · rw [if_pos h1, qmul_eval hx, mul_assoc, ← pow_succ']
          congr 2
          omega

/-- `u (x^p - x) = 1` modulo the cubic, for a certificate `u`. -/
def rootCheck (c : Params) (u : Quad) : Bool :=
  let r := qpow c.p c.a c.b (Nat.log2 c.p + 1) c.p (0, 1, 0) (1, 0, 0)
  let s := (r.1, r.2.1 + (c.p - 1), r.2.2)
  decide (qmul c.p c.a c.b u s = (1, 0, 0))

theorem no_root_of_check {u : Quad} (h : rootCheck c u = true) (x : c.Fp) : rhs c x ≠ 0 := by
  intro hx
  simp only [rootCheck, decide_eq_true_eq] at h
  set r := qpow c.p c.a c.b (Nat.log2 c.p + 1) c.p (0, 1, 0) (1, 0, 0) with hr
  have h1 : qeval c r x = x := by
    rw [hr, qpow_eval hx _ _ _ _ Nat.lt_log2_self]
    simp [qeval, ZMod.pow_card]
  have h2 : qeval c (r.1, r.2.1 + (c.p - 1), r.2.2) x = 0 := by
    have hp : ((c.p - 1 : Nat) : c.Fp) = -1 := by
      rw [Nat.cast_sub c.p_prime.pos, ZMod.natCast_self, Nat.cast_one, zero_sub]
    simp only [qeval, Nat.cast_add, hp] at h1 ⊢
    linear_combination h1
  have h3 := qmul_eval hx u (r.1, r.2.1 + (c.p - 1), r.2.2)
  rw [h, h2, mul_zero] at h3
  simp [qeval] at h3

/-! ## Counting -/

/-- A point is determined by `x` and the parity of `y`. -/
def code : c.Point → Option (c.Fp × Bool)
  | .zero => none
  | .some x y _ => some (x, isOdd y)

theorem code_injective : Function.Injective (code (c := c)) := by
  intro P Q h
  cases P with
  | zero =>
      cases Q with
      | zero => rfl
      | some x y hn => simp [code] at h
  | some x y hn =>
      cases Q with
      | zero => simp [code] at h
      | some x' y' hn' =>
          simp only [code, Option.some.injEq, Prod.mk.injEq] at h
          obtain ⟨rfl, ho⟩ := h
          refine some_eq _ _ ?_
          have hsq : y ^ 2 = y' ^ 2 := by rw [curve_eq hn, curve_eq hn']
          rcases sq_eq_sq_iff_eq_or_eq_neg.mp hsq with h | h
          · exact h
          · by_cases h0 : y' = 0
            · rw [h, h0, neg_zero]
            · exfalso
              rw [h, isOdd_neg h0] at ho
              cases h1 : isOdd y' <;> rw [h1] at ho <;> simp at ho

instance : Finite c.Point := Finite.of_injective code code_injective

theorem card_le (c : Params) : Nat.card c.Point ≤ 2 * c.p + 1 := by
  have h := Nat.card_le_card_of_injective _ (code_injective (c := c))
  have hc : Nat.card (Option (c.Fp × Bool)) = 2 * c.p + 1 := by
    rw [Finite.card_option, Nat.card_prod, Nat.card_zmod, Nat.card_eq_fintype_card, Fintype.card_bool]
    ring
  rwa [hc] at h

/-- The three checks together. -/
theorem primeOrder_of_checks (u : Quad) (h1 : orderCheck c = true) (h2 : rootCheck c u = true)
    (h3 : 2 * c.p + 1 < 3 * c.n) : PrimeOrder c := by
  have hord := order_of_check h1
  have ho : addOrderOf (baseElem c) = c.n := by
    have hd := addOrderOf_dvd_of_nsmul_eq_zero hord
    rcases (Nat.dvd_prime c.n_prime).mp hd with h | h
    · exact absurd (AddMonoid.addOrderOf_eq_one_iff.mp h) (baseElem_ne_zero c)
    · exact h
  obtain ⟨k, hk⟩ : c.n ∣ Nat.card c.Point := ho ▸ addOrderOf_dvd_natCard (baseElem c)
  have hle := card_le c
  have hpos : 0 < Nat.card c.Point := Nat.card_pos
  have hk3 : k < 3 := by
    by_contra hge
    have : c.n * 3 ≤ c.n * k := Nat.mul_le_mul_left _ (by omega)
    omega
  have hk2 : k ≠ 2 := by
    rintro rfl
    have : Fintype c.Point := Fintype.ofFinite _
    have h2d : 2 ∣ Fintype.card c.Point := by
      rw [← Nat.card_eq_fintype_card, hk]; exact dvd_mul_left _ _
    obtain ⟨P, hP⟩ := exists_prime_addOrderOf_dvd_card 2 h2d
    cases P with
    | zero =>
        have : addOrderOf (0 : c.Point) = 2 := hP
        rw [addOrderOf_zero] at this
        omega
    | some x y hn =>
        have h0 : (2 : Nat) • (WeierstrassCurve.Affine.Point.some x y hn : c.Point) = 0 := by
          rw [← hP]; exact addOrderOf_nsmul_eq_zero _
        rw [two_nsmul, ← eq_neg_iff_add_eq_zero, neg_eq] at h0
        have hy : y = -y := by
          injection h0
        have hy0 : y = 0 := by
          have : (2 : c.Fp) * y = 0 := by linear_combination hy
          exact (mul_eq_zero.mp this).resolve_left (two_ne_zero' c)
        have := curve_eq hn
        rw [hy0] at this
        exact no_root_of_check h2 x (by rw [← this]; ring)
  have hk1 : k = 1 := by
    have : k ≠ 0 := by rintro rfl; omega
    omega
  have hcard : Nat.card c.Point = c.n := by rw [hk, hk1, mul_one]
  refine ⟨hord, fun P => ?_⟩
  have htop : AddSubgroup.zmultiples (baseElem c) = ⊤ := by
    apply AddSubgroup.eq_top_of_card_eq
    rw [Nat.card_zmultiples, ho, hcard]
  have hP : P ∈ AddSubgroup.zmultiples (baseElem c) := htop ▸ AddSubgroup.mem_top P
  have hfin : IsOfFinAddOrder (baseElem c) := isOfFinAddOrder_of_finite _
  obtain ⟨k, hk⟩ := hfin.mem_multiples_iff_mem_zmultiples.mpr hP
  exact ⟨k, hk.symm⟩

/-! ## Discharging the numeric side conditions of `Params` -/

theorem ne_zero_of (p a : Nat) (h : a % p ≠ 0) : (a : ZMod p) ≠ 0 := by
  rw [Ne, ZMod.natCast_eq_zero_iff]
  exact fun hd => h (Nat.mod_eq_zero_of_dvd hd)

theorem discriminant_of (p a b : Nat) (h : (4 * a ^ 3 + 27 * b ^ 2) % p ≠ 0) :
    (4 * (a : ZMod p) ^ 3 + 27 * (b : ZMod p) ^ 2) ≠ 0 := by
  have := ne_zero_of p _ h
  push_cast at this
  exact this

theorem generator_of (p gx gy a b : Nat) (h : gy ^ 2 % p = (gx ^ 3 + a * gx + b) % p) :
    (gy : ZMod p) ^ 2 = (gx : ZMod p) ^ 3 + (a : ZMod p) * (gx : ZMod p) + (b : ZMod p) := by
  have := (ZMod.natCast_eq_natCast_iff' _ _ _).mpr h
  push_cast at this
  exact this

theorem c2_of (p c2 z : Nat) (h : (c2 ^ 2 + z ^ 3) % p = 0) :
    (c2 : ZMod p) ^ 2 = -(z : ZMod p) ^ 3 := by
  have := (ZMod.natCast_eq_zero_iff _ _).mpr (Nat.dvd_of_mod_eq_zero h)
  push_cast at this
  linear_combination this

theorem exceptional_of (p z a b w : Nat)
    (h : w ^ 2 * (z * a) ^ 3 % p = (b ^ 3 + a * b * (z * a) ^ 2 + b * (z * a) ^ 3) % p) :
    ∃ w : ZMod p, w ^ 2 * ((z : ZMod p) * a) ^ 3 =
      (b : ZMod p) ^ 3 + a * b * ((z : ZMod p) * a) ^ 2 + b * ((z : ZMod p) * a) ^ 3 := by
  refine ⟨(w : ZMod p), ?_⟩
  have := (ZMod.natCast_eq_natCast_iff' _ _ _).mpr h
  push_cast at this
  exact this

theorem nonsquare_of (p z : Nat) (hp : p.Prime) (h2 : p % 4 = 3)
    (h : powMod z (p / 2) p = p - 1) : ¬ IsSquare (z : ZMod p) := by
  have : Fact p.Prime := ⟨hp⟩
  have hv : (z : ZMod p) ^ (p / 2) = -1 := by
    rw [← powMod_eq, h, Nat.cast_sub hp.pos, ZMod.natCast_self, Nat.cast_one, zero_sub]
  rintro ⟨y, hy⟩
  have hy0 : y ≠ 0 := by
    rintro rfl
    rw [hy, mul_zero, zero_pow (by omega)] at hv
    exact zero_ne_one (neg_eq_zero.mp hv.symm).symm
  rw [hy, ← sq, ← pow_mul, show 2 * (p / 2) = p - 1 by omega, ZMod.pow_card_sub_one_eq_one hy0] at hv
  have h2' : (2 : ZMod p) = 0 := by linear_combination hv
  have : ((2 : Nat) : ZMod p) = 0 := by simpa using h2'
  rw [ZMod.natCast_eq_zero_iff] at this
  have := Nat.le_of_dvd (by norm_num) this
  have := hp.two_le
  omega

end Voprf.Curve
