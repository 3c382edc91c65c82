import Mathlib.Data.ZMod.Basic
import Mathlib.Algebra.Field.ZMod
import Mathlib.FieldTheory.Finite.Basic
import Mathlib.Data.Nat.Prime.Basic

/-!
# Pocklington's primality criterion

Used to prove, in the kernel, that the field and group orders of the curves are prime.  The certificates in
`Verif/Curve/Primes.lean` list, for each `N`, prime powers `q ^ e` dividing `N - 1` whose product exceeds
`√N`, with a witness `a` for each.
-/

namespace Voprf.Curve

/-- `b ^ e mod m` by repeated squaring; `fuel` bounds the number of bits of `e`. -/
def powModAux (m : Nat) : (fuel b e acc : Nat) → Nat
  | 0, _, _, acc => acc
  | fuel + 1, b, e, acc =>
      if e = 0 then acc
      else powModAux m fuel (b * b % m) (e / 2) (if e % 2 = 1 then acc * b % m else acc)

def powMod (b e m : Nat) : Nat := powModAux m (Nat.log2 e + 1) b e (1 % m)

theorem powModAux_eq (m : Nat) : ∀ fuel b e acc, e < 2 ^ fuel →
    ((powModAux m fuel b e acc : Nat) : ZMod m) = (acc : ZMod m) * (b : ZMod m) ^ e
  | 0, b, e, acc, h => by
      have : e = 0 := by simpa using h
      simp [powModAux, this]
  | fuel + 1, b, e, acc, h => by
      unfold powModAux
      by_cases he : e = 0
      · simp [he]
      · rw [if_neg he, powModAux_eq m fuel _ _ _ (by rw [pow_succ] at h; omega)]
        have hb : ((b * b % m : Nat) : ZMod m) = (b : ZMod m) ^ 2 := by
          rw [ZMod.natCast_mod, Nat.cast_mul, sq]
        rw [hb, ← pow_mul]
        have hd := Nat.div_add_mod e 2
        rcases Nat.mod_two_eq_zero_or_one e with h0 | h1
        · rw [if_neg (by omega)]
          congr 2
          omega
        · rw [if_pos h1, ZMod.natCast_mod, Nat.cast_mul, mul_assoc, ← pow_succ']
          congr 2
          omega

theorem powMod_eq (b e m : Nat) : ((powMod b e m : Nat) : ZMod m) = (b : ZMod m) ^ e := by
  rw [powMod, powModAux_eq _ _ _ _ _ Nat.lt_log2_self, ZMod.natCast_mod]
  simp

/-- The part of a certificate that is checked by computation. -/
def check (N : Nat) (cert : List (Nat × Nat × Nat)) : Bool :=
  decide (2 ≤ N) &&
  cert.all (fun x => decide ((N - 1) % x.1 ^ x.2.1 = 0) &&
    decide (powMod x.2.2 (N - 1) N = 1) &&
    decide (Nat.gcd (powMod x.2.2 ((N - 1) / x.1) N + (N - 1)) N = 1)) &&
  (let F := cert.foldr (fun x acc => Nat.lcm (x.1 ^ x.2.1) acc) 1; decide (N ≤ F * F))

theorem pow_dvd_of (r N q e : Nat) [Fact r.Prime] (hr : r ∣ N) (hN : 2 ≤ N) (hq : q.Prime) (a : Nat)
    (h1 : (N - 1) % q ^ e = 0) (h3 : powMod a (N - 1) N = 1)
    (h4 : Nat.gcd (powMod a ((N - 1) / q) N + (N - 1)) N = 1) : q ^ e ∣ r - 1 := by
  have hcast : ∀ k, ((powMod a k N : Nat) : ZMod r) = (a : ZMod r) ^ k := by
    intro k
    have := congrArg (ZMod.castHom hr (ZMod r)) (powMod_eq a k N)
    rwa [map_pow, map_natCast, map_natCast] at this
  have ha : (a : ZMod r) ^ (N - 1) = 1 := by rw [← hcast, h3, Nat.cast_one]
  have hb : (a : ZMod r) ^ ((N - 1) / q) ≠ 1 := by
    intro hb
    have hz : ((powMod a ((N - 1) / q) N + (N - 1) : Nat) : ZMod r) = 0 := by
      have hNz : ((N : Nat) : ZMod r) = 0 := (ZMod.natCast_eq_zero_iff _ _).mpr hr
      have : ((N - 1 + 1 : Nat) : ZMod r) = 0 := by rw [Nat.sub_add_cancel (by omega)]; exact hNz
      rw [Nat.cast_add, hcast, hb, add_comm]
      rw [Nat.cast_add, Nat.cast_one] at this
      exact this
    have hd := (ZMod.natCast_eq_zero_iff _ _).mp hz
    have := Nat.dvd_gcd hd hr
    rw [h4] at this
    exact (Fact.out : r.Prime).one_lt.ne' (Nat.dvd_one.mp this)
  obtain ⟨k, hk⟩ := orderOf_dvd_of_pow_eq_one ha
  have hqk : ¬ q ∣ k := by
    rintro ⟨j, rfl⟩
    apply hb
    apply orderOf_dvd_iff_pow_eq_one.mp
    refine ⟨j, ?_⟩
    rw [hk, show orderOf (a : ZMod r) * (q * j) = q * (orderOf (a : ZMod r) * j) by ring,
      Nat.mul_div_cancel_left _ hq.pos]
  have hcop : Nat.Coprime (q ^ e) k := Nat.Coprime.pow_left _ ((Nat.Prime.coprime_iff_not_dvd hq).mpr hqk)
  have hdo : q ^ e ∣ orderOf (a : ZMod r) := by
    have : q ^ e ∣ orderOf (a : ZMod r) * k := hk ▸ Nat.dvd_of_mod_eq_zero h1
    exact hcop.dvd_of_dvd_mul_right this
  have ha0 : (a : ZMod r) ≠ 0 := by
    intro h0
    rw [h0] at ha
    have : N - 1 ≠ 0 := by omega
    rw [zero_pow this] at ha
    exact zero_ne_one ha
  exact hdo.trans (orderOf_dvd_of_pow_eq_one (ZMod.pow_card_sub_one_eq_one ha0))

/-- Pocklington's criterion. -/
theorem pocklington (N : Nat) (cert : List (Nat × Nat × Nat)) (h : check N cert = true)
    (hq : ∀ x ∈ cert, x.1.Prime) : N.Prime := by
  unfold check at h
  simp only [Bool.and_eq_true, decide_eq_true_eq, List.all_eq_true] at h
  obtain ⟨⟨hN, hc⟩, hF⟩ := h
  by_contra hp
  set r := N.minFac with hrd
  have hrp : r.Prime := Nat.minFac_prime (by omega)
  have hr : r ∣ N := Nat.minFac_dvd N
  have : Fact r.Prime := ⟨hrp⟩
  have hdv : cert.foldr (fun x acc => Nat.lcm (x.1 ^ x.2.1) acc) 1 ∣ r - 1 := by
    have : ∀ l : List (Nat × Nat × Nat), (∀ x ∈ l, x ∈ cert) →
        l.foldr (fun x acc => Nat.lcm (x.1 ^ x.2.1) acc) 1 ∣ r - 1 := by
      intro l
      induction l with
      | nil => intro _; simp
      | cons x l ih =>
          intro hl
          have hx := hl x List.mem_cons_self
          obtain ⟨⟨h1, h3⟩, h4⟩ := hc x hx
          exact Nat.lcm_dvd (pow_dvd_of r N x.1 x.2.1 hr hN (hq x hx) x.2.2 h1 h3 h4)
            (ih fun y hy => hl y (List.mem_cons_of_mem _ hy))
    exact this cert fun _ h => h
  have hle := Nat.le_of_dvd (by have := hrp.two_le; omega) hdv
  set F := cert.foldr (fun x acc => Nat.lcm (x.1 ^ x.2.1) acc) 1 with hFd
  have hlt : F < r := by have := hrp.two_le; omega
  have hsq : r ^ 2 ≤ N := Nat.minFac_sq_le_self (by omega) hp
  nlinarith

end Voprf.Curve
