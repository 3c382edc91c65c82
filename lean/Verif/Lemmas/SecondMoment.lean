import Mathlib.Algebra.Order.Chebyshev
import Mathlib.Algebra.Order.BigOperators.Group.Finset
import Mathlib.Algebra.BigOperators.Ring.Finset
import Mathlib.Algebra.BigOperators.Group.Finset.Basic
import Mathlib.Data.Fintype.BigOperators
import Mathlib.SetTheory.Cardinal.Finite
import Mathlib.GroupTheory.Coset.Card
import Mathlib.GroupTheory.QuotientGroup.Basic
import Mathlib.Tactic.Ring
import Mathlib.Tactic.Linarith

/-!
# Second-moment counting

If each of a family of events on a finite set has frequency `1/p` and any two of them are independent, then
at least the fraction `|V| / (|V| + p)` of the set lies in some event.
-/

namespace Voprf

open Finset

theorem second_moment {T V : Type} [Fintype T] [Fintype V] (E : V → T → Prop) (p : Nat)
    (h1 : ∀ v, Nat.card {f // E v f} * p = Fintype.card T)
    (h2 : ∀ v v', v ≠ v' → Nat.card {f // E v f ∧ E v' f} * p ^ 2 = Fintype.card T) :
    Fintype.card V * Fintype.card T ≤
      Nat.card {f // ∃ v, E v f} * (Fintype.card V + p) := by
  classical
  rcases Nat.eq_zero_or_pos (Fintype.card V * Fintype.card T) with h0 | hpos
  · rw [h0]; exact Nat.zero_le _
  set A : Finset T := univ.filter fun f => ∃ v, E v f with hA
  set Z : T → Nat := fun f => (univ.filter fun v => E v f).card with hZ
  have c1 : ∀ v, (univ.filter fun f => E v f).card * p = Fintype.card T := fun v => by
    rw [← h1 v, Nat.card_eq_fintype_card, Fintype.card_subtype]
  have c2 : ∀ v v', v ≠ v' → (univ.filter fun f => E v f ∧ E v' f).card * p ^ 2 = Fintype.card T :=
    fun v v' hv => by
      rw [← h2 v v' hv, Nat.card_eq_fintype_card, Fintype.card_subtype]
  have cA : Nat.card {f // ∃ v, E v f} = A.card := by
    rw [Nat.card_eq_fintype_card, Fintype.card_subtype]
  rw [cA]
  have hZsum : (∑ f, Z f) * p = Fintype.card V * Fintype.card T := by
    have : ∑ f, Z f = ∑ v, (univ.filter fun f => E v f).card := by
      simp only [hZ, card_filter]
      exact sum_comm
    rw [this, sum_mul, sum_congr rfl fun v _ => c1 v, sum_const, card_univ, smul_eq_mul]
  have hZA : ∑ f ∈ A, Z f = ∑ f, Z f := by
    refine sum_subset (subset_univ _) fun f _ hf => ?_
    rw [hZ]
    simp only [hA, mem_filter, mem_univ, true_and, not_exists] at hf
    simp [hf]
  have hsq : (∑ f, Z f ^ 2) * p ^ 2 ≤
      Fintype.card V * Fintype.card T * p + Fintype.card V * Fintype.card V * Fintype.card T := by
    have e : ∀ f, Z f ^ 2 = ∑ v, ∑ v', if E v f ∧ E v' f then 1 else 0 := by
      intro f
      simp only [hZ, card_filter, sq, sum_mul_sum]
      refine sum_congr rfl fun v _ => sum_congr rfl fun v' _ => ?_
      by_cases a : E v f <;> by_cases b : E v' f <;> simp [a, b]
    have e2 : ∑ f, Z f ^ 2 = ∑ v, ∑ v', (univ.filter fun f => E v f ∧ E v' f).card := by
      simp only [e, card_filter]
      rw [sum_comm]
      exact sum_congr rfl fun v _ => sum_comm
    have e3 : ∀ v v', (univ.filter fun f => E v f ∧ E v' f).card * p ^ 2 ≤
        (if v = v' then Fintype.card T * p else 0) + Fintype.card T := by
      intro v v'
      by_cases hv : v = v'
      · subst hv
        rw [if_pos rfl]
        simp only [and_self]
        have := c1 v
        rw [sq, ← mul_assoc, this]
        omega
      · rw [if_neg hv, c2 v v' hv]; omega
    rw [e2, sum_mul]
    calc ∑ v, (∑ v', (univ.filter fun f => E v f ∧ E v' f).card) * p ^ 2
        ≤ ∑ v : V, ∑ v' : V, ((if v = v' then Fintype.card T * p else 0) + Fintype.card T) := by
          refine sum_le_sum fun v _ => ?_
          rw [sum_mul]
          exact sum_le_sum fun v' _ => e3 v v'
      _ = _ := by
          simp only [sum_add_distrib, sum_ite_eq, mem_univ, if_true, sum_const, card_univ, smul_eq_mul]
          ring
  have hcs : (∑ f ∈ A, Z f) ^ 2 ≤ A.card * ∑ f ∈ A, Z f ^ 2 := sq_sum_le_card_mul_sum_sq
  have hle : ∑ f ∈ A, Z f ^ 2 ≤ ∑ f, Z f ^ 2 :=
    sum_le_sum_of_subset (subset_univ _)
  have key : (Fintype.card V * Fintype.card T) ^ 2 ≤
      A.card * (Fintype.card V + p) * (Fintype.card V * Fintype.card T) := by
    calc (Fintype.card V * Fintype.card T) ^ 2 = (∑ f ∈ A, Z f) ^ 2 * p ^ 2 := by
          rw [← hZsum, hZA, mul_pow]
      _ ≤ (A.card * ∑ f ∈ A, Z f ^ 2) * p ^ 2 := Nat.mul_le_mul_right _ hcs
      _ ≤ (A.card * ∑ f, Z f ^ 2) * p ^ 2 := Nat.mul_le_mul_right _ (Nat.mul_le_mul_left _ hle)
      _ = A.card * ((∑ f, Z f ^ 2) * p ^ 2) := by ring
      _ ≤ A.card * (Fintype.card V * Fintype.card T * p +
            Fintype.card V * Fintype.card V * Fintype.card T) := Nat.mul_le_mul_left _ hsq
      _ = _ := by ring
  rw [sq] at key
  exact Nat.le_of_mul_le_mul_right key hpos

/-- All fibres of a surjective homomorphism have the same size. -/
theorem card_fibre {T H : Type} [AddCommGroup T] [AddCommGroup H] [Finite T] (φ : T →+ H)
    (hs : Function.Surjective φ) (h : H) : Nat.card {f // φ f = h} * Nat.card H = Nat.card T := by
  obtain ⟨f₀, hf₀⟩ := hs h
  have e1 : Nat.card {f // φ f = h} = Nat.card φ.ker := by
    refine Nat.card_congr
      ⟨fun f => ⟨f.1 - f₀, ?_⟩, fun f => ⟨f.1 + f₀, ?_⟩, fun f => ?_, fun f => ?_⟩
    · rw [AddMonoidHom.mem_ker, map_sub, f.2, hf₀, sub_self]
    · rw [map_add, AddMonoidHom.mem_ker.mp f.2, zero_add, hf₀]
    · exact Subtype.ext (sub_add_cancel _ _)
    · exact Subtype.ext (add_sub_cancel_right _ _)
  have e2 : Nat.card H = Nat.card (T ⧸ φ.ker) :=
    (Nat.card_congr (QuotientAddGroup.quotientKerEquivOfSurjective φ hs).toEquiv).symm
  rw [e1, e2, mul_comm]
  exact (AddSubgroup.card_eq_card_quotient_mul_card_addSubgroup φ.ker).symm

end Voprf
