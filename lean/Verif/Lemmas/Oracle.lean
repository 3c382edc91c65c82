import Verif.Spec.Oracle
import Mathlib.Data.Fintype.BigOperators
import Mathlib.Data.Fintype.Pi
import Mathlib.Data.Fintype.Card
import Mathlib.Data.Set.Card
import Mathlib.Algebra.BigOperators.Intervals
import Mathlib.Algebra.BigOperators.Ring.Finset
import Mathlib.Algebra.Order.BigOperators.Group.Finset
import Mathlib.Tactic.Ring

/-!
# Counting lemma for adaptive strategies

`Bad K g` is a property of the part of a table `g` on a finite set `K` of questions.  If a part that is not
bad can be made bad by at most `b |K|` of the answers to a further question, then the part of the table a
strategy of at most `n` questions looks at is bad for at most the fraction `(b 0 + … + b (n-1)) / |A|` of
all tables.
-/

namespace Voprf.Spec.Strategy

open Finset

variable {Q A O : Type}

/-- The questions asked against `f`. -/
def asked [DecidableEq Q] (f : Q → A) : Strategy Q A O → Finset Q
  | done _ => ∅
  | ask q next => insert q (asked f (next (f q)))

section
variable [Fintype Q] [DecidableEq Q] [Fintype A]

open Classical in
/-- The tables agreeing with `g` on `K`. -/
noncomputable def agreeing (K : Finset Q) (g : Q → A) : Finset (Q → A) :=
  univ.filter fun f => ∀ q ∈ K, f q = g q

theorem mem_agreeing {K : Finset Q} {g f : Q → A} : f ∈ agreeing K g ↔ ∀ q ∈ K, f q = g q := by
  simp [agreeing]

theorem agreeing_empty (g : Q → A) : agreeing ∅ g = univ := by
  ext f; simp [mem_agreeing]

theorem agreeing_eq_pi (K : Finset Q) (g : Q → A) :
    agreeing K g = Fintype.piFinset fun q => if q ∈ K then {g q} else univ := by
  ext f
  rw [mem_agreeing, Fintype.mem_piFinset]
  refine forall_congr' fun q => ?_
  by_cases h : q ∈ K <;> simp [h]

theorem card_agreeing (K : Finset Q) (g : Q → A) :
    (agreeing K g).card * Fintype.card A ^ K.card = Fintype.card A ^ Fintype.card Q := by
  have h : (agreeing K g).card = ∏ q, if q ∈ K then 1 else Fintype.card A := by
    rw [agreeing_eq_pi, Fintype.card_piFinset]
    refine prod_congr rfl fun q _ => ?_
    split <;> simp
  have h2 : Fintype.card A ^ K.card = ∏ q, if q ∈ K then Fintype.card A else 1 := by
    rw [prod_ite]; simp
  rw [h, h2, ← prod_mul_distrib, ← card_univ (α := Q), ← prod_const]
  refine prod_congr rfl fun q _ => ?_
  split <;> simp

theorem card_agreeing_insert [Nonempty A] (K : Finset Q) (g g' : Q → A) (q : Q) (hq : q ∉ K) :
    (agreeing (insert q K) g').card * Fintype.card A = (agreeing K g).card := by
  have h1 := card_agreeing (insert q K) g'
  have h2 := card_agreeing K g
  rw [card_insert_of_notMem hq, pow_succ'] at h1
  have hp : 0 < Fintype.card A ^ K.card := pow_pos Fintype.card_pos _
  apply Nat.eq_of_mul_eq_mul_right hp
  rw [h2, ← h1]; ring

open Classical in
theorem card_bad_aux [Nonempty A] (Bad : Finset Q → (Q → A) → Prop) (b : Nat → Nat)
    (congr : ∀ K g g', (∀ q ∈ K, g q = g' q) → Bad K g → Bad K g')
    (bound : ∀ K g q, q ∉ K → ¬ Bad K g →
      (univ.filter fun a => Bad (insert q K) (Function.update g q a)).card ≤ b K.card) :
    ∀ (n : Nat) (S : Strategy Q A O), S.Within n → ∀ (K : Finset Q) (g : Q → A), ¬ Bad K g →
      ((agreeing K g).filter fun f => Bad (K ∪ S.asked f) f).card * Fintype.card A
        ≤ (∑ j ∈ range n, b (K.card + j)) * (agreeing K g).card := by
  intro n S
  induction S generalizing n with
  | done o =>
    intro _ K g hg
    have e : ((agreeing K g).filter fun f => Bad (K ∪ (done o : Strategy Q A O).asked f) f) = ∅ := by
      rw [filter_eq_empty_iff]
      intro f hf hb
      rw [asked, union_empty] at hb
      exact hg (congr K f g (mem_agreeing.mp hf) hb)
    rw [e]; simp
  | ask q next ih =>
    intro hw K g hg
    cases n with
    | zero => exact absurd hw (by simp [Within])
    | succ n =>
    simp only [Within] at hw
    by_cases hq : q ∈ K
    · have e : ((agreeing K g).filter fun f => Bad (K ∪ (ask q next).asked f) f) =
          (agreeing K g).filter fun f => Bad (K ∪ (next (g q)).asked f) f := by
        refine filter_congr fun f hf => ?_
        rw [asked, mem_agreeing.mp hf q hq, union_insert, insert_eq_of_mem (mem_union_left _ hq)]
      rw [e]
      refine (ih (g q) n (hw _) K g hg).trans ?_
      refine Nat.mul_le_mul_right _ ?_
      rw [sum_range_succ]
      exact Nat.le_add_right _ _
    · -- split by the answer to `q`
      set N := (agreeing (insert q K) g).card with hN
      have hcard : ∀ g' : Q → A, (agreeing (insert q K) g').card = N := by
        intro g'
        have h1 := card_agreeing_insert K g g' q hq
        have h2 := card_agreeing_insert K g g q hq
        exact Nat.eq_of_mul_eq_mul_right Fintype.card_pos (h1.trans h2.symm)
      have hsub : ((agreeing K g).filter fun f => Bad (K ∪ (ask q next).asked f) f) ⊆
          ((univ.filter fun a => Bad (insert q K) (Function.update g q a)).biUnion fun a =>
              agreeing (insert q K) (Function.update g q a)) ∪
          (univ.filter fun a => ¬ Bad (insert q K) (Function.update g q a)).biUnion fun a =>
            (agreeing (insert q K) (Function.update g q a)).filter
              fun f => Bad (insert q K ∪ (next a).asked f) f := by
        intro f hf
        obtain ⟨h1, h2⟩ := mem_filter.mp hf
        rw [mem_agreeing] at h1
        have hag : f ∈ agreeing (insert q K) (Function.update g q (f q)) := by
          rw [mem_agreeing]
          intro r hr
          by_cases hrq : r = q
          · subst hrq; simp
          · rw [Function.update_of_ne hrq]
            exact h1 r ((mem_insert.mp hr).resolve_left hrq)
        by_cases hl : Bad (insert q K) (Function.update g q (f q))
        · exact mem_union_left _ (mem_biUnion.mpr ⟨f q, by simpa using hl, hag⟩)
        · refine mem_union_right _ (mem_biUnion.mpr ⟨f q, by simpa using hl, mem_filter.mpr ⟨hag, ?_⟩⟩)
          rwa [asked, union_insert, ← insert_union] at h2
      have hA : (agreeing K g).card = N * Fintype.card A :=
        (card_agreeing_insert K g g q hq).symm
      have b1 : ((univ.filter fun a => Bad (insert q K) (Function.update g q a)).biUnion fun a =>
          agreeing (insert q K) (Function.update g q a)).card ≤ b K.card * N := by
        refine (card_biUnion_le).trans ?_
        rw [sum_congr rfl (fun a _ => hcard (Function.update g q a)), sum_const, smul_eq_mul]
        exact Nat.mul_le_mul_right N (bound K g q hq hg)
      have b2 : ((univ.filter fun a => ¬ Bad (insert q K) (Function.update g q a)).biUnion fun a =>
            (agreeing (insert q K) (Function.update g q a)).filter
              fun f => Bad (insert q K ∪ (next a).asked f) f).card
            ≤ (∑ j ∈ range n, b (K.card + 1 + j)) * N := by
        refine Nat.le_of_mul_le_mul_right ?_ (Fintype.card_pos (α := A))
        refine (Nat.mul_le_mul_right _ card_biUnion_le).trans ?_
        rw [sum_mul]
        refine (sum_le_sum (g := fun _ => (∑ j ∈ range n, b (K.card + 1 + j)) * N)
          fun a ha => ?_).trans ?_
        · have := ih a n (hw a) (insert q K) (Function.update g q a) (by simpa using ha)
          rwa [card_insert_of_notMem hq, hcard] at this
        · rw [sum_const, smul_eq_mul, mul_comm]
          exact Nat.mul_le_mul_left _ (card_le_univ _)
      have := (card_le_card hsub).trans ((card_union_le _ _).trans (Nat.add_le_add b1 b2))
      refine (Nat.mul_le_mul_right _ this).trans (le_of_eq ?_)
      rw [hA, sum_range_succ']
      simp only [add_zero, add_assoc, add_comm 1]
      ring

end

/-- The counting lemma. -/
theorem card_bad_le [DecidableEq Q] [Finite Q] [Finite A] [Nonempty A]
    (Bad : Finset Q → (Q → A) → Prop) (b : Nat → Nat)
    (congr : ∀ K g g', (∀ q ∈ K, g q = g' q) → Bad K g → Bad K g')
    (empty : ∀ g, ¬ Bad ∅ g)
    (bound : ∀ K g q, q ∉ K → ¬ Bad K g →
      {a | Bad (insert q K) (Function.update g q a)}.ncard ≤ b K.card)
    (n : Nat) (S : Strategy Q A O) (hS : S.Within n) :
    Nat.card {f : Q → A // Bad (S.asked f) f} * Nat.card A
      ≤ (∑ j ∈ range n, b j) * Nat.card (Q → A) := by
  classical
  have := Fintype.ofFinite Q
  have := Fintype.ofFinite A
  have h := card_bad_aux Bad b congr (fun K g q hq hg => by
    have := bound K g q hq hg
    rwa [Set.ncard_eq_toFinset_card', Set.toFinset_ofPred] at this) n S hS ∅
    (fun _ => Classical.arbitrary A) (empty _)
  simp only [agreeing_empty, empty_union, card_empty, zero_add] at h
  rw [Nat.card_eq_fintype_card, Nat.card_eq_fintype_card, Nat.card_eq_fintype_card,
    Fintype.card_subtype]
  exact h

/-- The same among the tables giving one particular answer to one particular question. -/
theorem card_bad_le_given [DecidableEq Q] [Finite Q] [Finite A]
    (Bad : Finset Q → (Q → A) → Prop) (b : Nat → Nat)
    (congr : ∀ K g g', (∀ q ∈ K, g q = g' q) → Bad K g → Bad K g')
    (q₀ : Q) (a₀ : A) (start : ∀ g, g q₀ = a₀ → ¬ Bad {q₀} g)
    (bound : ∀ K g q, q ∉ K → ¬ Bad K g →
      {a | Bad (insert q K) (Function.update g q a)}.ncard ≤ b K.card)
    (n : Nat) (S : Strategy Q A O) (hS : S.Within n) :
    Nat.card {f : Q → A // f q₀ = a₀ ∧ Bad (insert q₀ (S.asked f)) f} * Nat.card A
      ≤ (∑ j ∈ range n, b (1 + j)) * Nat.card {f : Q → A // f q₀ = a₀} := by
  classical
  have := Fintype.ofFinite Q
  have := Fintype.ofFinite A
  have : Nonempty A := ⟨a₀⟩
  have h := card_bad_aux Bad b congr (fun K g q hq hg => by
    have := bound K g q hq hg
    rwa [Set.ncard_eq_toFinset_card', Set.toFinset_ofPred] at this) n S hS {q₀}
    (fun _ => a₀) (start _ rfl)
  have e : agreeing {q₀} (fun _ => a₀) = (univ.filter fun f : Q → A => f q₀ = a₀) := by
    ext f; simp [mem_agreeing]
  rw [e, filter_filter] at h
  simp only [card_singleton, ← insert_eq] at h
  rw [Nat.card_eq_fintype_card, Nat.card_eq_fintype_card, Nat.card_eq_fintype_card,
    Fintype.card_subtype, Fintype.card_subtype]
  exact h

end Voprf.Spec.Strategy
