import Verif.Lemmas.Oracle
import Verif.Lemmas.Predict
import Mathlib.Algebra.BigOperators.Intervals
import Mathlib.Data.Nat.Choose.Basic

/-!
# The birthday bound for adaptive strategies
-/

namespace Voprf.Spec.Strategy

open Finset

variable {Q A O : Type}

/-- Asks all questions of a list. -/
def askEach (o : O) : List Q → Strategy Q A O
  | [] => done o
  | q :: l => ask q fun _ => askEach o l

/-- Plays the strategy, then asks the first `m` questions of a list that depends on the outcome. -/
def thenEach (g : O → List Q) (m : Nat) : Strategy Q A O → Strategy Q A O
  | done o => askEach o ((g o).take m)
  | ask q next => ask q fun a => thenEach g m (next a)

theorem askEach_within (o : O) : ∀ (l : List Q) (n : Nat), l.length ≤ n → (askEach o l : Strategy Q A O).Within n
  | [], 0, _ => trivial
  | [], _ + 1, _ => trivial
  | _ :: _, 0, h => absurd h (by simp)
  | _ :: l, n + 1, h => fun _ => askEach_within o l n (by simpa using h)

theorem thenEach_within (g : O → List Q) (m : Nat) : ∀ (n : Nat) (S : Strategy Q A O), S.Within n →
    (S.thenEach g m).Within (n + m)
  | n, done o, _ => askEach_within o _ _ (le_trans (by simp) (Nat.le_add_left m n))
  | 0, ask _ _, h => h.elim
  | n + 1, ask q next, h => by
    rw [Nat.succ_add]
    exact fun a => thenEach_within g m n (next a) (h a)

theorem mem_asked_askEach [DecidableEq Q] (f : Q → A) (o : O) (q : Q) :
    ∀ l : List Q, q ∈ l → q ∈ (askEach o l : Strategy Q A O).asked f
  | q' :: l, h => by
    simp only [askEach, asked]
    rcases List.mem_cons.mp h with rfl | h
    · exact mem_insert_self _ _
    · exact mem_insert_of_mem (mem_asked_askEach f o q l h)

theorem mem_asked_thenEach [DecidableEq Q] (g : O → List Q) (m : Nat) (f : Q → A) (q : Q) :
    ∀ S : Strategy Q A O, (g (S.run f)).length ≤ m → q ∈ g (S.run f) → q ∈ (S.thenEach g m).asked f
  | done o, hm, h => by
    simp only [thenEach]
    refine mem_asked_askEach f o q _ ?_
    have h' : (g o).take m = g o := List.take_of_length_le hm
    rw [h']
    exact h
  | ask q' next, hm, h => mem_insert_of_mem (mem_asked_thenEach g m f q (next (f q')) hm h)

/-- The birthday bound: a strategy with `n` questions ends with at most `m` questions, two of which have the same
answer. -/
theorem collision_bound [Finite Q] [Finite A] [Nonempty A] (S : Strategy Q A O) (n m : Nat) (hS : S.Within n)
    (g : O → List Q) (hm : ∀ f, (g (S.run f)).length ≤ m) :
    chance (fun f : Q → A => ∃ q ∈ g (S.run f), ∃ q' ∈ g (S.run f), q ≠ q' ∧ f q = f q') ≤
      ((n + m).choose 2 : ℚ) / Nat.card A := by
  classical
  set Bad : Finset Q → (Q → A) → Prop := fun K f => ∃ q ∈ K, ∃ q' ∈ K, q ≠ q' ∧ f q = f q' with hBad
  have key := card_bad_le Bad (fun j => j) ?_ ?_ ?_ (n + m) (S.thenEach g m) (thenEach_within g m n S hS)
  · have hA : (0 : ℚ) < Nat.card A := by exact_mod_cast Nat.card_pos
    have hT : (0 : ℚ) < Nat.card (Q → A) := by exact_mod_cast Nat.card_pos
    rw [sum_range_id, ← Nat.choose_two_right] at key
    refine le_trans (chance_mono (P' := fun f => Bad ((S.thenEach g m).asked f) f) ?_) ?_
    · rintro f ⟨q, hq, q', hq', hne, he⟩
      exact ⟨q, mem_asked_thenEach g m f q S (hm f) hq, q', mem_asked_thenEach g m f q' S (hm f) hq', hne, he⟩
    · rw [chance_eq, div_le_div_iff₀ hT hA]
      exact_mod_cast key
  · rintro K f f' h ⟨q, hq, q', hq', hne, he⟩
    exact ⟨q, hq, q', hq', hne, by rw [← h q hq, ← h q' hq', he]⟩
  · rintro f ⟨q, hq, _⟩
    exact absurd hq (notMem_empty q)
  · intro K f q hq hK
    refine le_trans (Set.ncard_le_ncard (t := f '' K) ?_ ((K.finite_toSet).image f)) ?_
    · rintro a ⟨p, hp, p', hp', hne, he⟩
      by_cases h : p = q
      · subst h
        have hne' : p' ≠ p := fun h => hne h.symm
        rw [Function.update_self, Function.update_of_ne hne'] at he
        exact ⟨p', (mem_insert.mp hp').resolve_left hne', he.symm⟩
      · by_cases h' : p' = q
        · subst h'
          rw [Function.update_self, Function.update_of_ne h] at he
          exact ⟨p, (mem_insert.mp hp).resolve_left h, he⟩
        · rw [Function.update_of_ne h, Function.update_of_ne h'] at he
          exact absurd ⟨p, (mem_insert.mp hp).resolve_left h, p', (mem_insert.mp hp').resolve_left h', hne, he⟩ hK
    · exact le_trans (Set.ncard_image_le K.finite_toSet) (le_of_eq (Set.ncard_coe_finset K))

end Voprf.Spec.Strategy
