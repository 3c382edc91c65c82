import Verif.Spec.Predict
import Verif.Lemmas.Distinguisher
import Mathlib.SetTheory.Cardinal.Finite

/-!
# Guessing an entry of a table that was not asked for
-/

namespace Voprf

open Spec Finset
open scoped BigOperators

theorem chance_eq {α : Type} [Finite α] (P : α → Prop) :
    chance P = (Nat.card {x // P x} : ℚ) / Nat.card α := by
  classical
  have := Fintype.ofFinite α
  unfold chance average
  rw [finsum_eq_sum_of_fintype]
  congr 1
  rw [Nat.card_eq_fintype_card, Fintype.card_subtype, Finset.sum_ite, Finset.sum_const_zero, add_zero,
    Finset.sum_const, nsmul_eq_mul, mul_one]

theorem chance_mono {α : Type} [Finite α] {P P' : α → Prop} (h : ∀ x, P x → P' x) : chance P ≤ chance P' := by
  rw [chance_eq, chance_eq]
  refine div_le_div_of_nonneg_right ?_ (Nat.cast_nonneg _)
  exact_mod_cast Nat.card_le_card_of_injective (fun x : {x // P x} => (⟨x.1, h x.1 x.2⟩ : {x // P' x}))
    fun x y e => Subtype.ext (congrArg (fun z : {x // P' x} => z.1) e)

theorem chance_congr {α : Type} {P P' : α → Prop} (h : ∀ x, P x ↔ P' x) : chance P = chance P' := by
  have : P = P' := funext fun x => propext (h x)
  rw [this]

/-- The union bound. -/
theorem chance_exists_lt {α : Type} [Finite α] (P : Nat → α → Prop) (m : Nat) (b : ℚ)
    (h : ∀ i < m, chance (P i) ≤ b) : chance (fun x => ∃ i < m, P i x) ≤ m * b := by
  induction m with
  | zero =>
    have : (chance fun x : α => ∃ i < 0, P i x) = 0 := by
      rw [chance_eq]
      have : IsEmpty {x : α // ∃ i < 0, P i x} := ⟨fun ⟨x, i, hi, _⟩ => Nat.not_lt_zero i hi⟩
      simp
    rw [this]; simp
  | succ m ih =>
    have hm := ih fun i hi => h i (Nat.lt_succ_of_lt hi)
    have hl := h m (Nat.lt_succ_self m)
    have hu : (chance fun x : α => ∃ i < m + 1, P i x) ≤ (chance fun x => ∃ i < m, P i x) + chance (P m) := by
      classical
      have := Fintype.ofFinite α
      rw [chance_eq, chance_eq, chance_eq, ← add_div]
      refine div_le_div_of_nonneg_right ?_ (Nat.cast_nonneg _)
      rw [← Nat.cast_add, Nat.cast_le, Nat.card_eq_fintype_card, Nat.card_eq_fintype_card,
        Nat.card_eq_fintype_card, Fintype.card_subtype, Fintype.card_subtype, Fintype.card_subtype]
      refine le_trans (card_le_card ?_) (card_union_le _ _)
      intro x hx
      obtain ⟨i, hi, hp⟩ := (mem_filter.mp hx).2
      rcases Nat.lt_succ_iff_lt_or_eq.mp hi with hi | rfl
      · exact mem_union_left _ (mem_filter.mpr ⟨mem_univ _, i, hi, hp⟩)
      · exact mem_union_right _ (mem_filter.mpr ⟨mem_univ _, hp⟩)
    push_cast
    linarith

namespace Spec.Player
variable {Q A R V O : Type} [DecidableEq Q]

/-- Changing an entry the player does not ask for, and no answer depends on, changes nothing. -/
theorem run_update (answer : (Q → A) → R → V) (q : Q)
    (hq : ∀ (f : Q → A) (a : A), answer (Function.update f q a) = answer f) (T : Player Q A R V O) (f : Q → A)
    (a : A) (h : ¬ T.Asks f (answer f) q) :
    T.run (Function.update f q a) (answer (Function.update f q a)) = T.run f (answer f) ∧
      ¬ T.Asks (Function.update f q a) (answer (Function.update f q a)) q := by
  rw [hq]
  induction T with
  | done o => exact ⟨rfl, fun h => h⟩
  | ask q' next ih =>
    simp only [Asks, not_or] at h
    have e : Function.update f q a q' = f q' := Function.update_of_ne h.1 _ _
    obtain ⟨h1, h2⟩ := ih (f q') h.2
    simp only [run, Asks, not_or, e]
    exact ⟨h1, h.1, h2⟩
  | request r next ih => exact ih _ h

/-- The guessing lemma: a player that ends by naming a question and its answer is right, without having asked the
question, with probability at most one in the number of answers. -/
theorem guess_bound [Finite Q] [Finite A] [Nonempty A] (answer : (Q → A) → R → V) (T : Player Q A R V O)
    (target : O → Option (Q × A))
    (hq : ∀ o q a, target o = some (q, a) → ∀ (f : Q → A) (b : A), answer (Function.update f q b) = answer f) :
    chance (fun f : Q → A => ∃ q a, target (T.run f (answer f)) = some (q, a) ∧ f q = a ∧
      ¬ T.Asks f (answer f) q) ≤ 1 / Nat.card A := by
  have hA : 0 < Nat.card A := Nat.card_pos
  have hT : 0 < Nat.card (Q → A) := Nat.card_pos
  rw [chance_eq, div_le_div_iff₀ (by exact_mod_cast hT) (by exact_mod_cast hA), one_mul, ← Nat.cast_mul,
    Nat.cast_le, ← Nat.card_prod]
  set P : (Q → A) → Prop := fun f => ∃ q a, target (T.run f (answer f)) = some (q, a) ∧ f q = a ∧
      ¬ T.Asks f (answer f) q with hP
  choose tq ta h1 h2 h3 using fun (f : Q → A) (h : P f) => h
  refine Nat.card_le_card_of_injective
    (fun p : {f // P f} × A => Function.update p.1.1 (tq p.1.1 p.1.2) p.2) ?_
  rintro ⟨⟨f, hf⟩, a⟩ ⟨⟨g, hg⟩, b⟩ e
  simp only at e
  obtain ⟨rf, _⟩ := run_update answer (tq f hf) (hq _ _ _ (h1 f hf)) T f a (h3 f hf)
  obtain ⟨rg, _⟩ := run_update answer (tq g hg) (hq _ _ _ (h1 g hg)) T g b (h3 g hg)
  have ht : some (tq f hf, ta f hf) = some (tq g hg, ta g hg) := by
    rw [← h1 f hf, ← h1 g hg, ← rf, ← rg, e]
  have hqq : tq f hf = tq g hg := congrArg (fun o : Option (Q × A) => (o.map Prod.fst).getD (tq f hf)) ht
  have haa : ta f hf = ta g hg := congrArg (fun o : Option (Q × A) => (o.map Prod.snd).getD (ta f hf)) ht
  have hab : a = b := by
    have := congrFun e (tq f hf)
    rw [Function.update_self, hqq, Function.update_self] at this
    exact this
  have hfg : f = g := by
    funext x
    by_cases hx : x = tq f hf
    · rw [hx, h2 f hf, haa, ← h2 g hg, hqq]
    · have := congrFun e x
      rwa [Function.update_of_ne hx, Function.update_of_ne (hqq ▸ hx)] at this
  cases hfg; subst hab; rfl

end Spec.Player

/-- Finitely many distinct entries of a random table are independent and uniform. -/
theorem chance_entries {Q A : Type} [Finite Q] [Finite A] [Nonempty A] (l : List (Q × A))
    (hl : (l.map Prod.fst).Nodup) :
    chance (fun f : Q → A => ∀ p ∈ l, f p.1 = p.2) = 1 / (Nat.card A : ℚ) ^ l.length := by
  classical
  have := Fintype.ofFinite Q
  have := Fintype.ofFinite A
  have hA : (Nat.card A : ℚ) ≠ 0 := by exact_mod_cast (Nat.card_pos (α := A)).ne'
  induction l with
  | nil =>
    rw [chance_eq]
    have : Nat.card {f : Q → A // ∀ p ∈ ([] : List (Q × A)), f p.1 = p.2} = Nat.card (Q → A) :=
      Nat.card_congr (Equiv.subtypeUnivEquiv fun f p hp => by simp at hp)
    rw [this]
    have : (Nat.card (Q → A) : ℚ) ≠ 0 := by exact_mod_cast (Nat.card_pos (α := Q → A)).ne'
    rw [div_self this]; simp
  | cons p l ih =>
    rw [List.map_cons, List.nodup_cons] at hl
    have h := ih hl.2
    have e : Nat.card {f : Q → A // ∀ r ∈ l, f r.1 = r.2} =
        Nat.card ({f : Q → A // ∀ r ∈ p :: l, f r.1 = r.2} × A) := by
      refine Nat.card_congr ⟨fun f => (⟨Function.update f.1 p.1 p.2, ?_⟩, f.1 p.1),
        fun g => ⟨Function.update g.1.1 p.1 g.2, ?_⟩, ?_, ?_⟩
      · intro r hr
        rcases List.mem_cons.mp hr with rfl | hr
        · simp
        · have : r.1 ≠ p.1 := fun h => hl.1 (h ▸ List.mem_map_of_mem hr)
          rw [Function.update_of_ne this]
          exact f.2 r hr
      · intro r hr
        have : r.1 ≠ p.1 := fun h => hl.1 (h ▸ List.mem_map_of_mem hr)
        rw [Function.update_of_ne this]
        exact g.1.2 r (List.mem_cons_of_mem _ hr)
      · intro f
        apply Subtype.ext
        simp
      · rintro ⟨⟨g, hg⟩, a⟩
        have hp := hg p List.mem_cons_self
        simp only [Function.update_idem, Function.update_self, Prod.mk.injEq, and_true, Subtype.mk.injEq]
        rw [← hp, Function.update_eq_self]
    rw [chance_eq] at h ⊢
    rw [e, Nat.card_prod] at h
    rw [List.length_cons, pow_succ, one_div, mul_inv, ← one_div, ← h]
    push_cast
    field_simp

end Voprf
