import Verif.Spec.Pseudorandom
import Verif.Lemmas.Predict
import Mathlib.Algebra.Order.Field.Rat
import Mathlib.Tactic.Linarith

/-!
# Answers from a table or from a separate function
-/

namespace Voprf

open Spec

namespace Spec.Player
variable {Q A R V O : Type}

/-- Two games that agree on what is asked and sent in the first are the same. -/
theorem same_run {f f' : Q → A} {ans ans' : R → V} (T : Player Q A R V O)
    (hq : ∀ q, T.Asks f ans q → f q = f' q) (hr : ∀ r, T.Sends f ans r → ans r = ans' r) :
    T.run f ans = T.run f' ans' ∧ (∀ r, T.Sends f ans r ↔ T.Sends f' ans' r) ∧ ∀ q, T.Asks f ans q ↔ T.Asks f' ans' q := by
  induction T with
  | done o => exact ⟨rfl, fun _ => Iff.rfl, fun _ => Iff.rfl⟩
  | ask q next ih =>
    have e : f q = f' q := hq q (.inl rfl)
    have := ih (f q) (fun q' h => hq q' (.inr h)) fun r h => hr r h
    simp only [run, Sends, Asks, ← e]
    exact ⟨this.1, this.2.1, fun q' => or_congr Iff.rfl (this.2.2 q')⟩
  | request r next ih =>
    have e : ans r = ans' r := hr r (.inl rfl)
    have := ih (ans r) (fun q' h => hq q' h) fun r h => hr r (.inr h)
    simp only [run, Sends, Asks, ← e]
    exact ⟨this.1, fun r' => or_congr Iff.rfl (this.2.1 r'), this.2.2⟩

end Spec.Player

section swap
variable {Q A X : Type}

open Classical in
/-- Exchanges the entries of the strings of `C` with the values of the function. -/
noncomputable def swapEntries (str : X → Q) (C : Set X) (p : (Q → A) × (X → A)) : (Q → A) × (X → A) :=
  (fun q => if h : ∃ x ∈ C, str x = q then p.2 h.choose else p.1 q, fun x => if x ∈ C then p.1 (str x) else p.2 x)

variable {str : X → Q} (inj : Function.Injective str) (C : Set X) (p : (Q → A) × (X → A))

include inj in
theorem swapEntries_mem {x : X} (hx : x ∈ C) : (swapEntries str C p).1 (str x) = p.2 x := by
  have h : ∃ x' ∈ C, str x' = str x := ⟨x, hx, rfl⟩
  refine (dif_pos h).trans ?_
  rw [inj h.choose_spec.2]

theorem swapEntries_not_mem {q : Q} (hq : ∀ x ∈ C, str x ≠ q) : (swapEntries str C p).1 q = p.1 q :=
  dif_neg fun ⟨x, hx, h⟩ => hq x hx h

include inj in
theorem swapEntries_swap : swapEntries str C (swapEntries str C p) = p := by
  refine Prod.ext (funext fun q => ?_) (funext fun x => ?_)
  · by_cases h : ∃ x ∈ C, str x = q
    · obtain ⟨x, hx, rfl⟩ := h
      rw [swapEntries_mem inj C _ hx]
      exact if_pos hx
    · push Not at h
      rw [swapEntries_not_mem C _ h, swapEntries_not_mem C _ h]
  · by_cases hx : x ∈ C
    · refine (if_pos hx).trans (swapEntries_mem inj C p hx)
    · exact (if_neg hx).trans (if_neg hx)

end swap

section game
variable {Q A X R V O : Type}

/-- The values a party has asked for. -/
def requested (key : R → Option X) (f : Q → A) (ans : R → V) (T : Player Q A R V O) : Set X :=
  {x | ∃ r, T.Sends f ans r ∧ key r = some x}

/-- The party asks for an output for which it also presents the string, or sends an exceptional request. -/
def Spoils (str : X → Q) (key : R → Option X) (fine : R → Prop) (f : Q → A) (ans : R → V) (T : Player Q A R V O) : Prop :=
  ∃ r, T.Sends f ans r ∧ (¬ fine r ∨ ∃ x, key r = some x ∧ T.Asks f ans (str x))

variable {str : X → Q} {key : R → Option X} {fine : R → Prop} {real : (Q → A) → R → V}
  {ideal : (Q → A) → (X → A) → R → V}

/-- From an unspoilt ideal game to a real one. -/
theorem game_to_real (h : ∀ (C : Set X) (p : (Q → A) × (X → A)) (r : R), fine r → (∀ x, key r = some x → x ∈ C) →
      real (swapEntries str C p).1 r = ideal p.1 p.2 r)
    (T : Player Q A R V O) (p : (Q → A) × (X → A)) (hp : ¬ Spoils str key fine p.1 (ideal p.1 p.2) T) :
    let C := requested key p.1 (ideal p.1 p.2) T
    T.run p.1 (ideal p.1 p.2) = T.run (swapEntries str C p).1 (real (swapEntries str C p).1) ∧
    requested key (swapEntries str C p).1 (real (swapEntries str C p).1) T = C ∧
    ¬ Spoils str key fine (swapEntries str C p).1 (real (swapEntries str C p).1) T := by
  intro C
  have hq : ∀ q, T.Asks p.1 (ideal p.1 p.2) q → p.1 q = (swapEntries str C p).1 q := fun q hq =>
    (swapEntries_not_mem (str := str) C p fun x ⟨r, hr, hx⟩ e => hp ⟨r, hr, .inr ⟨x, hx, by rw [e]; exact hq⟩⟩).symm
  have hr : ∀ r, T.Sends p.1 (ideal p.1 p.2) r → ideal p.1 p.2 r = real (swapEntries str C p).1 r := fun r hr =>
    (h C p r (by_contra fun hf => hp ⟨r, hr, .inl hf⟩) fun x hx => ⟨r, hr, hx⟩).symm
  obtain ⟨h1, h2, h3⟩ := T.same_run hq hr
  refine ⟨h1, ?_, ?_⟩
  · ext x
    exact exists_congr fun r => and_congr (h2 r).symm Iff.rfl
  · rintro ⟨r, hs, hb⟩
    exact hp ⟨r, (h2 r).mpr hs, hb.imp id fun ⟨x, hx, ha⟩ => ⟨x, hx, (h3 _).mpr ha⟩⟩

/-- From an unspoilt real game to an ideal one. -/
theorem game_to_ideal (inj : Function.Injective str)
    (h : ∀ (C : Set X) (p : (Q → A) × (X → A)) (r : R), fine r → (∀ x, key r = some x → x ∈ C) →
      real (swapEntries str C p).1 r = ideal p.1 p.2 r)
    (T : Player Q A R V O) (p : (Q → A) × (X → A)) (hp : ¬ Spoils str key fine p.1 (real p.1) T) :
    let C := requested key p.1 (real p.1) T
    let p' := swapEntries str C p
    T.run p.1 (real p.1) = T.run p'.1 (ideal p'.1 p'.2) ∧
    requested key p'.1 (ideal p'.1 p'.2) T = C ∧ ¬ Spoils str key fine p'.1 (ideal p'.1 p'.2) T := by
  intro C p'
  have hq : ∀ q, T.Asks p.1 (real p.1) q → p.1 q = p'.1 q := fun q hq =>
    (swapEntries_not_mem (str := str) C p fun x ⟨r, hr, hx⟩ e => hp ⟨r, hr, .inr ⟨x, hx, by rw [e]; exact hq⟩⟩).symm
  have hr : ∀ r, T.Sends p.1 (real p.1) r → real p.1 r = ideal p'.1 p'.2 r := fun r hr => by
    have := h C p' r (by_contra fun hf => hp ⟨r, hr, .inl hf⟩) fun x hx => ⟨r, hr, hx⟩
    rwa [swapEntries_swap inj] at this
  obtain ⟨h1, h2, h3⟩ := T.same_run hq hr
  refine ⟨h1, ?_, ?_⟩
  · ext x
    exact exists_congr fun r => and_congr (h2 r).symm Iff.rfl
  · rintro ⟨r, hs, hb⟩
    exact hp ⟨r, (h2 r).mpr hs, hb.imp id fun ⟨x, hx, ha⟩ => ⟨x, hx, (h3 _).mpr ha⟩⟩

/-- Unspoilt games are equally likely in both worlds, whatever they end with. -/
theorem unspoilt_chance [Finite Q] [Finite A] [Finite X] (inj : Function.Injective str)
    (h : ∀ (C : Set X) (p : (Q → A) × (X → A)) (r : R), fine r → (∀ x, key r = some x → x ∈ C) →
      real (swapEntries str C p).1 r = ideal p.1 p.2 r)
    (T : Player Q A R V O) (G : O → Prop) :
    chance (fun p : (Q → A) × (X → A) => G (T.run p.1 (real p.1)) ∧ ¬ Spoils str key fine p.1 (real p.1) T) =
      chance (fun p : (Q → A) × (X → A) => G (T.run p.1 (ideal p.1 p.2)) ∧
        ¬ Spoils str key fine p.1 (ideal p.1 p.2) T) := by
  rw [chance_eq, chance_eq]
  congr 2
  refine Nat.card_congr ⟨
    fun p => ⟨swapEntries str (requested key p.1.1 (real p.1.1) T) p.1, ?_, (game_to_ideal inj h T p.1 p.2.2).2.2⟩,
    fun p => ⟨swapEntries str (requested key p.1.1 (ideal p.1.1 p.1.2) T) p.1, ?_, (game_to_real h T p.1 p.2.2).2.2⟩,
    fun p => Subtype.ext ?_, fun p => Subtype.ext ?_⟩
  · have := (game_to_ideal inj h T p.1 p.2.2).1
    exact this ▸ p.2.1
  · have := (game_to_real h T p.1 p.2.2).1
    exact this ▸ p.2.1
  · have := (game_to_ideal inj h T p.1 p.2.2).2.1
    simp only at this ⊢
    rw [this, swapEntries_swap inj]
  · have := (game_to_real h T p.1 p.2.2).2.1
    simp only at this ⊢
    rw [this, swapEntries_swap inj]

end game

theorem chance_fst {α β : Type} [Finite α] [Finite β] [Nonempty β] (P : α → Prop) :
    chance (fun p : α × β => P p.1) = chance P := by
  rw [chance_eq, chance_eq, Nat.card_prod]
  have e : {p : α × β // P p.1} ≃ {a : α // P a} × β :=
    ⟨fun p => (⟨p.1.1, p.2⟩, p.1.2), fun p => ⟨(p.1.1, p.2), p.1.2⟩, fun _ => rfl, fun _ => rfl⟩
  rw [Nat.card_congr e, Nat.card_prod]
  have : (Nat.card β : ℚ) ≠ 0 := by exact_mod_cast Nat.card_pos.ne'
  push_cast
  exact mul_div_mul_right _ _ this

theorem chance_split {α : Type} [Finite α] (P B : α → Prop) :
    chance P = chance (fun x => P x ∧ ¬ B x) + chance (fun x => P x ∧ B x) := by
  classical
  rw [chance_eq, chance_eq, chance_eq, ← add_div, ← Nat.cast_add, ← Nat.card_sum]
  congr 2
  refine Nat.card_congr ⟨fun x => if h : B x.1 then .inr ⟨x.1, x.2, h⟩ else .inl ⟨x.1, x.2, h⟩,
    Sum.elim (fun x => ⟨x.1, x.2.1⟩) fun x => ⟨x.1, x.2.1⟩, fun x => ?_, fun x => ?_⟩
  · by_cases h : B x.1 <;> simp [h]
  · rcases x with x | x
    · simp [x.2.2]
    · simp [x.2.2]

theorem chance_nonneg {α : Type} [Finite α] (P : α → Prop) : 0 ≤ chance P := by
  rw [chance_eq]; positivity

/-- The two worlds differ by at most the probability of spoiling the ideal one. -/
theorem game_distance {Q A X R V : Type} [Finite Q] [Finite A] [Finite X] [Nonempty A] {str : X → Q}
    {key : R → Option X} {fine : R → Prop} {real : (Q → A) → R → V} {ideal : (Q → A) → (X → A) → R → V}
    (inj : Function.Injective str)
    (h : ∀ (C : Set X) (p : (Q → A) × (X → A)) (r : R), fine r → (∀ x, key r = some x → x ∈ C) →
      real (swapEntries str C p).1 r = ideal p.1 p.2 r) (T : Player Q A R V Bool) :
    |chance (fun D : Q → A => T.run D (real D) = true) -
      chance (fun p : (Q → A) × (X → A) => T.run p.1 (ideal p.1 p.2) = true)| ≤
      chance (fun p : (Q → A) × (X → A) => Spoils str key fine p.1 (ideal p.1 p.2) T) := by
  rw [← chance_fst (β := X → A) (fun D : Q → A => T.run D (real D) = true)]
  have hg := unspoilt_chance inj h T (· = true)
  have ht := unspoilt_chance inj h T fun _ => True
  have s1 := chance_split (fun p : (Q → A) × (X → A) => T.run p.1 (real p.1) = true)
    fun p => Spoils str key fine p.1 (real p.1) T
  have s2 := chance_split (fun p : (Q → A) × (X → A) => T.run p.1 (ideal p.1 p.2) = true)
    fun p => Spoils str key fine p.1 (ideal p.1 p.2) T
  have t1 := chance_split (fun _ : (Q → A) × (X → A) => True) fun p => Spoils str key fine p.1 (real p.1) T
  have t2 := chance_split (fun _ : (Q → A) × (X → A) => True) fun p => Spoils str key fine p.1 (ideal p.1 p.2) T
  have n1 := chance_nonneg fun p : (Q → A) × (X → A) => T.run p.1 (real p.1) = true ∧ Spoils str key fine p.1 (real p.1) T
  have n2 := chance_nonneg fun p : (Q → A) × (X → A) => T.run p.1 (ideal p.1 p.2) = true ∧
    Spoils str key fine p.1 (ideal p.1 p.2) T
  have m1 := chance_mono (P := fun p : (Q → A) × (X → A) => T.run p.1 (real p.1) = true ∧ Spoils str key fine p.1 (real p.1) T)
    (P' := fun p => True ∧ Spoils str key fine p.1 (real p.1) T) fun _ h => ⟨trivial, h.2⟩
  have m2 := chance_mono (P := fun p : (Q → A) × (X → A) => T.run p.1 (ideal p.1 p.2) = true ∧
      Spoils str key fine p.1 (ideal p.1 p.2) T)
    (P' := fun p => True ∧ Spoils str key fine p.1 (ideal p.1 p.2) T) fun _ h => ⟨trivial, h.2⟩
  have e2 : chance (fun p : (Q → A) × (X → A) => True ∧ Spoils str key fine p.1 (ideal p.1 p.2) T) =
    chance (fun p : (Q → A) × (X → A) => Spoils str key fine p.1 (ideal p.1 p.2) T) := chance_congr fun _ => by rw [true_and]
  rw [abs_le]
  constructor <;> linarith

end Voprf
