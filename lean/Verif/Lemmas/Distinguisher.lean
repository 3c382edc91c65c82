import Verif.Spec.Distinguisher
import Mathlib.Algebra.BigOperators.Expect
import Mathlib.Algebra.Order.BigOperators.Expect
import Mathlib.Algebra.Order.Field.Basic
import Mathlib.Data.Fintype.Pi
import Mathlib.Tactic.Linarith
import Mathlib.Tactic.Ring
import Mathlib.Tactic.FieldSimp

/-!
# The reprogramming argument

The real and the ideal world of `Spec/Distinguisher.lean` differ only if the simulator writes an entry of the
table that was asked for or written before.
-/

namespace Voprf

open Spec Finset
open scoped BigOperators

theorem average_eq {α : Type} [Fintype α] (F : α → ℚ) : average F = 𝔼 x, F x := by
  rw [average, finsum_eq_sum_of_fintype, Fintype.expect_eq_sum_div_card, Nat.card_eq_fintype_card]

theorem average_equiv {α β : Type} (e : α ≃ β) (F : α → ℚ) (F' : β → ℚ) (h : ∀ x, F x = F' (e x)) :
    average F = average F' := by
  unfold average
  rw [Nat.card_congr e, finsum_eq_of_bijective e e.bijective h]

theorem average_const {α : Type} [Finite α] [Nonempty α] (a : ℚ) : average (fun _ : α => a) = a := by
  have := Fintype.ofFinite α
  rw [average_eq, Fintype.expect_const]

variable {Q A N R V : Type}

/-- `f` overridden by `g` on `K`. -/
def over [DecidableEq Q] (K : Finset Q) (g f : Q → A) : Q → A := fun q => if q ∈ K then g q else f q

section
variable [DecidableEq Q]

theorem update_over (K : Finset Q) (g f : Q → A) (q : Q) (a : A) :
    Function.update (over K g f) q a = over (insert q K) (Function.update g q a) f := by
  funext x
  by_cases hx : x = q
  · subst hx; simp [over]
  · simp [over, hx]

theorem over_update (K : Finset Q) (g f : Q → A) (q : Q) (a : A) (hq : q ∉ K) :
    over K g (Function.update f q a) = over (insert q K) (Function.update g q a) f := by
  funext x
  by_cases hx : x = q
  · subst hx; simp [over, hq]
  · simp [over, hx]

variable [Fintype Q] [Fintype A] [Fintype N] [Nonempty A] [Nonempty N]

theorem expect_update (F : (Q → A) → ℚ) (q : Q) :
    𝔼 f, 𝔼 a, F (Function.update f q a) = 𝔼 f, F f := by
  have h1 : 𝔼 f, 𝔼 a, F (Function.update f q a) =
      𝔼 p : (Q → A) × A, F (Function.update p.1 q p.2) :=
    (Finset.expect_product' univ univ fun f a => F (Function.update f q a)).symm
  have h2 : 𝔼 p : (Q → A) × A, F p.1 = 𝔼 f, F f := by
    have := Finset.expect_product' (univ : Finset (Q → A)) (univ : Finset A) fun f _ => F f
    rw [univ_product_univ] at this
    rw [this]
    exact Finset.expect_congr rfl fun f _ => Fintype.expect_const _
  rw [h1, ← h2]
  let e : (Q → A) × A ≃ (Q → A) × A :=
    { toFun := fun p => (Function.update p.1 q p.2, p.1 q)
      invFun := fun p => (Function.update p.1 q p.2, p.1 q)
      left_inv := fun p => by simp
      right_inv := fun p => by simp }
  exact Fintype.expect_equiv e _ _ fun p => rfl

theorem expect_over (F : (Q → A) → ℚ) (K : Finset Q) :
    𝔼 g, 𝔼 f, F (over K g f) = 𝔼 f, F f := by
  have h1 : 𝔼 g, 𝔼 f, F (over K g f) = 𝔼 p : (Q → A) × (Q → A), F (over K p.1 p.2) :=
    (Finset.expect_product' univ univ fun g f => F (over K g f)).symm
  have h2 : 𝔼 p : (Q → A) × (Q → A), F p.1 = 𝔼 f, F f := by
    have := Finset.expect_product' (univ : Finset (Q → A)) (univ : Finset (Q → A)) fun f _ => F f
    rw [univ_product_univ] at this
    rw [this]
    exact Finset.expect_congr rfl fun f _ => Fintype.expect_const _
  rw [h1, ← h2]
  have hinv : ∀ g f : Q → A, over K (over K g f) (over K f g) = g := by
    intro g f; funext q; by_cases hq : q ∈ K <;> simp [over, hq]
  let e : (Q → A) × (Q → A) ≃ (Q → A) × (Q → A) :=
    { toFun := fun p => (over K p.1 p.2, over K p.2 p.1)
      invFun := fun p => (over K p.1 p.2, over K p.2 p.1)
      left_inv := fun p => by simp [hinv]
      right_inv := fun p => by simp [hinv] }
  exact Fintype.expect_equiv e _ _ fun p => rfl

/-- Fixing the answer to one more question. -/
theorem expect_split (F : (Q → A) → ℚ) (K : Finset Q) (g : Q → A) (q : Q) (hq : q ∉ K) :
    𝔼 f, F (over K g f) = 𝔼 a, 𝔼 f, F (over (insert q K) (Function.update g q a) f) := by
  rw [← expect_update (fun f => F (over K g f)) q, Finset.expect_comm]
  simp only [over_update K g _ q _ hq]

end

/-- What relates a server and its simulator.  A request is either refused in the same way in both worlds,
or the server hashes a question determined by its random choice, different choices giving different
questions among `chal`; the simulator's coins stand for the random choice and the hash value, and it writes
the hash value into the table. The rest depends on the table off `chal` only. -/
def Simulates (answer : R → (Q → A) → N → V) (Coins : R → (Q → A) → Type)
    (step : ∀ r f, Coins r f → V × (Q → A)) (chal : Set Q) : Prop :=
  ∀ (r : R) (f : Q → A),
    (∃ v, ∀ f' : Q → A, (∀ q, q ∉ chal → f' q = f q) →
      (∀ ρ, answer r f' ρ = v) ∧ Nonempty (Coins r f') ∧ Finite (Coins r f') ∧
        ∀ x : Coins r f', step r f' x = (v, f')) ∨
    (∃ (pt : N → Q) (resp : N → A → V), Function.Injective pt ∧ (∀ ρ, pt ρ ∈ chal) ∧
      ∀ f' : Q → A, (∀ q, q ∉ chal → f' q = f q) →
        (∀ ρ, answer r f' ρ = resp ρ (f' (pt ρ))) ∧
        ∃ e : Coins r f' ≃ N × A, ∀ x, (step r f' x).1 = resp (e x).1 (e x).2 ∧
          ∀ q, (step r f' x).2 q = (open Classical in if q = pt (e x).1 then (e x).2 else f' q))

section
variable {answer : R → (Q → A) → N → V} {Coins : R → (Q → A) → Type}
  {step : ∀ r f, Coins r f → V × (Q → A)} {chal : Set Q}

theorem average_mem [Finite N] {F : N → ℚ} (h : ∀ x, 0 ≤ F x ∧ F x ≤ 1) :
    0 ≤ average F ∧ average F ≤ 1 := by
  have := Fintype.ofFinite N
  rw [average, finsum_eq_sum_of_fintype, Nat.card_eq_fintype_card]
  constructor
  · exact div_nonneg (Finset.sum_nonneg fun x _ => (h x).1) (Nat.cast_nonneg _)
  · apply div_le_one_of_le₀ _ (Nat.cast_nonneg _)
    calc ∑ x, F x ≤ ∑ _x : N, (1 : ℚ) := Finset.sum_le_sum fun x _ => (h x).2
      _ = _ := by simp

theorem average_infinite [Infinite N] (F : N → ℚ) : average F = 0 := by
  rw [average, Nat.card_eq_zero_of_infinite]; simp

theorem average_mem' {N : Type} {F : N → ℚ} (h : ∀ x, 0 ≤ F x ∧ F x ≤ 1) :
    0 ≤ average F ∧ average F ≤ 1 := by
  rcases finite_or_infinite N with _ | _
  · exact average_mem h
  · rw [average_infinite]; exact ⟨le_rfl, zero_le_one⟩

theorem real_mem (f : Q → A) (ans : R → N → V) (S : Distinguisher Q A R V) :
    0 ≤ S.real f ans ∧ S.real f ans ≤ 1 := by
  induction S with
  | done g => unfold Distinguisher.real; split <;> simp
  | ask q next ih => exact ih _
  | request r next ih => exact average_mem' fun ρ => ih _

theorem ideal_mem (S : Distinguisher Q A R V) (f : Q → A) :
    0 ≤ S.ideal Coins step f ∧ S.ideal Coins step f ≤ 1 := by
  induction S generalizing f with
  | done g => unfold Distinguisher.ideal; split <;> simp
  | ask q next ih => exact ih _ _
  | request r next ih => exact average_mem' fun ρ => ih _ _

theorem abs_expect_sub_le {ι : Type} [Fintype ι] (F G : ι → ℚ) (b : ℚ) [Nonempty ι]
    (h : ∀ i, |F i - G i| ≤ b) : |𝔼 i, F i - 𝔼 i, G i| ≤ b := by
  rw [← Finset.expect_sub_distrib]
  refine (Finset.abs_expect_le _ _).trans ?_
  calc 𝔼 i, |F i - G i| ≤ 𝔼 _i : ι, b := Finset.expect_le_expect fun i _ => h i
    _ = b := Fintype.expect_const b

theorem session_bound_aux [DecidableEq Q] [Fintype Q] [Fintype A] [Fintype N] [Nonempty A] [Nonempty N]
    [DecidablePred (· ∈ chal)]
    (H : Simulates answer Coins step chal) (S : Distinguisher Q A R V) :
    ∀ (n m : Nat) (K : Finset Q) (g : Q → A), (∀ q, q ∉ chal → q ∈ K) → S.Within n m →
      |𝔼 f, S.real (over K g f) (fun r => answer r (over K g f)) -
        𝔼 f, S.ideal Coins step (over K g f)| ≤
        (m * ((K.filter (· ∈ chal)).card + n + m) : ℚ) / Fintype.card N := by
  induction S with
  | done b =>
    intro n m K g hK _
    simp only [Distinguisher.real, Distinguisher.ideal, sub_self, abs_zero]
    positivity
  | ask q next ih =>
    intro n m K g hK hw
    cases n with
    | zero => exact absurd hw (by simp [Distinguisher.Within])
    | succ n =>
      have hw' : ∀ a, (next a).Within n m := hw
      simp only [Distinguisher.real, Distinguisher.ideal]
      by_cases hq : q ∈ K
      · have hv : ∀ f : Q → A, over K g f q = g q := fun f => by simp [over, hq]
        simp only [hv]
        refine (ih (g q) n m K g hK (hw' _)).trans ?_
        gcongr
        push_cast; linarith
      · rw [expect_split (fun f => (next (f q)).real f fun r => answer r f) K g q hq,
          expect_split (fun f => (next (f q)).ideal Coins step f) K g q hq]
        refine abs_expect_sub_le _ _ _ fun a => ?_
        have hv : ∀ f : Q → A, over (insert q K) (Function.update g q a) f q = a := fun f => by
          simp [over]
        simp only [hv]
        refine (ih a n m (insert q K) _ (fun x hx => mem_insert_of_mem (hK x hx)) (hw' a)).trans ?_
        have hc : (((insert q K).filter (· ∈ chal)).card : ℚ) ≤ (K.filter (· ∈ chal)).card + 1 := by
          have : ((insert q K).filter (· ∈ chal)).card ≤ (K.filter (· ∈ chal)).card + 1 := by
            rw [filter_insert]; split
            · exact card_insert_le _ _
            · omega
          exact_mod_cast this
        refine div_le_div_of_nonneg_right (mul_le_mul_of_nonneg_left ?_ (Nat.cast_nonneg _))
          (Nat.cast_nonneg _)
        push_cast; linarith
  | request r next ih =>
    intro n m K g hK hw
    cases m with
    | zero => exact absurd hw (by simp [Distinguisher.Within])
    | succ m =>
      have hw' : ∀ v, (next v).Within n m := hw
      have hag : ∀ f q, q ∉ chal → over K g f q = g q := fun f q hq => by simp [over, hK q hq]
      simp only [Distinguisher.real, Distinguisher.ideal]
      rcases H r g with ⟨v, hv⟩ | ⟨pt, resp, hinj, hpt, hv⟩
      · have h1 : ∀ f, (average fun ρ : N => (next (answer r (over K g f) ρ)).real (over K g f)
            fun r => answer r (over K g f)) = (next v).real (over K g f) fun r => answer r (over K g f) := by
          intro f
          simp only [(hv _ (hag f)).1]
          exact average_const _
        have h2 : ∀ f, (average fun x : Coins r (over K g f) =>
            (next (step r (over K g f) x).1).ideal Coins step (step r (over K g f) x).2) =
            (next v).ideal Coins step (over K g f) := by
          intro f
          obtain ⟨-, hne, hfin, hs⟩ := hv _ (hag f)
          simp only [hs]
          exact average_const _
        simp only [h1, h2]
        refine (ih v n m K g hK (hw' v)).trans ?_
        gcongr
        · push_cast; linarith
        · push_cast; linarith
      · have h1 : ∀ f, (average fun ρ : N => (next (answer r (over K g f) ρ)).real (over K g f)
            fun r => answer r (over K g f)) = 𝔼 ρ : N, (next (resp ρ (over K g f (pt ρ)))).real
              (over K g f) fun r => answer r (over K g f) := by
          intro f
          simp only [(hv _ (hag f)).1]
          exact average_eq _
        have h2 : ∀ f, (average fun x : Coins r (over K g f) =>
            (next (step r (over K g f) x).1).ideal Coins step (step r (over K g f) x).2) =
            𝔼 ρ : N, 𝔼 c : A, (next (resp ρ c)).ideal Coins step
              (Function.update (over K g f) (pt ρ) c) := by
          intro f
          obtain ⟨-, e, he⟩ := hv _ (hag f)
          have hs : ∀ x, step r (over K g f) x = (resp (e x).1 (e x).2,
              Function.update (over K g f) (pt (e x).1) (e x).2) := by
            intro x
            refine Prod.ext (he x).1 (funext fun q => ?_)
            rw [(he x).2 q]
            simp only [Function.update_apply]
            split <;> rfl
          simp only [hs]
          rw [average_equiv e _ (fun p : N × A => (next (resp p.1 p.2)).ideal Coins step
              (Function.update (over K g f) (pt p.1) p.2)) fun x => rfl, average_eq]
          exact Finset.expect_product' univ univ fun ρ c => (next (resp ρ c)).ideal Coins step
              (Function.update (over K g f) (pt ρ) c)
        simp only [h1, h2]
        rw [Finset.expect_comm, Finset.expect_comm (univ : Finset (Q → A))]
        have key : ∀ ρ : N,
            |𝔼 f, (next (resp ρ (over K g f (pt ρ)))).real (over K g f) (fun r => answer r (over K g f)) -
              𝔼 f, 𝔼 c : A, (next (resp ρ c)).ideal Coins step
                (Function.update (over K g f) (pt ρ) c)| ≤
            (if pt ρ ∈ K.filter (· ∈ chal) then 1 else 0) +
              (m * ((K.filter (· ∈ chal)).card + n + (m + 1 : ℕ)) : ℚ) / Fintype.card N := by
          intro ρ
          by_cases hbad : pt ρ ∈ K
          · rw [if_pos (mem_filter.mpr ⟨hbad, hpt ρ⟩)]
            have b1 : 0 ≤ 𝔼 f, (next (resp ρ (over K g f (pt ρ)))).real (over K g f)
                (fun r => answer r (over K g f)) ∧ 𝔼 f, (next (resp ρ (over K g f (pt ρ)))).real
                  (over K g f) (fun r => answer r (over K g f)) ≤ 1 := by
              rw [← average_eq]; exact average_mem' fun f => real_mem _ _ _
            have b2 : 0 ≤ 𝔼 f, 𝔼 c : A, (next (resp ρ c)).ideal Coins step
                (Function.update (over K g f) (pt ρ) c) ∧ 𝔼 f, 𝔼 c : A,
                (next (resp ρ c)).ideal Coins step (Function.update (over K g f) (pt ρ) c) ≤ 1 := by
              rw [← average_eq]
              refine average_mem' fun f => ?_
              rw [← average_eq]
              exact average_mem' fun c => ideal_mem _ _
            have b3 : (0 : ℚ) ≤ (m * ((K.filter (· ∈ chal)).card + n + (m + 1 : ℕ)) : ℚ) /
                Fintype.card N := by positivity
            rw [abs_le]
            constructor <;> linarith [b1.1, b1.2, b2.1, b2.2]
          · rw [if_neg (fun h => hbad (mem_filter.mp h).1), zero_add,
              expect_split (fun f => (next (resp ρ (f (pt ρ)))).real f fun r => answer r f) K g _ hbad,
              Finset.expect_comm (univ : Finset (Q → A))]
            refine abs_expect_sub_le _ _ _ fun c => ?_
            have hx : ∀ f : Q → A, over (insert (pt ρ) K) (Function.update g (pt ρ) c) f (pt ρ) = c :=
              fun f => by simp [over]
            simp only [hx, update_over]
            refine (ih (resp ρ c) n m (insert (pt ρ) K) _
              (fun x hx => mem_insert_of_mem (hK x hx)) (hw' _)).trans ?_
            have hc : (((insert (pt ρ) K).filter (· ∈ chal)).card : ℚ) ≤
                (K.filter (· ∈ chal)).card + 1 := by
              have : ((insert (pt ρ) K).filter (· ∈ chal)).card ≤ (K.filter (· ∈ chal)).card + 1 := by
                rw [filter_insert]; split
                · exact card_insert_le _ _
                · omega
              exact_mod_cast this
            refine div_le_div_of_nonneg_right (mul_le_mul_of_nonneg_left ?_ (Nat.cast_nonneg _))
              (Nat.cast_nonneg _)
            push_cast; linarith
        rw [← Finset.expect_sub_distrib]
        refine (Finset.abs_expect_le _ _).trans ?_
        refine (Finset.expect_le_expect fun ρ _ => key ρ).trans ?_
        rw [Finset.expect_add_distrib, Fintype.expect_const, Fintype.expect_eq_sum_div_card,
          ← Finset.sum_filter, Finset.sum_const, nsmul_eq_mul, mul_one]
        have hcount : ((univ.filter fun ρ : N => pt ρ ∈ K.filter (· ∈ chal)).card : ℚ) ≤
            (K.filter (· ∈ chal)).card := by
          have : (univ.filter fun ρ : N => pt ρ ∈ K.filter (· ∈ chal)).card ≤
              (K.filter (· ∈ chal)).card :=
            card_le_card_of_injOn pt (fun ρ hρ => (mem_filter.mp hρ).2) fun a _ b _ h => hinj h
          exact_mod_cast this
        rw [← add_div]
        gcongr
        push_cast at hcount ⊢
        have hn : (0 : ℚ) ≤ n := Nat.cast_nonneg _
        have hm : (0 : ℚ) ≤ m := Nat.cast_nonneg _
        nlinarith [hcount]

/-- The two worlds are close. -/
theorem session_bound [Finite Q] [Finite A] [Finite N] [Nonempty A] [Nonempty N]
    (H : Simulates answer Coins step chal) (S : Distinguisher Q A R V) (n m : Nat) (hw : S.Within n m) :
    |(average fun f => S.real f fun r => answer r f) - average fun f => S.ideal Coins step f| ≤
      (m * (n + m) : ℚ) / Nat.card N := by
  classical
  have := Fintype.ofFinite Q
  have := Fintype.ofFinite A
  have := Fintype.ofFinite N
  rw [average_eq, average_eq, Nat.card_eq_fintype_card,
    ← expect_over (fun f => S.real f fun r => answer r f) (univ.filter (· ∉ chal)),
    ← expect_over (fun f => S.ideal Coins step f) (univ.filter (· ∉ chal))]
  refine abs_expect_sub_le _ _ _ fun g => ?_
  refine (session_bound_aux H S n m (univ.filter (· ∉ chal)) g (fun q hq => by simp [hq]) hw).trans ?_
  rw [show ((univ.filter (· ∉ chal)).filter (· ∈ chal)) = (∅ : Finset Q) by
    ext q; simp]
  simp

end

end Voprf
