import Verif.Spec.Drawer
import Verif.Props.BlindnessTape
import Verif.Lemmas.Party
import Mathlib.Algebra.BigOperators.Field

/-!
# C61: computations on uniform bytes and on uniform scalars
-/

namespace Voprf

open Spec

section
variable {G : VGroup} [L : G.Lawful] {R : Type}

/-- The computation on given scalars; the ones left over are not used. -/
def onList : Drawer G.Scalar R → List G.Scalar → Option R
  | .done r, _ => some r
  | .draw _, [] => none
  | .draw next, x :: xs => onList (next x) xs

omit L in
theorem run_onList (T : Drawer G.Scalar R) {σ : Type} [RngCore σ] (rng rest : σ) (xs : List G.Scalar) (r : R)
    (hc : Consecutive G rng xs rest) (h : onList T xs = some r) : T.run G rng = some r := by
  induction T generalizing rng xs with
  | done r' => exact h
  | draw next ih =>
    cases xs with
    | nil => simp [onList] at h
    | cons x xs =>
      obtain ⟨n, hn, hc⟩ := hc
      simp only [Drawer.run, hn]
      exact ih x n xs hc h

omit L in
theorem onList_total (T : Drawer G.Scalar R) (m : Nat) (hT : T.AtMost m) (xs : List G.Scalar) (hx : xs.length = m) :
    ∃ r, onList T xs = some r := by
  induction T generalizing m xs with
  | done r => exact ⟨r, rfl⟩
  | draw next ih =>
    cases m with
    | zero => simp [Drawer.AtMost] at hT
    | succ m =>
      cases xs with
      | nil => simp at hx
      | cons x xs => exact ih x m (hT x) xs (by simpa using hx)

/-- Sequences of `m` non-zero scalars with a property. -/
theorem ncard_succ (m : Nat) (P : List G.Scalar → Prop) :
    ({xs | xs ∈ sequences G (m + 1) ∧ P xs}.ncard : ℚ) / (Nat.card {x : G.Scalar // x ≠ 0} : ℚ) ^ (m + 1) =
      average fun x : {x : G.Scalar // x ≠ 0} =>
        ({xs | xs ∈ sequences G m ∧ P (x.1 :: xs)}.ncard : ℚ) / (Nat.card {x : G.Scalar // x ≠ 0} : ℚ) ^ m := by
  have hfin := L.finite_scalar
  have := Fintype.ofFinite {x : G.Scalar // x ≠ 0}
  have fin : ∀ k (P : List G.Scalar → Prop), {xs | xs ∈ sequences G k ∧ P xs}.Finite := fun k P =>
    (sequences_finite k).subset fun _ h => h.1
  let e : {xs | xs ∈ sequences G (m + 1) ∧ P xs} ≃
      Σ x : {x : G.Scalar // x ≠ 0}, {xs | xs ∈ sequences G m ∧ P (x.1 :: xs)} :=
    { toFun := fun xs => match xs with
        | ⟨x :: xs, h⟩ => ⟨⟨x, h.1.2 x List.mem_cons_self⟩, xs,
            ⟨by simpa using h.1.1, fun y hy => h.1.2 y (List.mem_cons_of_mem _ hy)⟩, h.2⟩
        | ⟨[], h⟩ => absurd h.1.1 (by simp)
      invFun := fun p => ⟨p.1.1 :: p.2.1, ⟨by simpa using p.2.2.1.1, by
        intro y hy
        rcases List.mem_cons.mp hy with rfl | hy
        · exact p.1.2
        · exact p.2.2.1.2 y hy⟩, p.2.2.2⟩
      left_inv := by
        rintro ⟨_ | ⟨x, xs⟩, h⟩
        · exact absurd h.1.1 (by simp)
        · rfl
      right_inv := fun _ => rfl }
  have h1 : {xs | xs ∈ sequences G (m + 1) ∧ P xs}.ncard =
      ∑ x : {x : G.Scalar // x ≠ 0}, {xs | xs ∈ sequences G m ∧ P (x.1 :: xs)}.ncard := by
    have : ∀ x : {x : G.Scalar // x ≠ 0}, Finite {xs | xs ∈ sequences G m ∧ P (x.1 :: xs)} := fun x => fin m _
    rw [← Nat.card_coe_set_eq, Nat.card_congr e, Nat.card_sigma]
    simp only [Nat.card_coe_set_eq]
  rw [h1, average, finsum_eq_sum_of_fintype, ← Finset.sum_div, div_div, ← pow_succ]
  push_cast
  rfl

theorem nonzero_card_pos : 0 < Nat.card {x : G.Scalar // x ≠ 0} := by
  have := L.finite_scalar
  have : Nonempty {x : G.Scalar // x ≠ 0} := ⟨1, one_ne_zero⟩
  exact Nat.card_pos

theorem ncard_sequences (m : Nat) : (sequences G m).ncard = Nat.card {x : G.Scalar // x ≠ 0} ^ m := by
  have hfin := L.finite_scalar
  have hp : (0 : ℚ) < (Nat.card {x : G.Scalar // x ≠ 0} : ℚ) := by exact_mod_cast nonzero_card_pos
  have : Nonempty {x : G.Scalar // x ≠ 0} := ⟨1, one_ne_zero⟩
  have key : ∀ m, ((sequences G m).ncard : ℚ) / (Nat.card {x : G.Scalar // x ≠ 0} : ℚ) ^ m = 1 := by
    intro m
    induction m with
    | zero =>
      have : sequences G 0 = {[]} := by ext xs; simp +contextual [sequences]
      rw [this]
      simp
    | succ m ih =>
      have := ncard_succ (G := G) m fun _ => True
      simp only [and_true, Set.ofPred_mem_eq] at this
      rw [this, ih, average_const]
  have := key m
  rw [div_eq_one_iff_eq (pow_pos hp m).ne'] at this
  exact_mod_cast this

/-- The probability of an event is the share of the sequences of scalars on which it happens. -/
theorem prob_eq (event : R → Prop) (m : Nat) (T : Drawer G.Scalar R) (hT : T.AtMost m) :
    T.prob G event = ({xs | xs ∈ sequences G m ∧ ∃ r, onList T xs = some r ∧ event r}.ncard : ℚ) /
      (Nat.card {x : G.Scalar // x ≠ 0} : ℚ) ^ m := by
  classical
  have hp : (0 : ℚ) < (Nat.card {x : G.Scalar // x ≠ 0} : ℚ) := by exact_mod_cast nonzero_card_pos
  induction T generalizing m with
  | done r =>
    simp only [Drawer.prob, onList, Option.some.injEq, exists_eq_left']
    by_cases h : event r
    · simp only [h, if_true, and_true, Set.ofPred_mem_eq, ncard_sequences]
      push_cast
      rw [div_self (pow_pos hp m).ne']
    · simp [h]
  | draw next ih =>
    cases m with
    | zero => simp [Drawer.AtMost] at hT
    | succ m =>
      rw [ncard_succ]
      simp only [Drawer.prob]
      congr 1
      funext x
      exact ih x.1 m (hT x.1)

theorem prob_not (event : R → Prop) (T : Drawer G.Scalar R) :
    T.prob G (fun r => ¬ event r) = 1 - T.prob G event := by
  classical
  have := L.finite_scalar
  have : Nonempty {x : G.Scalar // x ≠ 0} := ⟨1, one_ne_zero⟩
  have := Fintype.ofFinite {x : G.Scalar // x ≠ 0}
  induction T with
  | done r =>
    simp only [Drawer.prob]
    by_cases h : event r <;> simp [h]
  | draw next ih =>
    simp only [Drawer.prob, ih, average_eq]
    rw [Finset.expect_sub_distrib, Fintype.expect_const]

theorem prob_mem (event : R → Prop) (T : Drawer G.Scalar R) : 0 ≤ T.prob G event ∧ T.prob G event ≤ 1 := by
  classical
  induction T with
  | done r => simp only [Drawer.prob]; split <;> norm_num
  | draw next ih => exact average_mem' fun x => ih x.1

/-- One direction. -/
theorem tape_le {block p q : Nat} (hp : 0 < p) (hu : NearlyUniform G block p q) (n m : Nat) (T : Drawer G.Scalar R)
    (hT : T.AtMost m) (event : R → Prop) :
    tapeChance (n * block) (fun t => ¬ RunsDry G m t ∧ ∃ r, T.run G t = some r ∧ event r) ≤
      ((q : ℚ) / p) ^ m * T.prob G event := by
  set S : Set (List G.Scalar) := {xs | xs ∈ sequences G m ∧ ∃ r, onList T xs = some r ∧ event r} with hS
  have h1 := (C61_events hu n m S fun xs h => h.1).1
  have h2 : (tapes (n * block) fun t => ¬ RunsDry G m t ∧ ∃ r, T.run G t = some r ∧ event r) ⊆
      tapes (n * block) fun t => ∃ xs ∈ S, Drawing G xs t := by
    rintro t ⟨hl, hd, r, hr, he⟩
    simp only [RunsDry, not_not] at hd
    obtain ⟨xs, hx, rest, hc⟩ := hd
    obtain ⟨r', hr'⟩ := onList_total T m hT xs hx
    have := run_onList T ⟨t⟩ rest xs r' hc hr'
    rw [hr] at this
    obtain rfl := Option.some.inj this
    exact ⟨hl, xs, ⟨⟨hx, consecutive_ne_zero xs _ _ hc⟩, r, hr', he⟩, rest, hc⟩
  have h3 := Set.ncard_le_ncard h2 (tapes_finite _ _)
  have h4 := tapes_ncard_le (n * block) fun t => ∃ xs ∈ sequences G m, Drawing G xs t
  rw [prob_eq event m T hT, tapeChance, ← hS]
  set a := (tapes (n * block) fun t => ¬ RunsDry G m t ∧ ∃ r, T.run G t = some r ∧ event r).ncard
  set b := (tapes (n * block) fun t => ∃ xs ∈ S, Drawing G xs t).ncard
  set c := (tapes (n * block) fun t => ∃ xs ∈ sequences G m, Drawing G xs t).ncard
  rw [ncard_sequences] at h1
  set N := Nat.card {x : G.Scalar // x ≠ 0}
  have hN : 0 < N := nonzero_card_pos
  have h5 : N ^ m * a * p ^ m ≤ S.ncard * 256 ^ (n * block) * q ^ m :=
    le_trans (Nat.mul_le_mul_right _ (Nat.mul_le_mul_left _ h3))
      (h1.trans (Nat.mul_le_mul_right _ (Nat.mul_le_mul_left _ h4)))
  have h6 : ((N ^ m * a * p ^ m : Nat) : ℚ) ≤ ((S.ncard * 256 ^ (n * block) * q ^ m : Nat) : ℚ) := by exact_mod_cast h5
  push_cast at h6
  have hN' : (0 : ℚ) < N := by exact_mod_cast hN
  have hp' : (0 : ℚ) < p := by exact_mod_cast hp
  rw [div_pow, div_mul_div_comm, div_le_div_iff₀ (by positivity) (by positivity)]
  nlinarith

/-- C61: whatever a computation does with random scalars, at most `m` of them, its result has nearly the same
distribution whether they are drawn from uniform bytes or chosen uniformly: probabilities differ by at most `(q / p) ^ m - 1`
and the probability that the bytes do not suffice for `m` scalars. -/
theorem C61_programs {block p q : Nat} (hp : 0 < p) (hpq : p ≤ q) (hu : NearlyUniform G block p q) (n m : Nat)
    (T : Drawer G.Scalar R) (hT : T.AtMost m) (event : R → Prop) :
    |tapeChance (n * block) (fun t => ∃ r, T.run G t = some r ∧ event r) - T.prob G event| ≤
      (((q : ℚ) / p) ^ m - 1) + tapeChance (n * block) (RunsDry G m) := by
  have hp' : (0 : ℚ) < p := by exact_mod_cast hp
  have hl : (1 : ℚ) ≤ ((q : ℚ) / p) ^ m := one_le_pow₀ (by rw [le_div_iff₀ hp', one_mul]; exact_mod_cast hpq)
  have hm := prob_mem (G := G) event T
  have total : (0 : ℚ) < 256 ^ (n * block) := by positivity
  -- Splitting by whether the tape suffices.
  have split : ∀ e : Tape → Prop, tapeChance (n * block) e ≤
      tapeChance (n * block) (fun t => ¬ RunsDry G m t ∧ e t) + tapeChance (n * block) (RunsDry G m) := by
    intro e
    rw [tapeChance, tapeChance, tapeChance, ← add_div, div_le_div_iff_of_pos_right total]
    have : tapes (n * block) e ⊆
        (tapes (n * block) fun t => ¬ RunsDry G m t ∧ e t) ∪ tapes (n * block) (RunsDry G m) := by
      rintro t ⟨h1, h2⟩
      by_cases h : RunsDry G m ⟨t⟩
      · exact .inr ⟨h1, h⟩
      · exact .inl ⟨h1, h, h2⟩
    have h := (Set.ncard_le_ncard this ((tapes_finite _ _).union (tapes_finite _ _))).trans (Set.ncard_union_le _ _)
    exact_mod_cast h
  have up := (split _).trans (add_le_add_left (tape_le hp hu n m T hT event) _)
  have h2 := (split fun t => ¬ ∃ r, T.run G t = some r ∧ event r)
  have h3 : tapeChance (n * block) (fun t => ¬ RunsDry G m t ∧ ¬ ∃ r, T.run G t = some r ∧ event r) ≤
      ((q : ℚ) / p) ^ m * T.prob G (fun r => ¬ event r) := by
    refine le_trans ?_ (tape_le hp hu n m T hT _)
    rw [tapeChance, tapeChance, div_le_div_iff_of_pos_right total]
    refine Nat.cast_le.mpr (Set.ncard_le_ncard ?_ (tapes_finite _ _))
    rintro t ⟨hl, hd, hn⟩
    refine ⟨hl, hd, ?_⟩
    have hd' := hd
    simp only [RunsDry, not_not] at hd'
    obtain ⟨xs, hx, rest, hc⟩ := hd'
    obtain ⟨r, hr⟩ := onList_total T m hT xs hx
    have hrun := run_onList T ⟨t⟩ rest xs r hc hr
    exact ⟨r, hrun, fun he => hn ⟨r, hrun, he⟩⟩
  have h4 : tapeChance (n * block) (fun t => ¬ ∃ r, T.run G t = some r ∧ event r) =
      1 - tapeChance (n * block) (fun t => ∃ r, T.run G t = some r ∧ event r) := by
    rw [tapeChance, tapeChance, eq_sub_iff_add_eq, ← add_div, div_eq_one_iff_eq total.ne']
    have : ((tapes (n * block) fun t => ¬ ∃ r, T.run G t = some r ∧ event r) ∪
        (tapes (n * block) fun t => ∃ r, T.run G t = some r ∧ event r)) = tapes (n * block) fun _ => True := by
      ext t
      simp only [tapes, Set.mem_union, Set.mem_ofPred_eq]
      tauto
    have h := ncard_tapes_true (n * block)
    rw [← this, Set.ncard_union_eq ?_ (tapes_finite _ _) (tapes_finite _ _)] at h
    · exact_mod_cast h
    · rw [Set.disjoint_left]
      rintro t ⟨-, h1⟩ ⟨-, h2⟩
      exact h1 h2
  rw [prob_not] at h3
  rw [abs_le]
  constructor <;> nlinarith

end

/-! ## How many bytes suffice -/

section
variable {G : VGroup} {len : Nat} {acc : Bytes → Option G.Scalar}

theorem consecutive_take : ∀ (xs : List G.Scalar) (k : Nat) (s rest : Tape), Consecutive G s xs rest →
    ∃ rest', Consecutive G s (xs.take k) rest'
  | _, 0, s, _, _ => ⟨s, by simp [Consecutive]⟩
  | [], _ + 1, s, rest, h => ⟨rest, h⟩
  | _ :: xs, k + 1, _, rest, ⟨n, hn, h⟩ => by
      obtain ⟨rest', h'⟩ := consecutive_take xs k n rest h
      exact ⟨rest', n, hn, h'⟩

/-- More bytes in front do no harm. -/
theorem supplied_block (hs : BlockSampler G len acc) (m : Nat) (b t : Bytes) (hb : b.length = len)
    (h : ¬ RunsDry G m ⟨t⟩) : ¬ RunsDry G m ⟨b ++ t⟩ := by
  simp only [RunsDry, not_not] at h ⊢
  obtain ⟨xs, hx, hd⟩ := h
  cases xs with
  | nil => exact ⟨[], hx, draws_nil _⟩
  | cons x xs =>
    cases ha : acc b with
    | none => exact ⟨x :: xs, hx, (draws_block hs x xs b t hb).mpr (.inl ⟨ha, hd⟩)⟩
    | some y =>
      obtain ⟨rest, hc⟩ := hd
      obtain ⟨rest', hc'⟩ := consecutive_take (x :: xs) xs.length _ _ hc
      refine ⟨y :: (x :: xs).take xs.length, ?_, (draws_block hs y _ b t hb).mpr (.inr ⟨ha, rest', hc'⟩)⟩
      rw [List.length_cons, List.length_take, List.length_cons, Nat.min_eq_left (Nat.le_succ _)]
      simpa using hx

theorem supplied_blocks (hs : BlockSampler G len acc) (m : Nat) (t : Bytes) (h : ¬ RunsDry G m ⟨t⟩) :
    ∀ (j : Nat) (b : Bytes), b.length = j * len → ¬ RunsDry G m ⟨b ++ t⟩
  | 0, b, hb => by
      have : b = [] := List.length_eq_zero_iff.mp (by simpa using hb)
      subst this
      exact h
  | j + 1, b, hb => by
      have h1 : (b.take len).length = len := by rw [List.length_take, hb, Nat.succ_mul]; omega
      have h2 : (b.drop len).length = j * len := by rw [List.length_drop, hb, Nat.succ_mul]; omega
      rw [← List.take_append_drop len b, List.append_assoc]
      exact supplied_block hs m _ _ h1 (supplied_blocks hs m t h j _ h2)

/-- One more scalar from more bytes in front. -/
theorem supplied_succ (hs : BlockSampler G len acc) (m : Nat) (t : Bytes) (h : ¬ RunsDry G m ⟨t⟩) :
    ∀ (j : Nat) (b : Bytes), b.length = j * len → G.randomScalar (⟨b⟩ : Tape) ≠ none → ¬ RunsDry G (m + 1) ⟨b ++ t⟩
  | 0, b, hb, hn => by
      have : b = [] := List.length_eq_zero_iff.mp (by simpa using hb)
      subst this
      exact absurd hs.empty hn
  | j + 1, b, hb, hn => by
      have h1 : (b.take len).length = len := by rw [List.length_take, hb, Nat.succ_mul]; omega
      have h2 : (b.drop len).length = j * len := by rw [List.length_drop, hb, Nat.succ_mul]; omega
      rw [← List.take_append_drop len b, hs.block _ _ h1] at hn
      rw [← List.take_append_drop len b, List.append_assoc]
      cases ha : acc (b.take len) with
      | none =>
        rw [ha] at hn
        exact supplied_block hs (m + 1) _ _ h1 (supplied_succ hs m t h j _ h2 hn)
      | some y =>
        have h3 := supplied_blocks hs m t h j _ h2
        simp only [RunsDry, not_not] at h3 ⊢
        obtain ⟨xs, hx, hd⟩ := h3
        exact ⟨y :: xs, by simp [hx], (draws_block hs y xs _ _ h1).mpr (.inr ⟨ha, hd⟩)⟩

/-- C61: with `j` blocks for each of `m` scalars, the bytes run out with at most `m` times the probability that `j` blocks yield
no scalar at all. -/
theorem C61_enough (hs : BlockSampler G len acc) (j m : Nat) :
    tapeChance (m * j * len) (RunsDry G m) ≤ m * tapeChance (j * len) (fun t => G.randomScalar t = none) := by
  induction m with
  | zero =>
    have : tapes (0 * j * len) (RunsDry G 0) = ∅ := by
      ext t
      simp only [tapes, Set.mem_ofPred_eq, Set.mem_empty_iff_false, iff_false, not_and, RunsDry, not_not]
      exact fun _ => ⟨[], rfl, draws_nil _⟩
    rw [tapeChance, this]
    simp
  | succ m ih =>
    have hsub : tapes ((m + 1) * j * len) (RunsDry G (m + 1)) ⊆
        (fun p : Bytes × Bytes => p.1 ++ p.2) '' ((tapes (j * len) fun t => G.randomScalar t = none) ×ˢ
          tapes (m * j * len) fun _ => True) ∪
        (fun p : Bytes × Bytes => p.1 ++ p.2) '' ((tapes (j * len) fun _ => True) ×ˢ tapes (m * j * len) (RunsDry G m)) := by
      rintro t ⟨hl, hd⟩
      have hl' : t.length = j * len + m * j * len := by rw [hl]; ring
      have h1 : (t.take (j * len)).length = j * len := by rw [List.length_take, hl']; omega
      have h2 : (t.drop (j * len)).length = m * j * len := by rw [List.length_drop, hl']; omega
      by_cases hr : RunsDry G m ⟨t.drop (j * len)⟩
      · exact .inr ⟨(_, _), ⟨⟨h1, trivial⟩, h2, hr⟩, List.take_append_drop _ t⟩
      · refine .inl ⟨(_, _), ⟨⟨h1, ?_⟩, h2, trivial⟩, List.take_append_drop _ t⟩
        by_contra hn
        have := supplied_succ hs m _ hr j _ h1 hn
        rw [List.take_append_drop] at this
        exact this hd
    have hle := (Set.ncard_le_ncard hsub (((tapes_finite _ _).prod (tapes_finite _ _)).image _ |>.union
      (((tapes_finite _ _).prod (tapes_finite _ _)).image _))).trans (Set.ncard_union_le _ _)
    rw [append_ncard (fun b hb => hb.1), append_ncard (fun b hb => hb.1), ncard_tapes_true, ncard_tapes_true] at hle
    have hq : ((tapes ((m + 1) * j * len) (RunsDry G (m + 1))).ncard : ℚ) ≤
        (tapes (j * len) fun t => G.randomScalar t = none).ncard * 256 ^ (m * j * len) +
        256 ^ (j * len) * (tapes (m * j * len) (RunsDry G m)).ncard := by exact_mod_cast hle
    have e : (256 : ℚ) ^ ((m + 1) * j * len) = 256 ^ (j * len) * 256 ^ (m * j * len) := by
      rw [← pow_add]; congr 1; ring
    have ih' := ih
    rw [tapeChance, tapeChance] at ih
    rw [tapeChance, tapeChance, e]
    have p1 : (0 : ℚ) < 256 ^ (j * len) := by positivity
    have p2 : (0 : ℚ) < 256 ^ (m * j * len) := by positivity
    calc _ ≤ ((tapes (j * len) fun t => G.randomScalar t = none).ncard * 256 ^ (m * j * len) +
          256 ^ (j * len) * (tapes (m * j * len) (RunsDry G m)).ncard) / (256 ^ (j * len) * 256 ^ (m * j * len) : ℚ) :=
          (div_le_div_iff_of_pos_right (by positivity)).mpr hq
      _ = (tapes (j * len) fun t => G.randomScalar t = none).ncard / (256 : ℚ) ^ (j * len) +
          (tapes (m * j * len) (RunsDry G m)).ncard / (256 : ℚ) ^ (m * j * len) := by field_simp
      _ ≤ _ := by push_cast; linarith

end

end Voprf
