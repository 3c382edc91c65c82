import Verif.Props.Keys
import Verif.Spec.Simulator
import Verif.Lemmas.Distinguisher
import Verif.Props.Rom

/-!
# C25: derived keys are bound to mode, seed and info

With `hash_to_scalar` read as a random oracle: two derivations give the same key always, if the strings
`seed ‖ ⟨info⟩` and the modes are the same, and otherwise with probability at most 1/(number of non-zero
scalars).
-/

namespace Voprf

open Spec Finset
open scoped BigOperators

variable {CS : CipherSuite} [L : CS.group.Lawful]

/-- The tag of `DeriveKeyPair`. -/
abbrev keyTag (CS : CipherSuite) (mode : Mode) : Bytes := ascii "DeriveKeyPair" ++ contextString CS mode

theorem oracle_deriveKey (wf : CS.WF) (f : Table CS) (seed info : Bytes) (mode : Mode) (k : CS.Scalar) :
    deriveKey (oracleSuite CS f) seed info mode = .ok k ↔
      info.length ≤ 65535 ∧ k ≠ 0 ∧ ∃ n < 256, f.answer (keyTag CS mode) (keyInput seed info n) = k ∧
        ∀ j < n, f.answer (keyTag CS mode) (keyInput seed info j) = 0 := by
  have key : ∀ n, keyCandidate (oracleSuite CS f) mode seed info n =
      .ok (f.answer (keyTag CS mode) (keyInput seed info n)) := by
    intro n
    show Except.ok (f.answer [_].flatten [_].flatten) = _
    simp only [List.flatten_cons, List.flatten_nil, List.append_nil]
    rfl
  refine (C24_first_candidate (CS := oracleSuite CS f) (oracle_wf wf f) seed info mode k).trans ?_
  simp only [key]
  constructor
  · rintro ⟨h1, h2, n, hn, h3, h4⟩
    exact ⟨h1, h2, n, hn, Except.ok.inj h3, fun j hj => Except.ok.inj (h4 j hj)⟩
  · rintro ⟨h1, h2, n, hn, h3, h4⟩
    exact ⟨h1, h2, n, hn, congrArg _ h3, fun j hj => congrArg _ (h4 j hj)⟩

/-- Multiplying the answers to the questions in `S` by `u`. -/
noncomputable def scale (S : Set Question) (u : Nonce CS) (f : Table CS) : Table CS :=
  fun q => open Classical in if q ∈ S then u.1 * f q else f q

noncomputable def scaleEquiv (S : Set Question) (u : Nonce CS) : Table CS ≃ Table CS where
  toFun := scale S u
  invFun := scale S ⟨u.1⁻¹, inv_ne_zero u.2⟩
  left_inv f := by
    funext q
    simp only [scale]
    split
    · exact inv_mul_cancel_left₀ u.2 _
    · rfl
  right_inv f := by
    funext q
    simp only [scale]
    split
    · exact mul_inv_cancel_left₀ u.2 _
    · rfl

theorem scale_answer_mem (S : Set Question) (u : Nonce CS) (f : Table CS) (dst msg : Bytes)
    (h : ∀ q : Question, q.1 = (dst, msg) → q ∈ S) :
    (scale S u f).answer dst msg = u.1 * f.answer dst msg := by
  unfold Table.answer
  split
  · next hl => simp only [scale, if_pos (h ⟨(dst, msg), hl⟩ rfl)]
  · rw [mul_zero]

theorem scale_answer_notMem (S : Set Question) (u : Nonce CS) (f : Table CS) (dst msg : Bytes)
    (h : ∀ q : Question, q.1 = (dst, msg) → q ∉ S) : (scale S u f).answer dst msg = f.answer dst msg := by
  unfold Table.answer
  split
  · next hl => simp only [scale, if_neg (h ⟨(dst, msg), hl⟩ rfl)]
  · rfl

/-- The questions of one derivation. -/
def keyQuestions (CS : CipherSuite) (mode : Mode) (seed info : Bytes) : Set Question :=
  {q | ∃ n, q.1 = (keyTag CS mode, keyInput seed info n)}

theorem derive_scale_self (wf : CS.WF) (u : Nonce CS) (f : Table CS) (seed info : Bytes) (mode : Mode)
    (k : CS.Scalar) :
    deriveKey (oracleSuite CS (scale (keyQuestions CS mode seed info) u f)) seed info mode = .ok (u.1 * k) ↔
      deriveKey (oracleSuite CS f) seed info mode = .ok k := by
  refine (oracle_deriveKey wf _ seed info mode (u.1 * k)).trans
    (Iff.trans ?_ (oracle_deriveKey wf f seed info mode k).symm)
  have ha : ∀ n, (scale (keyQuestions CS mode seed info) u f).answer (keyTag CS mode) (keyInput seed info n) =
      u.1 * f.answer (keyTag CS mode) (keyInput seed info n) := fun n =>
    scale_answer_mem _ u f _ _ fun q hq => ⟨n, hq⟩
  simp only [ha, mul_eq_zero, u.2, false_or, mul_right_inj' u.2, ne_eq]

theorem derive_scale_other (wf : CS.WF) (u : Nonce CS) (f : Table CS) (S : Set Question) (seed info : Bytes)
    (mode : Mode) (k : CS.Scalar) (h : ∀ q ∈ keyQuestions CS mode seed info, q ∉ S) :
    deriveKey (oracleSuite CS (scale S u f)) seed info mode = .ok k ↔
      deriveKey (oracleSuite CS f) seed info mode = .ok k := by
  refine (oracle_deriveKey wf _ seed info mode k).trans
    (Iff.trans ?_ (oracle_deriveKey wf f seed info mode k).symm)
  have ha : ∀ n, (scale S u f).answer (keyTag CS mode) (keyInput seed info n) =
      f.answer (keyTag CS mode) (keyInput seed info n) := fun n =>
    scale_answer_notMem _ u f _ _ fun q hq => h q ⟨n, hq⟩
  simp only [ha]

omit L in
theorem keyTag_inj {mode mode' : Mode} (h : keyTag CS mode = keyTag CS mode') : mode = mode' := by
  have := List.append_cancel_left h
  unfold contextString at this
  cases mode <;> cases mode' <;> simp_all <;> revert this <;> decide

omit L in
theorem keyInput_inj {seed seed' info info' : Bytes} {n n' : Nat}
    (h : keyInput seed info n = keyInput seed' info' n') : seed ++ framed info = seed' ++ framed info' :=
  (List.append_inj' h rfl).1

omit L in
theorem keyQuestions_disjoint {seed seed' info info' : Bytes} {mode mode' : Mode}
    (h : mode ≠ mode' ∨ seed ++ framed info ≠ seed' ++ framed info') :
    ∀ q ∈ keyQuestions CS mode' seed' info', q ∉ keyQuestions CS mode seed info := by
  rintro q ⟨n', hq'⟩ ⟨n, hq⟩
  have he := hq.symm.trans hq'
  rcases h with h | h
  · exact h (keyTag_inj (CS := CS) (congrArg Prod.fst he))
  · exact h (keyInput_inj (congrArg Prod.snd he))

/-- C25: derivations that hash the same string give the same key, in every ciphersuite. -/
theorem C25_same_string_same_key (wf : CS.WF) (seed seed' info info' : Bytes) (mode : Mode)
    (hi : info.length ≤ 65535) (hi' : info'.length ≤ 65535)
    (h : seed ++ framed info = seed' ++ framed info') :
    deriveKey CS seed info mode = deriveKey CS seed' info' mode := by
  have hk : ∀ n, keyCandidate CS mode seed info n = keyCandidate CS mode seed' info' n := by
    intro n; unfold keyCandidate; rw [h]
  have h : ∀ r, deriveKeyInternal CS seed info mode = r ↔ deriveKeyInternal CS seed' info' mode = r := by
    intro r
    rw [deriveKeyInternal_of_le wf _ _ _ hi, deriveKeyInternal_of_le wf _ _ _ hi', deriveKeyLoop_spec,
      deriveKeyLoop_spec]
    simp only [hk]
  exact (h _).mpr rfl

/-- C25: derivations in different modes or hashing different strings give the same key with probability at
most 1/(number of non-zero scalars). -/
theorem C25_other_string_other_key (wf : CS.WF) (seed seed' info info' : Bytes) (mode mode' : Mode)
    (h : mode ≠ mode' ∨ seed ++ framed info ≠ seed' ++ framed info') :
    chance (fun f : Table CS => ∃ k : CS.Scalar, deriveKey (oracleSuite CS f) seed info mode = .ok k ∧
        deriveKey (oracleSuite CS f) seed' info' mode' = .ok k) ≤
      (1 : ℚ) / Nat.card (Nonce CS) := by
  classical
  have : Finite CS.Scalar := VGroup.Lawful.finite_scalar
  have : Fintype CS.Scalar := Fintype.ofFinite _
  have : Finite Question := inferInstance
  have : Fintype (Table CS) := Fintype.ofFinite _
  have : Fintype (Nonce CS) := Fintype.ofFinite _
  have : Nonempty (Nonce CS) := ⟨⟨1, one_ne_zero⟩⟩
  set S := keyQuestions CS mode seed info with hS
  set P : Table CS → Prop := fun f => ∃ k : CS.Scalar, deriveKey (oracleSuite CS f) seed info mode = .ok k ∧
        deriveKey (oracleSuite CS f) seed' info' mode' = .ok k with hP
  set E : Table CS → ℚ := fun f => @ite _ (P f) (Classical.propDecidable _) 1 0 with hE
  have h0 : chance P = average E := rfl
  have h1 : ∀ u : Nonce CS, (average fun f => E (scale S u f)) = average E := fun u =>
    average_equiv (scaleEquiv S u) _ _ fun f => rfl
  have h2 : average E = 𝔼 u : Nonce CS, 𝔼 f, E (scale S u f) := by
    rw [← average_const (α := Nonce CS) (average E), average_eq]
    exact Finset.expect_congr rfl fun u _ => by rw [← h1 u, average_eq]
  refine le_of_eq_of_le (h0.trans <| h2.trans (Finset.expect_comm _ _ _)) ?_
  have h3 : ∀ f : Table CS, 𝔼 u : Nonce CS, E (scale S u f) ≤ 1 / Nat.card (Nonce CS) := by
    intro f
    rw [Fintype.expect_eq_sum_div_card, Nat.card_eq_fintype_card]
    refine div_le_div_of_nonneg_right ?_ (Nat.cast_nonneg _)
    have hat : ∀ u v : Nonce CS, E (scale S u f) ≠ 0 → E (scale S v f) ≠ 0 → u = v := by
      intro u v hu hv
      simp only [hE, hP, ne_eq, ite_eq_right_iff, one_ne_zero, imp_false, not_not] at hu hv
      obtain ⟨k, hk, hk'⟩ := hu
      obtain ⟨l, hl, hl'⟩ := hv
      have hd := keyQuestions_disjoint (CS := CS) h
      have e1 := (derive_scale_other wf u f S seed' info' mode' k hd).mp hk'
      have e2 := (derive_scale_other wf v f S seed' info' mode' l hd).mp hl'
      have ekl : k = l := Res.ok.inj (e1.symm.trans e2)
      have hk0 : k ≠ 0 := ((oracle_deriveKey wf _ seed' info' mode' k).mp e1).2.1
      have e3 := (derive_scale_self wf u f seed info mode (u.1⁻¹ * k)).mp
        (by rw [mul_inv_cancel_left₀ u.2]; exact hk)
      have e4 := (derive_scale_self wf v f seed info mode (v.1⁻¹ * l)).mp
        (by rw [mul_inv_cancel_left₀ v.2]; exact hl)
      have e5 := Res.ok.inj (e3.symm.trans e4)
      rw [← ekl] at e5
      exact Subtype.ext (inv_injective (mul_right_cancel₀ hk0 e5))
    by_cases hz : ∃ u : Nonce CS, E (scale S u f) ≠ 0
    · obtain ⟨u, hu⟩ := hz
      rw [Finset.sum_eq_single u]
      · simp only [hE]; split <;> simp
      · intro v _ hvu
        by_contra hv
        exact hvu (hat v u hv hu)
      · intro hu'; exact absurd (Finset.mem_univ u) hu'
    · push Not at hz
      rw [Finset.sum_eq_zero fun u _ => hz u]
      exact zero_le_one
  calc 𝔼 f : Table CS, 𝔼 u : Nonce CS, E (scale S u f)
      ≤ 𝔼 _f : Table CS, (1 : ℚ) / Nat.card (Nonce CS) := Finset.expect_le_expect fun f _ => h3 f
    _ = 1 / Nat.card (Nonce CS) := Fintype.expect_const _

/-- C25, the part that holds as stated in English: for seeds of the same length, different (mode, seed, info)
give the same key with probability at most 1/(number of non-zero scalars).
Missing (and false, see `C25_unframed_seed_collides`): the same for seeds of different lengths. -/
theorem C25_equal_seed_length_partial (wf : CS.WF) (seed seed' info info' : Bytes) (mode mode' : Mode)
    (hs : seed.length = seed'.length) (hi : info.length ≤ 65535) (hi' : info'.length ≤ 65535)
    (h : (mode, seed, info) ≠ (mode', seed', info')) :
    chance (fun f : Table CS => ∃ k : CS.Scalar, deriveKey (oracleSuite CS f) seed info mode = .ok k ∧
        deriveKey (oracleSuite CS f) seed' info' mode' = .ok k) ≤
      (1 : ℚ) / Nat.card (Nonce CS) := by
  refine C25_other_string_other_key wf seed seed' info info' mode mode' ?_
  by_contra hc
  push Not at hc
  obtain ⟨h1, h2⟩ := List.append_inj hc.2 hs
  have h3 : framed info ++ [] = framed info' ++ [] := by simpa using h2
  have := framed_append_inj hi hi' h3
  exact h (by rw [hc.1, h1, this.1])

section examples
open Toy

/-- Two derivations with different seeds of the same length, the second with another info. -/
example : (Mode.Voprf, ([1, 2] : Bytes), ([7] : Bytes)) ≠ (Mode.Voprf, [1, 3], []) := by decide

/-- Tables for which both derivations succeed exist. -/
example : ∃ f : Table suite, (deriveKey (oracleSuite suite f) [1, 2] [7] .Voprf = .ok (5 : F)) ∧
    (deriveKey (oracleSuite suite f) [1, 3] [] .Voprf = .ok (5 : F)) := by
  refine ⟨fun _ => (5 : F), ?_, ?_⟩
  · refine (oracle_deriveKey Toy.wf _ _ _ _ _).mpr ⟨by decide, show (5 : F) ≠ 0 by decide, 0, by decide, ?_,
      by simp⟩
    exact dif_pos ⟨by decide, by decide⟩
  · refine (oracle_deriveKey Toy.wf _ _ _ _ _).mpr ⟨by decide, show (5 : F) ≠ 0 by decide, 0, by decide, ?_,
      by simp⟩
    exact dif_pos ⟨by decide, by decide⟩

end examples

end Voprf
