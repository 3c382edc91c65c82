import Verif.Lemmas.Pseudorandom
import Verif.Props.OneMore
import Verif.Props.DerivedKeys
import Verif.Lemmas.Party
import Mathlib.Algebra.BigOperators.Field

/-!
# C63: outputs are pseudorandom
-/

namespace Voprf

open Spec

variable {CS : CipherSuite} [L : CS.group.Lawful]

instance : Finite Short := (List.finite_length_le UInt8 65535).to_subtype

instance : Finite ShortInfo := by
  refine Finite.of_injective (fun i : ShortInfo => (i.1.isSome, (⟨i.1.getD [], i.2⟩ : Short))) fun i j h => Subtype.ext ?_
  obtain ⟨i, hi⟩ := i
  obtain ⟨j, hj⟩ := j
  simp only [Prod.mk.injEq, Subtype.mk.injEq] at h
  cases i <;> cases j <;> simp_all

/-! ## The strings of outputs -/

/-- The hashed input (the identity if there is none). -/
def hashedInput (CS : CipherSuite) [CS.group.Lawful] (mode : Mode) (x : Bytes) : CS.Elem :=
  match Spec.hashToGroup CS mode x with
  | .ok P => P
  | .error _ => 0

/-- The hashed info (zero if there is none). -/
def hashedInfo (CS : CipherSuite) [CS.group.Lawful] (i : Option Bytes) : CS.Scalar :=
  match Spec.hashToScalar CS .Poprf (infoInput (i.getD [])) with
  | .ok t => t
  | .error _ => 0

theorem hashedInput_eq {mode : Mode} {x : Bytes} {P : CS.Elem} (h : Spec.hashToGroup CS mode x = .ok P) :
    hashedInput CS mode x = P := by
  unfold hashedInput; rw [h]

theorem hashedInfo_eq {i : Option Bytes} {t : CS.Scalar} (h : TweaksBy CS i t) : hashedInfo CS i = t := by
  unfold hashedInfo; rw [h]

def outQ (wf : CS.WF) (mode : Mode) (k : CS.Scalar) (x : Short) : DigestQuestion :=
  ⟨outString CS x.1 none (k • hashedInput CS mode x.1), outString_length wf _ _ _ x.2 (by simp)⟩

def outInfoQ (wf : CS.WF) (k : CS.Scalar) (x : Short × ShortInfo) : DigestQuestion :=
  ⟨outString CS x.1.1 x.2.1 ((k + hashedInfo CS x.2.1)⁻¹ • hashedInput CS .Poprf x.1.1), outString_length wf _ _ _ x.1.2 x.2.2⟩

theorem outQ_inj (wf : CS.WF) (mode : Mode) (k : CS.Scalar) : Function.Injective (outQ wf mode k) := fun x y h =>
  Subtype.ext (outString_inj (info := none) (info' := none) wf x.2 y.2 (by simp) (by simp) (congrArg Subtype.val h)).1

theorem outInfoQ_inj (wf : CS.WF) (k : CS.Scalar) : Function.Injective (outInfoQ wf k) := fun x y h => by
  obtain ⟨h1, h2, _⟩ := outString_inj wf x.1.2 y.1.2 x.2.2 y.2.2 (congrArg Subtype.val h)
  exact Prod.ext (Subtype.ext h1) (Subtype.ext h2)

/-! ## What is asked for -/

open Classical in
noncomputable def outKey (CS : CipherSuite) [CS.group.Lawful] (mode : Mode) (x : Bytes) : Option Short :=
  if h : x.length ≤ 65535 ∧ Mapped CS mode x then some ⟨x, h.1⟩ else none

open Classical in
noncomputable def outInfoKey (CS : CipherSuite) [CS.group.Lawful] (x : Bytes × Option Bytes) : Option (Short × ShortInfo) :=
  if h : x.1.length ≤ 65535 ∧ (x.2.getD []).length ≤ 65535 ∧ Mapped CS .Poprf x.1 ∧ ∃ t, TweaksBy CS x.2 t then
    some (⟨x.1, h.1⟩, ⟨x.2, h.2.1⟩)
  else none

theorem outKey_some {mode : Mode} {x : Bytes} {x₀ : Short} (h : outKey CS mode x = some x₀) :
    x₀.1 = x ∧ Mapped CS mode x := by
  unfold outKey at h
  split at h
  · next hx => cases h; exact ⟨rfl, hx.2⟩
  · cases h

theorem outInfoKey_some {x : Bytes × Option Bytes} {x₀ : Short × ShortInfo} (h : outInfoKey CS x = some x₀) :
    x₀.1.1 = x.1 ∧ x₀.2.1 = x.2 ∧ Mapped CS .Poprf x.1 ∧ ∃ t, TweaksBy CS x.2 t := by
  unfold outInfoKey at h
  split at h
  · next hx => cases h; exact ⟨rfl, rfl, hx.2.2⟩
  · cases h

theorem Outputs.answer_eq (F : Outputs CS) (mode : Mode) (x : Bytes) :
    F.answer mode x = (outKey CS mode x).map fun x₀ => (F x₀).1 := by
  unfold Outputs.answer outKey
  split <;> rfl

theorem InfoOutputs.answer_eq (F : InfoOutputs CS) (x : Bytes × Option Bytes) :
    F.answer x = (outInfoKey CS x).map fun x₀ => (F x₀).1 := by
  unfold InfoOutputs.answer outInfoKey
  split <;> rfl

omit L in
theorem success_eq {α : Type} {r : Res α} {o : Option α} (h : ∀ y, r = .ok y ↔ o = some y) : success r = o := by
  refine Option.ext fun y => ?_
  rw [← h y]
  cases r <;> simp [success]

theorem out_digest_iff (wf : CS.WF) (D : Digests CS) (k : CS.Scalar) (mode : Mode) (x y : Bytes) :
    (∃ P : CS.Elem, Spec.hashToGroup CS mode x = .ok P ∧ P ≠ 0 ∧ x.length ≤ 65535 ∧
      D.answer (outString CS x none (k • P)) = y) ↔
    ((outKey CS mode x).map fun x₀ => (D (outQ wf mode k x₀)).1) = some y := by
  rw [Option.map_eq_some_iff]
  constructor
  · rintro ⟨P, hP, h0, hl, h⟩
    refine ⟨⟨x, hl⟩, dif_pos ⟨hl, P, hP, h0⟩, ?_⟩
    rw [← h, Digests.answer, dif_pos (outString_length wf x none (k • P) hl (by simp))]
    simp only [outQ, hashedInput_eq hP]
  · rintro ⟨x₀, hx, h⟩
    obtain ⟨rfl, P, hP, h0⟩ := outKey_some hx
    refine ⟨P, hP, h0, x₀.2, ?_⟩
    rw [← h, Digests.answer, dif_pos (outString_length wf _ none (k • P) x₀.2 (by simp))]
    simp only [outQ, hashedInput_eq hP]

theorem oprfOutput_eq (wf : CS.WF) (k : CS.Scalar) (D : Digests CS) (x : Bytes) :
    oprfOutput k D x = (outKey CS .Oprf x).map fun x₀ => (D (outQ wf .Oprf k x₀)).1 :=
  success_eq fun y => (oprf_digest_iff wf D k x y).trans (out_digest_iff wf D k .Oprf x y)

theorem voprfOutput_eq (wf : CS.WF) (k : CS.Scalar) (pk : CS.Elem) (D : Digests CS) (x : Bytes) :
    voprfOutput k pk D x = (outKey CS .Voprf x).map fun x₀ => (D (outQ wf .Voprf k x₀)).1 :=
  success_eq fun y => (voprf_digest_iff wf D k pk x y).trans (out_digest_iff wf D k .Voprf x y)

/-- The info does not cancel the key. -/
def FineInfo (k : CS.Scalar) (x : Bytes × Option Bytes) : Prop := ∀ t, TweaksBy CS x.2 t → k + t ≠ 0

theorem poprfOutput_eq (wf : CS.WF) (k : CS.Scalar) (pk : CS.Elem) (D : Digests CS) (x : Bytes × Option Bytes)
    (hf : FineInfo k x) :
    poprfOutput k pk D x = (outInfoKey CS x).map fun x₀ => (D (outInfoQ wf k x₀)).1 := by
  refine success_eq fun y => (poprf_digest_iff wf D k pk x.1 y x.2).trans ?_
  rw [Option.map_eq_some_iff]
  constructor
  · rintro ⟨P, t, hP, h0, hl, hi, ht, _, h⟩
    refine ⟨(⟨x.1, hl⟩, ⟨x.2, hi⟩), dif_pos ⟨hl, hi, ⟨P, hP, h0⟩, t, ht⟩, ?_⟩
    rw [← h, Digests.answer, dif_pos (outString_length wf x.1 x.2 ((k + t)⁻¹ • P) hl hi)]
    simp only [outInfoQ, hashedInput_eq hP, hashedInfo_eq ht]
  · rintro ⟨x₀, hx, h⟩
    obtain ⟨h1, h2, ⟨P, hP, h0⟩, t, ht⟩ := outInfoKey_some hx
    have hl := h1 ▸ x₀.1.2
    have hi := h2 ▸ x₀.2.2
    refine ⟨P, t, hP, h0, hl, hi, ht, hf t ht, ?_⟩
    rw [← h, Digests.answer, dif_pos (outString_length wf _ _ _ hl hi)]
    simp only [outInfoQ, h1, h2, hashedInput_eq hP, hashedInfo_eq ht]

/-! ## The protocol goes on as before -/

omit L in
theorem sameSeeds_swap (wf : CS.WF) {X : Type} (str : X → DigestQuestion) (C : Set X) (p : Digests CS × (X → DigestValue CS))
    (hs : ∀ x, ∃ (x' : Bytes) (i : Option Bytes) (E : CS.Elem), x'.length ≤ 65535 ∧ (i.getD []).length ≤ 65535 ∧
      (str x).1 = outString CS x' i E) : SameSeeds (swapEntries str C p).1 p.1 := by
  intro mode B
  have hS : (ascii "Seed-" ++ contextString CS mode).length ≤ 65535 := by
    have := wf.id_length
    rw [List.length_append, contextString_length, ascii_len_seed]; omega
  show Digests.answer _ (framed (CS.group.serializeElem B) ++ framed (ascii "Seed-" ++ contextString CS mode)) =
    Digests.answer _ (framed (CS.group.serializeElem B) ++ framed (ascii "Seed-" ++ contextString CS mode))
  unfold Digests.answer
  split
  · next hl =>
    refine congrArg Subtype.val (swapEntries_not_mem C p fun x _ h => ?_)
    obtain ⟨x', i, E, hx, hi, e⟩ := hs x
    exact finalize_ne_seed i E hx (elem_len_le wf E) hi (elem_len_le wf B) hS (e.symm.trans (congrArg Subtype.val h))
  · rfl

/-! ## C63 -/

/-- C63, OPRF: a party that asks for digests, has elements evaluated and asks for outputs of `evaluate` tells these from the
outputs of a random function with an advantage of at most the probability that it presents to the digest (with the random
function in place) the evaluated element of an input it asks the output of: that is, that it solves a Diffie-Hellman problem. -/
theorem C63_oprf (wf : CS.WF) (k : CS.Scalar)
    (T : Player DigestQuestion (DigestValue CS) (CS.Elem ⊕ Bytes) (CS.Elem ⊕ Option Bytes) Bool) :
    |chance (fun D : Digests CS => T.run D (oprfReal k D) = true) -
      chance (fun w : Digests CS × Outputs CS => T.run w.1 (oprfIdeal k w.1 w.2) = true)| ≤
    chance (fun w : Digests CS × Outputs CS => ∃ (x : Bytes) (E : CS.Elem), T.Sends w.1 (oprfIdeal k w.1 w.2) (.inr x) ∧
      Evaluates CS .Oprf k x E ∧ Presents w.1 (oprfIdeal k w.1 w.2) T x none E) := by
  refine (game_distance (str := outQ wf .Oprf k) (key := Sum.elim (fun _ => none) (outKey CS .Oprf)) (fine := fun _ => True)
    (real := oprfReal k) (ideal := oprfIdeal k) (outQ_inj wf .Oprf k) ?_ T).trans (chance_mono ?_)
  · rintro C p (b | x) _ hr
    · rfl
    · refine congrArg Sum.inr ?_
      rw [oprfOutput_eq wf, Outputs.answer_eq]
      cases hk : outKey CS .Oprf x with
      | none => rfl
      | some x₀ => exact congrArg (fun v : DigestValue CS => some v.1) (swapEntries_mem (outQ_inj wf .Oprf k) C p (hr x₀ hk))
  · rintro p ⟨b | x, hs, hf | ⟨x₀, hx, ha⟩⟩
    · exact absurd trivial hf
    · cases hx
    · exact absurd trivial hf
    · obtain ⟨rfl, P, hP, _⟩ := outKey_some hx
      exact ⟨x₀.1, k • P, hs, ⟨P, hP, rfl⟩, _, ha, by simp only [outQ, hashedInput_eq hP]; rfl⟩

/-- C63, VOPRF: the same; elements are evaluated one by one or in batches, with proofs, and the party even chooses the generators
these are made with. -/
theorem C63_voprf (wf : CS.WF) (k : CS.Scalar) (pk : CS.Elem) {σ : Type} [RngCore σ]
    (T : Player DigestQuestion (DigestValue CS) ((EvalRequest CS × σ) ⊕ Bytes) (EvalResponse CS ⊕ Option Bytes) Bool) :
    |chance (fun D : Digests CS => T.run D (voprfReal k pk D) = true) -
      chance (fun w : Digests CS × Outputs CS => T.run w.1 (voprfIdeal k pk w.1 w.2) = true)| ≤
    chance (fun w : Digests CS × Outputs CS => ∃ (x : Bytes) (E : CS.Elem), T.Sends w.1 (voprfIdeal k pk w.1 w.2) (.inr x) ∧
      Evaluates CS .Voprf k x E ∧ Presents w.1 (voprfIdeal k pk w.1 w.2) T x none E) := by
  refine (game_distance (str := outQ wf .Voprf k) (key := Sum.elim (fun _ => none) (outKey CS .Voprf)) (fine := fun _ => True)
    (real := voprfReal k pk) (ideal := voprfIdeal k pk) (outQ_inj wf .Voprf k) ?_ T).trans (chance_mono ?_)
  · rintro C p (b | x) _ hr
    · exact congrArg Sum.inl (voprfServe_seed wf (sameSeeds_swap wf _ C p fun x => ⟨_, none, _, x.2, by simp, rfl⟩) k pk b)
    · refine congrArg Sum.inr ?_
      rw [voprfOutput_eq wf, Outputs.answer_eq]
      cases hk : outKey CS .Voprf x with
      | none => rfl
      | some x₀ => exact congrArg (fun v : DigestValue CS => some v.1) (swapEntries_mem (outQ_inj wf .Voprf k) C p (hr x₀ hk))
  · rintro p ⟨b | x, hs, hf | ⟨x₀, hx, ha⟩⟩
    · exact absurd trivial hf
    · cases hx
    · exact absurd trivial hf
    · obtain ⟨rfl, P, hP, _⟩ := outKey_some hx
      exact ⟨x₀.1, k • P, hs, ⟨P, hP, rfl⟩, _, ha, by simp only [outQ, hashedInput_eq hP]; rfl⟩

/-- C63, POPRF: the same for inputs and infos; the party also has an advantage if it asks for the output under an info whose hash
cancels the key (`evaluate` then fails). -/
theorem C63_poprf (wf : CS.WF) (k : CS.Scalar) (pk : CS.Elem) {σ : Type} [RngCore σ]
    (T : Player DigestQuestion (DigestValue CS) ((EvalRequest CS × Option Bytes × σ) ⊕ (Bytes × Option Bytes))
      (EvalResponse CS ⊕ Option Bytes) Bool) :
    |chance (fun D : Digests CS => T.run D (poprfReal k pk D) = true) -
      chance (fun w : Digests CS × InfoOutputs CS => T.run w.1 (poprfIdeal k pk w.1 w.2) = true)| ≤
    chance (fun w : Digests CS × InfoOutputs CS => ∃ x : Bytes × Option Bytes,
      T.Sends w.1 (poprfIdeal k pk w.1 w.2) (.inr x) ∧ (TweaksBy CS x.2 (-k) ∨
        ∃ E, EvaluatesInfo CS k x E ∧ Presents w.1 (poprfIdeal k pk w.1 w.2) T x.1 x.2 E)) := by
  refine (game_distance (str := outInfoQ wf k) (key := Sum.elim (fun _ => none) (outInfoKey CS))
    (fine := Sum.elim (fun _ => True) (FineInfo k))
    (real := poprfReal k pk) (ideal := poprfIdeal k pk) (outInfoQ_inj wf k) ?_ T).trans (chance_mono ?_)
  · rintro C p (b | x) hf hr
    · exact congrArg Sum.inl (poprfServe_seed wf (sameSeeds_swap wf _ C p fun x => ⟨_, _, _, x.1.2, x.2.2, rfl⟩) k pk b)
    · refine congrArg Sum.inr ?_
      rw [poprfOutput_eq wf k pk _ x hf, InfoOutputs.answer_eq]
      cases hk : outInfoKey CS x with
      | none => rfl
      | some x₀ => exact congrArg (fun v : DigestValue CS => some v.1) (swapEntries_mem (outInfoQ_inj wf k) C p (hr x₀ hk))
  · rintro p ⟨b | x, hs, hf | ⟨x₀, hx, ha⟩⟩
    · exact absurd trivial hf
    · cases hx
    · simp only [Sum.elim_inr, FineInfo, not_forall, not_not] at hf
      obtain ⟨t, ht, h0⟩ := hf
      exact ⟨x, hs, .inl (neg_eq_of_add_eq_zero_right h0 ▸ ht)⟩
    · obtain ⟨h1, h2, ⟨P, hP, _⟩, t, ht⟩ := outInfoKey_some hx
      exact ⟨x, hs, .inr ⟨(k + t)⁻¹ • P, ⟨P, t, hP, ht, rfl⟩, _, ha, by
        simp only [outInfoQ, h1, h2, hashedInput_eq hP, hashedInfo_eq ht]; rfl⟩⟩

/-! ## Secret keys -/

theorem chance_ratio {α β : Type} [Finite α] [Finite β] [Nonempty β] (B : α → β → Prop) (c : Nat)
    (h : ∀ b, Nat.card {a // B a b} ≤ c) : average (fun a => chance (B a)) ≤ c / Nat.card α := by
  classical
  have := Fintype.ofFinite α
  have := Fintype.ofFinite β
  unfold average
  rw [finsum_eq_sum_of_fintype]
  refine div_le_div_of_nonneg_right ?_ (Nat.cast_nonneg _)
  simp only [chance_eq]
  rw [← Finset.sum_div, div_le_iff₀ (by exact_mod_cast Nat.card_pos)]
  have e : ∑ a, (Nat.card {b // B a b} : ℚ) = ∑ b, (Nat.card {a // B a b} : ℚ) := by
    rw [← Nat.cast_sum, ← Nat.cast_sum]
    congr 1
    rw [← Nat.card_sigma, ← Nat.card_sigma]
    exact Nat.card_congr ⟨fun x => ⟨x.2.1, x.1, x.2.2⟩, fun x => ⟨x.2.1, x.1, x.2.2⟩, fun _ => rfl, fun _ => rfl⟩
  rw [e]
  refine (Finset.sum_le_card_nsmul _ _ (c : ℚ) fun b _ => by exact_mod_cast h b).trans ?_
  rw [nsmul_eq_mul, Finset.card_univ, Nat.card_eq_fintype_card, mul_comm]

theorem chance_keys {K α β : Type} [Finite K] [Nonempty K] [Finite α] [Finite β] [Nonempty β] (P : K → α → Prop)
    (P' : β → Prop) (B : K → β → Prop) (h : ∀ k, |chance (P k) - chance P'| ≤ chance (B k)) (c : Nat)
    (hc : ∀ b, Nat.card {k // B k b} ≤ c) :
    |chance (fun w : K × α => P w.1 w.2) - chance P'| ≤ c / Nat.card K := by
  classical
  refine le_trans ?_ (chance_ratio B c hc)
  have := Fintype.ofFinite K
  have := Fintype.ofFinite α
  have := Fintype.ofFinite β
  have e1 : chance (fun w : K × α => P w.1 w.2) = average fun k => chance (P k) := by
    rw [chance_expect, average_eq, ← Finset.univ_product_univ, Finset.expect_product]
    exact Finset.expect_congr rfl fun k _ => (chance_expect _).symm
  rw [e1, average_eq, average_eq, ← Fintype.expect_const (ι := K) (chance P'), ← Finset.expect_sub_distrib]
  exact (Finset.abs_expect_le _ _).trans (Finset.expect_le_expect fun k _ => h k)

theorem card_witness {K W : Type} (B : K → Prop) (l : List W) (Wit : W → K → Prop) (h : ∀ k, B k → ∃ a ∈ l, Wit a k)
    (hu : ∀ a k k', Wit a k → Wit a k' → k = k') : Nat.card {k // B k} ≤ l.length := by
  classical
  refine (Nat.card_le_card_of_injective
    (fun k : {k // B k} => (⟨(h k.1 k.2).choose, List.mem_toFinset.mpr (h k.1 k.2).choose_spec.1⟩ : {a // a ∈ l.toFinset})) ?_).trans ?_
  · intro k k' e
    have e : (h k.1 k.2).choose = (h k'.1 k'.2).choose := congrArg Subtype.val e
    exact Subtype.ext (hu _ _ _ (h k.1 k.2).choose_spec.2 (e ▸ (h k'.1 k'.2).choose_spec.2))
  · rw [Nat.card_eq_fintype_card, Fintype.card_coe]
    exact List.toFinset_card_le l

namespace Spec.Player
variable {Q A R V O : Type}

theorem mem_asked {f : Q → A} {ans : R → V} {q : Q} (T : Player Q A R V O) (h : T.Asks f ans q) : q ∈ T.asked f ans := by
  induction T with
  | done o => exact h.elim
  | ask q' next ih =>
    rcases h with rfl | h
    · exact .head _
    · exact .tail _ (ih _ h)
  | request r next ih => exact ih _ h

theorem asked_length (f : Q → A) (ans : R → V) (T : Player Q A R V O) : (T.asked f ans).length = T.questions f ans := by
  induction T with
  | done o => rfl
  | ask q' next ih => exact congrArg (· + 1) (ih _)
  | request r next ih => exact ih _

/-- The requests a player sends. -/
def sent (f : Q → A) (ans : R → V) : Player Q A R V O → List R
  | done _ => []
  | ask q next => sent f ans (next (f q))
  | request r next => r :: sent f ans (next (ans r))

theorem mem_sent {f : Q → A} {ans : R → V} {r : R} (T : Player Q A R V O) (h : T.Sends f ans r) : r ∈ T.sent f ans := by
  induction T with
  | done o => exact h.elim
  | ask q' next ih => exact ih _ h
  | request r next ih =>
    rcases h with rfl | h
    · exact .head _
    · exact .tail _ (ih _ h)

theorem sent_length (f : Q → A) (ans : R → V) (T : Player Q A R V O) : (T.sent f ans).length = T.requests f ans := by
  induction T with
  | done o => rfl
  | ask q' next ih => exact ih _
  | request r next ih => exact congrArg (· + 1) (ih _)

end Spec.Player

theorem nonce_card : (Nat.card (Nonce CS) : ℚ) = Nat.card CS.Scalar - 1 := by
  rw [card_scalar_eq]; push_cast; ring

/-- One mode without info. -/
theorem prf_bound (wf : CS.WF) (mode : Mode) (output : CS.Scalar → Digests CS → Bytes → Option Bytes)
    (ho : ∀ k D x, output k D x = (outKey CS mode x).map fun x₀ => (D (outQ wf mode k x₀)).1)
    (T : Player DigestQuestion (DigestValue CS) Bytes (Option Bytes) Bool) (n : Nat)
    (hn : ∀ (D : Digests CS) ans, T.questions D ans ≤ n) :
    |chance (fun w : Nonce CS × Digests CS => T.run w.2 (output w.1.1 w.2) = true) -
      chance (fun w : Digests CS × Outputs CS => T.run w.1 (w.2.answer mode) = true)| ≤ n / (Nat.card CS.Scalar - 1) := by
  have : Finite CS.Scalar := VGroup.Lawful.finite_scalar
  have : Nonempty (Nonce CS) := ⟨⟨1, one_ne_zero⟩⟩
  rw [← nonce_card]
  refine chance_keys (fun (k : Nonce CS) D => T.run D (output k.1 D) = true) _
    (fun k p => Spoils (outQ wf mode k.1) (outKey CS mode) (fun _ => True) p.1 (p.2.answer mode) T) (fun k => ?_) n fun p => ?_
  · refine game_distance (str := outQ wf mode k.1) (key := outKey CS mode) (fine := fun _ => True)
      (real := output k.1) (ideal := fun _ F => Outputs.answer F mode) (outQ_inj wf mode k.1) ?_ T
    intro C p x _ hr
    rw [ho, Outputs.answer_eq]
    cases hk : outKey CS mode x with
    | none => rfl
    | some x₀ => exact congrArg (fun v : DigestValue CS => some v.1) (swapEntries_mem (outQ_inj wf mode k.1) C p (hr x₀ hk))
  · refine (card_witness _ (T.asked p.1 (p.2.answer mode))
      (fun q k => ∃ x : Short, Mapped CS mode x.1 ∧ outQ wf mode k.1 x = q) ?_ ?_).trans
      ((T.asked_length _ _).trans_le (hn _ _))
    · rintro k ⟨r, _, hf | ⟨x, hx, ha⟩⟩
      · exact absurd trivial hf
      · exact ⟨_, T.mem_asked ha, x, (outKey_some hx).1 ▸ (outKey_some hx).2, rfl⟩
    · rintro q k k' ⟨x, ⟨P, hP, h0⟩, hx⟩ ⟨x', _, hx'⟩
      obtain ⟨h1, _, h3⟩ := outString_inj (info := none) (info' := none) wf x.2 x'.2 (by simp) (by simp)
        (congrArg Subtype.val (hx.trans hx'.symm))
      rw [← h1, hashedInput_eq hP] at h3
      exact Subtype.ext (smul_left_injective _ h0 h3)

/-- C63: `OprfServer::evaluate` under a uniformly chosen key is a pseudorandom function, unconditionally: a party that asks for any
outputs and at most `n` digests, of any computing power, tells it from a random function with an advantage of at most
`n / (|scalars| - 1)`. -/
theorem C63_oprf_prf (wf : CS.WF) (T : Player DigestQuestion (DigestValue CS) Bytes (Option Bytes) Bool) (n : Nat)
    (hn : ∀ (D : Digests CS) answer, T.questions D answer ≤ n) :
    |chance (fun w : Nonce CS × Digests CS => T.run w.2 (oprfOutput w.1.1 w.2) = true) -
      chance (fun w : Digests CS × Outputs CS => T.run w.1 (w.2.answer .Oprf) = true)| ≤ n / (Nat.card CS.Scalar - 1) :=
  prf_bound wf .Oprf oprfOutput (oprfOutput_eq wf) T n hn

/-- C63: so is `VoprfServer::evaluate`, for a party that does not see the public key. -/
theorem C63_voprf_prf (wf : CS.WF) (T : Player DigestQuestion (DigestValue CS) Bytes (Option Bytes) Bool) (n : Nat)
    (hn : ∀ (D : Digests CS) answer, T.questions D answer ≤ n) :
    |chance (fun w : Nonce CS × Digests CS => T.run w.2 (voprfOutput w.1.1 (w.1.1 • CS.group.baseElem) w.2) = true) -
      chance (fun w : Digests CS × Outputs CS => T.run w.1 (w.2.answer .Voprf) = true)| ≤ n / (Nat.card CS.Scalar - 1) :=
  prf_bound wf .Voprf (fun k => voprfOutput k (k • CS.group.baseElem)) (fun k => voprfOutput_eq wf k _) T n hn

/-- C63: so is `PoprfServer::evaluate`, a function of input and info, for a party that does not see the public key; the bound for
at most `n` digests and `m` outputs is `(n + m) / (|scalars| - 1)`. -/
theorem C63_poprf_prf (wf : CS.WF) (T : Player DigestQuestion (DigestValue CS) (Bytes × Option Bytes) (Option Bytes) Bool)
    (n m : Nat) (hn : ∀ (D : Digests CS) answer, T.questions D answer ≤ n)
    (hm : ∀ (D : Digests CS) answer, T.requests D answer ≤ m) :
    |chance (fun w : Nonce CS × Digests CS => T.run w.2 (poprfOutput w.1.1 (w.1.1 • CS.group.baseElem) w.2) = true) -
      chance (fun w : Digests CS × InfoOutputs CS => T.run w.1 w.2.answer = true)| ≤
      (n + m : Nat) / (Nat.card CS.Scalar - 1) := by
  have : Finite CS.Scalar := VGroup.Lawful.finite_scalar
  have : Nonempty (Nonce CS) := ⟨⟨1, one_ne_zero⟩⟩
  rw [← nonce_card]
  refine chance_keys (fun (k : Nonce CS) D => T.run D (poprfOutput k.1 (k.1 • CS.group.baseElem) D) = true) _
    (fun k p => Spoils (outInfoQ wf k.1) (outInfoKey CS) (FineInfo k.1) p.1 p.2.answer T) (fun k => ?_) (n + m) fun p => ?_
  · refine game_distance (str := outInfoQ wf k.1) (key := outInfoKey CS) (fine := FineInfo k.1)
      (real := poprfOutput k.1 (k.1 • CS.group.baseElem)) (ideal := fun _ F => InfoOutputs.answer F) (outInfoQ_inj wf k.1) ?_ T
    intro C p x hf hr
    rw [poprfOutput_eq wf _ _ _ x hf, InfoOutputs.answer_eq]
    cases hk : outInfoKey CS x with
    | none => rfl
    | some x₀ => exact congrArg (fun v : DigestValue CS => some v.1) (swapEntries_mem (outInfoQ_inj wf k.1) C p (hr x₀ hk))
  · refine (card_witness _ ((T.asked p.1 p.2.answer).map Sum.inl ++ (T.sent p.1 p.2.answer).map Sum.inr)
      (Sum.elim (fun q k => ∃ x : Short × ShortInfo, Mapped CS .Poprf x.1.1 ∧ k.1 + hashedInfo CS x.2.1 ≠ 0 ∧
        outInfoQ wf k.1 x = q) (fun x k => k.1 + hashedInfo CS x.2 = 0)) ?_ ?_).trans ?_
    · rintro k ⟨r, hs, hb⟩
      by_cases hf : FineInfo k.1 r
      · obtain hf' | ⟨x, hx, ha⟩ := hb
        · exact absurd hf hf'
        obtain ⟨h1, h2, hP, t, ht⟩ := outInfoKey_some hx
        refine ⟨.inl _, List.mem_append_left _ (List.mem_map.mpr ⟨_, T.mem_asked ha, rfl⟩), x, h1 ▸ hP, ?_, rfl⟩
        rw [h2, hashedInfo_eq ht]
        exact hf t ht
      · simp only [FineInfo, not_forall, not_not] at hf
        obtain ⟨t, ht, h0⟩ := hf
        exact ⟨.inr r, List.mem_append_right _ (List.mem_map.mpr ⟨_, T.mem_sent hs, rfl⟩), by
          simp only [Sum.elim_inr, hashedInfo_eq ht]; exact h0⟩
    · rintro (q | x) k k'
      · rintro ⟨x, ⟨P, hP, h0⟩, hk, hx⟩ ⟨x', _, hk', hx'⟩
        obtain ⟨h1, h2, h3⟩ := outString_inj wf x.1.2 x'.1.2 x.2.2 x'.2.2 (congrArg Subtype.val (hx.trans hx'.symm))
        rw [← h1, ← h2, hashedInput_eq hP] at h3
        exact Subtype.ext (add_right_cancel (inv_injective (smul_left_injective _ h0 h3)))
      · intro h h'
        exact Subtype.ext (add_right_cancel (h.trans h'.symm))
    · rw [List.length_append, List.length_map, List.length_map, T.asked_length, T.sent_length]
      exact Nat.add_le_add (hn _ _) (hm _ _)

section examples
open Toy

theorem example_string : (finalizeInput [1] (suite.group.serializeElem exampleEval)).length ≤ 262143 := by
  rw [finalizeInput, List.length_append, List.length_append, framed, framed, List.length_append, List.length_append,
    suite.group.serializeElem_length]
  decide

/-- A party that knows the key (7): it asks for the output of `[1]`, computes the output itself, and compares. -/
def comparingParty : Player DigestQuestion (DigestValue suite) (suite.Elem ⊕ Bytes) (suite.Elem ⊕ Option Bytes) Bool :=
  .request (.inr [1]) fun v => .ask ⟨finalizeInput [1] (suite.group.serializeElem exampleEval), example_string⟩ fun a =>
    .done (match v with
      | .inr (some y) => decide (y = a.1)
      | _ => false)

theorem example_mapped : Spec.hashToGroup suite .Oprf [1] = .ok (exampleHash 1) ∧ exampleHash 1 ≠ (0 : F) :=
  ⟨rfl, exampleHash_eq.2.1⟩

/-- It always recognises the real output ... -/
example (D : Digests suite) : comparingParty.run D (oprfReal (7 : suite.Scalar) D) = true := by
  have h : oprfOutput (7 : suite.Scalar) D [1] =
      some (D ⟨finalizeInput [1] (suite.group.serializeElem exampleEval), example_string⟩).1 := by
    rw [oprfOutput_eq Toy.wf]
    have hk : outKey suite .Oprf [1] = some ⟨[1], by decide⟩ := dif_pos ⟨by decide, _, example_mapped.1, example_mapped.2⟩
    rw [hk]
    refine congrArg (fun q => some (D q).1) (Subtype.ext ?_)
    exact congrArg (fun E => outString suite [1] none ((7 : suite.Scalar) • E)) (hashedInput_eq example_mapped.1)
  simp only [comparingParty, Player.run, oprfReal, withOutputs, h, decide_true]

/-- ... and always presents the evaluated element: the bound of `C63_oprf` is not met by an impossible event. -/
example (D : Digests suite) (F : Outputs suite) : ∃ (x : Bytes) (E : suite.Elem),
    comparingParty.Sends D (oprfIdeal (7 : suite.Scalar) D F) (.inr x) ∧ Evaluates suite .Oprf (7 : suite.Scalar) x E ∧
      Presents D (oprfIdeal (7 : suite.Scalar) D F) comparingParty x none E :=
  ⟨[1], exampleEval, .inl rfl, ⟨_, example_mapped.1, rfl⟩, _, .inl rfl, rfl⟩

/-- A party for `C63_oprf_prf`: two outputs and one digest. -/
def onePrfQuestion : Player DigestQuestion (DigestValue suite) Bytes (Option Bytes) Bool :=
  .request [1] fun v => .request [2] fun w => .ask ⟨[], by decide⟩ fun a => .done (decide (v = w ∨ v = some a.1))

example (D : Digests suite) (ans : Bytes → Option Bytes) : onePrfQuestion.questions D ans ≤ 1 := le_rfl

/-- With 251 scalars its advantage is at most `1/250`. -/
example : |chance (fun w : Nonce suite × Digests suite => onePrfQuestion.run w.2 (oprfOutput w.1.1 w.2) = true) -
    chance (fun w : Digests suite × Outputs suite => onePrfQuestion.run w.1 (w.2.answer .Oprf) = true)| ≤ 1 / 250 := by
  have h := C63_oprf_prf Toy.wf onePrfQuestion 1 fun _ _ => le_rfl
  have hc : Nat.card suite.Scalar = 251 := show Nat.card (ZMod 251) = 251 by simp
  rw [hc] at h
  norm_num at h ⊢
  exact h

end examples

end Voprf
