import Verif.Spec.OneMore
import Verif.Props.Predict

/-!
# C55: more outputs than evaluations means solving a Diffie-Hellman problem
-/

namespace Voprf

open Spec

variable {CS : CipherSuite} [L : CS.group.Lawful]

theorem chance_or {α : Type} [Finite α] (P P' : α → Prop) :
    chance (fun x => P x ∨ P' x) ≤ chance P + chance P' := by
  classical
  have := Fintype.ofFinite α
  rw [chance_eq, chance_eq, chance_eq, ← add_div]
  refine div_le_div_of_nonneg_right ?_ (Nat.cast_nonneg _)
  rw [← Nat.cast_add, Nat.cast_le, Nat.card_eq_fintype_card, Nat.card_eq_fintype_card,
    Nat.card_eq_fintype_card, Fintype.card_subtype, Fintype.card_subtype, Fintype.card_subtype]
  refine le_trans (Finset.card_le_card ?_) (Finset.card_union_le _ _)
  intro x hx
  rcases (Finset.mem_filter.mp hx).2 with h | h
  · exact Finset.mem_union_left _ (Finset.mem_filter.mpr ⟨Finset.mem_univ _, h⟩)
  · exact Finset.mem_union_right _ (Finset.mem_filter.mpr ⟨Finset.mem_univ _, h⟩)

namespace Spec.Player
variable {Q A R V O X : Type}

theorem spent_readOff (size : R → Nat) (read : Q → List X) (found : List X) (T : Player Q A R V O) (f : Q → A)
    (answer : R → V) : (T.readOff read found).spent size f answer = T.spent size f answer := by
  induction T generalizing found with
  | done o => rfl
  | ask q next ih => exact ih _ _
  | request r next ih => exact congrArg (· + size r) (ih _ _)

theorem requests_readOff (read : Q → List X) (found : List X) (T : Player Q A R V O) (f : Q → A)
    (answer : R → V) : (T.readOff read found).requests f answer = T.requests f answer := by
  induction T generalizing found with
  | done o => rfl
  | ask q next ih => exact ih _ _
  | request r next ih => exact congrArg (· + 1) (ih _ _)

theorem mem_readOff (read : Q → List X) (found : List X) (T : Player Q A R V O) (f : Q → A) (answer : R → V)
    (x : X) (h : x ∈ found ∨ ∃ q, T.Asks f answer q ∧ x ∈ read q) :
    x ∈ (T.readOff read found).run f answer := by
  induction T generalizing found with
  | done o =>
    rcases h with h | ⟨q, h, _⟩
    · exact h
    · exact h.elim
  | ask q next ih =>
    refine ih _ _ ?_
    rcases h with h | ⟨q', h | h, hx⟩
    · exact .inl (List.mem_append_left _ h)
    · exact .inl (List.mem_append_right _ (h ▸ hx))
    · exact .inr ⟨q', h, hx⟩
  | request r next ih =>
    refine ih _ _ ?_
    rcases h with h | ⟨q', h, hx⟩
    · exact .inl h
    · exact .inr ⟨q', h, hx⟩

end Spec.Player

omit L in
theorem unframe_framed (x s : Bytes) (h : x.length ≤ 65535) : unframe (framed x ++ s) = some (x, s) := by
  have h1 : (UInt8.ofNat (x.length / 256)).toNat = x.length / 256 := by simp; omega
  have h2 : (UInt8.ofNat (x.length % 256)).toNat = x.length % 256 := by simp
  have h3 : x.length / 256 * 256 + x.length % 256 = x.length := by omega
  simp only [framed, be16, List.cons_append, List.nil_append, unframe, h1, h2, h3]
  rw [if_pos (by simp)]
  simp

omit L in
theorem elemBytes_length (wf : CS.WF) (E : CS.Elem) : (CS.group.serializeElem E).length ≤ 65535 := by
  rw [CS.group.serializeElem_length]
  have := wf.elem_length
  omega

theorem readFinal_eq (wf : CS.WF) (E : CS.Elem) (hE : E ≠ 0) :
    readFinal CS (framed (CS.group.serializeElem E) ++ ascii "Finalize") = some E := by
  unfold readFinal
  rw [unframe_framed _ _ (elemBytes_length wf E)]
  simp [VGroup.Lawful.deserializeElem_serialize E hE, Except.toOption]

theorem readPair_eq (wf : CS.WF) (q : DigestQuestion) (x : Bytes) (E : CS.Elem) (hx : x.length ≤ 65535)
    (hE : E ≠ 0) (hq : q.1 = finalizeInput x (CS.group.serializeElem E)) : (x, E) ∈ readPair CS q := by
  unfold readPair
  rw [hq, finalizeInput, List.append_assoc, unframe_framed _ _ hx]
  simp [readFinal_eq wf E hE]

theorem readTriple_eq (wf : CS.WF) (q : DigestQuestion) (x : Bytes) (info : Option Bytes) (E : CS.Elem)
    (hx : x.length ≤ 65535) (hi : (info.getD []).length ≤ 65535) (hE : E ≠ 0)
    (hq : q.1 = outString CS x info E) : (x, info.getD [], E) ∈ readTriple CS q := by
  unfold readTriple
  cases info with
  | none =>
    refine List.mem_append_right _ (List.mem_map.mpr ⟨(x, E), readPair_eq wf q x E hx hE hq, rfl⟩)
  | some i =>
    refine List.mem_append_left _ ?_
    simp only [outString, Option.getD_some] at hq hi ⊢
    rw [hq, finalizeInputInfo, List.append_assoc, List.append_assoc, unframe_framed _ _ hx]
    simp only [Option.bind_eq_bind, Option.bind_some]
    rw [unframe_framed _ _ hi]
    simp [readFinal_eq wf E hE]

omit L in
theorem rightCount_le {X Y Z : Type} {right : X → Y → Prop} {right' : X → Z → Prop} {l : List (X × Y)}
    {l' : List (X × Z)} (h : ∀ x y, (x, y) ∈ l → right x y → ∃ z, (x, z) ∈ l' ∧ right' x z) :
    rightCount right l ≤ rightCount right' l' := by
  refine Set.ncard_le_ncard ?_ ?_
  · rintro x ⟨y, hy, hr⟩
    exact h x y hy hr
  · exact (l'.map Prod.fst).finite_toSet.subset fun x ⟨z, hz, _⟩ => List.mem_map.mpr ⟨_, hz, rfl⟩

/-- C55, OPRF: a party that claims at most `m` outputs is right for more inputs than it had elements evaluated with at
most the probability, up to `m / 256^Nh`, that the solver made from it finds `k·HashToGroup(x)` for more inputs `x` than
it had elements evaluated. -/
theorem C55_oprf (wf : CS.WF) (k : CS.Scalar) (hk : k ≠ 0)
    (T : Player DigestQuestion (DigestValue CS) CS.Elem CS.Elem (List (Bytes × Bytes))) (m : Nat)
    (hm : ∀ D, (T.run D (oprfServe k D)).length ≤ m) :
    chance (fun D : Digests CS => T.requests D (oprfServe k D) <
        rightCount (fun x y => OprfServer.evaluate (CS := digestSuite CS D) ⟨k⟩ x = .ok y)
          (T.run D (oprfServe k D))) ≤
      chance (fun D : Digests CS => (solver T).requests D (oprfServe k D) <
        rightCount (fun x E => ∃ P, Spec.hashToGroup CS .Oprf x = .ok P ∧ E = k • P)
          ((solver T).run D (oprfServe k D))) +
      m / (256 : ℚ) ^ CS.hash.outputSize := by
  refine le_trans ?_ (add_le_add_right (C54_oprf wf k T m hm) _)
  refine le_trans (chance_mono ?_) (chance_or _ _)
  intro D h
  by_contra hcon
  push Not at hcon
  obtain ⟨h1, h2⟩ := hcon
  refine absurd (lt_of_lt_of_le h ?_) (lt_irrefl (T.requests D (oprfServe k D)))
  refine le_trans (rightCount_le ?_) (le_trans h1 (le_of_eq (Player.requests_readOff _ _ T D _)))
  intro x y hc he
  obtain ⟨P, hP, hp⟩ := h2 (x, y) hc he
  obtain ⟨P', hP', h0, hl, _⟩ := (oprf_digest_iff wf D k x y).mp he
  cases Except.ok.inj (hP.symm.trans hP')
  obtain ⟨q, ha, hq⟩ := hp
  exact ⟨k • P, Player.mem_readOff _ _ _ _ _ _ (.inr ⟨q, ha, readPair_eq wf q x _ hl (smul_ne_zero hk h0) hq⟩),
    P, hP, rfl⟩

/-- C55, VOPRF: the same; an element counts as evaluated whether it was sent alone or in a batch. -/
theorem C55_voprf (wf : CS.WF) (k : CS.Scalar) (hk : k ≠ 0) (pk : CS.Elem) {σ : Type} [RngCore σ]
    (T : Player DigestQuestion (DigestValue CS) (EvalRequest CS × σ) (EvalResponse CS) (List (Bytes × Bytes)))
    (m : Nat) (hm : ∀ D, (T.run D (voprfServe k pk D)).length ≤ m) :
    chance (fun D : Digests CS => T.spent (fun r => r.1.elems.length) D (voprfServe k pk D) <
        rightCount (fun x y => VoprfServer.evaluate (CS := digestSuite CS D) ⟨k, pk⟩ x = .ok y)
          (T.run D (voprfServe k pk D))) ≤
      chance (fun D : Digests CS => (solver T).spent (fun r => r.1.elems.length) D (voprfServe k pk D) <
        rightCount (fun x E => ∃ P, Spec.hashToGroup CS .Voprf x = .ok P ∧ E = k • P)
          ((solver T).run D (voprfServe k pk D))) +
      m / (256 : ℚ) ^ CS.hash.outputSize := by
  refine le_trans ?_ (add_le_add_right (C54_voprf wf k pk T m hm) _)
  refine le_trans (chance_mono ?_) (chance_or _ _)
  intro D h
  by_contra hcon
  push Not at hcon
  obtain ⟨h1, h2⟩ := hcon
  refine absurd (lt_of_lt_of_le h ?_) (lt_irrefl _)
  refine le_trans (rightCount_le ?_) (le_trans h1 (le_of_eq (Player.spent_readOff _ _ _ T D _)))
  intro x y hc he
  obtain ⟨P, hP, hp⟩ := h2 (x, y) hc he
  obtain ⟨P', hP', h0, hl, _⟩ := (voprf_digest_iff wf D k pk x y).mp he
  cases Except.ok.inj (hP.symm.trans hP')
  obtain ⟨q, ha, hq⟩ := hp
  exact ⟨k • P, Player.mem_readOff _ _ _ _ _ _ (.inr ⟨q, ha, readPair_eq wf q x _ hl (smul_ne_zero hk h0) hq⟩),
    P, hP, rfl⟩

/-- C55, POPRF: the same for pairs of an input and an info (an absent info counts as the empty one); what the solver
finds for them is `(k + HashToScalar(info))⁻¹·HashToGroup(x)`. -/
theorem C55_poprf (wf : CS.WF) (k : CS.Scalar) (pk : CS.Elem) {σ : Type} [RngCore σ]
    (T : Player DigestQuestion (DigestValue CS) (EvalRequest CS × Option Bytes × σ) (EvalResponse CS)
      (List (Bytes × Option Bytes × Bytes)))
    (m : Nat) (hm : ∀ D, (T.run D (poprfServe k pk D)).length ≤ m) :
    chance (fun D : Digests CS => T.spent (fun r => r.1.elems.length) D (poprfServe k pk D) <
        rightCount (fun xi iy => PoprfServer.evaluate (CS := digestSuite CS D) ⟨k, pk⟩ xi.1 iy.1 = .ok iy.2)
          ((T.run D (poprfServe k pk D)).map fun c => ((c.1, c.2.1.getD []), (c.2.1, c.2.2)))) ≤
      chance (fun D : Digests CS => (solverInfo T).spent (fun r => r.1.elems.length) D (poprfServe k pk D) <
        rightCount (fun xi E => ∃ P t, Spec.hashToGroup CS .Poprf xi.1 = .ok P ∧
            Spec.hashToScalar CS .Poprf (infoInput xi.2) = .ok t ∧ k + t ≠ 0 ∧ E = (k + t)⁻¹ • P)
          (((solverInfo T).run D (poprfServe k pk D)).map fun c => ((c.1, c.2.1), c.2.2))) +
      m / (256 : ℚ) ^ CS.hash.outputSize := by
  refine le_trans ?_ (add_le_add_right (C54_poprf wf k pk T m hm) _)
  refine le_trans (chance_mono ?_) (chance_or _ _)
  intro D h
  by_contra hcon
  push Not at hcon
  obtain ⟨h1, h2⟩ := hcon
  refine absurd (lt_of_lt_of_le h ?_) (lt_irrefl _)
  refine le_trans (rightCount_le ?_) (le_trans h1 (le_of_eq (Player.spent_readOff _ _ _ T D _)))
  rintro ⟨x, i⟩ ⟨info, y⟩ hc he
  obtain ⟨⟨x', info', y'⟩, hc', e⟩ := List.mem_map.mp hc
  simp only [Prod.mk.injEq] at e
  obtain ⟨⟨rfl, rfl⟩, rfl, rfl⟩ := e
  obtain ⟨P, t, hP, ht, hp⟩ := h2 (x', info', y') hc' he
  obtain ⟨P', t', hP', h0, hl, hi, ht', h1', _⟩ := (poprf_digest_iff wf D k pk _ _ _).mp he
  cases Except.ok.inj (hP.symm.trans hP')
  cases Except.ok.inj (ht.symm.trans ht')
  obtain ⟨q, ha, hq⟩ := hp
  refine ⟨(k + t)⁻¹ • P, List.mem_map.mpr ⟨_, Player.mem_readOff _ _ _ _ _ _ (.inr ⟨q, ha,
    readTriple_eq wf q _ info' _ hl hi (smul_ne_zero (inv_ne_zero h1') h0) ?_⟩), rfl⟩, P, t, hP, ht, h1', rfl⟩
  rw [hq]
  cases info' <;> rfl

section examples
open Toy

/-- The evaluated element of the input `[1]` under the key 7. -/
def exampleEval : suite.Elem := ((7 : F) * exampleHash 1 : F)

/-- A party that knows the key (7) and has nothing evaluated: it computes the evaluated element itself. -/
def knowingParty : Player DigestQuestion (DigestValue suite) suite.Elem suite.Elem (List (Bytes × Bytes)) :=
  .ask ⟨finalizeInput [1] (suite.group.serializeElem exampleEval), by
      rw [finalizeInput, List.length_append, List.length_append, framed, framed, List.length_append, List.length_append,
        suite.group.serializeElem_length]
      decide⟩ fun y => .done [([1], y.1)]

/-- Its one claim is right for every table although it sends no request: the first event of `C55_oprf` always
happens. -/
example (D : Digests suite) : knowingParty.requests D (oprfServe (7 : suite.Scalar) D) <
    rightCount (fun x y => OprfServer.evaluate (CS := digestSuite suite D) ⟨(7 : suite.Scalar)⟩ x = .ok y)
      (knowingParty.run D (oprfServe (7 : suite.Scalar) D)) := by
  refine (Set.ncard_pos ((List.finite_toSet [([1] : Bytes)]).subset ?_)).mpr ⟨[1], _, List.mem_singleton.mpr rfl, ?_⟩
  · rintro x ⟨y, hy, _⟩
    exact List.mem_singleton.mpr (congrArg Prod.fst (List.mem_singleton.mp hy))
  · refine (oprf_digest_iff Toy.wf D _ _ _).mpr ⟨exampleHash 1, rfl, exampleHash_eq.2.1, by decide, ?_⟩
    exact dif_pos (by
      rw [outString, finalizeInput, List.length_append, List.length_append, framed, framed, List.length_append,
        List.length_append, suite.group.serializeElem_length]
      decide)

/-- The solver made from the honest `exampleParty` finds the evaluated element of its input, with one request. -/
example (D : Digests suite) : (solver exampleParty).requests D (oprfServe (7 : suite.Scalar) D) = 1 ∧
    ([1], exampleEval) ∈ (solver exampleParty).run D (oprfServe (7 : suite.Scalar) D) :=
  ⟨rfl, Player.mem_readOff _ _ _ _ _ _ (.inr ⟨_, .inl rfl, readPair_eq Toy.wf _ [1] exampleEval (by decide)
    (show ((7 : F) * exampleHash 1 : F) ≠ 0 by decide +kernel) rfl⟩)⟩

end examples

end Voprf
