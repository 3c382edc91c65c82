import Verif.Spec.Transit
import Verif.Props.Sessions
import Verif.Props.ZeroKnowledge
import Verif.Props.Serialization
import Mathlib.Tactic.Abel

/-!
# C72: responses altered on the way are refused
-/

namespace Voprf

open Spec

/-- If the answer to one question, itself found without that answer, has to have one particular value, the chance is
`1 / |A|`. -/
theorem chance_one_answer {Q A : Type} [Finite Q] [Finite A] [Nonempty A] [DecidableEq Q] (good : (Q → A) → Prop)
    (pick : (Q → A) → Q)
    (inv : ∀ f x, good f → pick (Function.update f (pick f) x) = pick f)
    (uniq : ∀ f x, good f → good (Function.update f (pick f) x) → x = f (pick f)) :
    chance good ≤ 1 / Nat.card A := by
  have hA : 0 < (Nat.card A : ℚ) := by exact_mod_cast Nat.card_pos
  have hT : 0 < (Nat.card (Q → A) : ℚ) := by exact_mod_cast Nat.card_pos
  rw [chance_eq, div_le_div_iff₀ hT hA, one_mul]
  have hinj : Function.Injective fun p : {f : Q → A // good f} × A => Function.update p.1.1 (pick p.1.1) p.2 := by
    rintro ⟨⟨f, hf⟩, x⟩ ⟨⟨f', hf'⟩, x'⟩ h
    have h : Function.update f (pick f) x = Function.update f' (pick f') x' := h
    have hp : pick f = pick f' := by rw [← inv f x hf, h, inv f' x' hf']
    rw [hp] at h
    have hx : x = x' := by
      have := congrFun h (pick f')
      simpa using this
    have hff : f' = Function.update f (pick f) (f' (pick f')) := by
      rw [hp]
      funext q
      by_cases hq : q = pick f'
      · subst hq; simp
      · rw [Function.update_of_ne hq]
        have := congrFun h q
        rw [Function.update_of_ne hq, Function.update_of_ne hq] at this
        exact this.symm
    have := uniq f _ hf (hff ▸ hf')
    have hfe : f' = f := by rw [hff, this, Function.update_eq_self]
    subst hfe
    subst hx
    rfl
  have := Nat.card_le_card_of_injective _ hinj
  rw [Nat.card_prod] at this
  exact_mod_cast this

theorem chance_or_le {α : Type} [Finite α] (P P' : α → Prop) : chance (fun x => P x ∨ P' x) ≤ chance P + chance P' := by
  classical
  have := Fintype.ofFinite α
  rw [chance_eq, chance_eq, chance_eq, ← add_div]
  refine div_le_div_of_nonneg_right ?_ (Nat.cast_nonneg _)
  rw [← Nat.cast_add, Nat.cast_le, Nat.card_eq_fintype_card, Nat.card_eq_fintype_card, Nat.card_eq_fintype_card]
  exact Fintype.card_subtype_or _ _

variable {CS : CipherSuite} [L : CS.group.Lawful]

/-- `Σ w_i P_i` over the items of a batch, `P` the first or the second element of an item -/
def itemSum (wf : CS.WF) (mode : Mode) (B : CS.Elem) (f : Table CS) (side : CS.Elem × CS.Elem → CS.Elem)
    (items : List (Item CS)) : CS.Elem :=
  (items.map fun t => f (itemQ wf mode B t) • side t.1).sum

theorem itemSum_congr (wf : CS.WF) (mode : Mode) (B : CS.Elem) {f g : Table CS} (side : CS.Elem × CS.Elem → CS.Elem)
    {items : List (Item CS)} (h : ∀ t ∈ items, f (itemQ wf mode B t) = g (itemQ wf mode B t)) :
    itemSum wf mode B f side items = itemSum wf mode B g side items := by
  unfold itemSum
  congr 1
  exact List.map_congr_left fun t ht => by rw [h t ht]

theorem itemSum_update (wf : CS.WF) (mode : Mode) (B : CS.Elem) (f : Table CS) (side : CS.Elem × CS.Elem → CS.Elem)
    {items : List (Item CS)} (hnd : items.Nodup) (hi : ∀ t ∈ items, t.2 ≤ 65535) {t : Item CS} (ht : t ∈ items)
    (x : CS.Scalar) :
    itemSum wf mode B (Function.update f (itemQ wf mode B t) x) side items =
      itemSum wf mode B f side items + (x - f (itemQ wf mode B t)) • side t.1 := by
  induction items with
  | nil => simp at ht
  | cons u items ih =>
    obtain ⟨hu, hnd⟩ := List.nodup_cons.1 hnd
    have hi' := fun t ht => hi t (List.mem_cons_of_mem _ ht)
    rcases List.mem_cons.1 ht with rfl | ht
    · have hne : ∀ u ∈ items, itemQ wf mode B u ≠ itemQ wf mode B t := fun u hm e =>
        hu (itemQ_injOn wf mode B (hi' u hm) (hi t (List.mem_cons_self ..)) e ▸ hm)
      have := itemSum_congr wf mode B (f := Function.update f (itemQ wf mode B t) x) (g := f) side (items := items)
        fun u hm => Function.update_of_ne (hne u hm) _ _
      unfold itemSum at this ⊢
      rw [List.map_cons, List.sum_cons, List.map_cons, List.sum_cons, this, Function.update_self, sub_smul]
      abel
    · have hne : itemQ wf mode B u ≠ itemQ wf mode B t := fun e =>
        hu (itemQ_injOn wf mode B (hi u (List.mem_cons_self ..)) (hi' t ht) e ▸ ht)
      have := ih hnd hi' ht
      unfold itemSum at this ⊢
      rw [List.map_cons, List.sum_cons, List.map_cons, List.sum_cons, this, Function.update_of_ne hne]
      abel

theorem zipIdx_nodup {α : Type} (l : List α) : l.zipIdx.Nodup := by
  refine List.Nodup.of_map (f := fun t => t.2) ?_
  rw [List.zipIdx_map_snd]; exact List.nodup_range'

theorem zipIdx_index_le {α : Type} {l : List α} (h : l.length ≤ 65535) : ∀ t ∈ l.zipIdx, t.2 ≤ 65535 := by
  rintro ⟨p, i⟩ ht
  have := List.snd_lt_of_mem_zipIdx ht
  simp at this
  show i ≤ 65535
  omega

theorem item_cancel (t : Item CS) (h : t.1 ≠ (0, 0)) {z : CS.Scalar} (h1 : z • t.1.1 = 0) (h2 : z • t.1.2 = 0) : z = 0 := by
  by_contra hz
  refine h (Prod.ext ?_ ?_)
  · have := congrArg (fun e => z⁻¹ • e) h1
    simpa [smul_smul, inv_mul_cancel₀ hz] using this
  · have := congrArg (fun e => z⁻¹ • e) h2
    simpa [smul_smul, inv_mul_cancel₀ hz] using this

/-- An honest answer, and what arrives of it.  All of it may depend on one entry of the table (the tweak) besides the weights and
the challenge. -/
structure Transit (wf : CS.WF) (mode : Mode) where
  q0 : Question
  notWeight : ∀ B i C D, q0 ≠ weightQ wf mode B i C D
  notChallenge : ∀ B M Z T U, q0 ≠ challengeQ wf mode B M Z T U
  key : CS.Scalar → CS.Scalar
  nonce : CS.Scalar
  sent : CS.Scalar → List (CS.Elem × CS.Elem)
  got : CS.Scalar → CS.Scalar × CS.Scalar → List (CS.Elem × CS.Elem) × CS.Scalar × CS.Scalar

namespace Transit
variable {wf : CS.WF} {mode : Mode} (T : Transit wf mode)

def pk (f : Table CS) : CS.Elem := T.key (f T.q0) • CS.group.baseElem
def items (f : Table CS) : List (Item CS) := (T.sent (f T.q0)).zipIdx
def M (f : Table CS) : CS.Elem := itemSum wf mode (T.pk f) f Prod.fst (T.items f)
def Z (f : Table CS) : CS.Elem := itemSum wf mode (T.pk f) f Prod.snd (T.items f)

/-- the server's challenge question -/
def sentQ (f : Table CS) : Question :=
  challengeQ wf mode (T.pk f) (T.M f) (T.Z f) (T.nonce • CS.group.baseElem) (T.nonce • T.M f)

/-- the server's proof -/
def proof (f : Table CS) : CS.Scalar × CS.Scalar := (f (T.sentQ f), T.nonce - f (T.sentQ f) * T.key (f T.q0))

/-- what arrives -/
def recv (f : Table CS) : List (CS.Elem × CS.Elem) × CS.Scalar × CS.Scalar := T.got (f T.q0) (T.proof f)
def M' (f : Table CS) : CS.Elem := itemSum wf mode (T.pk f) f Prod.fst (T.recv f).1.zipIdx
def Z' (f : Table CS) : CS.Elem := itemSum wf mode (T.pk f) f Prod.snd (T.recv f).1.zipIdx

/-- the client's challenge question -/
def gotQ (f : Table CS) : Question :=
  challengeQ wf mode (T.pk f) (T.M' f) (T.Z' f) ((T.recv f).2.2 • CS.group.baseElem + (T.recv f).2.1 • T.pk f)
    ((T.recv f).2.2 • T.M' f + (T.recv f).2.1 • T.Z' f)

/-- an altered answer of admissible size is accepted -/
structure Fooled (f : Table CS) : Prop where
  altered : T.recv f ≠ (T.sent (f T.q0), T.proof f)
  sentLength : (T.sent (f T.q0)).length ≤ 65535
  gotLength : (T.recv f).1.length ≤ 65535
  sentValid : ∀ p ∈ T.sent (f T.q0), p ≠ (0, 0)
  gotValid : ∀ p ∈ (T.recv f).1, p ≠ (0, 0)
  accepted : f (T.gotQ f) = (T.recv f).2.1

theorem stable {f : Table CS} {q : Question} (x : CS.Scalar) (h0 : T.q0 ≠ q)
    (hw : ∀ t ∈ T.items f, itemQ wf mode (T.pk f) t ≠ q) (hc : T.sentQ f ≠ q) :
    (Function.update f q x) T.q0 = f T.q0 ∧ T.pk (Function.update f q x) = T.pk f ∧
    T.items (Function.update f q x) = T.items f ∧ T.M (Function.update f q x) = T.M f ∧
    T.Z (Function.update f q x) = T.Z f ∧ T.recv (Function.update f q x) = T.recv f := by
  have e0 : (Function.update f q x) T.q0 = f T.q0 := Function.update_of_ne h0 _ _
  have e1 : T.pk (Function.update f q x) = T.pk f := by unfold pk; rw [e0]
  have e2 : T.items (Function.update f q x) = T.items f := by unfold items; rw [e0]
  have e3 : T.M (Function.update f q x) = T.M f := by
    unfold M; rw [e1, e2]
    exact itemSum_congr wf mode _ _ fun t ht => Function.update_of_ne (hw t ht) _ _
  have e4 : T.Z (Function.update f q x) = T.Z f := by
    unfold Z; rw [e1, e2]
    exact itemSum_congr wf mode _ _ fun t ht => Function.update_of_ne (hw t ht) _ _
  have e5 : T.sentQ (Function.update f q x) = T.sentQ f := by unfold sentQ; rw [e1, e3, e4]
  have e6 : T.proof (Function.update f q x) = T.proof f := by
    unfold proof; rw [e0, e5, Function.update_of_ne hc]
  exact ⟨e0, e1, e2, e3, e4, by unfold recv; rw [e0, e6]⟩

/-- the client asks something the server did not ask, and the answer happens to be the challenge received -/
theorem chance_other_question : chance (fun f => T.Fooled f ∧ T.gotQ f ≠ T.sentQ f) ≤ 1 / Nat.card CS.Scalar := by
  have key : ∀ f x, T.gotQ f ≠ T.sentQ f →
      T.gotQ (Function.update f (T.gotQ f) x) = T.gotQ f ∧ T.recv (Function.update f (T.gotQ f) x) = T.recv f := by
    intro f x h
    obtain ⟨-, e1, -, -, -, e5⟩ := T.stable (f := f) (q := T.gotQ f) x (T.notChallenge _ _ _ _ _)
      (fun t _ => weightQ_ne_challengeQ wf mode _ _ _ _ _ _ _ _ _) (Ne.symm h)
    refine ⟨?_, e5⟩
    have hm : T.M' (Function.update f (T.gotQ f) x) = T.M' f := by
      unfold M'; rw [e1, e5]
      exact itemSum_congr wf mode _ _ fun t _ =>
        Function.update_of_ne (weightQ_ne_challengeQ wf mode _ _ _ _ _ _ _ _ _) _ _
    have hz : T.Z' (Function.update f (T.gotQ f) x) = T.Z' f := by
      unfold Z'; rw [e1, e5]
      exact itemSum_congr wf mode _ _ fun t _ =>
        Function.update_of_ne (weightQ_ne_challengeQ wf mode _ _ _ _ _ _ _ _ _) _ _
    have : T.gotQ (Function.update f (T.gotQ f) x) = challengeQ wf mode (T.pk (Function.update f (T.gotQ f) x))
        (T.M' (Function.update f (T.gotQ f) x)) (T.Z' (Function.update f (T.gotQ f) x))
        ((T.recv (Function.update f (T.gotQ f) x)).2.2 • CS.group.baseElem +
          (T.recv (Function.update f (T.gotQ f) x)).2.1 • T.pk (Function.update f (T.gotQ f) x))
        ((T.recv (Function.update f (T.gotQ f) x)).2.2 • T.M' (Function.update f (T.gotQ f) x) +
          (T.recv (Function.update f (T.gotQ f) x)).2.1 • T.Z' (Function.update f (T.gotQ f) x)) := rfl
    rw [this, hm, hz, e1, e5]
    rfl
  refine chance_one_answer _ T.gotQ (fun f x h => (key f x h.2).1) fun f x h h' => ?_
  obtain ⟨e1, e2⟩ := key f x h.2
  have := h'.1.accepted
  rw [e1, e2, Function.update_self] at this
  rw [this, h.1.accepted]

/-- an item that was not sent arrives, and the weighted sums are the same nevertheless -/
theorem chance_new_item : chance (fun f => T.Fooled f ∧ T.M' f = T.M f ∧ T.Z' f = T.Z f ∧
    ∃ t ∈ (T.recv f).1.zipIdx, t ∉ T.items f) ≤ 1 / Nat.card CS.Scalar := by
  classical
  let sel : List (Item CS) → List (Item CS) → Item CS := fun l l' =>
    if h : ∃ t ∈ l, t ∉ l' then h.choose else ((0, 0), 0)
  have hsel : ∀ l l', (∃ t ∈ l, t ∉ l') → sel l l' ∈ l ∧ sel l l' ∉ l' := by
    intro l l' h
    have := h.choose_spec
    simp only [sel, dif_pos h]
    exact this
  let pick : Table CS → Question := fun f => itemQ wf mode (T.pk f) (sel (T.recv f).1.zipIdx (T.items f))
  have st : ∀ f x, T.Fooled f → (∃ t ∈ (T.recv f).1.zipIdx, t ∉ T.items f) → _ := fun f x h hn =>
    T.stable (f := f) (q := pick f) x (T.notWeight _ _ _ _)
      (fun t ht e => (hsel _ _ hn).2 (itemQ_injOn wf mode _ (zipIdx_index_le h.sentLength t ht)
        (zipIdx_index_le h.gotLength _ (hsel _ _ hn).1) e ▸ ht))
      (Ne.symm (weightQ_ne_challengeQ wf mode _ _ _ _ _ _ _ _ _))
  refine chance_one_answer _ pick (fun f x h => ?_) fun f x h h' => ?_
  · obtain ⟨-, e1, e2, -, -, e5⟩ := st f x h.1 h.2.2.2
    show itemQ wf mode _ _ = itemQ wf mode _ _
    rw [e1, e2, e5]
  · obtain ⟨-, e1, e2, e3, e4, e5⟩ := st f x h.1 h.2.2.2
    obtain ⟨hin, -⟩ := hsel _ _ h.2.2.2
    have hv : (sel (T.recv f).1.zipIdx (T.items f)).1 ≠ (0, 0) := by
      refine h.1.gotValid _ ?_
      have := List.mem_map_of_mem (f := Prod.fst) hin
      rwa [List.zipIdx_map_fst] at this
    have hM : T.M' (Function.update f (pick f) x) =
        T.M' f + (x - f (pick f)) • (sel (T.recv f).1.zipIdx (T.items f)).1.1 := by
      unfold M'; rw [e1, e5]
      exact itemSum_update wf mode _ f _ (zipIdx_nodup _) (zipIdx_index_le h.1.gotLength) hin x
    have hZ : T.Z' (Function.update f (pick f) x) =
        T.Z' f + (x - f (pick f)) • (sel (T.recv f).1.zipIdx (T.items f)).1.2 := by
      unfold Z'; rw [e1, e5]
      exact itemSum_update wf mode _ f _ (zipIdx_nodup _) (zipIdx_index_le h.1.gotLength) hin x
    rw [h'.2.1, e3, h.2.1, left_eq_add] at hM
    rw [h'.2.2.1, e4, h.2.2.1, left_eq_add] at hZ
    exact sub_eq_zero.1 (item_cancel _ hv hM hZ)

/-- only the first `n` of the items sent arrive, and the weighted sums are the same nevertheless -/
theorem chance_fewer_items (n : Nat) : chance (fun f => T.Fooled f ∧ n < (T.sent (f T.q0)).length ∧
    itemSum wf mode (T.pk f) f Prod.fst ((T.items f).take n) = T.M f ∧
    itemSum wf mode (T.pk f) f Prod.snd ((T.items f).take n) = T.Z f) ≤ 1 / Nat.card CS.Scalar := by
  classical
  let last : Table CS → Item CS := fun f => ((T.sent (f T.q0)).getD n (0, 0), n)
  let pick : Table CS → Question := fun f => itemQ wf mode (T.pk f) (last f)
  have hlast : ∀ f, n < (T.sent (f T.q0)).length → last f ∈ T.items f := by
    intro f h
    show (_, n) ∈ (T.sent (f T.q0)).zipIdx
    rw [List.mem_zipIdx_iff_getElem?]
    simp [List.getElem?_eq_getElem h]
  have htake : ∀ f, ∀ t ∈ (T.items f).take n, t ≠ last f := by
    intro f t ht e
    have : t.2 < n := by
      obtain ⟨i, hi, rfl⟩ := List.getElem_of_mem ht
      rw [List.getElem_take]
      simp only [items, List.getElem_zipIdx]
      simp only [List.length_take] at hi
      omega
    rw [e] at this
    exact Nat.lt_irrefl _ this
  have st : ∀ f x, (Function.update f (pick f) x) T.q0 = f T.q0 ∧ T.pk (Function.update f (pick f) x) = T.pk f ∧
      T.items (Function.update f (pick f) x) = T.items f := by
    intro f x
    have e0 : (Function.update f (pick f) x) T.q0 = f T.q0 := Function.update_of_ne (T.notWeight _ _ _ _) _ _
    exact ⟨e0, by unfold pk; rw [e0], by unfold items; rw [e0]⟩
  refine chance_one_answer _ pick (fun f x h => ?_) fun f x h h' => ?_
  · obtain ⟨e0, e1, e2⟩ := st f x
    show itemQ wf mode _ ((T.sent _).getD n (0, 0), n) = _
    rw [e1, e0]
  · obtain ⟨e0, e1, e2⟩ := st f x
    have hin := hlast f h.2.1
    have hidx := zipIdx_index_le h.1.sentLength
    have hv : (last f).1 ≠ (0, 0) := by
      refine h.1.sentValid _ ?_
      have := List.mem_map_of_mem (f := Prod.fst) hin
      unfold items at this
      rwa [List.zipIdx_map_fst] at this
    have hrest : ∀ side, itemSum wf mode (T.pk f) (Function.update f (pick f) x) side ((T.items f).take n) =
        itemSum wf mode (T.pk f) f side ((T.items f).take n) := fun side =>
      itemSum_congr wf mode _ side fun t ht => Function.update_of_ne (fun e => htake f t ht
        (itemQ_injOn wf mode _ (hidx t (List.mem_of_mem_take ht)) (hidx _ hin) e)) _ _
    have up : ∀ side, itemSum wf mode (T.pk f) (Function.update f (pick f) x) side (T.items f) =
        itemSum wf mode (T.pk f) f side (T.items f) + (x - f (pick f)) • side (last f).1 := fun side =>
      itemSum_update wf mode _ f side (zipIdx_nodup _) hidx hin x
    have hM := h'.2.2.1
    have hZ := h'.2.2.2
    unfold M at hM
    unfold Z at hZ
    rw [e1, e2, hrest, up, h.2.2.1] at hM
    rw [e1, e2, hrest, up, h.2.2.2] at hZ
    exact sub_eq_zero.1 (item_cancel _ hv (left_eq_add.1 hM) (left_eq_add.1 hZ))

/-- If both ask the same question, the proof arrived unaltered and the weighted sums are the same. -/
theorem same_question {f : Table CS} (h : T.Fooled f) (hq : T.gotQ f = T.sentQ f) :
    T.M' f = T.M f ∧ T.Z' f = T.Z f ∧ (T.recv f).2 = T.proof f := by
  have hc : f (T.sentQ f) = (T.recv f).2.1 := hq ▸ h.accepted
  obtain ⟨-, hM, hZ, hT, -⟩ := challengeQ_inj wf mode hq
  refine ⟨hM, hZ, Prod.ext hc.symm ?_⟩
  show (T.recv f).2.2 = T.nonce - f (T.sentQ f) * T.key (f T.q0)
  unfold pk at hT
  rw [smul_smul, ← add_smul] at hT
  rw [hc, eq_sub_iff_add_eq]
  exact smul_base_inj hT

omit L in
theorem take_of_subset {l l' : List (CS.Elem × CS.Elem)} (h : ∀ t ∈ l'.zipIdx, t ∈ l.zipIdx) : l' = l.take l'.length := by
  refine List.ext_getElem? fun i => ?_
  by_cases hi : i < l'.length
  · have := h (l'[i], i) (by rw [List.mem_zipIdx_iff_getElem?]; simp [List.getElem?_eq_getElem hi])
    rw [List.mem_zipIdx_iff_getElem?] at this
    rw [List.getElem?_take, if_pos hi, this, List.getElem?_eq_getElem hi]
  · rw [List.getElem?_take, if_neg hi, List.getElem?_eq_none (by omega)]

theorem zipIdx_take {α : Type} (l : List α) (n : Nat) : (l.take n).zipIdx = l.zipIdx.take n := by
  refine List.ext_getElem? fun i => ?_
  rw [List.getElem?_take]
  by_cases hi : i < n
  · simp [hi]
  · simp [hi]

/-- What happens if an altered answer is accepted. -/
theorem fooled_cases {f : Table CS} (h : T.Fooled f) :
    (T.Fooled f ∧ T.gotQ f ≠ T.sentQ f) ∨
    (T.Fooled f ∧ T.M' f = T.M f ∧ T.Z' f = T.Z f ∧ ∃ t ∈ (T.recv f).1.zipIdx, t ∉ T.items f) ∨
    (T.Fooled f ∧ (T.recv f).1.length < (T.sent (f T.q0)).length ∧
      itemSum wf mode (T.pk f) f Prod.fst ((T.items f).take (T.recv f).1.length) = T.M f ∧
      itemSum wf mode (T.pk f) f Prod.snd ((T.items f).take (T.recv f).1.length) = T.Z f) := by
  by_cases hq : T.gotQ f = T.sentQ f
  · obtain ⟨hM, hZ, hp⟩ := T.same_question h hq
    by_cases hn : ∃ t ∈ (T.recv f).1.zipIdx, t ∉ T.items f
    · exact .inr (.inl ⟨h, hM, hZ, hn⟩)
    · have hsub : ∀ t ∈ (T.recv f).1.zipIdx, t ∈ (T.sent (f T.q0)).zipIdx := fun t ht =>
        Classical.not_not.1 fun hc => hn ⟨t, ht, hc⟩
      have ht := take_of_subset hsub
      have hne : (T.recv f).1 ≠ T.sent (f T.q0) := fun e => h.altered (Prod.ext e hp)
      have hlt : (T.recv f).1.length < (T.sent (f T.q0)).length := by
        by_contra hge
        rw [List.take_of_length_le (by omega)] at ht
        exact hne ht
      have hz : (T.items f).take (T.recv f).1.length = (T.recv f).1.zipIdx := by
        unfold items
        rw [← zipIdx_take, ← ht]
      exact .inr (.inr ⟨h, hlt, by rw [hz]; exact hM, by rw [hz]; exact hZ⟩)
  · exact .inl ⟨h, hq⟩

theorem chance_fooled (n : Nat) :
    chance (fun f => T.Fooled f ∧ (T.recv f).1.length = n) ≤ 3 / Nat.card CS.Scalar := by
  refine (chance_mono (P' := fun f => (T.Fooled f ∧ T.gotQ f ≠ T.sentQ f) ∨
    (T.Fooled f ∧ T.M' f = T.M f ∧ T.Z' f = T.Z f ∧ ∃ t ∈ (T.recv f).1.zipIdx, t ∉ T.items f) ∨
    (T.Fooled f ∧ n < (T.sent (f T.q0)).length ∧
      itemSum wf mode (T.pk f) f Prod.fst ((T.items f).take n) = T.M f ∧
      itemSum wf mode (T.pk f) f Prod.snd ((T.items f).take n) = T.Z f)) ?_).trans ?_
  · rintro f ⟨h, rfl⟩
    exact T.fooled_cases h
  · refine (chance_or_le _ _).trans ?_
    refine (add_le_add T.chance_other_question ((chance_or_le _ _).trans
      (add_le_add T.chance_new_item (T.chance_fewer_items n)))).trans (le_of_eq ?_)
    ring

/-- with as many items arriving as were sent -/
theorem chance_fooled_same :
    chance (fun f => T.Fooled f ∧ (T.recv f).1.length = (T.sent (f T.q0)).length) ≤ 2 / Nat.card CS.Scalar := by
  refine (chance_mono (P' := fun f => (T.Fooled f ∧ T.gotQ f ≠ T.sentQ f) ∨
    (T.Fooled f ∧ T.M' f = T.M f ∧ T.Z' f = T.Z f ∧ ∃ t ∈ (T.recv f).1.zipIdx, t ∉ T.items f)) ?_).trans ?_
  · rintro f ⟨h, hl⟩
    rcases T.fooled_cases h with h | h | ⟨-, h, -⟩
    · exact .inl h
    · exact .inr h
    · omega
  · refine (chance_or_le _ _).trans ?_
    refine (add_le_add T.chance_other_question T.chance_new_item).trans (le_of_eq ?_)
    ring

end Transit

/-! ## The calls -/

theorem weights_items (wf : CS.WF) (f : Table CS) (mode : Mode) (B : CS.Elem) (ps : List (CS.Elem × CS.Elem)) :
    weights (oracleSuite CS f) mode B (ps.map Prod.fst) (ps.map Prod.snd) =
      .ok (ps.zipIdx.map fun t => f (itemQ wf mode B t)) := by
  have hzip : (ps.map Prod.fst).zip (ps.map Prod.snd) = ps := by
    rw [List.zip_map', List.map_id'']
    intro p; rfl
  refine Eq.trans ?_ (oracle_weightsFrom wf f mode B ps 0)
  unfold weights
  exact congrArg (weightsFrom (oracleSuite CS f) mode B 0) hzip

theorem lincomb_itemSum (wf : CS.WF) (f : Table CS) (mode : Mode) (B : CS.Elem) (ps : List (CS.Elem × CS.Elem))
    (side : CS.Elem × CS.Elem → CS.Elem) :
    lincomb (ps.zipIdx.map fun t => f (itemQ wf mode B t)) (ps.map side) = itemSum wf mode B f side ps.zipIdx := by
  have h : ps.map side = ps.zipIdx.map fun t => side t.1 := by
    conv_lhs => rw [← List.zipIdx_map_fst 0 ps, List.map_map]
    rfl
  rw [h, lincomb_items]
  rfl

/-- What an accepted proof says about the table. -/
theorem accepted_items (wf : CS.WF) (f : Table CS) (mode : Mode) (B : CS.Elem) (ps : List (CS.Elem × CS.Elem))
    {Cs Ds : List CS.Elem} (hC : ps.map Prod.fst = Cs) (hD : ps.map Prod.snd = Ds)
    (c s : CS.Scalar) (h : Accepted (oracleSuite CS f) mode B Cs Ds c s) :
    f (challengeQ wf mode B (itemSum wf mode B f Prod.fst ps.zipIdx) (itemSum wf mode B f Prod.snd ps.zipIdx)
      (s • CS.group.baseElem + c • B)
      (s • itemSum wf mode B f Prod.fst ps.zipIdx + c • itemSum wf mode B f Prod.snd ps.zipIdx)) = c := by
  subst hC hD
  obtain ⟨ws, hws, ha⟩ := h
  have e : (ws : List CS.Scalar) = _ := (Except.ok.inj (hws.symm.trans (weights_items wf f mode B ps)))
  subst e
  rw [← lincomb_itemSum, ← lincomb_itemSum]
  exact Except.ok.inj ((oracle_challenge wf f mode _ _ _ _ _).symm.trans ha)

/-- The nonce drawn from a generator. -/
def nonceOf (CS : CipherSuite) {σ : Type} [RngCore σ] (rng : σ) [CS.group.Lawful] : CS.Scalar :=
  ((CS.group.randomScalar rng).map Prod.fst).getD 0

/-- The proof made for pairs of elements and their `k`-multiples. -/
theorem proof_items (wf : CS.WF) (f : Table CS) {σ : Type} [RngCore σ] (rng : σ) (k : CS.Scalar) (mode : Mode)
    (ps : List (CS.Elem × CS.Elem)) (hk : ∀ p ∈ ps, p.2 = k • p.1)
    {Cs Ds : List CS.Elem} (hC : ps.map Prod.fst = Cs) (hD : ps.map Prod.snd = Ds) (pr : Proof (oracleSuite CS f) × σ)
    (h : generateProof (oracleSuite CS f) rng k CS.group.baseElem (k • CS.group.baseElem) Cs Ds mode = .ok pr) :
    ps.length ≤ 65535 ∧
    (pr.1.cScalar : CS.Scalar) = f (challengeQ wf mode (k • CS.group.baseElem)
      (itemSum wf mode (k • CS.group.baseElem) f Prod.fst ps.zipIdx)
      (itemSum wf mode (k • CS.group.baseElem) f Prod.snd ps.zipIdx) (nonceOf CS rng • CS.group.baseElem)
      (nonceOf CS rng • itemSum wf mode (k • CS.group.baseElem) f Prod.fst ps.zipIdx)) ∧
    (pr.1.sScalar : CS.Scalar) = nonceOf CS rng - (show CS.Scalar from pr.1.cScalar) * k := by
  subst hC hD
  have hw := weights_items wf f mode (k • CS.group.baseElem) ps
  have hn : ps.length ≤ 65535 := by
    have h' := (generateProof_eq (CS := oracleSuite CS f) (oracle_wf wf f) rng k CS.group.baseElem
      (k • CS.group.baseElem) (ps.map Prod.fst) (ps.map Prod.snd) mode).symm.trans h
    by_contra hc
    have hcond : (ps.map Prod.fst).length ≠ (ps.map Prod.snd).length ∨ 65535 < (ps.map Prod.fst).length :=
      .inr (by rw [List.length_map]; omega)
    have := (if_pos hcond).symm.trans h'
    exact absurd this (by simp)
  obtain ⟨ρ, g, hr⟩ : ∃ ρ g, CS.group.randomScalar rng = some (ρ, g) := by
    have h' := (generateProof_eq (CS := oracleSuite CS f) (oracle_wf wf f) rng k CS.group.baseElem
      (k • CS.group.baseElem) (ps.map Prod.fst) (ps.map Prod.snd) mode).symm.trans h
    have hcond : ¬ ((ps.map Prod.fst).length ≠ (ps.map Prod.snd).length ∨ 65535 < (ps.map Prod.fst).length) := by
      rw [List.length_map, List.length_map]; omega
    have h' := (if_neg hcond).symm.trans h'
    cases hr : CS.group.randomScalar rng with
    | some p => exact ⟨p.1, p.2, rfl⟩
    | none =>
      exfalso
      have hr' : (oracleSuite CS f).group.randomScalar rng = none := hr
      simp only [hw, hr'] at h'
      exact absurd h' (by simp)
  have hno : nonceOf CS rng = ρ := by unfold nonceOf; rw [hr]; rfl
  have e := oracle_generateProof wf f rng g ρ k hr (k • CS.group.baseElem) (ps.map Prod.fst) (ps.map Prod.snd)
    (by rw [List.length_map, List.length_map]) (by rw [List.length_map]; exact hn) mode _ hw
  have e := Res.ok.inj (h.symm.trans e)
  subst e
  have hz : itemSum wf mode (k • CS.group.baseElem) f Prod.snd ps.zipIdx =
      k • itemSum wf mode (k • CS.group.baseElem) f Prod.fst ps.zipIdx := by
    rw [← lincomb_itemSum, ← lincomb_itemSum, ← lincomb_smul, List.map_map]
    congr 1
    exact List.map_congr_left hk
  refine ⟨hn, ?_, ?_⟩
  · refine (congrArg (fun M : CS.Elem => f (challengeQ wf mode (k • CS.group.baseElem) M (k • M) (ρ • CS.group.baseElem)
      (ρ • M))) (lincomb_itemSum wf f mode (k • CS.group.baseElem) ps Prod.fst)).trans ?_
    rw [hno, hz]
  · show ρ - f _ * k = _ - f _ * k
    rw [hno]

theorem Res.of_bind_ok {α β : Type} {x : Res α} {g : α → Res β} {b : β} (h : (x >>= g) = .ok b) :
    ∃ a, x = .ok a ∧ g a = .ok b := by
  cases x with
  | ok a => exact ⟨a, rfl, h⟩
  | err e => exact absurd h (by simp)
  | panic => exact absurd h (by simp)
  | diverge => exact absurd h (by simp)

theorem Res.of_map_ok {α β : Type} {x : Res α} {g : α → β} {b : β} (h : g <$> x = .ok b) : ∃ a, x = .ok a ∧ g a = b := by
  cases x with
  | ok a => exact ⟨a, rfl, Res.ok.inj h⟩
  | err e => exact absurd (show (Res.err e : Res β) = .ok b from h) (by simp)
  | panic => exact absurd (show (Res.panic : Res β) = .ok b from h) (by simp)
  | diverge => exact absurd (show (Res.diverge : Res β) = .ok b from h) (by simp)

theorem Res.of_unwrap_ok {α : Type} {x : Res α} {a : α} (h : Res.unwrap x = .ok a) : x = .ok a := by
  cases x with
  | ok b => exact h
  | err e => exact absurd (show (Res.panic : Res α) = .ok a from h) (by simp)
  | panic => exact absurd (show (Res.panic : Res α) = .ok a from h) (by simp)
  | diverge => exact absurd (show (Res.diverge : Res α) = .ok a from h) (by simp)

theorem voprfAnswer_ok (wf : CS.WF) (f : Table CS) {σ : Type} [RngCore σ] (rng : σ) (k : CS.Scalar) (pk : CS.Elem)
    (r : EvalRequest CS) (v : Sent CS) (h : voprfAnswer k pk r f rng = .ok v) :
    ∃ pr : Proof (oracleSuite CS f) × σ,
      generateProof (oracleSuite CS f) rng k CS.group.baseElem pk r.elems
        (r.elems.map fun b : CS.Elem => (k • b : CS.Elem)) .Voprf = .ok pr ∧
      v = (r.elems.map fun b : CS.Elem => (k • b : CS.Elem), pr.1.cScalar, pr.1.sScalar) := by
  cases r with
  | one b =>
    have e := VoprfServer.blindEvaluate_eq (CS := oracleSuite CS f) (oracle_wf wf f) ⟨k, pk⟩ rng ⟨b⟩
    obtain ⟨a, ha, hv⟩ := Res.of_map_ok h
    obtain ⟨pr, hp, hpa⟩ := Res.of_bind_ok (e.symm.trans ha)
    have := Res.ok.inj hpa
    subst this
    exact ⟨pr, hp, hv.symm⟩
  | batch bs hb =>
    obtain ⟨pr, hp, hv⟩ := Res.of_bind_ok ((voprfBatch_view (CS := oracleSuite CS f) k pk rng bs).symm.trans h)
    exact ⟨pr, hp, (Res.ok.inj hv).symm⟩

theorem poprfAnswer_ok (wf : CS.WF) (f : Table CS) {σ : Type} [RngCore σ] (rng : σ) (k : CS.Scalar) (pk : CS.Elem)
    (r : EvalRequest CS) (info : Option Bytes) (v : Sent CS) (h : poprfAnswer k pk (r, info) f rng = .ok v) :
    (info.getD []).length ≤ 65535 ∧ k + f (tweakQ wf info) ≠ 0 ∧
    ∃ pr : Proof (oracleSuite CS f) × σ,
      generateProof (oracleSuite CS f) rng (k + f (tweakQ wf info)) CS.group.baseElem
        ((k + f (tweakQ wf info)) • CS.group.baseElem)
        (r.elems.map fun b : CS.Elem => ((k + f (tweakQ wf info))⁻¹ • b : CS.Elem)) r.elems .Poprf = .ok pr ∧
      v = (r.elems.map fun b : CS.Elem => ((k + f (tweakQ wf info))⁻¹ • b : CS.Elem), pr.1.cScalar, pr.1.sScalar) := by
  have tw : ∀ t : CS.Scalar, Poprf.computeTweak (oracleSuite CS f) k info = .ok t →
      (info.getD []).length ≤ 65535 ∧ t = k + f (tweakQ wf info) ∧ t ≠ 0 := by
    intro t ht
    obtain ⟨m, hl, hm, e, h0⟩ := computeTweak_ok (CS := oracleSuite CS f) (oracle_wf wf f) ht
    have : (m : CS.Scalar) = f (tweakQ wf info) := Except.ok.inj (hm.symm.trans (tweak_oracle wf f info hl))
    subst this
    exact ⟨hl, e, h0⟩
  cases r with
  | one b =>
    have e := PoprfServer.blindEvaluate_eq (CS := oracleSuite CS f) (oracle_wf wf f) ⟨k, pk⟩ rng ⟨b⟩ info
    obtain ⟨a, ha, hv⟩ := Res.of_map_ok h
    obtain ⟨t, ht, hpa⟩ := Res.of_bind_ok (e.symm.trans ha)
    obtain ⟨hl, et, h0⟩ := tw t ht
    obtain ⟨pr, hp, hpa⟩ := Res.of_bind_ok hpa
    have := Res.ok.inj hpa
    subst this
    subst et
    exact ⟨hl, h0, pr, hp, hv.symm⟩
  | batch bs hb =>
    obtain ⟨t, ht, hpa⟩ := Res.of_bind_ok
      ((poprfBatch_view (CS := oracleSuite CS f) (oracle_wf wf f) k pk rng bs info).symm.trans h)
    obtain ⟨hl, et, h0⟩ := tw t ht
    obtain ⟨pr, hp, hv⟩ := Res.of_bind_ok hpa
    subst et
    exact ⟨hl, h0, pr, Res.of_unwrap_ok hp, (Res.ok.inj hv).symm⟩

/-- The items a client checks. -/
theorem zip_fst_snd {α β : Type} {l : List α} {l' : List β} (h : l.length = l'.length) :
    (l.zip l').map Prod.fst = l ∧ (l.zip l').map Prod.snd = l' :=
  ⟨List.map_fst_zip (by omega), List.map_snd_zip (by omega)⟩

theorem zip_ne_zero {l l' : List CS.Elem} (h : ∀ b ∈ l, b ≠ 0) : ∀ p ∈ l.zip l', p ≠ (0, 0) := by
  rintro ⟨b, e⟩ hp h0
  exact h b (List.of_mem_zip hp).1 (Prod.ext_iff.1 h0).1

theorem zip_ne_zero' {l l' : List CS.Elem} (h : ∀ b ∈ l', b ≠ 0) : ∀ p ∈ l.zip l', p ≠ (0, 0) := by
  rintro ⟨b, e⟩ hp h0
  exact h e (List.of_mem_zip hp).2 (Prod.ext_iff.1 h0).2

/-- A VOPRF response in transit -/
def voprfTransit (wf : CS.WF) (k ρ : CS.Scalar) (r : EvalRequest CS) (ch : Channel CS) : Transit wf .Voprf where
  q0 := infoQ wf .Voprf [] (by simp)
  notWeight B i C D h := (scalarInputs_disjoint wf 0 0 0 0 0 C D .Voprf B i []).2.2 (scalarQ_inj h).symm
  notChallenge B M Z T U h := (scalarInputs_disjoint wf B M Z T U 0 0 .Voprf 0 0 []).2.1 (scalarQ_inj h).symm
  key _ := k
  nonce := ρ
  sent _ := (ch.request r).elems.map fun b => (b, k • b)
  got _ pr := (r.elems.zip (ch.response ((ch.request r).elems.map fun b => k • b, pr)).1,
    (ch.response ((ch.request r).elems.map fun b => k • b, pr)).2)

/-- A POPRF response in transit -/
def poprfTransit (wf : CS.WF) (k ρ : CS.Scalar) (r : EvalRequest CS) (info : Option Bytes) (ch : Channel CS) :
    Transit wf .Poprf where
  q0 := tweakQ wf info
  notWeight B i C D h := (scalarInputs_disjoint wf 0 0 0 0 0 C D .Poprf B i ((info.getD []).take 65535)).2.2
    (congrArg (fun q : Question => q.1.2) h).symm
  notChallenge B M Z T U h := (scalarInputs_disjoint wf B M Z T U 0 0 .Poprf 0 0 ((info.getD []).take 65535)).2.1
    (congrArg (fun q : Question => q.1.2) h).symm
  key a := k + a
  nonce := ρ
  sent a := (ch.request r).elems.map fun b => ((k + a)⁻¹ • b, b)
  got a pr := ((ch.response ((ch.request r).elems.map fun b => (k + a)⁻¹ • b, pr)).1.zip r.elems,
    (ch.response ((ch.request r).elems.map fun b => (k + a)⁻¹ • b, pr)).2)

/-- A client that accepts an altered VOPRF response has been fooled. -/
theorem voprf_fooled (wf : CS.WF) {σ : Type} [RngCore σ] (rng : σ) (k : CS.Scalar) (r : EvalRequest CS) (ch : Channel CS)
    (hv : ch.Valid) (f : Table CS) (v : Sent CS)
    (h : voprfAnswer k (k • CS.group.baseElem) (ch.request r) f rng = .ok v) (ha : ch.Altered r v)
    (hl : (ch.response v).1.length = r.elems.length)
    (hacc : Accepted (oracleSuite CS f) .Voprf (k • CS.group.baseElem) r.elems (ch.response v).1 (ch.response v).2.1
      (ch.response v).2.2) :
    (voprfTransit wf k (nonceOf CS rng) r ch).Fooled f ∧
    ((voprfTransit wf k (nonceOf CS rng) r ch).recv f).1.length = r.elems.length := by
  set T := voprfTransit wf k (nonceOf CS rng) r ch with hT
  obtain ⟨pr, hp, rfl⟩ := voprfAnswer_ok wf f rng k _ _ _ h
  have hfs : ((ch.request r).elems.map fun b => (b, (k • b : CS.Elem))).map Prod.fst = (ch.request r).elems := by
    rw [List.map_map]; exact List.map_id _
  have hsn : ((ch.request r).elems.map fun b => (b, (k • b : CS.Elem))).map Prod.snd =
      (ch.request r).elems.map fun b => k • b := by
    rw [List.map_map]; rfl
  obtain ⟨hn, hc, hs⟩ := proof_items wf f rng k .Voprf ((ch.request r).elems.map fun b => (b, (k • b : CS.Elem)))
    (by simp) hfs hsn pr hp
  have hproof : ((show CS.Scalar from pr.1.cScalar, show CS.Scalar from pr.1.sScalar) : CS.Scalar × CS.Scalar) = T.proof f := by
    refine Prod.ext hc ?_
    refine hs.trans ?_
    show nonceOf CS rng - (show CS.Scalar from pr.1.cScalar) * k = nonceOf CS rng - f _ * k
    rw [show (show CS.Scalar from pr.1.cScalar) = _ from hc]
    rfl
  have hrecv : T.recv f = (r.elems.zip (ch.response ((ch.request r).elems.map fun b => k • b,
      pr.1.cScalar, pr.1.sScalar)).1, (ch.response ((ch.request r).elems.map fun b => k • b,
      pr.1.cScalar, pr.1.sScalar)).2) := by
    show T.got _ (T.proof f) = _
    rw [← hproof]
    rfl
  set w : Sent CS := ch.response ((ch.request r).elems.map fun b => k • b, pr.1.cScalar, pr.1.sScalar) with hw
  obtain ⟨z1, z2⟩ := zip_fst_snd hl.symm
  have hlen : (T.recv f).1.length = r.elems.length := by
    rw [hrecv]
    show (r.elems.zip w.1).length = _
    rw [List.length_zip, show w.1.length = r.elems.length from hl, Nat.min_self]
  refine ⟨⟨?_, hn, ?_, ?_, ?_, ?_⟩, hlen⟩
  · intro e
    rw [hrecv] at e
    obtain ⟨e1, e2⟩ := Prod.ext_iff.1 e
    have e1 : r.elems.zip w.1 = (ch.request r).elems.map fun b => (b, k • b) := e1
    have e2 : w.2 = T.proof f := e2
    rcases ha with ha | ha
    · exact ha (hfs.symm.trans ((congrArg (List.map Prod.fst) e1).symm.trans z1))
    · exact ha (Prod.ext (z2.symm.trans ((congrArg (List.map Prod.snd) e1).trans hsn)) (e2.trans hproof.symm))
  · rw [hlen]; exact EvalRequest.length_le r
  · intro p hp
    obtain ⟨b, hb, rfl⟩ := List.mem_map.1 hp
    exact fun h0 => hv.request r b hb (Prod.ext_iff.1 h0).1
  · rw [hrecv]
    exact zip_ne_zero' (hv.response _)
  · have := accepted_items wf f .Voprf (k • CS.group.baseElem) (r.elems.zip w.1) z1 z2 w.2.1 w.2.2 hacc
    have e : (T.recv f).2.1 = w.2.1 := by rw [hrecv]
    rw [e]
    refine Eq.trans ?_ this
    unfold Transit.gotQ Transit.M' Transit.Z'
    rw [hrecv]
    rfl

/-- A client that accepts an altered POPRF response has been fooled. -/
theorem poprf_fooled (wf : CS.WF) {σ : Type} [RngCore σ] (rng : σ) (k : CS.Scalar) (r : EvalRequest CS)
    (info : Option Bytes) (ch : Channel CS)
    (hv : ch.Valid) (f : Table CS) (v : Sent CS)
    (h : poprfAnswer k (k • CS.group.baseElem) (ch.request r, info) f rng = .ok v) (ha : ch.Altered r v)
    (hl : (ch.response v).1.length = r.elems.length)
    (hacc : Accepted (oracleSuite CS f) .Poprf (f (tweakQ wf info) • CS.group.baseElem + k • CS.group.baseElem)
      (ch.response v).1 r.elems (ch.response v).2.1 (ch.response v).2.2) :
    (poprfTransit wf k (nonceOf CS rng) r info ch).Fooled f ∧
    ((poprfTransit wf k (nonceOf CS rng) r info ch).recv f).1.length = r.elems.length := by
  rw [← add_smul, add_comm (f _) k] at hacc
  set T := poprfTransit wf k (nonceOf CS rng) r info ch with hT
  obtain ⟨-, h0, pr, hp, rfl⟩ := poprfAnswer_ok wf f rng k _ _ _ _ h
  set t := k + f (tweakQ wf info) with ht
  have hfs : ((ch.request r).elems.map fun b => ((t⁻¹ • b : CS.Elem), b)).map Prod.fst =
      (ch.request r).elems.map fun b => t⁻¹ • b := by
    rw [List.map_map]; rfl
  have hsn : ((ch.request r).elems.map fun b => ((t⁻¹ • b : CS.Elem), b)).map Prod.snd = (ch.request r).elems := by
    rw [List.map_map]; exact List.map_id _
  obtain ⟨hn, hc, hs⟩ := proof_items wf f rng t .Poprf ((ch.request r).elems.map fun b => ((t⁻¹ • b : CS.Elem), b))
    (by
      intro p hp
      obtain ⟨b, -, rfl⟩ := List.mem_map.1 hp
      show b = t • t⁻¹ • b
      rw [smul_smul, mul_inv_cancel₀ h0, one_smul]) hfs hsn pr hp
  have hproof : ((show CS.Scalar from pr.1.cScalar, show CS.Scalar from pr.1.sScalar) : CS.Scalar × CS.Scalar) = T.proof f := by
    refine Prod.ext hc ?_
    refine hs.trans ?_
    show nonceOf CS rng - (show CS.Scalar from pr.1.cScalar) * t = nonceOf CS rng - f _ * t
    rw [show (show CS.Scalar from pr.1.cScalar) = _ from hc]
    rfl
  have hrecv : T.recv f = ((ch.response ((ch.request r).elems.map fun b => t⁻¹ • b,
      pr.1.cScalar, pr.1.sScalar)).1.zip r.elems, (ch.response ((ch.request r).elems.map fun b => t⁻¹ • b,
      pr.1.cScalar, pr.1.sScalar)).2) := by
    show T.got _ (T.proof f) = _
    rw [← hproof]
    rfl
  set w : Sent CS := ch.response ((ch.request r).elems.map fun b => t⁻¹ • b, pr.1.cScalar, pr.1.sScalar) with hw
  obtain ⟨z1, z2⟩ := zip_fst_snd hl
  have hlen : (T.recv f).1.length = r.elems.length := by
    rw [hrecv]
    show (w.1.zip r.elems).length = _
    rw [List.length_zip, show w.1.length = r.elems.length from hl, Nat.min_self]
  refine ⟨⟨?_, hn, ?_, ?_, ?_, ?_⟩, hlen⟩
  · intro e
    rw [hrecv] at e
    obtain ⟨e1, e2⟩ := Prod.ext_iff.1 e
    have e1 : w.1.zip r.elems = (ch.request r).elems.map fun b => (t⁻¹ • b, b) := e1
    have e2 : w.2 = T.proof f := e2
    rcases ha with ha | ha
    · exact ha (hsn.symm.trans ((congrArg (List.map Prod.snd) e1).symm.trans z2))
    · exact ha (Prod.ext (z1.symm.trans ((congrArg (List.map Prod.fst) e1).trans hfs)) (e2.trans hproof.symm))
  · rw [hlen]; exact EvalRequest.length_le r
  · intro p hp
    obtain ⟨b, hb, rfl⟩ := List.mem_map.1 hp
    exact fun h0 => hv.request r b hb (Prod.ext_iff.1 h0).2
  · rw [hrecv]
    exact zip_ne_zero (hv.response _)
  · have := accepted_items wf f .Poprf (t • CS.group.baseElem) (w.1.zip r.elems) z1 z2 w.2.1 w.2.2 hacc
    have e : (T.recv f).2.1 = w.2.1 := by rw [hrecv]
    rw [e]
    refine Eq.trans ?_ this
    unfold Transit.gotQ Transit.M' Transit.Z'
    rw [hrecv]
    rfl

/-- C72, VOPRF: a request of one or more blinded elements is sent, the server answers what arrives, and the client checks what
arrives of the response.  If anything was changed — an element of the request or of the response, a scalar of the proof, the
order or the number of the items — the client accepts with probability at most `3 / |scalars|`. -/
theorem C72_voprf (wf : CS.WF) {σ : Type} [RngCore σ] (rng : σ) (k : CS.Scalar) (inputs : List Bytes)
    (clients : List (CS.Scalar × CS.Elem)) (r : EvalRequest CS) (hr : r.elems = clients.map Prod.snd) (ch : Channel CS)
    (hv : ch.Valid) :
    chance (fun f : Table CS => ∃ v, voprfAnswer k (k • CS.group.baseElem) (ch.request r) f rng = .ok v ∧ ch.Altered r v ∧
      ∃ outs, BatchAttempt.voprfFinalize f (k • CS.group.baseElem)
        ⟨inputs, clients, (ch.response v).1, (ch.response v).2.1, (ch.response v).2.2⟩ = .ok outs) ≤
      3 / Nat.card CS.Scalar := by
  refine (chance_mono fun f hf => ?_).trans
    ((voprfTransit wf k (nonceOf CS rng) r ch).chance_fooled r.elems.length)
  obtain ⟨v, h, ha, outs, ho⟩ := hf
  obtain ⟨h1, -, h3⟩ := BatchAttempt.voprf_accepted wf f _ _ outs ho
  have h1 : clients.length = (ch.response v).1.length := h1
  exact voprf_fooled wf rng k r ch hv f v h ha (by rw [hr, List.length_map, h1])
    (accepted_congr f _ _ hr rfl _ _ h3)

/-- C72, POPRF. -/
theorem C72_poprf (wf : CS.WF) {σ : Type} [RngCore σ] (rng : σ) (k : CS.Scalar) (inputs : List Bytes)
    (clients : List (CS.Scalar × CS.Elem)) (info : Option Bytes) (r : EvalRequest CS)
    (hr : r.elems = clients.map Prod.snd) (ch : Channel CS) (hv : ch.Valid) :
    chance (fun f : Table CS => ∃ v, poprfAnswer k (k • CS.group.baseElem) (ch.request r, info) f rng = .ok v ∧
      ch.Altered r v ∧ ∃ outs, BatchAttempt.poprfFinalize f (k • CS.group.baseElem) info
        ⟨inputs, clients, (ch.response v).1, (ch.response v).2.1, (ch.response v).2.2⟩ = .ok outs) ≤
      3 / Nat.card CS.Scalar := by
  refine (chance_mono fun f hf => ?_).trans
    ((poprfTransit wf k (nonceOf CS rng) r info ch).chance_fooled r.elems.length)
  obtain ⟨v, h, ha, outs, ho⟩ := hf
  obtain ⟨h1, -, m, hm, hl, h3⟩ := BatchAttempt.poprf_accepted wf f _ _ _ outs ho
  have h1 : clients.length = (ch.response v).1.length := h1
  have hm : m = f (tweakQ wf info) := Except.ok.inj (hm.symm.trans (tweak_oracle wf f info hl))
  subst hm
  exact poprf_fooled wf rng k r info ch hv f v h ha (by rw [hr, List.length_map, h1])
    (accepted_congr f _ _ rfl hr _ _ h3)

/-- C72, VOPRF, one client: when one element arrives at the server, the bound is `2 / |scalars|`. -/
theorem C72_voprf_single (wf : CS.WF) {σ : Type} [RngCore σ] (rng : σ) (k : CS.Scalar) (input : Bytes)
    (blind : CS.Scalar) (b : CS.Elem) (r : EvalRequest CS) (hr : r.elems = [b]) (ch : Channel CS)
    (hv : ch.Valid) (h1 : (ch.request r).elems.length = 1) :
    chance (fun f : Table CS => ∃ v e c s, voprfAnswer k (k • CS.group.baseElem) (ch.request r) f rng = .ok v ∧
      ch.Altered r v ∧ ch.response v = ([e], c, s) ∧
      ∃ out, VoprfAttempt.finalize f ⟨blind, b, input, e, c, s, k • CS.group.baseElem⟩ = .ok out) ≤
      2 / Nat.card CS.Scalar := by
  refine (chance_mono fun f hf => ?_).trans (voprfTransit wf k (nonceOf CS rng) r ch).chance_fooled_same
  obtain ⟨v, e, c, s, h, ha, hw, out, ho⟩ := hf
  have h3 := VoprfAttempt.accepted wf f _ out ho
  obtain ⟨h4, h5⟩ := voprf_fooled wf rng k r ch hv f v h ha (by rw [hw, hr]; rfl)
    (by rw [hw]; exact accepted_congr f _ _ hr rfl _ _ h3)
  refine ⟨h4, h5.trans ?_⟩
  rw [hr]
  show 1 = ((ch.request r).elems.map _).length
  rw [List.length_map, h1]

/-- C72, POPRF, one client. -/
theorem C72_poprf_single (wf : CS.WF) {σ : Type} [RngCore σ] (rng : σ) (k : CS.Scalar) (input : Bytes)
    (blind : CS.Scalar) (b : CS.Elem) (info : Option Bytes) (r : EvalRequest CS) (hr : r.elems = [b]) (ch : Channel CS)
    (hv : ch.Valid) (h1 : (ch.request r).elems.length = 1) :
    chance (fun f : Table CS => ∃ v e c s, poprfAnswer k (k • CS.group.baseElem) (ch.request r, info) f rng = .ok v ∧
      ch.Altered r v ∧ ch.response v = ([e], c, s) ∧
      ∃ out, PoprfAttempt.finalize f ⟨blind, b, input, e, c, s, k • CS.group.baseElem, info⟩ = .ok out) ≤
      2 / Nat.card CS.Scalar := by
  refine (chance_mono fun f hf => ?_).trans (poprfTransit wf k (nonceOf CS rng) r info ch).chance_fooled_same
  obtain ⟨v, e, c, s, h, ha, hw, out, ho⟩ := hf
  obtain ⟨m, hm, hl, -, h3⟩ := PoprfAttempt.accepted wf f _ out ho
  have hm : m = f (tweakQ wf info) := Except.ok.inj (hm.symm.trans (tweak_oracle wf f info hl))
  subst hm
  obtain ⟨h4, h5⟩ := poprf_fooled wf rng k r info ch hv f v h ha (by rw [hw, hr]; rfl)
    (by rw [hw]; exact accepted_congr f _ _ rfl hr _ _ h3)
  refine ⟨h4, h5.trans ?_⟩
  rw [hr]
  show 1 = ((ch.request r).elems.map _).length
  rw [List.length_map, h1]

/-! ## Channels for bytes -/

theorem forall₂_functional {α β : Type} {R : α → β → Prop} (hR : ∀ a b b', R a b → R a b' → b = b') {l : List α} {m m' : List β}
    (h : List.Forall₂ R l m) (h' : List.Forall₂ R l m') : m = m' := by
  induction h generalizing m' with
  | nil => cases h'; rfl
  | cons h1 _ ih =>
    cases h' with
    | cons h2 t => rw [hR _ _ _ h1 h2, ih t]

theorem forall₂_right {α β : Type} {R : α → β → Prop} {P : β → Prop} (hR : ∀ a b, R a b → P b) {l : List α} {m : List β}
    (h : List.Forall₂ R l m) : ∀ b ∈ m, P b := by
  induction h with
  | nil => simp
  | cons h1 _ ih =>
    intro b hb
    rcases List.mem_cons.1 hb with rfl | hb
    · exact hR _ _ h1
    · exact ih b hb

/-- The channel for values that a channel for bytes amounts to, for fixed client states. -/
noncomputable def channelOf (wires : Wires) (clients : List (CS.Scalar × CS.Elem)) : Channel CS :=
  open Classical in
  { request := fun _ => if h : ∃ bs : List CS.Elem, bs.length ≤ 65535 ∧
        List.Forall₂ (fun bytes b => BlindedElement.deserialize CS bytes = .ok ⟨b⟩)
          (wires.request (clients.map fun c => BlindedElement.serialize (CS := CS) ⟨c.2⟩)) bs
      then .batch h.choose h.choose_spec.1 else .one CS.group.baseElem
    response := fun v => if h : ∃ w : Sent CS, List.Forall₂ (fun bytes e => EvaluationElement.deserialize CS bytes = .ok ⟨e⟩)
        (wires.response (v.1.map fun e => EvaluationElement.serialize (CS := CS) ⟨e⟩,
          Proof.serialize (CS := CS) ⟨v.2.1, v.2.2⟩)).1 w.1 ∧
        Proof.deserialize CS (wires.response (v.1.map fun e => EvaluationElement.serialize (CS := CS) ⟨e⟩,
          Proof.serialize (CS := CS) ⟨v.2.1, v.2.2⟩)).2 = .ok ⟨w.2.1, w.2.2⟩
      then h.choose else ([], 0, 0) }

theorem channelOf_valid (wires : Wires) (clients : List (CS.Scalar × CS.Elem)) : (channelOf wires clients).Valid where
  request r := by
    unfold channelOf
    simp only
    split
    · next h => exact forall₂_right (fun a b hb => (C20_valid (CS := CS)).blindedElement a ⟨b⟩ hb) h.choose_spec.2
    · intro b hb
      rw [List.mem_singleton.1 hb]
      exact VGroup.Lawful.baseElem_ne_zero
  response v := by
    unfold channelOf
    simp only
    split
    · next h => exact forall₂_right (fun a b hb => (C20_valid (CS := CS)).evaluationElement a ⟨b⟩ hb) h.choose_spec.1
    · simp

theorem exchange_channel {wires : Wires} {clients : List (CS.Scalar × CS.Elem)} {answer : EvalRequest CS → EvalResponse CS}
    {finalize : Sent CS → Res (List (Res Bytes))} {bs : List CS.Elem} {v w : Sent CS} {outs : List (Res Bytes)}
    (h : Exchange wires clients answer finalize bs v w outs) (r : EvalRequest CS) :
    ((channelOf wires clients).request r).elems = bs ∧ answer ((channelOf wires clients).request r) = .ok v ∧
    (channelOf wires clients).response v = w := by
  obtain ⟨hn, ha⟩ := h.answer
  have hex : ∃ bs : List CS.Elem, bs.length ≤ 65535 ∧
        List.Forall₂ (fun bytes b => BlindedElement.deserialize CS bytes = .ok ⟨b⟩)
          (wires.request (clients.map fun c => BlindedElement.serialize (CS := CS) ⟨c.2⟩)) bs := ⟨bs, hn, h.request⟩
  have e1 : hex.choose = bs := forall₂_functional (fun a b b' h h' => congrArg BlindedElement.value (Res.ok.inj (h.symm.trans h')))
    hex.choose_spec.2 h.request
  have e2 : (channelOf wires clients).request r = .batch bs hn := by
    unfold channelOf
    simp only
    rw [dif_pos hex]
    congr 1
  have hex' : ∃ w : Sent CS, List.Forall₂ (fun bytes e => EvaluationElement.deserialize CS bytes = .ok ⟨e⟩)
        (wires.response (v.1.map fun e => EvaluationElement.serialize (CS := CS) ⟨e⟩,
          Proof.serialize (CS := CS) ⟨v.2.1, v.2.2⟩)).1 w.1 ∧
        Proof.deserialize CS (wires.response (v.1.map fun e => EvaluationElement.serialize (CS := CS) ⟨e⟩,
          Proof.serialize (CS := CS) ⟨v.2.1, v.2.2⟩)).2 = .ok ⟨w.2.1, w.2.2⟩ := ⟨w, h.response, h.proof⟩
  have e3 : hex'.choose = w := by
    have hp := Res.ok.inj (hex'.choose_spec.2.symm.trans h.proof)
    refine Prod.ext (forall₂_functional
      (fun a b b' h h' => congrArg EvaluationElement.value (Res.ok.inj (h.symm.trans h'))) hex'.choose_spec.1 h.response)
      (Prod.ext ?_ ?_)
    · exact congrArg Proof.cScalar hp
    · exact congrArg Proof.sScalar hp
  refine ⟨by rw [e2]; rfl, by rw [e2]; exact ha, ?_⟩
  unfold channelOf
  simp only
  rw [dif_pos hex', e3]

/-- C72 for a channel that acts on bytes, VOPRF: if the clients get outputs, then except with probability
`3 / |scalars|` the server read what the clients sent and the clients read what the server sent. -/
theorem C72_voprf_wire (wf : CS.WF) {σ : Type} [RngCore σ] (rng : σ) (k : CS.Scalar) (inputs : List Bytes)
    (clients : List (CS.Scalar × CS.Elem)) (wires : Wires) :
    chance (fun f : Table CS => ∃ bs v w outs, Exchange wires clients (fun r => voprfAnswer k (k • CS.group.baseElem) r f rng)
        (fun w => BatchAttempt.voprfFinalize f (k • CS.group.baseElem) ⟨inputs, clients, w.1, w.2.1, w.2.2⟩) bs v w outs ∧
      ¬ (bs = clients.map Prod.snd ∧ w = v)) ≤ 3 / Nat.card CS.Scalar := by
  by_cases hn : (clients.map Prod.snd).length ≤ 65535
  · refine (chance_mono fun f hf => ?_).trans (C72_voprf wf rng k inputs clients (.batch _ hn) rfl (channelOf wires clients)
      (channelOf_valid wires clients))
    obtain ⟨bs, v, w, outs, hx, hne⟩ := hf
    obtain ⟨h1, h2, h3⟩ := exchange_channel hx (.batch _ hn)
    refine ⟨v, h2, ?_, outs, by rw [h3]; exact hx.finalize⟩
    by_cases hb : bs = clients.map Prod.snd
    · exact .inr (by rw [h3]; exact fun e => hne ⟨hb, e⟩)
    · exact .inl (by rw [h1]; exact hb)
  · refine (chance_mono (P' := fun _ => False) fun f hf => ?_).trans (le_of_eq_of_le (b := 0) ?_ (by positivity))
    · obtain ⟨bs, v, w, outs, hx, -⟩ := hf
      have h : clients.length ≤ 65535 := (BatchAttempt.voprf_accepted wf f _ _ outs hx.finalize).2.1
      exact hn (by rw [List.length_map]; exact h)
    · rw [chance_eq, Nat.card_eq_zero.mpr (.inl ⟨fun x => x.2⟩)]
      simp

/-- C72 for a channel that acts on bytes, POPRF. -/
theorem C72_poprf_wire (wf : CS.WF) {σ : Type} [RngCore σ] (rng : σ) (k : CS.Scalar) (inputs : List Bytes)
    (clients : List (CS.Scalar × CS.Elem)) (info : Option Bytes) (wires : Wires) :
    chance (fun f : Table CS => ∃ bs v w outs,
        Exchange wires clients (fun r => poprfAnswer k (k • CS.group.baseElem) (r, info) f rng)
        (fun w => BatchAttempt.poprfFinalize f (k • CS.group.baseElem) info ⟨inputs, clients, w.1, w.2.1, w.2.2⟩) bs v w outs ∧
      ¬ (bs = clients.map Prod.snd ∧ w = v)) ≤ 3 / Nat.card CS.Scalar := by
  by_cases hn : (clients.map Prod.snd).length ≤ 65535
  · refine (chance_mono fun f hf => ?_).trans (C72_poprf wf rng k inputs clients info (.batch _ hn) rfl (channelOf wires clients)
      (channelOf_valid wires clients))
    obtain ⟨bs, v, w, outs, hx, hne⟩ := hf
    obtain ⟨h1, h2, h3⟩ := exchange_channel hx (.batch _ hn)
    refine ⟨v, h2, ?_, outs, by rw [h3]; exact hx.finalize⟩
    by_cases hb : bs = clients.map Prod.snd
    · exact .inr (by rw [h3]; exact fun e => hne ⟨hb, e⟩)
    · exact .inl (by rw [h1]; exact hb)
  · refine (chance_mono (P' := fun _ => False) fun f hf => ?_).trans (le_of_eq_of_le (b := 0) ?_ (by positivity))
    · obtain ⟨bs, v, w, outs, hx, -⟩ := hf
      have h : clients.length ≤ 65535 := (BatchAttempt.poprf_accepted wf f _ _ _ outs hx.finalize).2.1
      exact hn (by rw [List.length_map]; exact h)
    · rw [chance_eq, Nat.card_eq_zero.mpr (.inl ⟨fun x => x.2⟩)]
      simp

theorem arrive_of_read {α : Type} {ser : α → Bytes} {de : Bytes → α → Prop} (h : ∀ a x, de a x → ser x <+: a) {l : List Bytes}
    {m : List α} (hr : List.Forall₂ de l m) : Arrive (m.map ser) l := by
  induction hr with
  | nil => exact .nil
  | cons h1 _ ih => exact .cons (h _ _ h1) ih

/-- For a group with canonical decoding (C22), unchanged values are unchanged bytes. -/
theorem exchange_bytes (hcan : CS.group.Canonical) {wires : Wires} {clients : List (CS.Scalar × CS.Elem)}
    {answer : EvalRequest CS → EvalResponse CS} {finalize : Sent CS → Res (List (Res Bytes))} {bs : List CS.Elem} {v w : Sent CS}
    {outs : List (Res Bytes)} (h : Exchange wires clients answer finalize bs v w outs) (hb : bs = clients.map Prod.snd) (hw : w = v) :
    wires.Faithful clients v := by
  have hc := C22_canonical hcan
  subst hw
  have pre : ∀ (a b : Bytes) (n : Nat), a.take n = b → b <+: a := fun a b n e => e ▸ List.take_prefix _ _
  refine ⟨?_, ?_, ?_⟩
  · have := arrive_of_read (ser := fun b : CS.Elem => BlindedElement.serialize (CS := CS) ⟨b⟩)
      (fun a x hd => pre _ _ _ (hc.blindedElement a ⟨x⟩ hd)) h.request
    rw [hb, List.map_map] at this
    exact this
  · exact arrive_of_read (ser := fun b : CS.Elem => EvaluationElement.serialize (CS := CS) ⟨b⟩)
      (fun a x hd => pre _ _ _ (hc.evaluationElement a ⟨x⟩ hd)) h.response
  · exact pre _ _ _ (hc.proof _ _ h.proof)

/-- C72, VOPRF and POPRF, for a group with canonical decoding: if the clients get outputs, then except with probability
`3 / |scalars|` no byte of the blinded elements, the evaluation elements or the proof was changed (bytes may have been appended to
messages: the deserializers ignore them, C21). -/
theorem C72_bytes (wf : CS.WF) (hcan : CS.group.Canonical) {σ : Type} [RngCore σ] (rng : σ) (k : CS.Scalar)
    (inputs : List Bytes) (clients : List (CS.Scalar × CS.Elem)) (info : Option Bytes) (wires : Wires) :
    chance (fun f : Table CS => ∃ bs v w outs, Exchange wires clients (fun r => voprfAnswer k (k • CS.group.baseElem) r f rng)
        (fun w => BatchAttempt.voprfFinalize f (k • CS.group.baseElem) ⟨inputs, clients, w.1, w.2.1, w.2.2⟩) bs v w outs ∧
      ¬ wires.Faithful clients v) ≤ 3 / Nat.card CS.Scalar ∧
    chance (fun f : Table CS => ∃ bs v w outs,
        Exchange wires clients (fun r => poprfAnswer k (k • CS.group.baseElem) (r, info) f rng)
        (fun w => BatchAttempt.poprfFinalize f (k • CS.group.baseElem) info ⟨inputs, clients, w.1, w.2.1, w.2.2⟩) bs v w outs ∧
      ¬ wires.Faithful clients v) ≤ 3 / Nat.card CS.Scalar := by
  constructor
  · refine (chance_mono fun f hf => ?_).trans (C72_voprf_wire wf rng k inputs clients wires)
    obtain ⟨bs, v, w, outs, hx, hne⟩ := hf
    exact ⟨bs, v, w, outs, hx, fun h => hne (exchange_bytes hcan hx h.1 h.2)⟩
  · refine (chance_mono fun f hf => ?_).trans (C72_poprf_wire wf rng k inputs clients info wires)
    obtain ⟨bs, v, w, outs, hx, hne⟩ := hf
    exact ⟨bs, v, w, outs, hx, fun h => hne (exchange_bytes hcan hx h.1 h.2)⟩

/-! ## Examples -/

section examples
open Toy

/-- A channel that replaces every response by one of its own. -/
def replacing : Channel suite where
  request _ := .one (3 : F)
  response _ := ([(5 : F)], (1 : F), (4 : F))

theorem replacing_valid : replacing.Valid where
  request _ b hb := by
    have : b = (3 : F) := List.mem_singleton.1 hb
    rw [this]
    exact (by decide : (3 : F) ≠ 0)
  response _ b hb := by
    have : b = (5 : F) := List.mem_singleton.1 hb
    rw [this]
    exact (by decide : (5 : F) ≠ 0)

/-- The client with the blinded element `3` is fooled with probability at most `2 / 251` ... -/
example : chance (fun f : Table suite => ∃ v e c s,
    voprfAnswer (CS := suite) (7 : F) ((7 : F) • (1 : F)) (replacing.request (.one (3 : F))) f (⟨9⟩ : Rng) = .ok v ∧
      replacing.Altered (.one (3 : F)) v ∧ replacing.response v = ([e], c, s) ∧
      ∃ out, VoprfAttempt.finalize f ⟨(2 : F), (3 : F), [1, 2, 3], e, c, s, (7 : F) • (1 : F)⟩ = .ok out) ≤ 2 / 251 := by
  have h := C72_voprf_single Toy.wf (⟨9⟩ : Rng) (7 : F) [1, 2, 3] (2 : F) (3 : F) (.one (3 : F)) rfl replacing replacing_valid rfl
  have hc : Nat.card suite.Scalar = 251 := show Nat.card (ZMod 251) = 251 by simp
  rw [hc] at h
  exact_mod_cast h

/-- ... and for some table it is. -/
example : ∃ (f : Table suite) (v : Sent suite),
    voprfAnswer (CS := suite) (7 : F) ((7 : F) • (1 : F)) (replacing.request (.one (3 : F))) f (⟨9⟩ : Rng) = .ok v ∧
      replacing.Altered (.one (3 : F)) v ∧ replacing.response v = ([(5 : F)], (1 : F), (4 : F)) ∧
      ∃ out, VoprfAttempt.finalize (CS := suite) f ⟨(2 : F), (3 : F), [1, 2, 3], (5 : F), (1 : F), (4 : F), (7 : F) • (1 : F)⟩ =
        .ok out := by
  refine ⟨fun _ => (1 : F), ([(21 : F)], (1 : F), (3 : F)), by decide +kernel, .inr ?_, rfl, Res.exists_of_isOk (by decide +kernel)⟩
  intro h
  have h : ([(5 : F)], (1 : F), (4 : F)) = ([(21 : F)], (1 : F), (3 : F)) := h
  revert h
  decide

/-- A channel that drops an item of a batch of two on the way to the server and adds one to the response, for the theorems on
batches. -/
def dropping : Channel suite where
  request _ := .one (3 : F)
  response v := ([(21 : F), (28 : F)], v.2)

example : dropping.Valid where
  request _ b hb := by
    have : b = (3 : F) := List.mem_singleton.1 hb
    rw [this]
    exact (by decide : (3 : F) ≠ 0)
  response _ b hb := by
    have hb : b ∈ [(21 : F), (28 : F)] := hb
    rcases List.mem_cons.1 hb with h | h
    · rw [h]; exact (by decide : (21 : F) ≠ 0)
    · rw [List.mem_singleton.1 h]; exact (by decide : (28 : F) ≠ 0)

/-- The server answers one item, the client receives two: both calls succeed against one table. -/
example : ∃ (f : Table suite) (v : Sent suite),
    voprfAnswer (CS := suite) (7 : F) ((7 : F) • (1 : F)) (dropping.request (.batch [(3 : F), (4 : F)] (show 2 ≤ 65535 by decide))) f (⟨9⟩ : Rng) =
      .ok v ∧ dropping.Altered (.batch [(3 : F), (4 : F)] (show 2 ≤ 65535 by decide)) v ∧
      ∃ outs, BatchAttempt.voprfFinalize f ((7 : F) • (1 : F))
        ⟨[[1], [2]], [((2 : F), (3 : F)), ((2 : F), (4 : F))], (dropping.response v).1, (dropping.response v).2.1,
          (dropping.response v).2.2⟩ = .ok outs := by
  refine ⟨fun _ => (1 : F), ([(21 : F)], (1 : F), (3 : F)), by decide +kernel, .inl ?_, Res.exists_of_isOk (by decide +kernel)⟩
  intro h
  exact absurd (congrArg List.length h) (by decide)

/-- An exchange over a channel that replaces the bytes of the response: for some table the client gets an output. -/
example : ∃ (f : Table suite) (wires : Wires) (outs : List (Res Bytes)),
    Exchange wires [((2 : F), (3 : F))] (fun r => voprfAnswer (CS := suite) (7 : F) ((7 : F) • (1 : F)) r f (⟨9⟩ : Rng))
      (fun w => BatchAttempt.voprfFinalize f ((7 : F) • (1 : F)) ⟨[[1]], [((2 : F), (3 : F))], w.1, w.2.1, w.2.2⟩)
      [(3 : F)] ([(21 : F)], (1 : F), (3 : F)) ([(5 : F)], (1 : F), (4 : F)) outs := by
  obtain ⟨outs, ho⟩ := Res.exists_of_isOk (x := BatchAttempt.voprfFinalize (CS := suite) (fun _ => (1 : F)) ((7 : F) • (1 : F))
    ⟨[[1]], [((2 : F), (3 : F))], [(5 : F)], (1 : F), (4 : F)⟩) (by decide +kernel)
  refine ⟨fun _ => (1 : F), ⟨id, fun _ => ([EvaluationElement.serialize (CS := suite) ⟨(5 : F)⟩],
    Proof.serialize (CS := suite) ⟨(1 : F), (4 : F)⟩)⟩, outs, .cons ?_ .nil, ⟨(by decide : 1 ≤ 65535), ?_⟩, .cons ?_ .nil, ?_, ho⟩
  · exact ((C17_roundtrip (CS := suite)).blindedElement ⟨(3 : F)⟩).1 (by decide : (3 : F) ≠ 0)
  · decide +kernel
  · exact ((C17_roundtrip (CS := suite)).evaluationElement ⟨(5 : F)⟩).1 (by decide : (5 : F) ≠ 0)
  · exact ((C17_roundtrip (CS := suite)).proof ⟨(1 : F), (4 : F)⟩).1 (by decide : (1 : F) ≠ 0 ∧ (4 : F) ≠ 0)

end examples

end Voprf
