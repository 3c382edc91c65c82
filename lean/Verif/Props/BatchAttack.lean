import Verif.Props.Rom
import Verif.Props.BatchSum
import Verif.Lemmas.SecondMoment

/-!
# C50, continued: the exponent in the batch bound of C49 is real

An explicit adversary against batches, with a lower bound on its success.
-/

namespace Voprf

open Spec

variable {CS : CipherSuite} [L : CS.group.Lawful]

/-! ## Counting tables -/

section counting

variable {Q F : Type} [Finite Q] [Finite F] [Field F] {N K : Nat}

/-- The contribution of a choice of candidates. -/
def choiceSum (q : Fin N → Fin K → Q) (e : Fin N → Fin K → F) (v : Fin N → Fin K) (f : Q → F) : F :=
  ∑ i, f (q i (v i)) * e i (v i)

omit [Finite Q] [Finite F] in
theorem choiceSum_add (q : Fin N → Fin K → Q) (e : Fin N → Fin K → F) (v : Fin N → Fin K) (f g : Q → F) :
    choiceSum q e v (f + g) = choiceSum q e v f + choiceSum q e v g := by
  simp only [choiceSum, Pi.add_apply, add_mul, Finset.sum_add_distrib]

variable (q : Fin N → Fin K → Q) (e : Fin N → Fin K → F) (q0 : Q)

theorem card_first (m : F) : Nat.card {f : Q → F // f q0 = m} * Nat.card F = Nat.card (Q → F) := by
  classical
  exact card_fibre (AddMonoidHom.mk' (fun f : Q → F => f q0) fun _ _ => rfl)
    (fun m => ⟨Function.const _ m, rfl⟩) m

variable (hq : ∀ i j i' j', q i j = q i' j' → i = i' ∧ j = j') (h0 : ∀ i j, q i j ≠ q0)
  (he : ∀ i j, e i j ≠ 0)

include hq h0 he

/-- A choice sum can be given any value, independently of the answer at `q0`. -/
theorem card_one (v : Fin N → Fin K) (i₀ : Fin N) (m x : F) :
    Nat.card {f : Q → F // (f q0, choiceSum q e v f) = (m, x)} * Nat.card F ^ 2 = Nat.card (Q → F) := by
  classical
  have := card_fibre (AddMonoidHom.mk' (fun f : Q → F => (f q0, choiceSum q e v f)) fun f g =>
    Prod.ext rfl (choiceSum_add q e v f g)) (fun ⟨m, x⟩ => ?_) (m, x)
  · rw [Nat.card_prod, ← sq] at this
    exact this
  · refine ⟨Function.update (Function.update 0 q0 m) (q i₀ (v i₀)) (x * (e i₀ (v i₀))⁻¹), ?_⟩
    refine Prod.ext ?_ ?_
    · show (Function.update (β := fun _ => F) _ _ _ q0 : F) = m
      rw [Function.update_of_ne (h0 _ _).symm, Function.update_self]
    · show choiceSum q e v _ = x
      rw [choiceSum, Finset.sum_eq_single i₀]
      · rw [Function.update_self, inv_mul_cancel_right₀ (he _ _)]
      · intro i _ hi
        rw [Function.update_of_ne fun h => hi (hq _ _ _ _ h).1, Function.update_of_ne (h0 _ _)]
        simp
      · intro h; exact absurd (Finset.mem_univ _) h

/-- Two different choices have independent sums. -/
theorem card_two (v v' : Fin N → Fin K) (hv : v ≠ v') (m x y : F) :
    Nat.card {f : Q → F // (f q0, choiceSum q e v f, choiceSum q e v' f) = (m, x, y)}
      * Nat.card F ^ 3 = Nat.card (Q → F) := by
  classical
  obtain ⟨i₀, hi₀⟩ := Function.ne_iff.mp hv
  have := card_fibre (AddMonoidHom.mk'
    (fun f : Q → F => (f q0, choiceSum q e v f, choiceSum q e v' f)) fun f g =>
    Prod.ext rfl (Prod.ext (choiceSum_add q e v f g) (choiceSum_add q e v' f g)))
    (fun ⟨m, x, y⟩ => ?_) (m, x, y)
  · rw [Nat.card_prod, Nat.card_prod, show ∀ a : Nat, a * (a * a) = a ^ 3 from fun a => by ring] at this
    exact this
  · have hne : q i₀ (v i₀) ≠ q i₀ (v' i₀) := fun h => hi₀ (hq _ _ _ _ h).2
    refine ⟨Function.update (Function.update (Function.update 0 q0 m)
      (q i₀ (v' i₀)) (y * (e i₀ (v' i₀))⁻¹)) (q i₀ (v i₀)) (x * (e i₀ (v i₀))⁻¹), ?_⟩
    refine Prod.ext ?_ (Prod.ext ?_ ?_)
    · show (Function.update (β := fun _ => F) _ _ _ q0 : F) = m
      rw [Function.update_of_ne (h0 _ _).symm, Function.update_of_ne (h0 _ _).symm, Function.update_self]
    · show choiceSum q e v _ = x
      rw [choiceSum, Finset.sum_eq_single i₀]
      · rw [Function.update_self, inv_mul_cancel_right₀ (he _ _)]
      · intro i _ hi
        rw [Function.update_of_ne fun h => hi (hq _ _ _ _ h).1,
          Function.update_of_ne fun h => hi (hq _ _ _ _ h).1, Function.update_of_ne (h0 _ _)]
        simp
      · intro h; exact absurd (Finset.mem_univ _) h
    · show choiceSum q e v' _ = y
      rw [choiceSum, Finset.sum_eq_single i₀]
      · rw [Function.update_of_ne hne.symm, Function.update_self, inv_mul_cancel_right₀ (he _ _)]
      · intro i _ hi
        rw [Function.update_of_ne fun h => hi (hq _ _ _ _ h).1,
          Function.update_of_ne fun h => hi (hq _ _ _ _ h).1, Function.update_of_ne (h0 _ _)]
        simp
      · intro h; exact absurd (Finset.mem_univ _) h

/-- Among the tables with a given answer at `q0`, at least the fraction `K^N / (K^N + |F|)` has a choice
whose sum vanishes. -/
theorem card_vanishing (m : F) :
    K ^ N * Nat.card {f : Q → F // f q0 = m} ≤
      Nat.card {f : Q → F // f q0 = m ∧ ∃ v, choiceSum q e v f = 0} * (K ^ N + Nat.card F) := by
  classical
  have := Fintype.ofFinite {f : Q → F // f q0 = m}
  have hp : 0 < Nat.card F := Nat.card_pos
  have hpF := card_first (F := F) q0 m
  rcases Nat.eq_zero_or_pos N with rfl | hN
  · have : Nat.card {f : Q → F // f q0 = m ∧ ∃ v, choiceSum q e v f = 0} =
        Nat.card {f : Q → F // f q0 = m} :=
      Nat.card_congr (Equiv.subtypeEquivRight fun f =>
        ⟨fun h => h.1, fun h => ⟨h, Fin.elim0, by simp [choiceSum]⟩⟩)
    rw [this, pow_zero, one_mul]
    exact Nat.le_mul_of_pos_right _ (by omega)
  have e1 : ∀ p : (Q → F) → Prop, Nat.card {f : {f : Q → F // f q0 = m} // p f.1} =
      Nat.card {f : Q → F // f q0 = m ∧ p f} := fun p =>
    Nat.card_congr (Equiv.subtypeSubtypeEquivSubtypeInter _ p)
  have key := second_moment (T := {f : Q → F // f q0 = m}) (V := Fin N → Fin K)
    (fun v f => choiceSum q e v f.1 = 0) (Nat.card F) ?_ ?_
  · rw [Fintype.card_fun, Fintype.card_fin, Fintype.card_fin, ← Nat.card_eq_fintype_card,
      e1 fun f => ∃ v, choiceSum q e v f = 0] at key
    exact key
  · intro v
    rw [e1 fun f => choiceSum q e v f = 0, ← Nat.card_eq_fintype_card]
    have h1 := card_one q e q0 hq h0 he v ⟨0, hN⟩ m 0
    simp only [Prod.mk.injEq] at h1
    refine Nat.eq_of_mul_eq_mul_right hp ?_
    rw [hpF, ← h1]; ring
  · intro v v' hv
    rw [e1 fun f => choiceSum q e v f = 0 ∧ choiceSum q e v' f = 0, ← Nat.card_eq_fintype_card]
    have h1 := card_two q e q0 hq h0 he v v' hv m 0 0
    simp only [Prod.mk.injEq] at h1
    refine Nat.eq_of_mul_eq_mul_right hp ?_
    rw [hpF, ← h1]; ring

end counting

/-! ## The adversary -/

namespace Spec.Strategy
variable {Q A P : Type}

theorem run_askAll (f : Q → A) (qs : List Q) (k : List A → Strategy Q A P) :
    (askAll qs k).run f = (k (qs.map f)).run f := by
  induction qs generalizing k with
  | nil => rfl
  | cons q qs ih => simpa [askAll, run] using ih _

end Spec.Strategy

variable {N K : Nat}

/-- The weight question of candidate `j` at position `i`. -/
def candQ (wf : CS.WF) (mode : Mode) (t : CS.Scalar) (P : Fin N → Fin K → CS.Elem × CS.Elem)
    (i : Fin N) (j : Fin K) : Question :=
  weightQ wf mode (t • CS.group.baseElem) i (P i j).1 (P i j).2

open Classical in
/-- Knowing the weights `w` of all candidates: if some choice of candidates has contributions adding up to
zero, make the proof for it as the server would, with nonce 1. -/
noncomputable def attackThen (wf : CS.WF) (mode : Mode) (t : CS.Scalar)
    (P : Fin N → Fin K → CS.Elem × CS.Elem) (w : Fin N → Fin K → CS.Scalar) :
    Strategy Question CS.Scalar (Option ((Fin N → Fin K) × CS.Scalar × CS.Scalar)) :=
  if h : ∃ v : Fin N → Fin K, ∑ i, w i (v i) • ((P i (v i)).2 - t • (P i (v i)).1) = 0 then
    .ask (challengeQ wf mode (t • CS.group.baseElem)
      (∑ i, w i (h.choose i) • (P i (h.choose i)).1)
      (t • ∑ i, w i (h.choose i) • (P i (h.choose i)).1)
      CS.group.baseElem
      (∑ i, w i (h.choose i) • (P i (h.choose i)).1))
      fun c => .done (some (h.choose, c, 1 - c * t))
  else .done none

/-- Ask for the weights of all candidates and go on with `attackThen`. -/
noncomputable def attack (wf : CS.WF) (mode : Mode) (t : CS.Scalar)
    (P : Fin N → Fin K → CS.Elem × CS.Elem) :
    Strategy Question CS.Scalar (Option ((Fin N → Fin K) × CS.Scalar × CS.Scalar)) :=
  .askAll (List.ofFn fun n : Fin (N * K) =>
      candQ wf mode t P (finProdFinEquiv.symm n).1 (finProdFinEquiv.symm n).2) fun as =>
    attackThen wf mode t P fun i j => as.getD (finProdFinEquiv (i, j)).1 0

theorem attack_within (wf : CS.WF) (mode : Mode) (t : CS.Scalar)
    (P : Fin N → Fin K → CS.Elem × CS.Elem) : (attack wf mode t P).Within (N * K + 1) := by
  refine Strategy.Within.mono ?_ (Strategy.Within.askAll (n := 1) _ fun as => ?_)
  · simp
  · unfold attackThen
    split
    · exact fun _ => trivial
    · trivial

theorem attack_run (wf : CS.WF) (mode : Mode) (t : CS.Scalar) (P : Fin N → Fin K → CS.Elem × CS.Elem)
    (f : Table CS)
    (h : ∃ v : Fin N → Fin K,
      ∑ i, f (candQ wf mode t P i (v i)) • ((P i (v i)).2 - t • (P i (v i)).1) = 0) :
    ∃ (v : Fin N → Fin K) (M : CS.Elem) (c : CS.Scalar),
      (attack wf mode t P).run f = some (v, c, 1 - c * t) ∧
      ∑ i, f (candQ wf mode t P i (v i)) • ((P i (v i)).2 - t • (P i (v i)).1) = 0 ∧
      M = ∑ i, f (candQ wf mode t P i (v i)) • (P i (v i)).1 ∧
      c = f (challengeQ wf mode (t • CS.group.baseElem) M (t • M) CS.group.baseElem M) := by
  have hget : (fun i j => (List.map f (List.ofFn fun n : Fin (N * K) =>
      candQ wf mode t P (finProdFinEquiv.symm n).1 (finProdFinEquiv.symm n).2)).getD
      (finProdFinEquiv (i, j)).1 0) = fun i j => f (candQ wf mode t P i j) := by
    funext i j
    rw [List.map_ofFn, List.getD_eq_getElem?_getD, List.getElem?_ofFn,
      dif_pos (finProdFinEquiv (i, j)).2]
    show f (candQ wf mode t P (finProdFinEquiv.symm (finProdFinEquiv (i, j))).1
      (finProdFinEquiv.symm (finProdFinEquiv (i, j))).2) = _
    rw [Equiv.symm_apply_apply]
  have hrun : (attack wf mode t P).run f =
      (attackThen wf mode t P fun i j => f (candQ wf mode t P i j)).run f := by
    rw [← hget]
    exact Strategy.run_askAll f _ _
  unfold attackThen at hrun
  rw [dif_pos h] at hrun
  exact ⟨h.choose, _, _, hrun, h.choose_spec, rfl, rfl⟩

theorem weights_ofFn (wf : CS.WF) (f : Table CS) (mode : Mode) (B : CS.Elem) (C D : Fin N → CS.Elem) :
    weights (oracleSuite CS f) mode B (List.ofFn C) (List.ofFn D) =
      .ok (List.ofFn fun i : Fin N => f (weightQ wf mode B i (C i) (D i))) := by
  have h := oracle_weightsFrom wf f mode B ((List.ofFn C).zip (List.ofFn D)) 0
  have h2 : ((List.ofFn C).zip (List.ofFn D)).zipIdx.map (fun t => f (itemQ wf mode B t)) =
      List.ofFn fun i : Fin N => f (weightQ wf mode B i (C i) (D i)) :=
    List.ext_getElem (by simp) fun n h1 h2 => by simp [itemQ]
  exact h.trans (congrArg (Except.ok (ε := InternalError)) h2)

theorem choice_accepted (wf : CS.WF) (mode : Mode) (t : CS.Scalar) (f : Table CS) (C D : Fin N → CS.Elem)
    (h0 : ∑ i : Fin N, f (weightQ wf mode (t • CS.group.baseElem) i (C i) (D i)) • (D i - t • C i) = 0)
    (M : CS.Elem) (c s : CS.Scalar)
    (hM : M = ∑ i : Fin N, f (weightQ wf mode (t • CS.group.baseElem) i (C i) (D i)) • C i)
    (hc : c = f (challengeQ wf mode (t • CS.group.baseElem) M (t • M) CS.group.baseElem M))
    (hs : s = 1 - c * t) :
    Accepted (oracleSuite CS f) mode (t • CS.group.baseElem) (List.ofFn C) (List.ofFn D) c s := by
  refine ⟨_, weights_ofFn wf f mode _ C D, ?_⟩
  have e1 : lincomb (List.ofFn fun i : Fin N =>
      f (weightQ wf mode (t • CS.group.baseElem) i (C i) (D i))) (List.ofFn C) = M := by
    rw [lincomb_ofFn, hM]
  have e2 : lincomb (List.ofFn fun i : Fin N =>
      f (weightQ wf mode (t • CS.group.baseElem) i (C i) (D i))) (List.ofFn D) = t • M := by
    rw [lincomb_ofFn, hM, Finset.smul_sum, ← sub_eq_zero, ← Finset.sum_sub_distrib, ← h0]
    refine Finset.sum_congr rfl fun i _ => ?_
    rw [smul_sub, smul_comm t]
  have e3 : s • CS.group.baseElem + c • t • CS.group.baseElem = CS.group.baseElem := by
    rw [hs, sub_smul, mul_smul, one_smul, sub_add_cancel]
  have e4 : s • M + c • t • M = M := by
    rw [hs, sub_smul, mul_smul, one_smul, sub_add_cancel]
  have goal : ∀ M₁ Z₁ T₁ U₁ : CS.Elem, M₁ = M → Z₁ = t • M → T₁ = CS.group.baseElem → U₁ = M →
      challenge (oracleSuite CS f) mode (t • CS.group.baseElem) M₁ Z₁ T₁ U₁ = .ok c := by
    rintro _ _ _ _ rfl rfl rfl rfl
    exact (oracle_challenge wf f mode _ _ _ _ _).trans (congrArg _ hc.symm)
  refine goal _ _ _ _ e1 e2 e3 (Eq.trans ?_ e4)
  rw [← e2, ← e1]
  rfl

/-- Distinct candidates have distinct weight questions. -/
theorem candQ_inj (wf : CS.WF) (mode : Mode) (t : CS.Scalar) (P : Fin N → Fin K → CS.Elem × CS.Elem)
    (hN : N ≤ 65535) (hP : ∀ i, Function.Injective (P i)) (i : Fin N) (j : Fin K) (i' : Fin N)
    (j' : Fin K) (h : candQ wf mode t P i j = candQ wf mode t P i' j') : i = i' ∧ j = j' := by
  obtain ⟨h1, h2, h3⟩ := weightQ_inj wf mode (by omega) (by omega) h
  have hi : i = i' := Fin.ext h1
  subst hi
  exact ⟨rfl, hP i (Prod.ext h2 h3)⟩

/-- How often the adversary succeeds, among the tables with a given answer to the tweak question. -/
theorem attack_bound (wf : CS.WF) (mode : Mode) (t : CS.Scalar) (P : Fin N → Fin K → CS.Elem × CS.Elem)
    (hN : N ≤ 65535) (hP : ∀ i, Function.Injective (P i))
    (hw : ∀ i j, ¬ SameKey CS (t • CS.group.baseElem) (P i j).1 (P i j).2)
    (info : Bytes) (hi : info.length ≤ 65535) (m : CS.Scalar) :
    K ^ N * Nat.card {f : Table CS // f (infoQ wf mode info hi) = m} ≤
      Nat.card {f : Table CS // f (infoQ wf mode info hi) = m ∧
        ∃ v c s, (attack wf mode t P).run f = some (v, c, s) ∧
          Accepted (oracleSuite CS f) mode (t • CS.group.baseElem)
            (List.ofFn fun i => (P i (v i)).1) (List.ofFn fun i => (P i (v i)).2) c s}
        * (K ^ N + Nat.card CS.Scalar) := by
  have hgen : ∀ i j, ∃ e : CS.Scalar, (P i j).2 - t • (P i j).1 = e • CS.group.baseElem := fun i j =>
    VGroup.Lawful.base_generates (G := CS.group) _
  choose e he using hgen
  have he0 : ∀ i j, e i j ≠ 0 := by
    intro i j h0
    refine hw i j ((sameKey_iff _ _ _).mpr (sub_eq_zero.mp ?_))
    rw [he, h0, zero_smul]
  have key := card_vanishing (candQ wf mode t P) e (infoQ wf mode info hi)
    (candQ_inj wf mode t P hN hP) (fun i j h => ?_) he0 m
  · refine key.trans (Nat.mul_le_mul_right _ (card_le_of_imp fun f hf => ?_))
    obtain ⟨hm, v, hv⟩ := hf
    refine ⟨hm, ?_⟩
    have hex : ∑ i, f (candQ wf mode t P i (v i)) • ((P i (v i)).2 - t • (P i (v i)).1) = 0 := by
      simp only [he, smul_smul, ← Finset.sum_smul]
      rw [show ∑ i, f (candQ wf mode t P i (v i)) * e i (v i) = 0 from hv, zero_smul]
    obtain ⟨v', M, c, hrun, h0, hM, hc⟩ := attack_run wf mode t P f ⟨v, hex⟩
    exact ⟨v', c, _, hrun, choice_accepted wf mode t f (fun i => (P i (v' i)).1)
      (fun i => (P i (v' i)).2) h0 M c _ hM hc rfl⟩
  · exact (scalarInputs_disjoint wf 0 0 0 0 0 (P i j).1 (P i j).2 mode (t • CS.group.baseElem) i
      info).2.2 (congrArg (fun q : Question => q.1.2) h)

/-! ## The calls -/

theorem card_fibers_ge {α β : Type} [Finite α] [Finite β] (φ : α → β) (p : α → Prop) (c b : Nat)
    (h : ∀ m, b * Nat.card {f // φ f = m} ≤ Nat.card {f // φ f = m ∧ p f} * c) :
    b * Nat.card α ≤ Nat.card {f // p f} * c := by
  classical
  have := Fintype.ofFinite α
  have := Fintype.ofFinite β
  have e1 : Nat.card {f // p f} = ∑ m, Nat.card {f // φ f = m ∧ p f} := by
    rw [Nat.card_eq_fintype_card, Fintype.card_subtype,
      Finset.card_eq_sum_card_fiberwise (f := φ) (t := Finset.univ) (fun _ _ => Finset.mem_univ _)]
    refine Finset.sum_congr rfl fun m _ => ?_
    rw [Nat.card_eq_fintype_card, Fintype.card_subtype, Finset.filter_filter]
    simp only [and_comm]
  have e2 : Nat.card α = ∑ m, Nat.card {f // φ f = m} := by
    rw [Nat.card_eq_fintype_card, ← Finset.card_univ,
      Finset.card_eq_sum_card_fiberwise (f := φ) (t := Finset.univ) (fun _ _ => Finset.mem_univ _)]
    refine Finset.sum_congr rfl fun m _ => ?_
    rw [Nat.card_eq_fintype_card, Fintype.card_subtype]
  rw [e1, e2, Finset.sum_mul, Finset.mul_sum]
  exact Finset.sum_le_sum fun m _ => h m

theorem BatchAttempt.voprf_of_accepted (wf : CS.WF) (f : Table CS) (pk : CS.Elem) (a : BatchAttempt CS)
    (hl : a.clients.length = a.messages.length) (hn : a.clients.length ≤ 65535)
    (h : Accepted (oracleSuite CS f) .Voprf pk (a.clients.map (·.2)) a.messages a.c a.s) :
    ∃ outs, a.voprfFinalize f pk = .ok outs := by
  let cs : List (VoprfClient (oracleSuite CS f)) := a.clients.map fun p => ⟨p.1, p.2⟩
  let ms : List (EvaluationElement (oracleSuite CS f)) := a.messages.map fun e => ⟨e⟩
  have l1 : cs.length = a.clients.length := List.length_map _
  have l2 : ms.length = a.messages.length := List.length_map _
  have m1 : cs.map (·.blindedElement) = a.clients.map (·.2) := List.map_map
  have m2 : ms.map (·.value) = a.messages := List.map_map.trans (List.map_id _)
  refine (C09_voprf_batch (CS := oracleSuite CS f) (oracle_wf wf f) a.inputs cs ms ⟨a.c, a.s⟩ pk
    (l1.trans (hl.trans l2.symm)) (by omega)).1.mpr ?_
  exact accepted_congr f .Voprf pk m1 m2 a.c a.s h

theorem BatchAttempt.poprf_of_accepted (wf : CS.WF) (f : Table CS) (pk : CS.Elem) (info : Option Bytes)
    (a : BatchAttempt CS) (hl : a.clients.length = a.messages.length) (hn : a.clients.length ≤ 65535)
    (hi : a.inputs.length = a.clients.length) (hb : ∀ p ∈ a.clients, p.1 ≠ 0)
    (hil : (info.getD []).length ≤ 65535) (m : CS.Scalar)
    (hm : Spec.hashToScalar (oracleSuite CS f) .Poprf (infoInput (info.getD [])) = .ok m)
    (htk : m • CS.group.baseElem + pk ≠ 0)
    (h : Accepted (oracleSuite CS f) .Poprf (m • CS.group.baseElem + pk) a.messages
      (a.clients.map (·.2)) a.c a.s) :
    ∃ outs, a.poprfFinalize f pk info = .ok outs := by
  let cs : List (PoprfClient (oracleSuite CS f)) := a.clients.map fun p => ⟨p.1, p.2⟩
  let ms : List (EvaluationElement (oracleSuite CS f)) := a.messages.map fun e => ⟨e⟩
  have l1 : cs.length = a.clients.length := List.length_map _
  have l2 : ms.length = a.messages.length := List.length_map _
  have m1 : cs.map (·.blindedElement) = a.clients.map (·.2) := List.map_map
  have m2 : ms.map (·.value) = a.messages := List.map_map.trans (List.map_id _)
  have hb' : ∀ c ∈ cs, c.blind ≠ 0 := by
    intro c hc
    obtain ⟨p, hp, rfl⟩ := List.mem_map.mp hc
    exact hb p hp
  refine (C09_poprf_batch (CS := oracleSuite CS f) (oracle_wf wf f) a.inputs cs hb' ms ⟨a.c, a.s⟩ pk
    info m hil hm htk (l1.trans (hl.trans l2.symm)) (by omega) (hi.trans l1.symm)).1.mpr ?_
  exact accepted_congr f .Poprf _ m2 m1 a.c a.s h

/-- C50, VOPRF: the exponent in the batch bound of C49 is real. Take any clients waiting for a batch of `N`
answers, and for every position `K` different wrong answers. An adversary asking `N * K + 1` questions to the
oracle makes `VoprfClient::batch_finalize` accept a batch of `N` wrong answers, for the given public key and
these clients, with probability at least `K^N / (K^N + |scalars|)`; with `K = 2` and `N` a little above the
bit length of the order this is almost always. -/
theorem C50_voprf_forgery (wf : CS.WF) (hN : N ≤ 65535) (k : CS.Scalar) (inputs : List Bytes)
    (blind : Fin N → CS.Scalar) (C : Fin N → CS.Elem) (D : Fin N → Fin K → CS.Elem)
    (hD : ∀ i, Function.Injective (D i))
    (hw : ∀ i j, ¬ SameKey CS (k • CS.group.baseElem) (C i) (D i j)) :
    ∃ S : Strategy Question CS.Scalar (BatchAttempt CS), S.Within (N * K + 1) ∧
      K ^ N * Nat.card (Table CS) ≤
        Nat.card {f : Table CS //
          (∃ outs, (S.run f).voprfFinalize f (k • CS.group.baseElem) = .ok outs) ∧
          (S.run f).inputs = inputs ∧ (S.run f).clients = List.ofFn (fun i => (blind i, C i)) ∧
          (S.run f).messages.length = N ∧ (S.run f).AllWrong (k • CS.group.baseElem)}
        * (K ^ N + Nat.card CS.Scalar) := by
  refine ⟨(attack wf .Voprf k fun i j => (C i, D i j)).andThen fun o => .done (match o with
    | some (v, c, s) => ⟨inputs, List.ofFn fun i => (blind i, C i), List.ofFn fun i => D i (v i), c, s⟩
    | none => ⟨[], [], [], 0, 0⟩),
    (attack_within wf .Voprf k _).andThen (m := 0) fun _ => trivial, ?_⟩
  refine card_fibers_ge (fun f : Table CS => f (infoQ wf .Voprf [] (Nat.zero_le _))) _ _ _ fun m => ?_
  refine (attack_bound wf .Voprf k (fun i j => (C i, D i j)) hN
    (fun i j j' h => hD i (congrArg Prod.snd h)) hw [] (Nat.zero_le _) m).trans
    (Nat.mul_le_mul_right _ (card_le_of_imp fun f hf => ?_))
  obtain ⟨hm, v, c, s, hrun, hacc⟩ := hf
  refine ⟨hm, ?_⟩
  rw [Strategy.run_andThen, hrun]
  simp only [Strategy.run]
  refine ⟨BatchAttempt.voprf_of_accepted wf f _ _ (by simp) (by simpa using hN)
    (accepted_congr f _ _ (List.map_ofFn ..) rfl _ _ hacc), trivial, trivial, by simp, ?_⟩
  intro i p e hp he
  simp only [List.getElem?_ofFn] at hp he
  split at hp
  · next hi =>
    rw [dif_pos hi] at he
    simp only [Option.some.injEq] at hp he
    subst hp he
    exact hw _ _
  · simp at hp

theorem card_fibers_ge_except {α β : Type} [Finite α] [Finite β] (φ : α → β) (p : α → Prop) (c b : Nat)
    (m₀ : β) (hu : ∀ m, Nat.card {f // φ f = m} * Nat.card β = Nat.card α)
    (h : ∀ m, m ≠ m₀ → b * Nat.card {f // φ f = m} ≤ Nat.card {f // φ f = m ∧ p f} * c) :
    b * ((Nat.card β - 1) * Nat.card α) ≤ Nat.card {f // p f} * c * Nat.card β := by
  classical
  have := Fintype.ofFinite α
  have := Fintype.ofFinite β
  have e1 : Nat.card {f // p f} = ∑ m, Nat.card {f // φ f = m ∧ p f} := by
    rw [Nat.card_eq_fintype_card, Fintype.card_subtype,
      Finset.card_eq_sum_card_fiberwise (f := φ) (t := Finset.univ) (fun _ _ => Finset.mem_univ _)]
    refine Finset.sum_congr rfl fun m _ => ?_
    rw [Nat.card_eq_fintype_card, Fintype.card_subtype, Finset.filter_filter]
    simp only [and_comm]
  have e2 : b * ((Nat.card β - 1) * Nat.card α) =
      ∑ m ∈ Finset.univ.erase m₀, b * Nat.card {f // φ f = m} * Nat.card β := by
    have : ∀ m, b * Nat.card {f // φ f = m} * Nat.card β = b * Nat.card α := fun m => by
      rw [mul_assoc, hu]
    rw [Finset.sum_congr rfl fun m _ => this m, Finset.sum_const,
      Finset.card_erase_of_mem (Finset.mem_univ _), Finset.card_univ, smul_eq_mul,
      Nat.card_eq_fintype_card (α := β)]
    ring
  rw [e2, e1, Finset.sum_mul, Finset.sum_mul]
  refine (Finset.sum_le_sum fun m hm =>
    Nat.mul_le_mul_right _ (h m (Finset.ne_of_mem_erase hm))).trans ?_
  exact Finset.sum_le_sum_of_subset (Finset.subset_univ _)

/-- C50, POPRF: the same for `PoprfClient::batch_finalize`. The wrong answers may depend on the tweaked
private key `t`, which the server knows; the factor `(|scalars| - 1) / |scalars|` accounts for the one tweak
for which the tweaked key vanishes and every call fails. -/
theorem C50_poprf_forgery (wf : CS.WF) (hN : N ≤ 65535) (k : CS.Scalar) (info : Option Bytes)
    (hil : (info.getD []).length ≤ 65535) (inputs : List Bytes) (hin : inputs.length = N)
    (blind : Fin N → CS.Scalar) (hb : ∀ i, blind i ≠ 0) (C : Fin N → CS.Elem)
    (E : CS.Scalar → Fin N → Fin K → CS.Elem)
    (hE : ∀ t, t ≠ 0 → ∀ i, Function.Injective (E t i))
    (hw : ∀ t, t ≠ 0 → ∀ i j, ¬ SameKey CS (t • CS.group.baseElem) (E t i j) (C i)) :
    ∃ S : Strategy Question CS.Scalar (BatchAttempt CS), S.Within (N * K + 2) ∧
      K ^ N * ((Nat.card CS.Scalar - 1) * Nat.card (Table CS)) ≤
        Nat.card {f : Table CS // ∃ (outs : List (Res Bytes)) (m : CS.Scalar),
          (S.run f).poprfFinalize f (k • CS.group.baseElem) info = .ok outs ∧
          Spec.hashToScalar (oracleSuite CS f) .Poprf (infoInput (info.getD [])) = .ok m ∧
          (S.run f).inputs = inputs ∧ (S.run f).clients = List.ofFn (fun i => (blind i, C i)) ∧
          (S.run f).messages.length = N ∧
          (S.run f).AllWrongTweaked (m • CS.group.baseElem + k • CS.group.baseElem)}
        * (K ^ N + Nat.card CS.Scalar) * Nat.card CS.Scalar := by
  refine ⟨.ask (infoQ wf .Poprf (info.getD []) hil) fun m =>
    (attack wf .Poprf (k + m) fun i j => (E (k + m) i j, C i)).andThen fun o => .done (match o with
    | some (v, c, s) =>
        ⟨inputs, List.ofFn fun i => (blind i, C i), List.ofFn fun i => E (k + m) i (v i), c, s⟩
    | none => ⟨[], [], [], 0, 0⟩),
    fun m => (attack_within wf .Poprf (k + m) _).andThen (m := 0) fun _ => trivial, ?_⟩
  refine card_fibers_ge_except (fun f : Table CS => f (infoQ wf .Poprf (info.getD []) hil)) _ _ _ (-k)
    (fun m => card_first _ m) fun m hm0 => ?_
  have ht : k + m ≠ 0 := fun h => hm0 (eq_neg_of_add_eq_zero_right h)
  refine (attack_bound wf .Poprf (k + m) (fun i j => (E (k + m) i j, C i)) hN
    (fun i j j' h => hE _ ht i (congrArg Prod.fst h)) (hw _ ht) (info.getD []) hil m).trans
    (Nat.mul_le_mul_right _ (card_le_of_imp fun f hf => ?_))
  obtain ⟨hm, v, c, s, hrun, hacc⟩ := hf
  refine ⟨hm, ?_⟩
  simp only [Strategy.run]
  rw [hm, Strategy.run_andThen, hrun]
  simp only [Strategy.run]
  have hq : Spec.hashToScalar (oracleSuite CS f) .Poprf (infoInput (info.getD [])) = .ok m := by
    rw [oracle_hashToScalar wf f .Poprf _ (infoInput_length_le _ hil)]
    exact congrArg _ hm
  have hkey : m • CS.group.baseElem + k • CS.group.baseElem = (k + m) • CS.group.baseElem := by
    rw [add_smul, add_comm]
  rw [← hkey] at hacc
  obtain ⟨outs, ho⟩ := BatchAttempt.poprf_of_accepted wf f (k • CS.group.baseElem) info
    ⟨inputs, List.ofFn fun i => (blind i, C i), List.ofFn fun i => E (k + m) i (v i), c, s⟩
    (by simp) (by simpa using hN) (by simpa using hin)
    (fun p hp => by
      obtain ⟨i, rfl⟩ := (List.mem_ofFn' _ _).mp hp
      exact hb i) hil m hq
    (by rw [hkey]; exact fun h0 => ht ((smul_base_eq_zero _).mp h0))
    (accepted_congr f _ _ rfl (List.map_ofFn ..) _ _ hacc)
  refine ⟨outs, m, ho, hq, trivial, trivial, by simp, ?_⟩
  rw [hkey]
  intro i p e hp he
  simp only [List.getElem?_ofFn] at hp he
  split at hp
  · next hi =>
    rw [dif_pos hi] at he
    simp only [Option.some.injEq] at hp he
    subst hp he
    exact hw _ ht _ _
  · simp at hp

/-! ## The hypotheses are easily met -/

/-- A wrong answer: the right one plus a nonzero multiple of the base element. -/
theorem shifted_wrong (k : CS.Scalar) (C : CS.Elem) (x : CS.Scalar) (hx : x ≠ 0) :
    ¬ SameKey CS (k • CS.group.baseElem) C (k • C + x • CS.group.baseElem) := by
  rw [sameKey_iff]
  intro h
  exact hx ((smul_base_eq_zero x).mp (by simpa using h))

theorem shifted_wrong_tweaked (t : CS.Scalar) (ht : t ≠ 0) (C : CS.Elem) (x : CS.Scalar) (hx : x ≠ 0) :
    ¬ SameKey CS (t • CS.group.baseElem) (t⁻¹ • C + x • CS.group.baseElem) C := by
  rw [sameKey_iff, smul_add, smul_inv_smul₀ ht]
  intro h
  have h : t • x • CS.group.baseElem = 0 := by simpa using h
  rw [smul_smul, smul_base_eq_zero] at h
  rcases mul_eq_zero.mp h with h | h
  · exact ht h
  · exact hx h

/-- Any key and any clients: with any `K` distinct nonzero shifts the hypotheses of the forgery theorems
hold. -/
example (x : Fin K → CS.Scalar) (hx : Function.Injective x) (h0 : ∀ j, x j ≠ 0) (k : CS.Scalar)
    (C : Fin N → CS.Elem) :
    (∀ i, Function.Injective fun j => k • C i + x j • CS.group.baseElem) ∧
    (∀ i j, ¬ SameKey CS (k • CS.group.baseElem) (C i) (k • C i + x j • CS.group.baseElem)) ∧
    (∀ t : CS.Scalar, t ≠ 0 → ∀ i, Function.Injective fun j => t⁻¹ • C i + x j • CS.group.baseElem) ∧
    (∀ t : CS.Scalar, t ≠ 0 → ∀ i j,
      ¬ SameKey CS (t • CS.group.baseElem) (t⁻¹ • C i + x j • CS.group.baseElem) (C i)) :=
  ⟨fun _ _ _ h => hx (smul_base_inj (add_left_cancel h)), fun i j => shifted_wrong k (C i) _ (h0 j),
    fun _ _ _ _ _ h => hx (smul_base_inj (add_left_cancel h)),
    fun t ht i j => shifted_wrong_tweaked t ht (C i) _ (h0 j)⟩

section examples
open Toy

/-- On the small suite, 16 clients and the shifts 1 and 2: 33 questions forge 16 wrong answers with
probability at least 65536/65787. -/
example (inputs : List Bytes) (blind : Fin 16 → suite.Scalar) (C : Fin 16 → suite.Elem) :
    ∃ S : Strategy Question suite.Scalar (BatchAttempt suite), S.Within (16 * 2 + 1) ∧
      2 ^ 16 * Nat.card (Table suite) ≤
        Nat.card {f : Table suite //
          (∃ outs, (S.run f).voprfFinalize f ((7 : suite.Scalar) • suite.group.baseElem) = .ok outs) ∧
          (S.run f).inputs = inputs ∧ (S.run f).clients = List.ofFn (fun i => (blind i, C i)) ∧
          (S.run f).messages.length = 16 ∧
          (S.run f).AllWrong ((7 : suite.Scalar) • suite.group.baseElem)}
        * (2 ^ 16 + Nat.card suite.Scalar) := by
  have h2 : ∀ j : Fin 2, (![1, 2] : Fin 2 → F) j ≠ 0 := by decide
  have hx : Function.Injective (![1, 2] : Fin 2 → F) := by decide
  let x : Fin 2 → suite.Scalar := (![1, 2] : Fin 2 → F)
  exact C50_voprf_forgery wf (by omega) (7 : suite.Scalar) inputs blind C
    (fun i j => (7 : suite.Scalar) • C i + x j • suite.group.baseElem)
    (fun _ _ _ h => hx (smul_base_inj (CS := suite) (add_left_cancel h)))
    (fun i j => shifted_wrong (CS := suite) (7 : suite.Scalar) (C i) _ (h2 j))

end examples

end Voprf
