import Verif.Props.Binding
import Verif.Props.Soundness
import Verif.Toy

/-!
# C50: what a batch proof says, item by item

The weight of an item depends on the public key, its position and the item itself, not on the rest of the
batch.  So the verdict on a batch is the vanishing of a sum of independent contributions, and whoever finds
wrong items whose contributions cancel gets the batch accepted.
-/

namespace Voprf

open Spec

variable {CS : CipherSuite} [L : CS.group.Lawful]

theorem weightsFrom_error (mode : Mode) (k : CS.Scalar) (ps : List (CS.Elem × CS.Elem)) (i : Nat)
    (ws : List CS.Scalar) (h : weightsFrom CS mode (k • CS.group.baseElem) i ps = .ok ws) :
    ((ps.zipIdx i).map fun t => itemError CS mode k t.2 t.1.1 t.1.2).sum =
      lincomb ws (ps.map (·.2)) - k • lincomb ws (ps.map (·.1)) := by
  induction ps generalizing i ws with
  | nil => simp [lincomb]
  | cons p ps ih =>
    obtain ⟨C, D⟩ := p
    unfold weightsFrom at h
    cases hw : weight CS mode (k • CS.group.baseElem) i C D with
    | error e => rw [hw] at h; exact absurd h (by intro h; exact nomatch h)
    | ok w =>
      cases hws : weightsFrom CS mode (k • CS.group.baseElem) (i + 1) ps with
      | error e => rw [hw, hws] at h; exact absurd h (by intro h; exact nomatch h)
      | ok ws' =>
        rw [hw, hws] at h
        have h : w :: ws' = ws := Except.ok.inj h
        subst h
        have ih := ih (i + 1) ws' hws
        rw [List.zipIdx_cons, List.map_cons, List.sum_cons, ih]
        simp only [itemError, hw, lincomb, List.map_cons, List.zipWith_cons_cons, List.sum_cons,
          smul_add, smul_sub, smul_comm k w]
        rw [add_sub_add_comm]

/-- The sum of the contributions is the amount by which the composites fail to be in the ratio of the
key. -/
theorem batchError_eq (mode : Mode) (k : CS.Scalar) (Cs Ds : List CS.Elem) (hl : Cs.length = Ds.length)
    (ws : List CS.Scalar) (h : weights CS mode (k • CS.group.baseElem) Cs Ds = .ok ws) :
    batchError CS mode k Cs Ds = lincomb ws Ds - k • lincomb ws Cs := by
  have := weightsFrom_error mode k (Cs.zip Ds) 0 ws h
  rw [List.map_fst_zip (by omega), List.map_snd_zip (by omega)] at this
  exact this

/-- C50: an item contributes nothing exactly if it is right, or its weight happens to be zero. -/
theorem C50_item_error_zero (wf : CS.WF) (mode : Mode) (k : CS.Scalar) (i : Nat) (C D : CS.Elem) :
    itemError CS mode k i C D = 0 ↔ SameKey CS (k • CS.group.baseElem) C D ∨
      weight CS mode (k • CS.group.baseElem) i C D = .ok 0 := by
  obtain ⟨w, hw⟩ := weight_ok wf mode (k • CS.group.baseElem) i C D
  rw [sameKey_iff, itemError, hw]
  simp only [smul_eq_zero, sub_eq_zero, Except.ok.injEq]
  exact or_comm

theorem batch_verdict (mode : Mode) (k : CS.Scalar) (Cs Ds : List CS.Elem)
    (hl : Cs.length = Ds.length) (c s : CS.Scalar)
    (h : Accepted CS mode (k • CS.group.baseElem) Cs Ds c s) :
    batchError CS mode k Cs Ds = 0 ∨ ∃ ws, weights CS mode (k • CS.group.baseElem) Cs Ds = .ok ws ∧
      LuckyHash CS mode (k • CS.group.baseElem) (lincomb ws Cs) (lincomb ws Ds) c s := by
  obtain ⟨ws, hws, ha⟩ := h
  by_cases hk : SameKey CS (k • CS.group.baseElem) (lincomb ws Cs) (lincomb ws Ds)
  · left
    rw [sameKey_iff] at hk
    rw [batchError_eq mode k Cs Ds hl ws hws, hk, sub_self]
  · exact .inr ⟨ws, hws, C10_false_statement_lucky _ _ _ _ _ _ hk ha⟩

theorem generateProof_accepted (wf : CS.WF) {σ : Type} [RngCore σ] {rng rng' : σ} {mode : Mode}
    {k : CS.Scalar} {Cs Ds : List CS.Elem} {proof : Proof CS}
    (h : generateProof CS rng k CS.group.baseElem (k • CS.group.baseElem) Cs Ds mode =
      .ok (proof, rng')) (he : batchError CS mode k Cs Ds = 0) :
    Cs.length = Ds.length ∧ Cs.length ≤ 65535 ∧
    Accepted CS mode (k • CS.group.baseElem) Cs Ds proof.cScalar proof.sScalar := by
  have hl : Cs.length = Ds.length := by
    rw [generateProof_eq wf] at h
    split at h
    · simp at h
    · next hn => by_contra hc; exact hn (.inl hc)
  refine verifyProof_ok wf _ _ _ proof mode (verifyProof_generateProof_of wf (fun ws hws => ?_) h)
  rw [batchError_eq mode k Cs Ds hl ws hws, sub_eq_zero] at he
  exact he

/-- C50, VOPRF: run the second half of the server's batch evaluation (`batch_blind_evaluate_finish`) on
blinded elements and arbitrary, possibly wrong, evaluation elements. If the contributions of the items add
up to zero, the client accepts the resulting proof for all of them. -/
theorem C50_voprf_cancelling_accepted (wf : CS.WF) {σ : Type} [RngCore σ] (srv : VoprfServer CS)
    (hk : srv.pk = srv.sk • CS.group.baseElem) (rng rng' : σ) (bs : List (BlindedElement CS))
    (ps : List (PreparedEvaluationElement CS)) (r : VoprfServerBatchEvaluateResult CS)
    (h : srv.batchBlindEvaluateFinish rng bs ps = .ok (r, rng'))
    (he : batchError CS .Voprf srv.sk (bs.map (·.value)) (ps.map (·.inner.value)) = 0)
    (inputs : List Bytes) (clients : List (VoprfClient CS))
    (hc : clients.map (·.blindedElement) = bs.map (·.value)) :
    r.messages = ps.map (·.inner) ∧
    ∃ outs, VoprfClient.batchFinalize inputs clients r.messages r.proof srv.pk = .ok outs := by
  rw [VoprfServer.finish_eq, Res.bind_eq_ok, hk] at h
  obtain ⟨p, hp, h⟩ := h
  simp only [Res.ok.injEq, Prod.mk.injEq] at h
  obtain ⟨rfl, rfl⟩ := h
  refine ⟨rfl, ?_⟩
  obtain ⟨hl, hn, hacc⟩ := generateProof_accepted wf hp he
  have hcl : clients.length = bs.length := by
    have := congrArg List.length hc; simpa using this
  simp only [List.length_map] at hl hn
  refine (C09_voprf_batch wf inputs clients (ps.map (·.inner)) p.1 srv.pk
    (by simp; omega) (by omega)).1.mpr ?_
  rw [hc, List.map_map, hk]
  exact hacc

/-- C50, VOPRF: conversely, whatever proof is presented, an accepted batch has contributions adding up to
zero, or its challenge hash is the one lucky value. -/
theorem C50_voprf_accepted_cancels (wf : CS.WF) (inputs : List Bytes) (clients : List (VoprfClient CS))
    (messages : List (EvaluationElement CS)) (proof : Proof CS) (k : CS.Scalar)
    (outs : List (Res Bytes))
    (h : VoprfClient.batchFinalize inputs clients messages proof (k • CS.group.baseElem) = .ok outs) :
    batchError CS .Voprf k (clients.map (·.blindedElement)) (messages.map (·.value)) = 0 ∨
    ∃ ws, weights CS .Voprf (k • CS.group.baseElem) (clients.map (·.blindedElement))
        (messages.map (·.value)) = .ok ws ∧
      LuckyHash CS .Voprf (k • CS.group.baseElem) (lincomb ws (clients.map (·.blindedElement)))
        (lincomb ws (messages.map (·.value))) proof.cScalar proof.sScalar := by
  have hne : ¬ (clients.length ≠ messages.length ∨ 65535 < clients.length) := by
    rw [← (C13_voprf_finalize wf inputs clients messages proof _).1, h]; simp
  have hl : clients.length = messages.length := by
    by_contra hc; exact hne (Or.inl hc)
  have hn : clients.length ≤ 65535 := by
    by_contra hc; exact hne (Or.inr (by omega))
  exact batch_verdict _ _ _ _ (by simpa using hl) _ _
    ((C09_voprf_batch wf inputs clients messages proof _ hl hn).1.mp ⟨outs, h⟩)

/-- C50, POPRF: the same for the POPRF server's `batch_blind_evaluate_finish`, with the tweaked key. -/
theorem C50_poprf_cancelling_accepted (wf : CS.WF) {σ : Type} [RngCore σ] (sk t : CS.Scalar)
    (info : Option Bytes) (ht : Poprf.computeTweak CS sk info = .ok t) (rng rng' : σ)
    (bs : List (BlindedElement CS)) (ps : List (PreparedEvaluationElement CS))
    (r : PoprfServerBatchEvaluateResult CS)
    (h : PoprfServer.batchBlindEvaluateFinish rng bs ps ⟨t⟩ = .ok (r, rng'))
    (he : batchError CS .Poprf t (ps.map (·.inner.value)) (bs.map (·.value)) = 0)
    (inputs : List Bytes) (clients : List (PoprfClient CS)) (hb : ∀ c ∈ clients, c.blind ≠ 0)
    (hc : clients.map (·.blindedElement) = bs.map (·.value)) (hi : inputs.length = clients.length) :
    r.messages = ps.map (·.inner) ∧
    ∃ outs, PoprfClient.batchFinalize inputs clients r.messages r.proof (sk • CS.group.baseElem) info
      = .ok outs := by
  rw [PoprfServer.finish_eq, Res.bind_eq_ok] at h
  obtain ⟨p, hp, h⟩ := h
  simp only [Res.ok.injEq, Prod.mk.injEq] at h
  obtain ⟨rfl, rfl⟩ := h
  refine ⟨rfl, ?_⟩
  obtain ⟨hl, hn, hacc⟩ := generateProof_accepted wf hp he
  obtain ⟨m, hil, hm, rfl, ht0⟩ := computeTweak_ok wf ht
  have hcl : clients.length = bs.length := by
    have := congrArg List.length hc; simpa using this
  simp only [List.length_map] at hl hn
  have hkey : m • CS.group.baseElem + sk • CS.group.baseElem = (sk + m) • CS.group.baseElem := by
    rw [add_smul, add_comm]
  refine (C09_poprf_batch wf inputs clients hb (ps.map (·.inner)) p.1 (sk • CS.group.baseElem) info m
    hil hm ?_ (by simp; omega) (by omega) hi).1.mpr ?_
  · rw [hkey]; exact fun h0 => ht0 ((smul_eq_zero.mp h0).resolve_right VGroup.Lawful.baseElem_ne_zero)
  · rw [hc, List.map_map, hkey]
    exact hacc

/-- C50, POPRF, conversely. -/
theorem C50_poprf_accepted_cancels (wf : CS.WF) (inputs : List Bytes) (clients : List (PoprfClient CS))
    (messages : List (EvaluationElement CS)) (proof : Proof CS) (sk : CS.Scalar) (info : Option Bytes)
    (outs : List (Res Bytes))
    (h : PoprfClient.batchFinalize inputs clients messages proof (sk • CS.group.baseElem) info
      = .ok outs) :
    ∃ t, Poprf.computeTweak CS sk info = .ok t ∧
    (batchError CS .Poprf t (messages.map (·.value)) (clients.map (·.blindedElement)) = 0 ∨
    ∃ ws, weights CS .Poprf (t • CS.group.baseElem) (messages.map (·.value))
        (clients.map (·.blindedElement)) = .ok ws ∧
      LuckyHash CS .Poprf (t • CS.group.baseElem) (lincomb ws (messages.map (·.value)))
        (lincomb ws (clients.map (·.blindedElement))) proof.cScalar proof.sScalar) := by
  obtain ⟨hl, -, m, hm, hil, htk, ha⟩ := C09_poprf_batch_only wf inputs clients messages proof _ info outs h
  have hkey : m • CS.group.baseElem + sk • CS.group.baseElem = (sk + m) • CS.group.baseElem := by
    rw [add_smul, add_comm]
  rw [hkey] at ha htk
  refine ⟨sk + m, ?_, batch_verdict _ _ _ _ (by simpa using hl.symm) _ _ ha⟩
  rw [computeTweak_eq wf, if_pos hil, hm]
  simp only
  rw [if_neg]
  rw [VGroup.Lawful.isZeroScalar_iff]
  intro h0
  exact htk (by rw [h0, zero_smul])

section examples
open Toy

local instance : DecidableEq suite.Elem := inferInstanceAs (DecidableEq F)

/-- Key 7, blinded elements 2 and 3: the right answers are 14 and 21, but 140 and 50 cancel. -/
example : batchError suite .Voprf (7 : F) [(2 : F), (3 : F)] [(140 : F), (50 : F)] = 0 ∧
    ¬ SameKey suite ((7 : F) • (1 : F)) (2 : F) (140 : F) ∧
    ¬ SameKey suite ((7 : F) • (1 : F)) (3 : F) (50 : F) ∧
    itemError suite .Voprf (7 : F) 0 (2 : F) (140 : F) ≠ 0 := by
  refine ⟨?_, ?_, ?_, ?_⟩
  · decide +kernel
  · rw [show (SameKey suite ((7 : F) • (1 : F)) (2 : F) (140 : F)) ↔ _ from
      sameKey_iff (CS := suite) (7 : F) (2 : F) (140 : F)]
    show ¬ ((140 : F) = 7 * 2)
    decide
  · rw [show (SameKey suite ((7 : F) • (1 : F)) (3 : F) (50 : F)) ↔ _ from
      sameKey_iff (CS := suite) (7 : F) (3 : F) (50 : F)]
    show ¬ ((50 : F) = 7 * 3)
    decide
  · decide +kernel

/-- The second half of the server's evaluation produces a proof for them, and the client accepts it. -/
example : ∃ outs r rng',
    (⟨(7 : F), (7 : F)⟩ : VoprfServer suite).batchBlindEvaluateFinish (⟨9⟩ : Rng)
      [⟨(2 : F)⟩, ⟨(3 : F)⟩] [⟨⟨(140 : F)⟩⟩, ⟨⟨(50 : F)⟩⟩] = .ok (r, rng') ∧
    VoprfClient.batchFinalize (CS := suite) [[1], [2]] [⟨(1 : F), (2 : F)⟩, ⟨(1 : F), (3 : F)⟩]
      r.messages r.proof (7 : F) = .ok outs := by
  obtain ⟨⟨r, rng'⟩, h⟩ := Res.exists_of_isOk
    (x := (⟨(7 : F), (7 : F)⟩ : VoprfServer suite).batchBlindEvaluateFinish (⟨9⟩ : Rng)
      [⟨(2 : F)⟩, ⟨(3 : F)⟩] [⟨⟨(140 : F)⟩⟩, ⟨⟨(50 : F)⟩⟩]) (by decide +kernel)
  obtain ⟨-, outs, ho⟩ := C50_voprf_cancelling_accepted wf
    (⟨(7 : F), (7 : F)⟩ : VoprfServer suite) (by show (7 : F) = 7 * 1; decide) _ _ _ _ r h
    (by decide +kernel) [[1], [2]]
    [⟨(1 : F), (2 : F)⟩, ⟨(1 : F), (3 : F)⟩] rfl
  exact ⟨outs, r, rng', h, ho⟩

/-- POPRF with key 7 and no info (tweaked key 231): for the blinded elements 2 and 3 the right answers are 25
and 163, but 147 and 51 are accepted. -/
example : ∃ outs r rng',
    PoprfServer.batchBlindEvaluateFinish (CS := suite) (⟨9⟩ : Rng)
      [⟨(2 : F)⟩, ⟨(3 : F)⟩] [⟨⟨(147 : F)⟩⟩, ⟨⟨(51 : F)⟩⟩] ⟨(231 : F)⟩ = .ok (r, rng') ∧
    PoprfClient.batchFinalize (CS := suite) [[1], [2]] [⟨(1 : F), (2 : F)⟩, ⟨(1 : F), (3 : F)⟩]
      r.messages r.proof (7 : F) none = .ok outs := by
  obtain ⟨⟨r, rng'⟩, h⟩ := Res.exists_of_isOk
    (x := PoprfServer.batchBlindEvaluateFinish (CS := suite) (⟨9⟩ : Rng)
      [⟨(2 : F)⟩, ⟨(3 : F)⟩] [⟨⟨(147 : F)⟩⟩, ⟨⟨(51 : F)⟩⟩] ⟨(231 : F)⟩) (by decide +kernel)
  obtain ⟨-, outs, ho⟩ := C50_poprf_cancelling_accepted wf (7 : F) (231 : F) none (by decide +kernel) _ _ _ _ r h
    (by decide +kernel) [[1], [2]] [⟨(1 : F), (2 : F)⟩, ⟨(1 : F), (3 : F)⟩]
    (by
      intro c hc
      simp only [List.mem_cons, List.not_mem_nil, or_false] at hc
      rcases hc with rfl | rfl <;> exact (by decide : (1 : F) ≠ 0)) rfl rfl
  have e : (7 : F) = 7 * 1 := by decide
  refine ⟨outs, r, rng', h, Eq.trans (congrArg (fun pk : F => PoprfClient.batchFinalize (CS := suite)
    [[1], [2]] [⟨(1 : F), (2 : F)⟩, ⟨(1 : F), (3 : F)⟩] r.messages r.proof pk none) e) ho⟩

end examples

end Voprf
