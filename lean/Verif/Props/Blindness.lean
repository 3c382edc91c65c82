import Verif.Spec.Spy
import Verif.Lemmas.Distinguisher
import Verif.Lemmas.Api
import Verif.Lemmas.Keys
import Verif.Toy

/-!
# C51: a malicious server learns nothing about the inputs
-/

namespace Voprf

open Spec

variable {CS : CipherSuite} [L : CS.group.Lawful]

/-- Every waiting client is in a regular state. -/
def AllGood (st : List (Waiting CS)) : Prop := ∀ w ∈ st, w.blind ≠ 0 ∧ w.input.length ≤ 65535

/-- Changing the nonce makes up for changing the input. -/
noncomputable def nonceEquiv {P P' : CS.Elem} (h : P ≠ 0) (h' : P' ≠ 0) :
    {e : Nonce CS ≃ Nonce CS // ∀ ρ, (e ρ).1 • P' = ρ.1 • P} := by
  have hp := VGroup.Lawful.base_generates (G := CS.group) P
  have hp' := VGroup.Lawful.base_generates (G := CS.group) P'
  let p := hp.choose
  let p' := hp'.choose
  have e1 : P = p • CS.group.baseElem := hp.choose_spec
  have e2 : P' = p' • CS.group.baseElem := hp'.choose_spec
  have n1 : p ≠ 0 := fun h0 => h (by rw [e1, h0, zero_smul])
  have n2 : p' ≠ 0 := fun h0 => h' (by rw [e2, h0, zero_smul])
  refine ⟨⟨fun ρ => ⟨ρ.1 * (p * p'⁻¹), mul_ne_zero ρ.2 (mul_ne_zero n1 (inv_ne_zero n2))⟩,
    fun ρ => ⟨ρ.1 * (p' * p⁻¹), mul_ne_zero ρ.2 (mul_ne_zero n2 (inv_ne_zero n1))⟩, fun ρ => ?_,
    fun ρ => ?_⟩, fun ρ => ?_⟩
  · apply Subtype.ext
    show ρ.1 * (p * p'⁻¹) * (p' * p⁻¹) = ρ.1
    field_simp
  · apply Subtype.ext
    show ρ.1 * (p' * p⁻¹) * (p * p'⁻¹) = ρ.1
    field_simp
  · show (ρ.1 * (p * p'⁻¹)) • P' = ρ.1 • P
    rw [e1, e2, ← mul_smul, ← mul_smul]
    congr 1
    field_simp

/-- If verdicts depend on the sent elements only, so does the play. -/
theorem play_congr {A W : Type} (blind : Bytes → Nonce CS → Res (CS.Scalar × CS.Elem × CS.Elem))
    (verdict : List (Waiting CS) → A → W)
    (hv : ∀ st st', AllGood st → AllGood st' → st.map (·.elem) = st'.map (·.elem) →
      ∀ a, verdict st a = verdict st' a)
    (inputs inputs' : Nat → Bytes) (P P' : Nat → CS.Elem)
    (hl : ∀ i, (inputs i).length ≤ 65535) (hl' : ∀ i, (inputs' i).length ≤ 65535)
    (hb : ∀ i ρ, blind (inputs i) ρ = .ok (ρ.1, ρ.1 • P i, ρ.1 • P i)) (hP : ∀ i, P i ≠ 0)
    (hb' : ∀ i ρ, blind (inputs' i) ρ = .ok (ρ.1, ρ.1 • P' i, ρ.1 • P' i)) (hP' : ∀ i, P' i ≠ 0)
    (S : Spy CS.Elem A W) (st st' : List (Waiting CS)) (hg : AllGood st) (hg' : AllGood st')
    (he : st.map (·.elem) = st'.map (·.elem)) :
    S.play blind verdict inputs st = S.play blind verdict inputs' st' := by
  induction S generalizing st st' with
  | done g => rfl
  | start next ih =>
    have hlen : st.length = st'.length := by simpa using congrArg List.length he
    simp only [Spy.play, hb, hb', ← hlen]
    obtain ⟨e, hee⟩ := nonceEquiv (hP st.length) (hP' st.length)
    refine average_equiv e _ _ fun ρ => ?_
    rw [hee ρ]
    refine ih _ _ _ ?_ ?_ ?_
    · intro w hw
      rcases List.mem_append.mp hw with hw | hw
      · exact hg w hw
      · rw [List.mem_singleton.mp hw]; exact ⟨ρ.2, hl _⟩
    · intro w hw
      rcases List.mem_append.mp hw with hw | hw
      · exact hg' w hw
      · rw [List.mem_singleton.mp hw]; exact ⟨(e ρ).2, hl' _⟩
    · simp [he]
  | deliver a next ih =>
    simp only [Spy.play]
    rw [hv st st' hg hg' he a]
    exact ih _ _ _ hg hg' he

/-! ## Verdicts -/

omit L in
theorem getElem?_elem {st st' : List (Waiting CS)} (he : st.map (·.elem) = st'.map (·.elem)) (i : Nat) :
    (st[i]?).map (·.elem) = (st'[i]?).map (·.elem) := by
  have := congrArg (fun l => l[i]?) he
  simpa using this

omit L in
theorem pick_elem {st st' : List (Waiting CS)} (he : st.map (·.elem) = st'.map (·.elem)) (is : List Nat) :
    (pick st is).map (·.elem) = (pick st' is).map (·.elem) := by
  unfold pick
  rw [List.map_filterMap, List.map_filterMap]
  congr 1
  funext i
  exact getElem?_elem he i

theorem pick_good {st : List (Waiting CS)} (hg : AllGood st) (is : List Nat) : AllGood (pick st is) := by
  intro w hw
  obtain ⟨i, _, hi⟩ := List.mem_filterMap.mp hw
  exact hg w (List.mem_of_getElem? hi)

theorem outcome_oprf (w : Waiting CS) (hw : w.blind ≠ 0 ∧ w.input.length ≤ 65535) (e : CS.Elem) :
    outcome (OprfClient.finalize (CS := CS) ⟨w.blind⟩ w.input ⟨e⟩) = .ok () := by
  rw [OprfClient.finalize_eq _ hw.1, if_pos hw.2]; rfl

theorem oprfVerdict_congr (st st' : List (Waiting CS)) (hg : AllGood st) (hg' : AllGood st')
    (he : st.map (·.elem) = st'.map (·.elem)) (a : Nat × CS.Elem) :
    oprfVerdict st a = oprfVerdict st' a := by
  have := getElem?_elem he a.1
  unfold oprfVerdict
  cases h : st[a.1]? with
  | none =>
    cases h' : st'[a.1]? with
    | none => rfl
    | some w' => rw [h, h'] at this; simp at this
  | some w =>
    cases h' : st'[a.1]? with
    | none => rw [h, h'] at this; simp at this
    | some w' =>
      simp only [Option.map_some]
      rw [outcome_oprf w (hg w (List.mem_of_getElem? h)), outcome_oprf w' (hg' w' (List.mem_of_getElem? h'))]

/-- How `finalize` ends depends on the element the client sent only. -/
theorem outcome_voprf (w : Waiting CS) (hw : w.blind ≠ 0 ∧ w.input.length ≤ 65535) (e : CS.Elem)
    (c s : CS.Scalar) (pk : CS.Elem) :
    outcome (VoprfClient.finalize (CS := CS) ⟨w.blind, w.elem⟩ w.input ⟨e⟩ ⟨c, s⟩ pk) =
      verifyProof CS CS.group.baseElem pk [w.elem] [e] ⟨c, s⟩ .Voprf := by
  rw [VoprfClient.finalize_eq _ hw.1]
  unfold itemResult
  rw [if_pos hw.2]
  cases verifyProof CS CS.group.baseElem pk [w.elem] [e] ⟨c, s⟩ .Voprf <;> rfl

theorem batchOutcome_voprf (ws : List (Waiting CS)) (hg : AllGood ws) (es : List CS.Elem)
    (c s : CS.Scalar) (pk : CS.Elem) :
    batchOutcome (VoprfClient.batchFinalize (CS := CS) (ws.map (·.input))
      (ws.map fun w => ⟨w.blind, w.elem⟩) (es.map fun e => ⟨e⟩) ⟨c, s⟩ pk) =
      (verifyProof CS CS.group.baseElem pk (ws.map (·.elem)) es ⟨c, s⟩ .Voprf >>= fun _ =>
        .ok (List.replicate (min ws.length es.length) (.ok ()))) := by
  rw [VoprfClient.batchFinalize_eq _ _ (by
    intro c hc; obtain ⟨w, hw, rfl⟩ := List.mem_map.mp hc; exact (hg w hw).1)]
  simp only [List.map_map, Function.comp_def, List.map_id']
  cases verifyProof CS CS.group.baseElem pk (ws.map (·.elem)) es ⟨c, s⟩ .Voprf with
  | ok u =>
    show Res.ok (List.map outcome _) = Res.ok _
    congr 1
    rw [List.eq_replicate_iff]
    refine ⟨by simp, fun x hx => ?_⟩
    obtain ⟨y, hy, rfl⟩ := List.mem_map.mp hx
    obtain ⟨p, hp, rfl⟩ := List.mem_map.mp hy
    obtain ⟨w, hw, h⟩ := List.mem_map.mp (List.of_mem_zip hp).1
    unfold itemResult
    rw [if_pos (by rw [← h]; exact (hg w hw).2)]
    rfl
  | err e => rfl
  | panic => rfl
  | diverge => rfl

theorem voprfVerdict_congr (st st' : List (Waiting CS)) (hg : AllGood st) (hg' : AllGood st')
    (he : st.map (·.elem) = st'.map (·.elem)) (a : Delivery CS) :
    voprfVerdict st a = voprfVerdict st' a := by
  unfold voprfVerdict
  cases a.clients with
  | inl i =>
    have := getElem?_elem he i
    cases h : st[i]? with
    | none =>
      cases h' : st'[i]? with
      | none => simp only [h, h']
      | some w' => rw [h, h'] at this; simp at this
    | some w =>
      cases h' : st'[i]? with
      | none => rw [h, h'] at this; simp at this
      | some w' =>
        rw [h, h'] at this
        simp only [Option.map_some, Option.some.injEq] at this
        simp only [h, h', Option.bind_eq_bind, Option.bind_some]
        congr 1
        funext e
        rw [outcome_voprf w (hg w (List.mem_of_getElem? h)),
          outcome_voprf w' (hg' w' (List.mem_of_getElem? h')), this]
  | inr is =>
    simp only
    rw [batchOutcome_voprf _ (pick_good hg is), batchOutcome_voprf _ (pick_good hg' is), pick_elem he is]
    have hlen : (pick st is).length = (pick st' is).length := by
      simpa using congrArg List.length (pick_elem he is)
    rw [hlen]

theorem outcome_poprf (wf : CS.WF) (w : Waiting CS) (hw : w.blind ≠ 0 ∧ w.input.length ≤ 65535) (e : CS.Elem)
    (c s : CS.Scalar) (pk : CS.Elem) (info : Option Bytes) :
    outcome (PoprfClient.finalize (CS := CS) ⟨w.blind, w.elem⟩ w.input ⟨e⟩ ⟨c, s⟩ pk info) =
      (Poprf.computeTweakedKey CS pk info >>= fun tk =>
        verifyProof CS CS.group.baseElem tk [e] [w.elem] ⟨c, s⟩ .Poprf >>= fun _ =>
        if (info.getD []).length ≤ 65535 then .ok () else .err .Info) := by
  rw [PoprfClient.finalize_eq wf _ hw.1]
  unfold itemResultInfo
  rw [if_pos hw.2]
  cases Poprf.computeTweakedKey CS pk info with
  | ok tk =>
    simp only [Res.ok_bind]
    cases verifyProof CS CS.group.baseElem tk [e] [w.elem] ⟨c, s⟩ .Poprf with
    | ok u => simp only [Res.ok_bind]; split <;> rfl
    | err e => rfl
    | panic => rfl
    | diverge => rfl
  | err e => rfl
  | panic => rfl
  | diverge => rfl

theorem batchOutcome_poprf (wf : CS.WF) (ws : List (Waiting CS)) (hg : AllGood ws) (es : List CS.Elem)
    (c s : CS.Scalar) (pk : CS.Elem) (info : Option Bytes) :
    batchOutcome (PoprfClient.batchFinalize (CS := CS) (ws.map (·.input))
      (ws.map fun w => ⟨w.blind, w.elem⟩) (es.map fun e => ⟨e⟩) ⟨c, s⟩ pk info) =
      (Poprf.computeTweakedKey CS pk info >>= fun tk =>
        verifyProof CS CS.group.baseElem tk es (ws.map (·.elem)) ⟨c, s⟩ .Poprf >>= fun _ =>
        .ok (List.replicate (min ws.length es.length)
          (if (info.getD []).length ≤ 65535 then .ok () else .err .Info))) := by
  rw [PoprfClient.batchFinalize_eq wf _ _ (by
    intro c hc; obtain ⟨w, hw, rfl⟩ := List.mem_map.mp hc; exact (hg w hw).1)]
  simp only [List.map_map, Function.comp_def, List.map_id', List.length_map, if_true]
  cases Poprf.computeTweakedKey CS pk info with
  | ok tk =>
    simp only [Res.ok_bind]
    cases verifyProof CS CS.group.baseElem tk es (ws.map (·.elem)) ⟨c, s⟩ .Poprf with
    | ok u =>
      show Res.ok (List.map outcome _) = Res.ok _
      congr 1
      rw [List.eq_replicate_iff]
      refine ⟨by simp, fun x hx => ?_⟩
      obtain ⟨y, hy, rfl⟩ := List.mem_map.mp hx
      obtain ⟨p, hp, rfl⟩ := List.mem_map.mp hy
      obtain ⟨w, hw, h⟩ := List.mem_map.mp (List.of_mem_zip hp).2
      unfold itemResultInfo
      rw [if_pos (by rw [← h]; exact (hg w hw).2)]
      split <;> rfl
    | err e => rfl
    | panic => rfl
    | diverge => rfl
  | err e => rfl
  | panic => rfl
  | diverge => rfl

theorem poprfVerdict_congr (wf : CS.WF) (st st' : List (Waiting CS)) (hg : AllGood st) (hg' : AllGood st')
    (he : st.map (·.elem) = st'.map (·.elem)) (a : Delivery CS) :
    poprfVerdict st a = poprfVerdict st' a := by
  unfold poprfVerdict
  cases a.clients with
  | inl i =>
    have := getElem?_elem he i
    cases h : st[i]? with
    | none =>
      cases h' : st'[i]? with
      | none => simp only [h, h']
      | some w' => rw [h, h'] at this; simp at this
    | some w =>
      cases h' : st'[i]? with
      | none => rw [h, h'] at this; simp at this
      | some w' =>
        rw [h, h'] at this
        simp only [Option.map_some, Option.some.injEq] at this
        simp only [h, h', Option.bind_eq_bind, Option.bind_some]
        congr 1
        funext e
        rw [outcome_poprf wf w (hg w (List.mem_of_getElem? h)),
          outcome_poprf wf w' (hg' w' (List.mem_of_getElem? h')), this]
  | inr is =>
    simp only
    rw [batchOutcome_poprf wf _ (pick_good hg is), batchOutcome_poprf wf _ (pick_good hg' is),
      pick_elem he is]
    have hlen : (pick st is).length = (pick st' is).length := by
      simpa using congrArg List.length (pick_elem he is)
    rw [hlen]

/-! ## The theorems -/

/-- C51, OPRF: whatever a server does, the probability of any guess is the same for any two sequences of
inputs of its clients. -/
theorem C51_oprf (wf : CS.WF) {σ : Type} [RngCore σ] (draw : Nonce CS → σ) (hd : Draws draw)
    (inputs inputs' : Nat → Bytes) (h : ∀ i, Hidable CS .Oprf (inputs i))
    (h' : ∀ i, Hidable CS .Oprf (inputs' i)) (S : Spy CS.Elem (Nat × CS.Elem) (Option (Res Unit))) :
    S.play (oprfBlind draw) oprfVerdict inputs [] = S.play (oprfBlind draw) oprfVerdict inputs' [] := by
  choose hl P hP hP0 using h
  choose hl' P' hP' hP0' using h'
  have key : ∀ (x : Bytes) (Q : CS.Elem), Spec.hashToGroup CS .Oprf x = .ok Q → ∀ ρ : Nonce CS,
      oprfBlind draw x ρ = .ok (ρ.1, ρ.1 • Q, ρ.1 • Q) := by
    intro x Q hx ρ
    obtain ⟨g, hg⟩ := hd ρ
    unfold oprfBlind
    rw [OprfClient.blindInput_eq wf, hg]
    simp only [hx]
    rfl
  exact play_congr (oprfBlind draw) oprfVerdict oprfVerdict_congr inputs inputs' P P' hl hl'
    (fun i => key _ _ (hP i)) hP0 (fun i => key _ _ (hP' i)) hP0' S [] [] (by simp [AllGood])
    (by simp [AllGood]) rfl

/-- C51, VOPRF: the same, including how every `finalize` and `batch_finalize` ends. -/
theorem C51_voprf (wf : CS.WF) {σ : Type} [RngCore σ] (draw : Nonce CS → σ) (hd : Draws draw)
    (inputs inputs' : Nat → Bytes) (h : ∀ i, Hidable CS .Voprf (inputs i))
    (h' : ∀ i, Hidable CS .Voprf (inputs' i))
    (S : Spy CS.Elem (Delivery CS) (Option (Res (List (Res Unit))))) :
    S.play (voprfBlind draw) voprfVerdict inputs [] =
      S.play (voprfBlind draw) voprfVerdict inputs' [] := by
  choose hl P hP hP0 using h
  choose hl' P' hP' hP0' using h'
  have key : ∀ (x : Bytes) (Q : CS.Elem), Spec.hashToGroup CS .Voprf x = .ok Q → ∀ ρ : Nonce CS,
      voprfBlind draw x ρ = .ok (ρ.1, ρ.1 • Q, ρ.1 • Q) := by
    intro x Q hx ρ
    obtain ⟨g, hg⟩ := hd ρ
    unfold voprfBlind
    rw [VoprfClient.blindInput_eq wf, hg]
    simp only [hx]
    rfl
  exact play_congr (voprfBlind draw) voprfVerdict voprfVerdict_congr inputs inputs' P P' hl hl'
    (fun i => key _ _ (hP i)) hP0 (fun i => key _ _ (hP' i)) hP0' S [] [] (by simp [AllGood])
    (by simp [AllGood]) rfl

/-- C51, POPRF: the same. -/
theorem C51_poprf (wf : CS.WF) {σ : Type} [RngCore σ] (draw : Nonce CS → σ) (hd : Draws draw)
    (inputs inputs' : Nat → Bytes) (h : ∀ i, Hidable CS .Poprf (inputs i))
    (h' : ∀ i, Hidable CS .Poprf (inputs' i))
    (S : Spy CS.Elem (Delivery CS) (Option (Res (List (Res Unit))))) :
    S.play (poprfBlind draw) poprfVerdict inputs [] =
      S.play (poprfBlind draw) poprfVerdict inputs' [] := by
  choose hl P hP hP0 using h
  choose hl' P' hP' hP0' using h'
  have key : ∀ (x : Bytes) (Q : CS.Elem), Spec.hashToGroup CS .Poprf x = .ok Q → ∀ ρ : Nonce CS,
      poprfBlind draw x ρ = .ok (ρ.1, ρ.1 • Q, ρ.1 • Q) := by
    intro x Q hx ρ
    obtain ⟨g, hg⟩ := hd ρ
    unfold poprfBlind
    rw [PoprfClient.blindInput_eq wf, hg]
    simp only [hx]
    rfl
  exact play_congr (poprfBlind draw) poprfVerdict (poprfVerdict_congr wf) inputs inputs' P P' hl hl'
    (fun i => key _ _ (hP i)) hP0 (fun i => key _ _ (hP' i)) hP0' S [] [] (by simp [AllGood])
    (by simp [AllGood]) rfl

section examples
open Toy

/-- Two inputs hidable in every mode on the toy suite. -/
example : ∀ m : Mode, Hidable suite m [1, 2, 3] ∧ Hidable suite m [4, 5] := by
  intro m
  cases m <;>
  exact ⟨⟨by decide, _, rfl, show (_ : F) ≠ 0 by decide +kernel⟩,
    ⟨by decide, _, rfl, show (_ : F) ≠ 0 by decide +kernel⟩⟩

/-- A server that starts two clients, delivers a forged batch to both, and guesses from the outcome. -/
noncomputable example : Spy suite.Elem (Delivery suite) (Option (Res (List (Res Unit)))) :=
  .start fun e => .start fun e' =>
    .deliver ⟨.inr [1, 0], [e, e'], (1 : F), (2 : F), (7 : F), none⟩ fun v =>
      .done (match v with
        | some (.ok _) => true
        | _ => decide ((e : F) = e'))

end examples

end Voprf
