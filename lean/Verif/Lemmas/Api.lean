import Verif.Lemmas.Core

/-!
# Exact values of the public API calls under the contract
-/

set_option linter.unusedSectionVars false

namespace Voprf

open Spec

variable {CS : CipherSuite} [L : CS.group.Lawful]

theorem Res.mapErr_eq_ok {ε α : Type} {e : Error} {x : Except ε α} {a : α} :
    Res.mapErr e x = .ok a ↔ x = .ok a := by
  cases x <;> simp [Res.mapErr]

theorem Res.unwrapExcept_eq_ok {ε α : Type} {x : Except ε α} {a : α} :
    Res.unwrapExcept x = .ok a ↔ x = .ok a := by
  cases x <;> simp [Res.unwrapExcept]

theorem Res.ofExcept_eq_ok {α : Type} {x : Except Error α} {a : α} :
    Res.ofExcept x = .ok a ↔ x = .ok a := by
  cases x <;> simp [Res.ofExcept]

theorem Res.bind_eq_ok {α β : Type} {x : Res α} {f : α → Res β} {b : β} :
    (x >>= f) = .ok b ↔ ∃ a, x = .ok a ∧ f a = .ok b := by
  cases x <;> simp

/-! ## Blinding -/

theorem OprfClient.blindInput_eq (wf : CS.WF) {σ : Type} [RngCore σ] (input : Bytes) (rng : σ) :
    OprfClient.blindInput CS input rng =
      match CS.group.randomScalar rng with
      | none => .diverge
      | some (r, rng') =>
        match Spec.hashToGroup CS .Oprf input with
        | .error _ => .err .Input
        | .ok P => .ok (⟨⟨r⟩, ⟨r • P⟩⟩, rng') := by
  unfold OprfClient.blindInput OprfClient.deterministicBlindUncheckedInner
    Voprf.deterministicBlindUnchecked
  rw [hashToGroup_eq wf]
  cases CS.group.randomScalar rng with
  | none => rfl
  | some p => cases Spec.hashToGroup CS .Oprf input <;> simp

theorem VoprfClient.blindInput_eq (wf : CS.WF) {σ : Type} [RngCore σ] (input : Bytes) (rng : σ) :
    VoprfClient.blindInput CS input rng =
      match CS.group.randomScalar rng with
      | none => .diverge
      | some (r, rng') =>
        match Spec.hashToGroup CS .Voprf input with
        | .error _ => .err .Input
        | .ok P => .ok (⟨⟨r, r • P⟩, ⟨r • P⟩⟩, rng') := by
  unfold VoprfClient.blindInput VoprfClient.deterministicBlindUncheckedInner
    Voprf.deterministicBlindUnchecked
  rw [hashToGroup_eq wf]
  cases CS.group.randomScalar rng with
  | none => rfl
  | some p => cases Spec.hashToGroup CS .Voprf input <;> simp

theorem PoprfClient.blindInput_eq (wf : CS.WF) {σ : Type} [RngCore σ] (input : Bytes) (rng : σ) :
    PoprfClient.blindInput CS input rng =
      match CS.group.randomScalar rng with
      | none => .diverge
      | some (r, rng') =>
        match Spec.hashToGroup CS .Poprf input with
        | .error _ => .err .Input
        | .ok P => .ok (⟨⟨r, r • P⟩, ⟨r • P⟩⟩, rng') := by
  unfold PoprfClient.blindInput PoprfClient.deterministicBlindUncheckedInner
    Voprf.deterministicBlindUnchecked
  rw [hashToGroup_eq wf]
  cases CS.group.randomScalar rng with
  | none => rfl
  | some p => cases Spec.hashToGroup CS .Poprf input <;> simp

theorem OprfClient.blindInput_ok (wf : CS.WF) {σ : Type} [RngCore σ] {input : Bytes} {rng rng' : σ}
    {b : OprfClientBlindResult CS} (h : OprfClient.blindInput CS input rng = .ok (b, rng')) :
    ∃ r P, CS.group.randomScalar rng = some (r, rng') ∧ r ≠ 0 ∧
      Spec.hashToGroup CS .Oprf input = .ok P ∧ b = ⟨⟨r⟩, ⟨r • P⟩⟩ := by
  rw [OprfClient.blindInput_eq wf] at h
  split at h
  · simp at h
  · next r rng'' hr =>
    split at h
    · simp at h
    · next P hP =>
      simp only [Res.ok.injEq, Prod.mk.injEq] at h
      obtain ⟨rfl, rfl⟩ := h
      exact ⟨r, P, hr, VGroup.Lawful.randomScalar_ne_zero _ _ _ hr, hP, rfl⟩

theorem VoprfClient.blindInput_ok (wf : CS.WF) {σ : Type} [RngCore σ] {input : Bytes} {rng rng' : σ}
    {b : VoprfClientBlindResult CS} (h : VoprfClient.blindInput CS input rng = .ok (b, rng')) :
    ∃ r P, CS.group.randomScalar rng = some (r, rng') ∧ r ≠ 0 ∧
      Spec.hashToGroup CS .Voprf input = .ok P ∧ b = ⟨⟨r, r • P⟩, ⟨r • P⟩⟩ := by
  rw [VoprfClient.blindInput_eq wf] at h
  split at h
  · simp at h
  · next r rng'' hr =>
    split at h
    · simp at h
    · next P hP =>
      simp only [Res.ok.injEq, Prod.mk.injEq] at h
      obtain ⟨rfl, rfl⟩ := h
      exact ⟨r, P, hr, VGroup.Lawful.randomScalar_ne_zero _ _ _ hr, hP, rfl⟩

theorem PoprfClient.blindInput_ok (wf : CS.WF) {σ : Type} [RngCore σ] {input : Bytes} {rng rng' : σ}
    {b : PoprfClientBlindResult CS} (h : PoprfClient.blindInput CS input rng = .ok (b, rng')) :
    ∃ r P, CS.group.randomScalar rng = some (r, rng') ∧ r ≠ 0 ∧
      Spec.hashToGroup CS .Poprf input = .ok P ∧ b = ⟨⟨r, r • P⟩, ⟨r • P⟩⟩ := by
  rw [PoprfClient.blindInput_eq wf] at h
  split at h
  · simp at h
  · next r rng'' hr =>
    split at h
    · simp at h
    · next P hP =>
      simp only [Res.ok.injEq, Prod.mk.injEq] at h
      obtain ⟨rfl, rfl⟩ := h
      exact ⟨r, P, hr, VGroup.Lawful.randomScalar_ne_zero _ _ _ hr, hP, rfl⟩

/-! ## Evaluation -/

theorem OprfServer.blindEvaluate_value (s : OprfServer CS) (b : BlindedElement CS) :
    s.blindEvaluate b = ⟨s.sk • b.value⟩ := by simp [OprfServer.blindEvaluate]

theorem OprfServer.evaluate_eq (wf : CS.WF) (s : OprfServer CS) (input : Bytes) :
    s.evaluate input =
      match Spec.hashToGroup CS .Oprf input with
      | .error _ => .err .Input
      | .ok P =>
        if CS.group.isIdentityElem P then .err .Input
        else if input.length ≤ 65535 then .ok (Spec.output CS input (s.sk • P)) else .err .Input := by
  unfold OprfServer.evaluate
  rw [hashToGroup_eq wf]
  cases Spec.hashToGroup CS .Oprf input with
  | error e => rfl
  | ok P => simp [serverEvaluateHashInput_none wf]

theorem VoprfServer.evaluate_eq (wf : CS.WF) (s : VoprfServer CS) (input : Bytes) :
    s.evaluate input =
      match Spec.hashToGroup CS .Voprf input with
      | .error _ => .err .Input
      | .ok P =>
        if CS.group.isIdentityElem P then .err .Input
        else if input.length ≤ 65535 then .ok (Spec.output CS input (s.sk • P)) else .err .Input := by
  unfold VoprfServer.evaluate
  rw [hashToGroup_eq wf]
  cases Spec.hashToGroup CS .Voprf input with
  | error e => rfl
  | ok P => simp [serverEvaluateHashInput_none wf]

theorem unwrap_invert {k : CS.Scalar} (h : k ≠ 0) :
    Res.unwrapOption (CS.group.invertScalar k) = .ok k⁻¹ := by
  rw [VGroup.Lawful.invertScalar_eq k h]; rfl

/-- the tweak computation succeeds exactly with a non-zero tweak `sk + m` -/
theorem computeTweak_ok (wf : CS.WF) {sk t : CS.Scalar} {info : Option Bytes}
    (h : Poprf.computeTweak CS sk info = .ok t) :
    ∃ m, (info.getD []).length ≤ 65535 ∧
      Spec.hashToScalar CS .Poprf (infoInput (info.getD [])) = .ok m ∧ t = sk + m ∧ t ≠ 0 := by
  rw [computeTweak_eq wf] at h
  split at h
  · next hl =>
    split at h
    · simp at h
    · next m hm =>
      split at h
      · simp at h
      · next hz =>
        simp only [Res.ok.injEq] at h
        refine ⟨m, hl, hm, h.symm, ?_⟩
        rw [← h]
        exact (isZeroScalar_eq_false _).mp (by simpa using hz)
  · simp at h

theorem PoprfServer.evaluate_eq (wf : CS.WF) (s : PoprfServer CS) (input : Bytes)
    (info : Option Bytes) :
    s.evaluate input info =
      match Spec.hashToGroup CS .Poprf input with
      | .error _ => .err .Input
      | .ok P =>
        if CS.group.isIdentityElem P then .err .Input
        else Poprf.computeTweak CS s.sk info >>= fun t =>
          if input.length ≤ 65535 then
            .ok (match info with
              | some i => Spec.outputInfo CS input i (t⁻¹ • P)
              | none => Spec.output CS input (t⁻¹ • P))
          else .err .Input := by
  unfold PoprfServer.evaluate
  rw [hashToGroup_eq wf]
  cases Spec.hashToGroup CS .Poprf input with
  | error e => rfl
  | ok P =>
    simp only [Res.mapErr_ok, Res.ok_bind]
    split
    · rfl
    · cases ht : Poprf.computeTweak CS s.sk info with
      | ok t =>
        obtain ⟨m, hl, -, -, hz⟩ := computeTweak_ok wf ht
        simp only [Res.ok_bind, unwrap_invert hz, VGroup.Lawful.elemMul_eq]
        cases info with
        | none => rw [serverEvaluateHashInput_none wf]
        | some i =>
          rw [serverEvaluateHashInput_some wf]
          have : i.length ≤ 65535 := by simpa using hl
          simp [this]
      | err e => rfl
      | panic => rfl
      | diverge => rfl

/-! ## Finalization -/

theorem OprfClient.finalize_eq (c : OprfClient CS) (h : c.blind ≠ 0) (input : Bytes)
    (e : EvaluationElement CS) :
    c.finalize input e =
      if input.length ≤ 65535 then .ok (Spec.output CS input (c.blind⁻¹ • e.value))
      else .err .Input := by
  unfold OprfClient.finalize
  rw [unwrap_invert h]
  simp [Oprf.finalizeAfterUnblind, Oprf.finalizeItem_eq]

/-- The result for one item of an accepted batch, `blind ≠ 0`. -/
def itemResult (CS : CipherSuite) [CS.group.Lawful] (input : Bytes) (blind : CS.Scalar)
    (e : CS.Elem) : Res Bytes :=
  if input.length ≤ 65535 then .ok (Spec.output CS input (blind⁻¹ • e)) else .err .Input

theorem Verifiable.unblind_map (clients : List (VoprfClient CS)) (hc : ∀ c ∈ clients, c.blind ≠ 0)
    (messages : List (EvaluationElement CS)) :
    (((clients.map fun x => x.blind).zip messages).map fun (blind, x) => do
      let inv ← Res.unwrapOption (CS.group.invertScalar blind)
      pure (CS.group.elemMul x.value inv))
      = (clients.zip messages).map fun p => (.ok (p.1.blind⁻¹ • p.2.value) : Res CS.Elem) := by
  induction clients generalizing messages with
  | nil => simp
  | cons c cs ih =>
    cases messages with
    | nil => simp
    | cons m ms =>
      simp only [List.map_cons, List.zip_cons_cons]
      rw [ih (fun c' hc' => hc c' (List.mem_cons_of_mem _ hc')),
        unwrap_invert (hc c List.mem_cons_self)]
      simp

theorem VoprfClient.batchFinalize_eq (inputs : List Bytes) (clients : List (VoprfClient CS))
    (hc : ∀ c ∈ clients, c.blind ≠ 0) (messages : List (EvaluationElement CS)) (proof : Proof CS)
    (pk : CS.Elem) :
    VoprfClient.batchFinalize inputs clients messages proof pk = (do
      verifyProof CS CS.group.baseElem pk (clients.map (·.blindedElement)) (messages.map (·.value))
        proof .Voprf
      .ok ((inputs.zip (clients.zip messages)).map fun p =>
        itemResult CS p.1 p.2.1.blind p.2.2.value)) := by
  unfold VoprfClient.batchFinalize Verifiable.verifiableUnblind
  simp only [bind_assoc, Res.pure_eq]
  have hu := Verifiable.unblind_map clients hc messages
  simp only [Res.pure_eq] at hu
  rw [hu]
  simp only [Res.ok_bind, Verifiable.finalizeAfterUnblind, List.zip_map_right, List.map_map]
  congr 2
  funext _
  congr 1
  apply List.map_congr_left
  rintro ⟨input, c, m⟩ _
  simp [Verifiable.finalizeItem_eq, itemResult]

theorem VoprfClient.finalize_eq (c : VoprfClient CS) (hc : c.blind ≠ 0) (input : Bytes)
    (e : EvaluationElement CS) (proof : Proof CS) (pk : CS.Elem) :
    c.finalize input e proof pk = (do
      verifyProof CS CS.group.baseElem pk [c.blindedElement] [e.value] proof .Voprf
      itemResult CS input c.blind e.value) := by
  unfold VoprfClient.finalize
  rw [VoprfClient.batchFinalize_eq _ _ (by simpa using hc)]
  simp [bind_assoc]

/-- The result for one item of an accepted POPRF batch, `blind ≠ 0`. -/
def itemResultInfo (CS : CipherSuite) [CS.group.Lawful] (input info : Bytes) (blind : CS.Scalar)
    (e : CS.Elem) : Res Bytes :=
  if input.length ≤ 65535 then
    if info.length ≤ 65535 then .ok (Spec.outputInfo CS input info (blind⁻¹ • e)) else .err .Info
  else .err .Input

theorem Poprf.unblind_map (clients : List (PoprfClient CS)) (hc : ∀ c ∈ clients, c.blind ≠ 0)
    (messages : List (EvaluationElement CS)) :
    (((clients.map fun x => x.blind).zip messages).map fun (blind, x) => do
      let inv ← Res.unwrapOption (CS.group.invertScalar blind)
      pure (CS.group.elemMul x.value inv))
      = (clients.zip messages).map fun p => (.ok (p.1.blind⁻¹ • p.2.value) : Res CS.Elem) := by
  induction clients generalizing messages with
  | nil => simp
  | cons c cs ih =>
    cases messages with
    | nil => simp
    | cons m ms =>
      simp only [List.map_cons, List.zip_cons_cons]
      rw [ih (fun c' hc' => hc c' (List.mem_cons_of_mem _ hc')),
        unwrap_invert (hc c List.mem_cons_self)]
      simp

theorem computeTweakedKey_some_getD (pk : CS.Elem) (info : Option Bytes) :
    Poprf.computeTweakedKey CS pk (some (info.getD [])) = Poprf.computeTweakedKey CS pk info := by
  unfold Poprf.computeTweakedKey
  cases info <;> rfl

theorem verifyProof_length (wf : CS.WF) {A B : CS.Elem} {Cs Ds : List CS.Elem} {proof : Proof CS}
    {mode : Mode} (h : verifyProof CS A B Cs Ds proof mode = .ok ()) :
    Cs.length = Ds.length ∧ Cs.length ≤ 65535 := by
  rw [verifyProof_eq wf] at h
  split at h
  · simp at h
  · next hn => exact ⟨by simpa using fun x => hn (Or.inl x), by
      have := fun x => hn (Or.inr x); omega⟩

theorem PoprfClient.batchFinalize_eq (wf : CS.WF) (inputs : List Bytes)
    (clients : List (PoprfClient CS)) (hc : ∀ c ∈ clients, c.blind ≠ 0)
    (messages : List (EvaluationElement CS)) (proof : Proof CS) (pk : CS.Elem)
    (info : Option Bytes) :
    PoprfClient.batchFinalize inputs clients messages proof pk info = (do
      let tk ← Poprf.computeTweakedKey CS pk info
      verifyProof CS CS.group.baseElem tk (messages.map (·.value)) (clients.map (·.blindedElement))
        proof .Poprf
      if inputs.length = clients.length then
        .ok (((clients.zip messages).zip inputs).map fun p =>
          itemResultInfo CS p.2 (info.getD []) p.1.1.blind p.1.2.value)
      else .err .Batch) := by
  unfold PoprfClient.batchFinalize Poprf.poprfUnblind
  have hu := Poprf.unblind_map clients hc messages
  simp only [bind_assoc, Res.pure_eq] at hu ⊢
  rw [hu]
  simp only [Res.ok_bind]
  rw [computeTweakedKey_some_getD]
  cases Poprf.computeTweakedKey CS pk info with
  | ok tk =>
    simp only [Res.ok_bind]
    cases hv : verifyProof CS CS.group.baseElem tk (messages.map (·.value))
      (clients.map (·.blindedElement)) proof .Poprf with
    | ok u =>
      simp only [Res.ok_bind]
      have hl := (verifyProof_length wf hv).1
      simp only [List.length_map] at hl
      unfold Poprf.finalizeAfterUnblind
      by_cases hi : inputs.length = clients.length
      · rw [if_neg (by simp [hl, hi]), if_pos hi]
        simp only [List.zip_map_left, List.map_map]
        congr 1
        apply List.map_congr_left
        rintro ⟨⟨c, m⟩, input⟩ _
        simp [Poprf.finalizeItem_eq, itemResultInfo]
      · rw [if_pos (by simp [hl]; omega), if_neg hi]
    | err e => rfl
    | panic => rfl
    | diverge => rfl
  | err e => rfl
  | panic => rfl
  | diverge => rfl

theorem PoprfClient.finalize_eq (wf : CS.WF) (c : PoprfClient CS) (hc : c.blind ≠ 0) (input : Bytes)
    (e : EvaluationElement CS) (proof : Proof CS) (pk : CS.Elem) (info : Option Bytes) :
    c.finalize input e proof pk info = (do
      let tk ← Poprf.computeTweakedKey CS pk info
      verifyProof CS CS.group.baseElem tk [e.value] [c.blindedElement] proof .Poprf
      itemResultInfo CS input (info.getD []) c.blind e.value) := by
  unfold PoprfClient.finalize
  rw [PoprfClient.batchFinalize_eq wf _ _ (by simpa using hc)]
  simp [bind_assoc]

/-! ## Server batches -/

theorem VoprfServer.prepare_eq (s : VoprfServer CS) (bs : List (BlindedElement CS)) :
    s.batchBlindEvaluatePrepare bs = bs.map fun b => ⟨⟨s.sk • b.value⟩⟩ := by
  simp [VoprfServer.batchBlindEvaluatePrepare]

theorem VoprfServer.finish_eq {σ : Type} [RngCore σ] (s : VoprfServer CS) (rng : σ)
    (bs : List (BlindedElement CS)) (ps : List (PreparedEvaluationElement CS)) :
    s.batchBlindEvaluateFinish rng bs ps =
      (generateProof CS rng s.sk CS.group.baseElem s.pk (bs.map (·.value)) (ps.map (·.inner.value))
        .Voprf >>= fun p => .ok (⟨ps.map (·.inner), p.1⟩, p.2)) := by
  rfl

theorem VoprfServer.batch_eq {σ : Type} [RngCore σ] (s : VoprfServer CS) (rng : σ)
    (bs : List (BlindedElement CS)) :
    s.batchBlindEvaluate rng bs =
      (generateProof CS rng s.sk CS.group.baseElem s.pk (bs.map (·.value))
        (bs.map fun b => s.sk • b.value) .Voprf >>= fun p =>
          .ok (⟨bs.map fun b => ⟨s.sk • b.value⟩, p.1⟩, p.2)) := by
  unfold VoprfServer.batchBlindEvaluate
  simp only [VoprfServer.finish_eq, VoprfServer.prepare_eq, List.map_map, bind_assoc]
  rfl

theorem generateProof_single_ne_err (wf : CS.WF) {σ : Type} [RngCore σ] (rng : σ) (k : CS.Scalar)
    (A B C D : CS.Elem) (mode : Mode) (e : Error) :
    generateProof CS rng k A B [C] [D] mode ≠ .err e := by
  rw [generateProof_eq wf, if_neg (by simp)]
  cases weights CS mode B [C] [D] with
  | error => simp
  | ok ws =>
    cases CS.group.randomScalar rng with
    | none => simp
    | some p => simp only; split <;> simp

theorem VoprfServer.blindEvaluate_eq (wf : CS.WF) {σ : Type} [RngCore σ] (s : VoprfServer CS)
    (rng : σ) (b : BlindedElement CS) :
    s.blindEvaluate rng b =
      (generateProof CS rng s.sk CS.group.baseElem s.pk [b.value] [s.sk • b.value] .Voprf >>= fun p =>
          .ok (⟨⟨s.sk • b.value⟩, p.1⟩, p.2)) := by
  unfold VoprfServer.blindEvaluate
  rw [VoprfServer.prepare_eq]
  simp only [List.map_cons, List.map_nil, List.head?_cons, Res.unwrapOption_some, Res.ok_bind]
  rw [VoprfServer.finish_eq]
  simp only [List.map_cons, List.map_nil]
  cases h : generateProof CS rng s.sk CS.group.baseElem s.pk [b.value] [s.sk • b.value] .Voprf with
  | ok p => rfl
  | err e => exact absurd h (generateProof_single_ne_err wf _ _ _ _ _ _ _ _)
  | panic => rfl
  | diverge => rfl

theorem Res.collect_map_ok {α β : Type} (f : α → β) (l : List α) :
    Res.collect (l.map fun a => (.ok (f a) : Res β)) = .ok (l.map f) := by
  induction l with
  | nil => rfl
  | cons a l ih => simp [Res.collect, ih]

/-- `batch_blind_evaluate_prepare` in terms of the tweak. -/
theorem PoprfServer.prepare_eq (wf : CS.WF) (s : PoprfServer CS) (bs : List (BlindedElement CS))
    (info : Option Bytes) :
    s.batchBlindEvaluatePrepare bs info = (do
      let t ← Poprf.computeTweak CS s.sk info
      .ok ⟨bs.map fun b => .ok ⟨⟨t⁻¹ • b.value⟩⟩, ⟨t⟩⟩) := by
  unfold PoprfServer.batchBlindEvaluatePrepare
  cases h : Poprf.computeTweak CS s.sk info with
  | ok t =>
    obtain ⟨_, _, _, _, hz⟩ := computeTweak_ok wf h
    simp [unwrap_invert hz]
  | err e => rfl
  | panic => rfl
  | diverge => rfl

theorem PoprfServer.finish_eq {σ : Type} [RngCore σ] (rng : σ)
    (bs : List (BlindedElement CS)) (ps : List (PreparedEvaluationElement CS))
    (t : PoprfPreparedTweak CS) :
    PoprfServer.batchBlindEvaluateFinish rng bs ps t =
      (generateProof CS rng t.value CS.group.baseElem (t.value • CS.group.baseElem)
        (ps.map (·.inner.value)) (bs.map (·.value)) .Poprf >>= fun p =>
        .ok (⟨ps.map (·.inner), p.1⟩, p.2)) := by
  unfold PoprfServer.batchBlindEvaluateFinish
  simp only [VGroup.Lawful.elemMul_eq]
  rfl

theorem Res.unwrap_bind_ok {α β : Type} (x : Res α) (f : α → β) :
    Res.unwrap (x >>= fun a => (.ok (f a) : Res β)) = (Res.unwrap x >>= fun a => .ok (f a)) := by
  cases x <;> rfl

theorem PoprfServer.batch_eq (wf : CS.WF) {σ : Type} [RngCore σ] (s : PoprfServer CS) (rng : σ)
    (bs : List (BlindedElement CS)) (info : Option Bytes) :
    s.batchBlindEvaluate rng bs info = (do
      let t ← Poprf.computeTweak CS s.sk info
      let p ← Res.unwrap (generateProof CS rng t CS.group.baseElem (t • CS.group.baseElem)
        (bs.map fun b => t⁻¹ • b.value) (bs.map (·.value)) .Poprf)
      .ok (⟨bs.map fun b => ⟨t⁻¹ • b.value⟩, p.1⟩, p.2)) := by
  unfold PoprfServer.batchBlindEvaluate
  rw [PoprfServer.prepare_eq wf]
  cases Poprf.computeTweak CS s.sk info with
  | ok t =>
    simp only [Res.ok_bind, Res.collect_map_ok]
    rw [PoprfServer.finish_eq]
    simp only [List.map_map, Res.unwrap_bind_ok, bind_assoc]
    rfl
  | err e => rfl
  | panic => rfl
  | diverge => rfl

theorem PoprfServer.blindEvaluate_eq (wf : CS.WF) {σ : Type} [RngCore σ] (s : PoprfServer CS)
    (rng : σ) (b : BlindedElement CS) (info : Option Bytes) :
    s.blindEvaluate rng b info = (do
      let t ← Poprf.computeTweak CS s.sk info
      let p ← generateProof CS rng t CS.group.baseElem (t • CS.group.baseElem)
        [t⁻¹ • b.value] [b.value] .Poprf
      .ok (⟨⟨t⁻¹ • b.value⟩, p.1⟩, p.2)) := by
  unfold PoprfServer.blindEvaluate
  rw [PoprfServer.prepare_eq wf]
  cases Poprf.computeTweak CS s.sk info with
  | ok t =>
    simp only [Res.ok_bind, List.map_cons, List.map_nil, List.head?_cons, Res.unwrapOption_some]
    rw [PoprfServer.finish_eq]
    simp only [List.map_cons, List.map_nil]
    cases h : generateProof CS rng t CS.group.baseElem (t • CS.group.baseElem)
        [t⁻¹ • b.value] [b.value] .Poprf with
    | ok p => rfl
    | err e => exact absurd h (generateProof_single_ne_err wf _ _ _ _ _ _ _ _)
    | panic => rfl
    | diverge => rfl
  | err e => rfl
  | panic => rfl
  | diverge => rfl

/-! ## The honest prover is accepted -/

theorem lincomb_smul (k : CS.Scalar) (ws : List CS.Scalar) (Ps : List CS.Elem) :
    lincomb ws (Ps.map fun P => k • P) = k • lincomb ws Ps := by
  induction ws generalizing Ps with
  | nil => simp [lincomb]
  | cons w ws ih =>
    cases Ps with
    | nil => simp [lincomb]
    | cons P Ps =>
      have := ih Ps
      simp only [lincomb, List.map_cons, List.zipWith_cons_cons, List.sum_cons] at this ⊢
      rw [this, smul_add, smul_comm]

/-- A proof made with the key `k` is accepted if the composites are in the ratio `k`. -/
theorem verifyProof_generateProof_of (wf : CS.WF) {σ : Type} [RngCore σ] {rng rng' : σ} {k : CS.Scalar}
    {A : CS.Elem} {Cs Ds : List CS.Elem} {mode : Mode} {proof : Proof CS}
    (hZ : ∀ ws, weights CS mode (k • A) Cs Ds = .ok ws → lincomb ws Ds = k • lincomb ws Cs)
    (h : generateProof CS rng k A (k • A) Cs Ds mode = .ok (proof, rng')) :
    verifyProof CS A (k • A) Cs Ds proof mode = .ok () := by
  rw [generateProof_eq wf] at h
  rw [verifyProof_eq wf]
  split at h
  · simp at h
  · next hn =>
    rw [if_neg hn]
    cases hw : weights CS mode (k • A) Cs Ds with
    | error e => simp [hw] at h
    | ok ws =>
      simp only [hw] at h ⊢
      cases hr : CS.group.randomScalar rng with
      | none => simp [hr] at h
      | some p =>
        obtain ⟨r, rng''⟩ := p
        simp only [hr] at h
        split at h
        · simp at h
        · next c hc =>
          simp only [Res.ok.injEq, Prod.mk.injEq] at h
          obtain ⟨rfl, rfl⟩ := h
          have e1 : lincomb ws Ds = k • lincomb ws Cs := hZ ws hw
          have e2 : (r - c * k) • A + c • k • A = r • A := by
            rw [sub_smul, mul_smul, sub_add_cancel]
          have e3 : (r - c * k) • lincomb ws Cs + c • k • lincomb ws Cs = r • lincomb ws Cs := by
            rw [sub_smul, mul_smul, sub_add_cancel]
          simp only [e1, e2, e3, hc]
          rw [if_pos ((VGroup.Lawful.scalarCtEq_iff _ _).mpr rfl)]

/-- Completeness: a proof made with the key `k` for the pairs `(C, k•C)` under public key `k•A` is
accepted. -/
theorem verifyProof_generateProof (wf : CS.WF) {σ : Type} [RngCore σ] {rng rng' : σ} {k : CS.Scalar}
    {A : CS.Elem} {Cs Ds : List CS.Elem} {mode : Mode} {proof : Proof CS}
    (hD : Ds = Cs.map fun C => k • C)
    (h : generateProof CS rng k A (k • A) Cs Ds mode = .ok (proof, rng')) :
    verifyProof CS A (k • A) Cs Ds proof mode = .ok () :=
  verifyProof_generateProof_of wf (fun ws _ => by rw [hD, lincomb_smul]) h

end Voprf
