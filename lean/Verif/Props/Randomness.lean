import Verif.Spec.Randomness
import Verif.Lemmas.Api
import Verif.Props.Keys
import Verif.Toy

/-!
# C53: randomness is used once
-/

namespace Voprf

open Spec

variable {CS : CipherSuite} [L : CS.group.Lawful]

/-! ## One draw per call -/

omit L in
theorem OneScalar.map {R S : Type} {call : Randomized R} (h : OneScalar CS.group call) (g : R → S) :
    OneScalar CS.group (fun _ _ rng => call _ rng >>= fun p => .ok (g p.1, p.2)) := by
  rcases h with ⟨e, h⟩ | ⟨f, h⟩
  · refine .inl ⟨e, fun σ _ rng => ?_⟩
    show (call σ rng >>= _) = _
    rw [h]
    cases e with
    | ok x => exact nomatch x
    | err e => rfl
    | panic => rfl
    | diverge => rfl
  · refine .inr ⟨fun ρ => g <$> f ρ, fun σ _ rng => ?_⟩
    show (call σ rng >>= _) = _
    rw [h]
    cases CS.group.randomScalar rng with
    | none => rfl
    | some p =>
      obtain ⟨ρ, rng'⟩ := p
      simp only
      cases f ρ <;> rfl

omit L in
theorem OneScalar.after {R A : Type} (r : Res A) {call : A → Randomized R}
    (h : ∀ a, OneScalar CS.group (call a)) :
    OneScalar CS.group (fun _ _ rng => r >>= fun a => call a _ rng) := by
  cases r with
  | ok a => exact h a
  | err e => exact .inl ⟨.err e, fun _ _ _ => rfl⟩
  | panic => exact .inl ⟨.panic, fun _ _ _ => rfl⟩
  | diverge => exact .inl ⟨.diverge, fun _ _ _ => rfl⟩

omit L in
theorem generateProof_oneScalar (k : CS.Scalar) (A B : CS.Elem) (Cs Ds : List CS.Elem) (mode : Mode) :
    OneScalar CS.group (fun _ _ rng => generateProof CS rng k A B Cs Ds mode) := by
  unfold generateProof
  refine OneScalar.after (computeComposites CS (some k) B Cs Ds mode)
    (call := fun p => fun _ _ rng => _) fun p => ?_
  obtain ⟨m, z⟩ := p
  refine .inr ⟨fun r => do
    let dst ← Dst.new CS STR_HASH_TO_SCALAR mode
    let c ← Res.unwrapExcept (CS.group.hashToScalar CS.hash
      (Voprf.challengeInput CS B m z (CS.group.elemMul A r) (CS.group.elemMul m r)) dst.asDst)
    pure ⟨c, CS.group.scalarSub r (CS.group.scalarMul c k)⟩, fun σ _ rng => ?_⟩
  beta_reduce
  cases CS.group.randomScalar rng with
  | none => rfl
  | some q =>
    obtain ⟨ρ, rng'⟩ := q
    simp only [Res.ofLoop, Res.ok_bind]
    cases Dst.new CS STR_HASH_TO_SCALAR mode with
    | ok dst =>
      simp only [Res.ok_bind]
      cases Res.unwrapExcept (CS.group.hashToScalar CS.hash
        (Voprf.challengeInput CS B m z (CS.group.elemMul A ρ) (CS.group.elemMul m ρ)) dst.asDst) <;> rfl
    | err e => rfl
    | panic => rfl
    | diverge => rfl

omit L in
theorem OneScalar.unwrap {R : Type} {call : Randomized R} (h : OneScalar CS.group call) :
    OneScalar CS.group (fun _ _ rng => Res.unwrap (call _ rng)) := by
  rcases h with ⟨e, h⟩ | ⟨f, h⟩
  · refine .inl ⟨Res.unwrap e, fun σ _ rng => ?_⟩
    show Res.unwrap (call σ rng) = _
    rw [h]
    cases e with
    | ok x => exact nomatch x
    | err e => rfl
    | panic => rfl
    | diverge => rfl
  · refine .inr ⟨fun ρ => Res.unwrap (f ρ), fun σ _ rng => ?_⟩
    show Res.unwrap (call σ rng) = _
    rw [h]
    cases CS.group.randomScalar rng with
    | none => rfl
    | some p =>
      obtain ⟨ρ, rng'⟩ := p
      simp only
      cases f ρ <;> rfl

omit L in
theorem OneScalar.congr {R : Type} {call call' : Randomized R}
    (h : ∀ (σ : Type) [RngCore σ] (rng : σ), call σ rng = call' σ rng) (h' : OneScalar CS.group call') :
    OneScalar CS.group call := by
  rcases h' with ⟨e, h'⟩ | ⟨f, h'⟩
  · exact .inl ⟨e, fun σ _ rng => (h σ rng).trans (h' σ rng)⟩
  · exact .inr ⟨f, fun σ _ rng => (h σ rng).trans (h' σ rng)⟩

omit L in
/-- C53: `blind` draws exactly one random scalar, in all three modes. -/
theorem C53_blind (input : Bytes) :
    OneScalar CS.group (fun _ _ rng => OprfClient.blindInput CS input rng) ∧
    OneScalar CS.group (fun _ _ rng => VoprfClient.blindInput CS input rng) ∧
    OneScalar CS.group (fun _ _ rng => PoprfClient.blindInput CS input rng) := by
  refine ⟨.inr ⟨OprfClient.deterministicBlindUnchecked CS input, fun σ _ rng => ?_⟩,
    .inr ⟨VoprfClient.deterministicBlindUnchecked CS input, fun σ _ rng => ?_⟩,
    .inr ⟨PoprfClient.deterministicBlindUnchecked CS input, fun σ _ rng => ?_⟩⟩
  · refine ((C46_blind_is_deterministic input rng).1).trans ?_
    cases CS.group.randomScalar rng <;> rfl
  · refine ((C46_blind_is_deterministic input rng).2.1).trans ?_
    cases CS.group.randomScalar rng <;> rfl
  · refine ((C46_blind_is_deterministic input rng).2.2).trans ?_
    cases CS.group.randomScalar rng <;> rfl

/-- C53: `blind_evaluate`, `batch_blind_evaluate` and `batch_blind_evaluate_finish` draw exactly one random
scalar, or fail independently of the generator. -/
theorem C53_evaluate (wf : CS.WF) (s : VoprfServer CS) (p : PoprfServer CS) (b : BlindedElement CS)
    (bs : List (BlindedElement CS)) (es : List (PreparedEvaluationElement CS)) (t : PoprfPreparedTweak CS)
    (info : Option Bytes) :
    OneScalar CS.group (fun _ _ rng => s.blindEvaluate rng b) ∧
    OneScalar CS.group (fun _ _ rng => s.batchBlindEvaluate rng bs) ∧
    OneScalar CS.group (fun _ _ rng => s.batchBlindEvaluateFinish rng bs es) ∧
    OneScalar CS.group (fun _ _ rng => p.blindEvaluate rng b info) ∧
    OneScalar CS.group (fun _ _ rng => p.batchBlindEvaluate rng bs info) ∧
    OneScalar CS.group (fun _ _ rng => PoprfServer.batchBlindEvaluateFinish rng bs es t) := by
  have hs : ∀ es : List (PreparedEvaluationElement CS), OneScalar CS.group (fun _ _ rng => s.batchBlindEvaluateFinish rng bs es) := fun es =>
    OneScalar.map (S := VoprfServerBatchEvaluateResult CS)
      (generateProof_oneScalar s.sk CS.group.baseElem s.pk (bs.map fun e : BlindedElement CS => e.value)
        (es.map fun e : PreparedEvaluationElement CS => e.inner.value) .Voprf) fun q => ⟨es.map fun e : PreparedEvaluationElement CS => ⟨e.inner.value⟩, q⟩
  have hp : ∀ (bs : List (BlindedElement CS)) (es : List (PreparedEvaluationElement CS))
      (t : PoprfPreparedTweak CS), OneScalar CS.group (fun _ _ rng => PoprfServer.batchBlindEvaluateFinish rng bs es t) :=
    fun bs es t => OneScalar.map (S := PoprfServerBatchEvaluateResult CS)
      (generateProof_oneScalar t.value CS.group.baseElem (CS.group.elemMul CS.group.baseElem t.value)
        (es.map fun e : PreparedEvaluationElement CS => e.inner.value) (bs.map fun e : BlindedElement CS => e.value) .Poprf)
      fun q => ⟨es.map fun e : PreparedEvaluationElement CS => ⟨e.inner.value⟩, q⟩
  refine ⟨?_, ?_, hs es, ?_, ?_, hp bs es t⟩
  · refine OneScalar.congr (fun σ _ rng => VoprfServer.blindEvaluate_eq wf s rng b) ?_
    exact OneScalar.map (S := VoprfServerEvaluateResult CS) (generateProof_oneScalar s.sk _ _ _ _ _)
      fun q => ⟨⟨s.sk • b.value⟩, q⟩
  · exact OneScalar.map (S := VoprfServerBatchEvaluateResult CS) (hs (s.batchBlindEvaluatePrepare bs))
      fun q => ⟨q.messages, q.proof⟩
  · refine OneScalar.congr (fun σ _ rng => PoprfServer.blindEvaluate_eq wf p rng b info) ?_
    exact OneScalar.after (Poprf.computeTweak CS p.sk info)
      (call := fun t => fun _ _ rng => generateProof CS rng t CS.group.baseElem (t • CS.group.baseElem)
        [t⁻¹ • b.value] [b.value] .Poprf >>= fun q => .ok ((⟨⟨t⁻¹ • b.value⟩, q.1⟩ : PoprfServerEvaluateResult CS), q.2)) fun t =>
      OneScalar.map (S := PoprfServerEvaluateResult CS) (generateProof_oneScalar t _ _ _ _ _)
        fun q => ⟨⟨t⁻¹ • b.value⟩, q⟩
  · refine OneScalar.after (p.batchBlindEvaluatePrepare bs info)
      (call := fun prep => fun _ _ rng => (Res.collect prep.preparedEvaluationElements) >>= fun es =>
        Res.unwrap (PoprfServer.batchBlindEvaluateFinish rng bs es prep.preparedTweak) >>= fun q =>
          .ok ((⟨q.1.messages, q.1.proof⟩ : PoprfServerBatchEvaluateResult CS), q.2)) fun prep => ?_
    refine OneScalar.after (Res.collect prep.preparedEvaluationElements) fun es => ?_
    exact OneScalar.map (S := PoprfServerBatchEvaluateResult CS)
      (OneScalar.unwrap (hp bs es prep.preparedTweak)) fun q => ⟨q.messages, q.proof⟩

omit L in
/-- C53: `new` draws exactly a scalar's length of bytes. -/
theorem C53_new :
    SomeBytes CS.group.scalarLen (fun _ _ rng => OprfServer.new CS rng) ∧
    SomeBytes CS.group.scalarLen (fun _ _ rng => VoprfServer.new CS rng) ∧
    SomeBytes CS.group.scalarLen (fun _ _ rng => PoprfServer.new CS rng) := by
  refine ⟨⟨fun seed => OprfServer.newFromSeed CS seed [], fun σ _ rng => ?_⟩,
    ⟨fun seed => VoprfServer.newFromSeed CS seed [], fun σ _ rng => ?_⟩,
    ⟨fun seed => PoprfServer.newFromSeed CS seed [], fun σ _ rng => ?_⟩⟩
  · unfold OprfServer.new
    cases h : OprfServer.newFromSeed CS (RngCore.fillBytes rng CS.group.scalarLen).1 [] <;> simp [h] <;> rfl
  · unfold VoprfServer.new
    cases h : VoprfServer.newFromSeed CS (RngCore.fillBytes rng CS.group.scalarLen).1 [] <;> simp [h] <;> rfl
  · unfold PoprfServer.new
    cases h : PoprfServer.newFromSeed CS (RngCore.fillBytes rng CS.group.scalarLen).1 [] <;> simp [h] <;> rfl

omit L in
/-- C53: calls made one after the other on one generator use consecutive draws, one each: the result of the
`i`-th call is what it gives on any generator whose next draw is the `i`-th of these scalars. -/
theorem C53_consecutive {R σ : Type} [RngCore σ] (calls : List (Randomized R))
    (h : ∀ call ∈ calls, OneScalar CS.group call) (rng rng' : σ) (xs : List R)
    (hr : runAll calls rng = .ok (xs, rng')) :
    xs.length = calls.length ∧
    ∃ ρs : List CS.Scalar, ρs.length = calls.length ∧ Consecutive CS.group rng ρs rng' ∧
      ∀ i (hi : i < calls.length) (ρ : CS.Scalar) (x : R), ρs[i]? = some ρ → xs[i]? = some x →
        ∀ (τ : Type) [RngCore τ] (g g' : τ), CS.group.randomScalar g = some (ρ, g') →
          calls[i] τ g = .ok (x, g') := by
  induction calls generalizing rng xs with
  | nil =>
    have := Res.ok.inj hr
    simp only [Prod.mk.injEq] at this
    obtain ⟨rfl, rfl⟩ := this
    exact ⟨rfl, [], rfl, rfl, fun i hi => absurd hi (Nat.not_lt_zero i)⟩
  | cons call calls ih =>
    unfold runAll at hr
    obtain ⟨⟨x, g1⟩, h1, hr⟩ := Res.bind_eq_ok.mp hr
    obtain ⟨⟨ys, g2⟩, h2, hr⟩ := Res.bind_eq_ok.mp hr
    have := Res.ok.inj hr
    simp only [Prod.mk.injEq] at this
    obtain ⟨rfl, rfl⟩ := this
    obtain ⟨hl, ρs, hρ, hc, hall⟩ := ih (fun c hc => h c (List.mem_cons_of_mem _ hc)) g1 ys h2
    rcases h call List.mem_cons_self with ⟨e, he⟩ | ⟨f, hf⟩
    · rw [he] at h1
      cases e with
      | ok x => exact nomatch x
      | err e => exact nomatch h1
      | panic => exact nomatch h1
      | diverge => exact nomatch h1
    · rw [hf] at h1
      cases hd : CS.group.randomScalar rng with
      | none => rw [hd] at h1; exact nomatch h1
      | some q =>
        obtain ⟨ρ, g0⟩ := q
        rw [hd] at h1
        simp only at h1
        cases hx : f ρ with
        | ok x0 =>
          rw [hx] at h1
          have := Res.ok.inj h1
          simp only [Prod.mk.injEq] at this
          obtain ⟨rfl, rfl⟩ := this
          refine ⟨by simp [hl], ρ :: ρs, by simp [hρ], ⟨g0, hd, hc⟩, ?_⟩
          intro i hi ρ' x' hρ' hx' τ _ g g' hg
          cases i with
          | zero =>
            simp only [List.getElem?_cons_zero, Option.some.injEq] at hρ' hx'
            subst hρ' hx'
            simp only [List.getElem_cons_zero]
            rw [hf, hg]
            simp only [hx]
            rfl
          | succ i =>
            simp only [List.getElem?_cons_succ] at hρ' hx'
            exact hall i (by simpa using hi) ρ' x' hρ' hx' τ g g' hg
        | err e => rw [hx] at h1; exact nomatch h1
        | panic => rw [hx] at h1; exact nomatch h1
        | diverge => rw [hx] at h1; exact nomatch h1

/-! ## The nonce is the key's only protection -/

theorem generateProof_response (wf : CS.WF) {σ : Type} [RngCore σ] (rng rng' : σ) (k : CS.Scalar)
    (A B : CS.Elem) (Cs Ds : List CS.Elem) (mode : Mode) (p : Proof CS)
    (h : generateProof CS rng k A B Cs Ds mode = .ok (p, rng')) :
    CS.group.randomScalar rng = some (p.sScalar + p.cScalar * k, rng') := by
  rw [generateProof_eq wf] at h
  split at h
  · exact nomatch h
  · split at h
    · exact nomatch h
    · split at h
      · exact nomatch h
      · next r g hr =>
        split at h
        · exact nomatch h
        · have := Res.ok.inj h
          simp only [Prod.mk.injEq] at this
          obtain ⟨rfl, rfl⟩ := this
          rw [hr, sub_add_cancel]

/-- C53: the nonce of a VOPRF proof `(c, s)` made with the key `k` is `s + c k`. -/
theorem C53_voprf_nonce (wf : CS.WF) {σ : Type} [RngCore σ] (s : VoprfServer CS) (rng rng' : σ) :
    (∀ (b : BlindedElement CS) r, s.blindEvaluate rng b = .ok (r, rng') →
      CS.group.randomScalar rng = some (r.proof.sScalar + r.proof.cScalar * s.sk, rng')) ∧
    (∀ (bs : List (BlindedElement CS)) r, s.batchBlindEvaluate rng bs = .ok (r, rng') →
      CS.group.randomScalar rng = some (r.proof.sScalar + r.proof.cScalar * s.sk, rng')) ∧
    (∀ (bs : List (BlindedElement CS)) es r, s.batchBlindEvaluateFinish rng bs es = .ok (r, rng') →
      CS.group.randomScalar rng = some (r.proof.sScalar + r.proof.cScalar * s.sk, rng')) := by
  have hf : ∀ (bs : List (BlindedElement CS)) es r, s.batchBlindEvaluateFinish rng bs es = .ok (r, rng') →
      CS.group.randomScalar rng = some (r.proof.sScalar + r.proof.cScalar * s.sk, rng') := by
    intro bs es r h
    obtain ⟨⟨p, g⟩, hp, h⟩ := Res.bind_eq_ok.mp h
    have := Res.ok.inj h
    simp only [Prod.mk.injEq] at this
    obtain ⟨rfl, rfl⟩ := this
    exact generateProof_response wf _ _ _ _ _ _ _ _ _ hp
  refine ⟨fun b r h => ?_, fun bs r h => ?_, hf⟩
  · rw [VoprfServer.blindEvaluate_eq wf] at h
    obtain ⟨⟨p, g⟩, hp, h⟩ := Res.bind_eq_ok.mp h
    have := Res.ok.inj h
    simp only [Prod.mk.injEq] at this
    obtain ⟨rfl, rfl⟩ := this
    exact generateProof_response wf _ _ _ _ _ _ _ _ _ hp
  · obtain ⟨⟨p, g⟩, hp, h⟩ := Res.bind_eq_ok.mp h
    have := Res.ok.inj h
    simp only [Prod.mk.injEq] at this
    obtain ⟨rfl, rfl⟩ := this
    exact hf _ _ _ hp

/-- C53: the nonce of a POPRF proof `(c, s)` made with the tweaked key `t` is `s + c t`. -/
theorem C53_poprf_nonce (wf : CS.WF) {σ : Type} [RngCore σ] (s : PoprfServer CS) (rng rng' : σ)
    (info : Option Bytes) :
    (∀ (b : BlindedElement CS) r, s.blindEvaluate rng b info = .ok (r, rng') →
      ∃ t, Poprf.computeTweak CS s.sk info = .ok t ∧
      CS.group.randomScalar rng = some (r.proof.sScalar + r.proof.cScalar * t, rng')) ∧
    (∀ (bs : List (BlindedElement CS)) r, s.batchBlindEvaluate rng bs info = .ok (r, rng') →
      ∃ t, Poprf.computeTweak CS s.sk info = .ok t ∧
      CS.group.randomScalar rng = some (r.proof.sScalar + r.proof.cScalar * t, rng')) ∧
    (∀ (bs : List (BlindedElement CS)) es (t : PoprfPreparedTweak CS) r,
      PoprfServer.batchBlindEvaluateFinish rng bs es t = .ok (r, rng') →
      CS.group.randomScalar rng = some (r.proof.sScalar + r.proof.cScalar * t.value, rng')) := by
  have hf : ∀ (bs : List (BlindedElement CS)) es (t : PoprfPreparedTweak CS) r,
      PoprfServer.batchBlindEvaluateFinish rng bs es t = .ok (r, rng') →
      CS.group.randomScalar rng = some (r.proof.sScalar + r.proof.cScalar * t.value, rng') := by
    intro bs es t r h
    obtain ⟨⟨p, g⟩, hp, h⟩ := Res.bind_eq_ok.mp h
    have := Res.ok.inj h
    simp only [Prod.mk.injEq] at this
    obtain ⟨rfl, rfl⟩ := this
    exact generateProof_response wf _ _ _ _ _ _ _ _ _ hp
  refine ⟨fun b r h => ?_, fun bs r h => ?_, hf⟩
  · rw [PoprfServer.blindEvaluate_eq wf] at h
    obtain ⟨t, ht, h⟩ := Res.bind_eq_ok.mp h
    obtain ⟨⟨p, g⟩, hp, h⟩ := Res.bind_eq_ok.mp h
    have := Res.ok.inj h
    simp only [Prod.mk.injEq] at this
    obtain ⟨rfl, rfl⟩ := this
    exact ⟨t, ht, generateProof_response wf _ _ _ _ _ _ _ _ _ hp⟩
  · obtain ⟨prep, hprep, h⟩ := Res.bind_eq_ok.mp h
    obtain ⟨es, hes, h⟩ := Res.bind_eq_ok.mp h
    obtain ⟨⟨p, g⟩, hp, h⟩ := Res.bind_eq_ok.mp h
    have := Res.ok.inj h
    simp only [Prod.mk.injEq] at this
    obtain ⟨rfl, rfl⟩ := this
    obtain ⟨t, ht, hprep⟩ := Res.bind_eq_ok.mp hprep
    have := Res.ok.inj hprep
    subst this
    refine ⟨t, ht, hf bs es ⟨t⟩ p ?_⟩
    revert hp
    simp only
    cases PoprfServer.batchBlindEvaluateFinish rng bs es ⟨t⟩ with
    | ok x => exact fun h => h
    | err e => exact fun h => nomatch h
    | panic => exact fun h => nomatch h
    | diverge => exact fun h => nomatch h

omit L in
theorem key_of_nonce [CS.group.Lawful] {k ρ c s c' s' : CS.Scalar} (h : ρ = s + c * k) (h' : ρ = s' + c' * k)
    (hc : c ≠ c') : k = (s' - s) / (c - c') := by
  rw [eq_div_iff (sub_ne_zero.mpr hc)]
  linear_combination h' - h

/-- C53: if the generator repeats a draw, two VOPRF proofs with different challenges reveal the private key. -/
theorem C53_voprf_nonce_reuse (wf : CS.WF) {σ : Type} [RngCore σ] (s : VoprfServer CS) (g₁ g₂ g₁' g₂' : σ)
    (b₁ b₂ : BlindedElement CS) (r₁ r₂ : VoprfServerEvaluateResult CS)
    (h₁ : s.blindEvaluate g₁ b₁ = .ok (r₁, g₁')) (h₂ : s.blindEvaluate g₂ b₂ = .ok (r₂, g₂'))
    (hg : (CS.group.randomScalar g₁).map Prod.fst = (CS.group.randomScalar g₂).map Prod.fst)
    (hc : r₁.proof.cScalar ≠ r₂.proof.cScalar) :
    s.sk = (r₂.proof.sScalar - r₁.proof.sScalar) / (r₁.proof.cScalar - r₂.proof.cScalar) := by
  rw [(C53_voprf_nonce wf s g₁ g₁').1 b₁ r₁ h₁, (C53_voprf_nonce wf s g₂ g₂').1 b₂ r₂ h₂] at hg
  exact key_of_nonce rfl (Option.some.inj hg) hc

/-- C53: the same for POPRF: the tweaked key, hence (the tweak being public) the private key. -/
theorem C53_poprf_nonce_reuse (wf : CS.WF) {σ : Type} [RngCore σ] (s : PoprfServer CS) (g₁ g₂ g₁' g₂' : σ)
    (b₁ b₂ : BlindedElement CS) (info : Option Bytes) (r₁ r₂ : PoprfServerEvaluateResult CS)
    (h₁ : s.blindEvaluate g₁ b₁ info = .ok (r₁, g₁')) (h₂ : s.blindEvaluate g₂ b₂ info = .ok (r₂, g₂'))
    (hg : (CS.group.randomScalar g₁).map Prod.fst = (CS.group.randomScalar g₂).map Prod.fst)
    (hc : r₁.proof.cScalar ≠ r₂.proof.cScalar) :
    ∃ m : CS.Scalar, Spec.hashToScalar CS .Poprf (infoInput (info.getD [])) = .ok m ∧
      s.sk = (r₂.proof.sScalar - r₁.proof.sScalar) / (r₁.proof.cScalar - r₂.proof.cScalar) - m := by
  obtain ⟨t, ht, e₁⟩ := (C53_poprf_nonce wf s g₁ g₁' info).1 b₁ r₁ h₁
  obtain ⟨t', ht', e₂⟩ := (C53_poprf_nonce wf s g₂ g₂' info).1 b₂ r₂ h₂
  cases Res.ok.inj (ht.symm.trans ht')
  rw [e₁, e₂] at hg
  have hk := key_of_nonce rfl (Option.some.inj hg) hc
  obtain ⟨m, _, hm, htm, _⟩ := computeTweak_ok wf ht
  exact ⟨m, hm, by rw [← hk, htm]; ring⟩

section examples
open Toy

/-- Two answers made with the same draw, on different elements: the challenges differ, and the quotient of
`C53_voprf_nonce_reuse` is the key. -/
example : ((do
    let (r₁, _) ← (⟨7, 7⟩ : VoprfServer suite).blindEvaluate (⟨9⟩ : Rng) ⟨3⟩
    let (r₂, _) ← (⟨7, 7⟩ : VoprfServer suite).blindEvaluate (⟨9⟩ : Rng) ⟨4⟩
    Res.ok (decide (r₁.proof.cScalar ≠ r₂.proof.cScalar),
      decide ((r₂.proof.sScalar - r₁.proof.sScalar : F) / (r₁.proof.cScalar - r₂.proof.cScalar : F) = 7)))
    : Res (Bool × Bool)) = .ok (true, true) := by decide +kernel

/-- The same for POPRF with the same info. -/
example : ((do
    let (r₁, _) ← (⟨7, 7⟩ : PoprfServer suite).blindEvaluate (⟨9⟩ : Rng) ⟨3⟩ (some [1])
    let (r₂, _) ← (⟨7, 7⟩ : PoprfServer suite).blindEvaluate (⟨9⟩ : Rng) ⟨4⟩ (some [1])
    Res.ok (decide (r₁.proof.cScalar ≠ r₂.proof.cScalar)))
    : Res Bool) = .ok true := by decide +kernel

/-- Two requests blinded one after the other, as `C53_consecutive` takes them: both succeed, and the
generator has advanced twice. -/
example : (∀ call ∈ [(fun _ _ rng => VoprfClient.blindInput suite [1, 2, 3] rng : Randomized _),
      fun _ _ rng => VoprfClient.blindInput suite [4] rng], OneScalar suite.group call) ∧
    (runAll [(fun _ _ rng => VoprfClient.blindInput suite [1, 2, 3] rng : Randomized _),
      fun _ _ rng => VoprfClient.blindInput suite [4] rng] (⟨5⟩ : Rng)).isOk = true := by
  constructor
  · intro call hc
    rcases List.mem_cons.mp hc with rfl | hc
    · exact (C53_blind _).2.1
    · cases List.mem_singleton.mp hc
      exact (C53_blind _).2.1
  · decide +kernel

/-- A server key made by `new` from the toy generator. -/
example : (VoprfServer.new suite (⟨5⟩ : Rng)).isOk = true := by decide +kernel

end examples

end Voprf
