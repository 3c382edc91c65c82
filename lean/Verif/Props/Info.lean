import Verif.Props.Correctness

/-!
# C06, C07, C34: omitted info, independence of randomness, agreement on refused info
-/

namespace Voprf

open Spec

variable {CS : CipherSuite}

/-! ## C06 -/

/-- C06, the part that holds: in every call of the interactive protocol `None` means `Some(b"")`.
Missing (and false): the same for `evaluate`, see `C06_evaluate_none_iff_collision` and
`C06_evaluate_none_violation`. -/
theorem C06_none_is_empty_partial (CS : CipherSuite) (s : PoprfServer CS) (c : PoprfClient CS)
    {σ : Type} [RngCore σ] (rng : σ) (b : BlindedElement CS) (bs : List (BlindedElement CS))
    (input : Bytes) (e : EvaluationElement CS) (proof : Proof CS) (pk : CS.Elem)
    (inputs : List Bytes) (cs : List (PoprfClient CS)) (es : List (EvaluationElement CS)) :
    s.blindEvaluate rng b none = s.blindEvaluate rng b (some []) ∧
    s.batchBlindEvaluatePrepare bs none = s.batchBlindEvaluatePrepare bs (some []) ∧
    s.batchBlindEvaluate rng bs none = s.batchBlindEvaluate rng bs (some []) ∧
    c.finalize input e proof pk none = c.finalize input e proof pk (some []) ∧
    PoprfClient.batchFinalize inputs cs es proof pk none
      = PoprfClient.batchFinalize inputs cs es proof pk (some []) :=
  ⟨rfl, rfl, rfl, rfl, rfl⟩

/-- A server, client and generators satisfying nothing in particular: the statement above has no
hypotheses. The calls do succeed on the toy suite. -/
example : ((⟨7, 7⟩ : PoprfServer Toy.suite).blindEvaluate (⟨9⟩ : Toy.Rng) ⟨3⟩ none).isOk = true := by
  decide +kernel

variable [L : CS.group.Lawful]

theorem finalizeInput_ne_info (input e e' : Bytes) (h : e.length = e'.length) :
    finalizeInput input e ≠ finalizeInputInfo input [] e' := by
  intro h'
  have := congrArg List.length h'
  simp [finalizeInput, finalizeInputInfo] at this
  omega

/-- C06, `evaluate`: with `None` the server hashes a string without the info frame, with `Some(b"")` one
with it. The two outputs (always returned together) agree only if these two different strings collide
under the hash; since the client hashes the second (C04), `evaluate(input, None)` agrees with the
client's `finalize(.., None)` only in case of such a collision. -/
theorem C06_evaluate_none_iff_collision (wf : CS.WF) (s : PoprfServer CS) (input : Bytes) (out out' : Bytes)
    (h : s.evaluate input none = .ok out) (h' : s.evaluate input (some []) = .ok out') :
    ∃ P t, Spec.hashToGroup CS .Poprf input = .ok P ∧ IsTweak CS s.sk [] t ∧
      out = CS.hash.digest (finalizeInput input (CS.group.serializeElem (t⁻¹ • P))) ∧
      out' = CS.hash.digest (finalizeInputInfo input [] (CS.group.serializeElem (t⁻¹ • P))) ∧
      finalizeInput input (CS.group.serializeElem (t⁻¹ • P)) ≠
        finalizeInputInfo input [] (CS.group.serializeElem (t⁻¹ • P)) := by
  rw [PoprfServer.evaluate_eq wf] at h h'
  cases hP : Spec.hashToGroup CS .Poprf input with
  | error e => simp [hP] at h
  | ok P =>
    simp only [hP] at h h'
    split at h
    · simp at h
    · next hid =>
      rw [if_neg hid] at h'
      rw [Res.bind_eq_ok] at h h'
      obtain ⟨t, ht, h⟩ := h
      obtain ⟨t', ht', h'⟩ := h'
      have : t' = t := by
        have e : Poprf.computeTweak CS s.sk (some []) = Poprf.computeTweak CS s.sk none := rfl
        rw [e, ht] at ht'
        simpa using ht'.symm
      subst this
      obtain ⟨m, -, hm, htm, hz⟩ := computeTweak_ok wf ht
      split at h
      · next hl =>
        rw [if_pos hl] at h'
        simp only [Res.ok.injEq] at h h'
        exact ⟨P, t', rfl, ⟨m, hm, htm, hz⟩, h.symm, h'.symm,
          finalizeInput_ne_info _ _ _ rfl⟩
      · simp at h

/-- C06 is false of the code: on a lawful suite, an honest client that passes no info obtains a value
different from `evaluate(input, None)`. -/
theorem C06_evaluate_none_violation :
    ∃ (CS : CipherSuite) (_ : CS.group.Lawful) (s : PoprfServer CS) (b : PoprfClientBlindResult CS)
      (r : PoprfServerEvaluateResult CS) (g : Toy.Rng) (input o1 o2 : Bytes),
      CS.WF ∧ s.Made ∧ PoprfClient.Blinded input b ∧
      s.blindEvaluate (⟨9⟩ : Toy.Rng) b.message none = .ok (r, g) ∧
      s.evaluate input none = .ok o1 ∧
      b.state.finalize input r.message r.proof s.getPublicKey none = .ok o2 ∧ o1 ≠ o2 := by
  have hs : PoprfServer.newWithKey Toy.suite [7] = .ok ⟨7, 7⟩ := by rfl
  have hmade : PoprfServer.Made (⟨7, 7⟩ : PoprfServer Toy.suite) := .newWithKey _ _ hs
  obtain ⟨⟨b, g0⟩, hb⟩ := Res.exists_of_isOk
    (x := PoprfClient.blindInput Toy.suite [1, 2, 3] (⟨5⟩ : Toy.Rng)) (by decide +kernel)
  have hb' : PoprfClient.Blinded [1, 2, 3] b := ⟨_, _, _, _, hb⟩
  obtain ⟨o, ho⟩ := Res.exists_of_isOk
    (x := (⟨7, 7⟩ : PoprfServer Toy.suite).evaluate [1, 2, 3] none) (by decide +kernel)
  obtain ⟨o', ho'⟩ := Res.exists_of_isOk
    (x := (⟨7, 7⟩ : PoprfServer Toy.suite).evaluate [1, 2, 3] (some [])) (by decide +kernel)
  obtain ⟨r, g, hr⟩ := C04_poprf_answers Toy.wf (⟨7, 7⟩ : PoprfServer Toy.suite) b.message none
    (⟨9⟩ : Toy.Rng) rfl (by decide) _ ⟨_, rfl, rfl, by decide +kernel⟩
  have hfin := (C04_poprf_correct Toy.wf _ hmade [1, 2, 3] (some []) b hb' (⟨9⟩ : Toy.Rng) g r hr).2
    [] o' rfl ho'
  refine ⟨Toy.suite, inferInstance, ⟨7, 7⟩, b, r, g, [1, 2, 3], o, o', Toy.wf, hmade, hb', hr, ho,
    hfin, ?_⟩
  intro he
  subst he
  have : (⟨7, 7⟩ : PoprfServer Toy.suite).evaluate [1, 2, 3] none
      = (⟨7, 7⟩ : PoprfServer Toy.suite).evaluate [1, 2, 3] (some []) := by rw [ho, ho']
  exact absurd this (by decide +kernel)

/-! ## C07 -/

/-- C07, OPRF: two runs on the same input and key give the same result, whatever generators were used. -/
theorem C07_oprf_deterministic (wf : CS.WF) (s : OprfServer CS) (input : Bytes)
    (b b' : OprfClientBlindResult CS) (hb : OprfClient.Blinded input b)
    (hb' : OprfClient.Blinded input b') :
    b.state.finalize input (s.blindEvaluate b.message) =
      b'.state.finalize input (s.blindEvaluate b'.message) := by
  obtain ⟨⟨P, hP, h, -⟩, -⟩ := C01_oprf_correct wf s input b hb
  obtain ⟨⟨P', hP', h', -⟩, -⟩ := C01_oprf_correct wf s input b' hb'
  rw [hP] at hP'
  rw [h, h', Except.ok.inj hP']

/-- C07, VOPRF: the same input at any position of any two batches, with any generators on both sides,
gives the same result. -/
theorem C07_voprf_deterministic (wf : CS.WF) (s : VoprfServer CS) (hs : s.Made)
    (inputs inputs' : List Bytes) (bs bs' : List (VoprfClientBlindResult CS))
    (hb : List.Forall₂ VoprfClient.Blinded inputs bs)
    (hb' : List.Forall₂ VoprfClient.Blinded inputs' bs')
    {σ σ' : Type} [RngCore σ] [RngCore σ'] (g g1 : σ) (g' g1' : σ')
    (r r' : VoprfServerBatchEvaluateResult CS)
    (hr : s.batchBlindEvaluate g (bs.map (·.message)) = .ok (r, g1))
    (hr' : s.batchBlindEvaluate g' (bs'.map (·.message)) = .ok (r', g1'))
    (outs outs' : List (Res Bytes))
    (ho : VoprfClient.batchFinalize inputs (bs.map (·.state)) r.messages r.proof s.getPublicKey
      = .ok outs)
    (ho' : VoprfClient.batchFinalize inputs' (bs'.map (·.state)) r'.messages r'.proof s.getPublicKey
      = .ok outs')
    (i j : Nat) (input : Bytes) (hi : inputs[i]? = some input) (hj : inputs'[j]? = some input) :
    ∃ o, outs[i]? = some o ∧ outs'[j]? = some o := by
  obtain ⟨o1, h1, f1⟩ := C03_voprf_batch_correct wf s hs inputs bs hb g g1 r hr
  obtain ⟨o2, h2, f2⟩ := C03_voprf_batch_correct wf s hs inputs' bs' hb' g' g1' r' hr'
  rw [ho] at h1; rw [ho'] at h2
  simp only [Res.ok.injEq] at h1 h2
  subst h1 h2
  obtain ⟨hil, hi⟩ := List.getElem?_eq_some_iff.mp hi
  obtain ⟨hjl, hj⟩ := List.getElem?_eq_some_iff.mp hj
  have hil' : i < outs.length := by rw [← f1.length_eq]; exact hil
  have hjl' : j < outs'.length := by rw [← f2.length_eq]; exact hjl
  obtain ⟨⟨P, hP, e1, -⟩, -⟩ := (List.forall₂_iff_get.mp f1).2 i hil hil'
  obtain ⟨⟨P', hP', e2, -⟩, -⟩ := (List.forall₂_iff_get.mp f2).2 j hjl hjl'
  simp only [List.get_eq_getElem] at hP hP' e1 e2
  rw [hi] at hP e1; rw [hj] at hP' e2
  rw [hP] at hP'
  cases Except.ok.inj hP'
  refine ⟨prfResult CS input (s.sk • P), ?_, ?_⟩
  · rw [List.getElem?_eq_getElem hil', e1]
  · rw [List.getElem?_eq_getElem hjl', e2]

/-- C07, POPRF: as for VOPRF, for a fixed info. -/
theorem C07_poprf_deterministic (wf : CS.WF) (s : PoprfServer CS) (hs : s.Made)
    (info : Option Bytes)
    (inputs inputs' : List Bytes) (bs bs' : List (PoprfClientBlindResult CS))
    (hb : List.Forall₂ PoprfClient.Blinded inputs bs)
    (hb' : List.Forall₂ PoprfClient.Blinded inputs' bs')
    {σ σ' : Type} [RngCore σ] [RngCore σ'] (g g1 : σ) (g' g1' : σ')
    (r r' : PoprfServerBatchEvaluateResult CS)
    (hr : s.batchBlindEvaluate g (bs.map (·.message)) info = .ok (r, g1))
    (hr' : s.batchBlindEvaluate g' (bs'.map (·.message)) info = .ok (r', g1'))
    (outs outs' : List (Res Bytes))
    (ho : PoprfClient.batchFinalize inputs (bs.map (·.state)) r.messages r.proof s.getPublicKey info
      = .ok outs)
    (ho' : PoprfClient.batchFinalize inputs' (bs'.map (·.state)) r'.messages r'.proof s.getPublicKey
      info = .ok outs')
    (i j : Nat) (input : Bytes) (hi : inputs[i]? = some input) (hj : inputs'[j]? = some input) :
    ∃ o, outs[i]? = some o ∧ outs'[j]? = some o := by
  obtain ⟨t, o1, ht, h1, f1⟩ := C05_poprf_batch_correct wf s hs inputs info bs hb g g1 r hr
  obtain ⟨t', o2, ht', h2, f2⟩ := C05_poprf_batch_correct wf s hs inputs' info bs' hb' g' g1' r' hr'
  rw [ho] at h1; rw [ho'] at h2
  simp only [Res.ok.injEq] at h1 h2
  subst h1 h2
  have htt : t' = t := by
    obtain ⟨m, hm, e, -⟩ := ht
    obtain ⟨m', hm', e', -⟩ := ht'
    rw [hm] at hm'
    rw [e, e', Except.ok.inj hm']
  subst htt
  obtain ⟨hil, hi⟩ := List.getElem?_eq_some_iff.mp hi
  obtain ⟨hjl, hj⟩ := List.getElem?_eq_some_iff.mp hj
  have hil' : i < outs.length := by rw [← f1.length_eq]; exact hil
  have hjl' : j < outs'.length := by rw [← f2.length_eq]; exact hjl
  obtain ⟨⟨P, hP, e1, -⟩, -⟩ := (List.forall₂_iff_get.mp f1).2 i hil hil'
  obtain ⟨⟨P', hP', e2, -⟩, -⟩ := (List.forall₂_iff_get.mp f2).2 j hjl hjl'
  simp only [List.get_eq_getElem] at hP hP' e1 e2
  rw [hi] at hP e1; rw [hj] at hP' e2
  rw [hP] at hP'
  cases Except.ok.inj hP'
  refine ⟨prfResultInfo CS input (info.getD []) (t'⁻¹ • P), ?_, ?_⟩
  · rw [List.getElem?_eq_getElem hil', e1]
  · rw [List.getElem?_eq_getElem hjl', e2]

section examples
open Toy

/-- Two different blinded forms of the same input exist, so C07 is not about equal runs. -/
example : ∃ b b' : OprfClientBlindResult suite, OprfClient.Blinded [1, 2, 3] b ∧
    OprfClient.Blinded [1, 2, 3] b' ∧ b.message.value ≠ b'.message.value := by
  refine ⟨⟨⟨6⟩, ⟨_⟩⟩, ⟨⟨7⟩, ⟨_⟩⟩, ⟨Rng, inferInstance, ⟨5⟩, ⟨6⟩, rfl⟩,
    ⟨Rng, inferInstance, ⟨6⟩, ⟨7⟩, rfl⟩, ?_⟩
  decide +kernel

end examples

/-! ## C34 -/

/-- C34: for a server with a consistent key pair, the client rejects an info (`Error::Protocol` for the
tweaked public key) exactly when the server does (`Error::Protocol` for the tweak). -/
theorem C34_same_info_refused (wf : CS.WF) (s : PoprfServer CS) (hs : s.Made) (info : Option Bytes) :
    (∀ {σ : Type} [RngCore σ] (rng : σ) (b : BlindedElement CS),
      s.blindEvaluate rng b info = .err .Protocol ↔
        ∃ m, (info.getD []).length ≤ 65535 ∧
          Spec.hashToScalar CS .Poprf (infoInput (info.getD [])) = .ok m ∧ s.sk + m = 0) ∧
    (∀ (c : PoprfClient CS) (input : Bytes) (e : EvaluationElement CS) (proof : Proof CS),
      c.finalize input e proof s.getPublicKey info = .err .Protocol ↔
        ∃ m, (info.getD []).length ≤ 65535 ∧
          Spec.hashToScalar CS .Poprf (infoInput (info.getD [])) = .ok m ∧ s.sk + m = 0) := by
  constructor
  · intro σ _ rng b
    rw [PoprfServer.blindEvaluate_eq wf, computeTweak_eq wf]
    by_cases hl : (info.getD []).length ≤ 65535
    · rw [if_pos hl]
      cases hm : Spec.hashToScalar CS .Poprf (infoInput (info.getD [])) with
      | error e => simp
      | ok m =>
        simp only
        by_cases hz : s.sk + m = 0
        · rw [if_pos ((VGroup.Lawful.isZeroScalar_iff _).mpr hz)]
          simp [hz, hl]
        · rw [if_neg (fun h => hz ((VGroup.Lawful.isZeroScalar_iff _).mp h))]
          have hf : ¬ ∃ m', (info.getD []).length ≤ 65535 ∧
              (Except.ok m : Except InternalError CS.Scalar) = .ok m' ∧ s.sk + m' = 0 := by
            rintro ⟨m', -, h, h'⟩
            exact hz (Except.ok.inj h ▸ h')
          simp only [Res.ok_bind, hf, iff_false]
          rcases generateProof_cases wf rng (s.sk + m) CS.group.baseElem
            ((s.sk + m) • CS.group.baseElem) [(s.sk + m)⁻¹ • b.value] [b.value] .Poprf
            with ⟨h, -⟩ | ⟨-, -, -, h⟩ | ⟨-, -, _, _, _, _, h⟩
          · simp at h
          · rw [h]; simp
          · rw [h]; simp
    · rw [if_neg hl]; simp [hl]
  · intro c input e proof
    unfold PoprfClient.finalize PoprfClient.batchFinalize Poprf.poprfUnblind
    simp only [computeTweakedKey_some_getD, PoprfServer.getPublicKey]
    rw [computeTweakedKey_eq wf]
    by_cases hl : (info.getD []).length ≤ 65535
    · rw [if_pos hl]
      cases hm : Spec.hashToScalar CS .Poprf (infoInput (info.getD [])) with
      | error e => simp
      | ok m =>
        simp only
        have hk : m • CS.group.baseElem + s.pk = (s.sk + m) • CS.group.baseElem := by
          rw [(hs.key wf).2, add_smul, add_comm]
        rw [hk]
        by_cases hz : s.sk + m = 0
        · rw [if_pos ((isIdentityElem_iff _).mpr (by rw [hz, zero_smul]))]
          simp [hz, hl]
        · rw [if_neg (fun h => hz ((smul_base_eq_zero _).mp ((isIdentityElem_iff _).mp h)))]
          have hf : ¬ ∃ m', (info.getD []).length ≤ 65535 ∧
              (Except.ok m : Except InternalError CS.Scalar) = .ok m' ∧ s.sk + m' = 0 := by
            rintro ⟨m', -, h, h'⟩
            exact hz (Except.ok.inj h ▸ h')
          simp only [Res.ok_bind, hf, iff_false]
          rcases verifyProof_cases wf CS.group.baseElem ((s.sk + m) • CS.group.baseElem)
            ([e].map (·.value)) ([c].map (·.blindedElement)) proof .Poprf
            with ⟨h, -⟩ | ⟨-, -, h | h⟩
          · simp at h
          · rw [h]; simp
          · rw [h]
            simp only [Res.ok_bind, Res.pure_eq, List.map_cons, List.map_nil, List.zip_cons_cons,
              List.zip_nil_right]
            unfold Poprf.finalizeAfterUnblind
            rw [if_neg (by simp)]
            simp only [List.zip_cons_cons, List.zip_nil_right, List.map_cons, List.map_nil,
              Res.ok_bind, List.head?_cons, Res.unwrapOption_some]
            unfold Poprf.finalizeItem
            simp only
            cases CS.group.invertScalar c.blind with
            | none => simp
            | some inv =>
              simp only [Res.unwrapOption_some, Res.ok_bind]
              cases i2osp2 input.length with
              | error _ => simp
              | ok _ =>
                simp only [Res.mapErr_ok, Res.ok_bind]
                cases i2osp2 (info.getD []).length <;> simp
    · rw [if_neg hl]; simp [hl]

theorem Res.bind_err_iff {α β : Type} {x : Res α} {f : α → Res β} {e : Error} (h : ∀ a, x = .ok a → f a ≠ .err e) :
    (x >>= f) = .err e ↔ x = .err e := by
  cases x with
  | ok a => rw [Res.ok_bind]; exact ⟨fun he => absurd he (h a rfl), fun he => by simp at he⟩
  | err e' => exact Iff.rfl.trans ⟨fun he => by cases he; rfl, fun he => by cases he; rfl⟩
  | panic => simp
  | diverge => simp

theorem Res.collect_ne_err {α : Type} {e : Error} : ∀ {xs : List (Res α)}, (∀ x ∈ xs, x ≠ .err e) → Res.collect xs ≠ .err e
  | [], _ => by simp [Res.collect]
  | x :: xs, h => by
    rw [Res.collect]
    intro hc
    rw [Res.bind_err_iff] at hc
    · exact h x (by simp) hc
    · intro a _ hc
      rw [Res.bind_err_iff (fun _ _ => by simp)] at hc
      exact Res.collect_ne_err (fun y hy => h y (by simp [hy])) hc

theorem unwrapOption_ne_err {α : Type} {e : Error} (o : Option α) : Res.unwrapOption o ≠ .err e := by
  cases o <;> simp [Res.unwrapOption]

theorem unwrap_ne_err {α : Type} {e : Error} (r : Res α) : Res.unwrap r ≠ .err e := by
  cases r <;> simp [Res.unwrap]

theorem computeTweak_protocol (wf : CS.WF) (sk : CS.Scalar) (info : Option Bytes) :
    Poprf.computeTweak CS sk info = .err .Protocol ↔
      ∃ m, (info.getD []).length ≤ 65535 ∧
        Spec.hashToScalar CS .Poprf (infoInput (info.getD [])) = .ok m ∧ sk + m = 0 := by
  rw [computeTweak_eq wf]
  by_cases hl : (info.getD []).length ≤ 65535
  · rw [if_pos hl]
    cases hm : Spec.hashToScalar CS .Poprf (infoInput (info.getD [])) with
    | error e => simp
    | ok m =>
      simp only
      by_cases hz : sk + m = 0
      · rw [if_pos ((VGroup.Lawful.isZeroScalar_iff _).mpr hz)]
        simp [hz, hl]
      · rw [if_neg (fun h => hz ((VGroup.Lawful.isZeroScalar_iff _).mp h))]
        have hf : ¬ ∃ m', (info.getD []).length ≤ 65535 ∧
            (Except.ok m : Except InternalError CS.Scalar) = .ok m' ∧ sk + m' = 0 := by
          rintro ⟨m', -, h, h'⟩
          exact hz (Except.ok.inj h ▸ h')
        simp only [hf, iff_false]
        simp
  · rw [if_neg hl]; simp [hl]

theorem computeTweakedKey_protocol (wf : CS.WF) (pk : CS.Elem) (info : Option Bytes) :
    Poprf.computeTweakedKey CS pk info = .err .Protocol ↔
      ∃ m, (info.getD []).length ≤ 65535 ∧
        Spec.hashToScalar CS .Poprf (infoInput (info.getD [])) = .ok m ∧ m • CS.group.baseElem + pk = 0 := by
  rw [computeTweakedKey_eq wf]
  by_cases hl : (info.getD []).length ≤ 65535
  · rw [if_pos hl]
    cases hm : Spec.hashToScalar CS .Poprf (infoInput (info.getD [])) with
    | error e => simp
    | ok m =>
      simp only
      by_cases hz : m • CS.group.baseElem + pk = 0
      · rw [if_pos ((isIdentityElem_iff _).mpr hz)]
        simp [hz, hl]
      · rw [if_neg (fun h => hz ((isIdentityElem_iff _).mp h))]
        have hf : ¬ ∃ m', (info.getD []).length ≤ 65535 ∧
            (Except.ok m : Except InternalError CS.Scalar) = .ok m' ∧ m' • CS.group.baseElem + pk = 0 := by
          rintro ⟨m', -, h, h'⟩
          exact hz (Except.ok.inj h ▸ h')
        simp only [hf, iff_false]
        simp
  · rw [if_neg hl]; simp [hl]

/-- C34 for the remaining calls: `batch_blind_evaluate`, its first half, and the client's `batch_finalize` refuse with
`Error::Protocol` exactly the infos whose hash is the negative of the private key, whatever the batch; `evaluate` does
for every input that it would otherwise evaluate. The second half never returns this error. -/
theorem C34_other_calls (wf : CS.WF) (s : PoprfServer CS) (hs : s.Made) (info : Option Bytes) (Refused : Prop)
    (hr : Refused ↔ ∃ m, (info.getD []).length ≤ 65535 ∧
      Spec.hashToScalar CS .Poprf (infoInput (info.getD [])) = .ok m ∧ s.sk + m = 0) :
    (∀ {σ : Type} [RngCore σ] (rng : σ) (bs : List (BlindedElement CS)),
      s.batchBlindEvaluate rng bs info = .err .Protocol ↔ Refused) ∧
    (∀ bs : List (BlindedElement CS), s.batchBlindEvaluatePrepare bs info = .err .Protocol ↔ Refused) ∧
    (∀ {σ : Type} [RngCore σ] (rng : σ) (bs : List (BlindedElement CS)) (ps : List (PreparedEvaluationElement CS))
      (t : PoprfPreparedTweak CS), PoprfServer.batchBlindEvaluateFinish rng bs ps t ≠ .err .Protocol) ∧
    (∀ input : Bytes, s.evaluate input info = .err .Protocol ↔
      Refused ∧ ∃ P, Spec.hashToGroup CS .Poprf input = .ok P ∧ P ≠ 0) ∧
    (∀ (inputs : List Bytes) (cs : List (PoprfClient CS)) (es : List (EvaluationElement CS)) (proof : Proof CS),
      PoprfClient.batchFinalize inputs cs es proof s.getPublicKey info = .err .Protocol ↔ Refused) := by
  have hprep : ∀ bs : List (BlindedElement CS), s.batchBlindEvaluatePrepare bs info = .err .Protocol ↔ Refused := by
    intro bs
    rw [hr, ← computeTweak_protocol wf, PoprfServer.batchBlindEvaluatePrepare]
    exact Res.bind_err_iff fun _ _ => by simp
  refine ⟨?_, hprep, ?_, ?_, ?_⟩
  · intro σ _ rng bs
    rw [← hprep bs, PoprfServer.batchBlindEvaluate]
    refine Res.bind_err_iff fun prep hp hc => ?_
    rw [Res.bind_err_iff fun ps _ hc => ?_] at hc
    · refine Res.collect_ne_err (fun x hx => ?_) hc
      rw [PoprfServer.batchBlindEvaluatePrepare, Res.bind_eq_ok] at hp
      obtain ⟨t, -, hp⟩ := hp
      cases hp
      rw [List.mem_map] at hx
      obtain ⟨b, -, rfl⟩ := hx
      rw [Ne, Res.bind_err_iff fun _ _ => by simp]
      exact unwrapOption_ne_err _
    · rw [Res.bind_err_iff fun _ _ => by simp] at hc
      exact unwrap_ne_err _ hc
  · intro σ _ rng bs ps t
    rw [PoprfServer.batchBlindEvaluateFinish, Ne, Res.bind_err_iff fun _ _ => by simp]
    rcases generateProof_cases wf rng t.value CS.group.baseElem (CS.group.elemMul CS.group.baseElem t.value)
      (ps.map fun element => element.inner.value) (bs.map fun element => element.value) .Poprf
      with ⟨-, h⟩ | ⟨-, -, -, h⟩ | ⟨-, -, _, _, _, _, h⟩ <;> rw [h] <;> simp
  · intro input
    rw [PoprfServer.evaluate_eq wf, hr, ← computeTweak_protocol wf]
    cases Spec.hashToGroup CS .Poprf input with
    | error e => simp
    | ok P =>
      simp only
      by_cases hP : P = 0
      · rw [if_pos ((isIdentityElem_iff _).mpr hP)]
        simp [hP]
      · rw [if_neg (fun h => hP ((isIdentityElem_iff _).mp h)), Res.bind_err_iff fun _ _ => by split <;> simp]
        exact ⟨fun h => ⟨h, P, rfl, hP⟩, fun h => h.1⟩
  · intro inputs cs es proof
    have hk : (∃ m, (info.getD []).length ≤ 65535 ∧ Spec.hashToScalar CS .Poprf (infoInput (info.getD [])) = .ok m ∧
        m • CS.group.baseElem + s.pk = 0) ↔ Refused := by
      rw [hr]
      refine exists_congr fun m => and_congr_right fun _ => and_congr_right fun _ => ?_
      rw [(hs.key wf).2, add_comm, ← add_smul, smul_base_eq_zero]
    rw [← hk, ← computeTweakedKey_protocol wf, PoprfClient.batchFinalize, Poprf.poprfUnblind]
    simp only [computeTweakedKey_some_getD, PoprfServer.getPublicKey]
    rw [Res.bind_err_iff, Res.bind_err_iff]
    · intro tk _ hc
      rw [Res.bind_err_iff fun _ _ => by simp] at hc
      rcases verifyProof_cases wf CS.group.baseElem tk (es.map (·.value)) (cs.map (·.blindedElement)) proof .Poprf
        with ⟨-, h⟩ | ⟨-, -, h | h⟩ <;> rw [h] at hc <;> simp at hc
    · intro us _ hc
      unfold Poprf.finalizeAfterUnblind at hc
      split at hc <;> simp at hc

section examples
open Toy

/-- A refused info exists on the toy suite: some key is the negative of an info hash. -/
example : ∃ (s : PoprfServer suite) (info : Option Bytes), s.Made ∧
    s.blindEvaluate (⟨9⟩ : Rng) ⟨3⟩ info = .err .Protocol := by
  have hs : ∃ k : UInt8, (PoprfServer.newWithKey suite [k]).isOk = true ∧
      ((PoprfServer.newWithKey suite [k] >>= fun s => s.blindEvaluate (⟨9⟩ : Rng) ⟨3⟩ (some [42]))
        |>.err?) = some .Protocol := by
    refine ⟨?_, ?_, ?_⟩
    · exact UInt8.ofNat (-((mix (hash.digest (infoInput [42] ++ [254] ++
        (ascii "HashToScalar-" ++ contextString suite .Poprf))) : Nat) : F)).val
    · decide +kernel
    · decide +kernel
  obtain ⟨k, h1, h2⟩ := hs
  obtain ⟨s, h⟩ := Res.exists_of_isOk h1
  rw [h, Res.ok_bind, Res.err?_eq] at h2
  exact ⟨s, _, .newWithKey _ _ h, h2⟩

end examples

end Voprf
