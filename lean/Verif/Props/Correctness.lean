import Verif.Lemmas.Keys
import Verif.Toy

/-!
# C01–C07: an honest run computes the PRF
-/

namespace Voprf

open Spec

variable {CS : CipherSuite} [L : CS.group.Lawful]

/-- The client's result for an input whose PRF element is `E`: `Hash(⟨input⟩ ⟨E⟩ "Finalize")`, or
`Error::Input` when the input is longer than 65535 bytes. -/
def prfResult (CS : CipherSuite) (input : Bytes) (E : CS.Elem) : Res Bytes :=
  if input.length ≤ 65535 then .ok (Spec.output CS input E) else .err .Input

/-- The same in POPRF mode, `Hash(⟨input⟩ ⟨info⟩ ⟨E⟩ "Finalize")`. -/
def prfResultInfo (CS : CipherSuite) (input info : Bytes) (E : CS.Elem) : Res Bytes :=
  if input.length ≤ 65535 then .ok (Spec.outputInfo CS input info E) else .err .Input

/-! ## C01 -/

/-- C01: whatever generator blinded the input, finalizing the server's answer gives the PRF value
`Hash(⟨input⟩ ⟨k·HashToGroup(input)⟩ "Finalize")`, and this is what `evaluate` returns (it refuses only
inputs hashing to the identity). -/
theorem C01_oprf_correct (wf : CS.WF) (s : OprfServer CS) (input : Bytes)
    (b : OprfClientBlindResult CS) (hb : OprfClient.Blinded input b) :
    (∃ P, Spec.hashToGroup CS .Oprf input = .ok P ∧
      b.state.finalize input (s.blindEvaluate b.message) = prfResult CS input (s.sk • P) ∧
      (P ≠ 0 → s.evaluate input = prfResult CS input (s.sk • P))) ∧
    (∀ out, s.evaluate input = .ok out →
      b.state.finalize input (s.blindEvaluate b.message) = .ok out) := by
  obtain ⟨σ, _, rng, rng', hb⟩ := hb
  obtain ⟨r, P, -, hr, hP, rfl⟩ := OprfClient.blindInput_ok wf hb
  have key : (⟨r⟩ : OprfClient CS).finalize input (s.blindEvaluate ⟨r • P⟩) =
      prfResult CS input (s.sk • P) := by
    rw [OprfClient.finalize_eq _ hr, OprfServer.blindEvaluate_value, prfResult,
      smul_comm s.sk r P, inv_smul_smul₀ hr]
  refine ⟨⟨P, hP, key, fun hne => ?_⟩, ?_⟩
  · rw [OprfServer.evaluate_eq wf, hP]
    simp only
    rw [if_neg (by rw [isIdentityElem_iff]; exact hne), prfResult]
  intro out ho
  rw [key]
  rw [OprfServer.evaluate_eq wf, hP] at ho
  simp only at ho
  split at ho
  · simp at ho
  · exact ho

/-- C01 for a blinding factor chosen by the caller (`deterministic_blind_unchecked`), non-zero. -/
theorem C01_oprf_correct_deterministic (wf : CS.WF) (s : OprfServer CS) (input : Bytes)
    (blind : CS.Scalar) (h0 : blind ≠ 0) (b : OprfClientBlindResult CS)
    (hb : OprfClient.deterministicBlindUnchecked CS input blind = .ok b) :
    ∃ P, Spec.hashToGroup CS .Oprf input = .ok P ∧
      b.state.finalize input (s.blindEvaluate b.message) = prfResult CS input (s.sk • P) := by
  unfold OprfClient.deterministicBlindUnchecked OprfClient.deterministicBlindUncheckedInner
    Voprf.deterministicBlindUnchecked at hb
  rw [hashToGroup_eq wf] at hb
  cases hP : Spec.hashToGroup CS .Oprf input with
  | error e => simp [hP] at hb
  | ok P =>
    simp only [hP, Res.mapErr_ok, Res.ok_bind, Res.pure_eq, VGroup.Lawful.elemMul_eq,
      Res.ok.injEq] at hb
    subst hb
    refine ⟨P, rfl, ?_⟩
    rw [OprfClient.finalize_eq _ h0, OprfServer.blindEvaluate_value, prfResult,
      smul_comm s.sk blind P, inv_smul_smul₀ h0]

section examples
open Toy

/-- The toy server with key 7 answers a blinded 3-byte input; all hypotheses of C01 hold. -/
example : ∃ (b : OprfClientBlindResult suite) (out : Bytes),
    OprfClient.Blinded [1, 2, 3] b ∧ (⟨7⟩ : OprfServer suite).evaluate [1, 2, 3] = .ok out := by
  obtain ⟨⟨b, r⟩, hb⟩ := Res.exists_of_isOk
    (x := OprfClient.blindInput suite [1, 2, 3] (⟨5⟩ : Rng)) (by decide +kernel)
  obtain ⟨o, ho⟩ := Res.exists_of_isOk
    (x := (⟨7⟩ : OprfServer suite).evaluate [1, 2, 3]) (by decide +kernel)
  exact ⟨b, o, ⟨_, _, _, _, hb⟩, ho⟩

end examples

/-! ## C02 -/

/-- C02: every answer of an honest verifiable server is accepted under its public key and yields the
PRF value, which is what `evaluate` returns. -/
theorem C02_voprf_correct (wf : CS.WF) (s : VoprfServer CS) (hs : s.Made) (input : Bytes)
    (b : VoprfClientBlindResult CS) (hb : VoprfClient.Blinded input b)
    {σ : Type} [RngCore σ] (srng srng' : σ) (r : VoprfServerEvaluateResult CS)
    (hr : s.blindEvaluate srng b.message = .ok (r, srng')) :
    (∃ P, Spec.hashToGroup CS .Voprf input = .ok P ∧
      b.state.finalize input r.message r.proof s.getPublicKey = prfResult CS input (s.sk • P) ∧
      (P ≠ 0 → s.evaluate input = prfResult CS input (s.sk • P))) ∧
    (∀ out, s.evaluate input = .ok out →
      b.state.finalize input r.message r.proof s.getPublicKey = .ok out) := by
  obtain ⟨σ', _, rng, rng', hb⟩ := hb
  obtain ⟨x, P, -, hx, hP, rfl⟩ := VoprfClient.blindInput_ok wf hb
  have hk := (hs.key wf).2
  rw [VoprfServer.blindEvaluate_eq wf, Res.bind_eq_ok] at hr
  obtain ⟨⟨p, srng''⟩, hg, hr⟩ := hr
  simp only [Res.ok.injEq, Prod.mk.injEq] at hr
  obtain ⟨rfl, -⟩ := hr
  rw [hk] at hg
  have hv := verifyProof_generateProof wf (by simp) hg
  have key : (⟨x, x • P⟩ : VoprfClient CS).finalize input ⟨s.sk • x • P⟩ p s.getPublicKey =
      prfResult CS input (s.sk • P) := by
    rw [VoprfClient.finalize_eq _ hx, VoprfServer.getPublicKey, hk, hv]
    simp only [Res.ok_bind, itemResult, prfResult, smul_comm s.sk x P, inv_smul_smul₀ hx]
  refine ⟨⟨P, hP, key, fun hne => ?_⟩, ?_⟩
  · rw [VoprfServer.evaluate_eq wf, hP]
    simp only
    rw [if_neg (by rw [isIdentityElem_iff]; exact hne), prfResult]
  intro out ho
  rw [VoprfServer.evaluate_eq wf, hP] at ho
  simp only at ho
  split at ho
  · simp at ho
  · rw [← ho]; exact key

/-- C02, liveness half: the server does answer every blinded element (single-element evaluation never
fails or panics) as soon as its generator produces a scalar. -/
theorem C02_voprf_answers (wf : CS.WF) (s : VoprfServer CS) (b : BlindedElement CS)
    {σ : Type} [RngCore σ] (srng : σ) (hr : (CS.group.randomScalar srng).isSome) :
    ∃ r srng', s.blindEvaluate srng b = .ok (r, srng') := by
  rw [VoprfServer.blindEvaluate_eq wf]
  rcases generateProof_cases wf srng s.sk CS.group.baseElem s.pk [b.value] [s.sk • b.value] .Voprf
    with ⟨h, -⟩ | ⟨-, -, h, -⟩ | ⟨-, -, _, _, _, _, h⟩
  · simp at h
  · simp [h] at hr
  · rw [h]; exact ⟨_, _, rfl⟩

section examples
open Toy

/-- The hypotheses of C02 hold for a server made from a seed. -/
example : ∃ (s : VoprfServer suite) (b : VoprfClientBlindResult suite)
    (r : VoprfServerEvaluateResult suite) (g : Rng) (out : Bytes), s.Made ∧
    VoprfClient.Blinded [1, 2, 3] b ∧
    s.blindEvaluate (⟨9⟩ : Rng) b.message = .ok (r, g) ∧ s.evaluate [1, 2, 3] = .ok out := by
  have hs : VoprfServer.newWithKey suite [7] = .ok ⟨7, 7⟩ := by rfl
  obtain ⟨⟨b, r⟩, hb⟩ := Res.exists_of_isOk
    (x := VoprfClient.blindInput suite [1, 2, 3] (⟨5⟩ : Rng)) (by decide +kernel)
  obtain ⟨o, ho⟩ := Res.exists_of_isOk
    (x := (⟨7, 7⟩ : VoprfServer suite).evaluate [1, 2, 3]) (by decide +kernel)
  obtain ⟨r, g, hr⟩ := C02_voprf_answers wf (⟨7, 7⟩ : VoprfServer suite) b.message (⟨9⟩ : Rng) rfl
  exact ⟨_, b, r, g, o, .newWithKey _ _ hs, ⟨_, _, _, _, hb⟩, hr, ho⟩

end examples

/-! ## C03 -/

/-- C03: the messages and the single proof of a batch are accepted, and the i-th result is the PRF value
of the i-th input (which is what `evaluate` returns for it). -/
theorem C03_voprf_batch_correct (wf : CS.WF) (s : VoprfServer CS) (hs : s.Made)
    (inputs : List Bytes) (bs : List (VoprfClientBlindResult CS))
    (hb : List.Forall₂ VoprfClient.Blinded inputs bs)
    {σ : Type} [RngCore σ] (srng srng' : σ) (r : VoprfServerBatchEvaluateResult CS)
    (hr : s.batchBlindEvaluate srng (bs.map (·.message)) = .ok (r, srng')) :
    ∃ outs, VoprfClient.batchFinalize inputs (bs.map (·.state)) r.messages r.proof s.getPublicKey
        = .ok outs ∧
      List.Forall₂ (fun input out =>
        (∃ P, Spec.hashToGroup CS .Voprf input = .ok P ∧ out = prfResult CS input (s.sk • P) ∧
          (P ≠ 0 → s.evaluate input = out)) ∧
        ∀ o, s.evaluate input = .ok o → out = .ok o) inputs outs := by
  have hk := (hs.key wf).2
  rw [VoprfServer.batch_eq, Res.bind_eq_ok] at hr
  obtain ⟨⟨p, srng''⟩, hg, hr⟩ := hr
  simp only [Res.ok.injEq, Prod.mk.injEq] at hr
  obtain ⟨rfl, -⟩ := hr
  rw [hk] at hg
  have hv := verifyProof_generateProof wf (by simp [Function.comp_def]) hg
  have hblind : ∀ c ∈ bs.map (·.state), c.blind ≠ 0 := by
    intro c hc
    obtain ⟨b, hbm, rfl⟩ := List.mem_map.mp hc
    clear hg hv hc
    induction hb with
    | nil => simp at hbm
    | cons h _ ih =>
      rcases List.mem_cons.mp hbm with rfl | hbm
      · obtain ⟨_, _, _, _, h⟩ := h
        obtain ⟨x, P, -, hx, -, rfl⟩ := VoprfClient.blindInput_ok wf h
        exact hx
      · exact ih hbm
  have hbe : (bs.map (·.state)).map (·.blindedElement) = (bs.map (·.message)).map (·.value) := by
    clear hg hv hblind
    induction hb with
    | nil => rfl
    | cons h _ ih =>
      obtain ⟨_, _, _, _, h⟩ := h
      obtain ⟨x, P, -, hx, -, rfl⟩ := VoprfClient.blindInput_ok wf h
      simpa using ih
  rw [VoprfClient.batchFinalize_eq _ _ hblind, VoprfServer.getPublicKey, hk, hbe]
  simp only [List.map_map, Function.comp_def] at hv ⊢
  rw [hv]
  refine ⟨_, rfl, ?_⟩
  clear hg hv hblind hbe
  induction hb with
  | nil => simp
  | cons h _ ih =>
    obtain ⟨_, _, _, _, h⟩ := h
    obtain ⟨x, P, -, hx, hP, rfl⟩ := VoprfClient.blindInput_ok wf h
    simp only [List.map_cons, List.zip_cons_cons]
    refine List.Forall₂.cons ⟨⟨P, hP, ?_, fun hne => ?_⟩, ?_⟩ ih
    · simp only [itemResult, prfResult, smul_comm s.sk x P, inv_smul_smul₀ hx]
    · rw [VoprfServer.evaluate_eq wf, hP]
      simp only
      rw [if_neg (by rw [isIdentityElem_iff]; exact hne)]
      simp only [itemResult, smul_comm s.sk x P, inv_smul_smul₀ hx]
    · intro o ho
      rw [VoprfServer.evaluate_eq wf, hP] at ho
      simp only at ho
      split at ho
      · simp at ho
      · simp only [itemResult, smul_comm s.sk x P, inv_smul_smul₀ hx]; exact ho

/-- C03, liveness half: any batch of at most 65535 elements is answered (the 65535 limit is exact, see
C13). -/
theorem C03_voprf_batch_answers (wf : CS.WF) (s : VoprfServer CS) (bs : List (BlindedElement CS))
    (hl : bs.length ≤ 65535) {σ : Type} [RngCore σ] (srng : σ)
    (hr : (CS.group.randomScalar srng).isSome) :
    ∃ r srng', s.batchBlindEvaluate srng bs = .ok (r, srng') := by
  rw [VoprfServer.batch_eq]
  rcases generateProof_cases wf srng s.sk CS.group.baseElem s.pk (bs.map (·.value))
    (bs.map fun b => s.sk • b.value) .Voprf
    with ⟨h, -⟩ | ⟨-, -, h, -⟩ | ⟨-, -, _, _, _, _, h⟩
  · simp at h; omega
  · simp [h] at hr
  · rw [h]; exact ⟨_, _, rfl⟩

section examples
open Toy

/-- The hypotheses of C03 hold for a batch of three (two equal) inputs. -/
example : ∃ (s : VoprfServer suite) (bs : List (VoprfClientBlindResult suite))
    (r : VoprfServerBatchEvaluateResult suite) (g : Rng), s.Made ∧
    List.Forall₂ VoprfClient.Blinded [[1, 2, 3], [4], [4]] bs ∧
    s.batchBlindEvaluate (⟨9⟩ : Rng) (bs.map (·.message)) = .ok (r, g) := by
  have hs : VoprfServer.newWithKey suite [7] = .ok ⟨7, 7⟩ := by rfl
  obtain ⟨⟨b1, _⟩, hb1⟩ := Res.exists_of_isOk
    (x := VoprfClient.blindInput suite [1, 2, 3] (⟨5⟩ : Rng)) (by decide +kernel)
  obtain ⟨⟨b2, _⟩, hb2⟩ := Res.exists_of_isOk
    (x := VoprfClient.blindInput suite [4] (⟨6⟩ : Rng)) (by decide +kernel)
  obtain ⟨⟨b3, _⟩, hb3⟩ := Res.exists_of_isOk
    (x := VoprfClient.blindInput suite [4] (⟨100⟩ : Rng)) (by decide +kernel)
  obtain ⟨r, g, hr⟩ := C03_voprf_batch_answers wf (⟨7, 7⟩ : VoprfServer suite)
    ([b1, b2, b3].map (·.message)) (by simp) (⟨9⟩ : Rng) rfl
  exact ⟨_, [b1, b2, b3], r, g, .newWithKey _ _ hs,
    .cons ⟨_, _, _, _, hb1⟩ (.cons ⟨_, _, _, _, hb2⟩ (.cons ⟨_, _, _, _, hb3⟩ .nil)), hr⟩

end examples

/-! ## C04, C05 -/

/-- What the two sides compute from `info`: the tweak `t = k + HashToScalar("Info" ⟨info⟩)`. -/
def IsTweak (CS : CipherSuite) [CS.group.Lawful] (sk : CS.Scalar) (info : Bytes) (t : CS.Scalar) :
    Prop :=
  ∃ m, Spec.hashToScalar CS .Poprf (infoInput info) = .ok m ∧ t = sk + m ∧ t ≠ 0

/-- server and client compute matching tweaked keys -/
theorem tweakedKey_of_tweak (wf : CS.WF) {s : PoprfServer CS} (hs : s.Made) {t : CS.Scalar}
    {info : Option Bytes} (h : Poprf.computeTweak CS s.sk info = .ok t) :
    Poprf.computeTweakedKey CS s.pk info = .ok (t • CS.group.baseElem) ∧
      IsTweak CS s.sk (info.getD []) t ∧ (info.getD []).length ≤ 65535 := by
  obtain ⟨m, hl, hm, ht, hz⟩ := computeTweak_ok wf h
  refine ⟨?_, ⟨m, hm, ht, hz⟩, hl⟩
  rw [computeTweakedKey_eq wf, if_pos hl, hm]
  have : m • CS.group.baseElem + s.pk = t • CS.group.baseElem := by
    rw [(hs.key wf).2, ht, add_smul, add_comm]
  simp only [this]
  rw [if_neg]
  rw [isIdentityElem_iff, smul_base_eq_zero]
  exact hz

/-- C04 (and C05 for one element, any info including `None`): every answer of an honest partially
oblivious server is accepted under its public key and yields
`Hash(⟨input⟩ ⟨info⟩ ⟨(1/t)·HashToGroup(input)⟩ "Finalize")`; for `Some(info)` this is what `evaluate`
returns. -/
theorem C04_poprf_correct (wf : CS.WF) (s : PoprfServer CS) (hs : s.Made) (input : Bytes)
    (info : Option Bytes) (b : PoprfClientBlindResult CS) (hb : PoprfClient.Blinded input b)
    {σ : Type} [RngCore σ] (srng srng' : σ) (r : PoprfServerEvaluateResult CS)
    (hr : s.blindEvaluate srng b.message info = .ok (r, srng')) :
    (∃ P t, Spec.hashToGroup CS .Poprf input = .ok P ∧ IsTweak CS s.sk (info.getD []) t ∧
      b.state.finalize input r.message r.proof s.getPublicKey info
        = prfResultInfo CS input (info.getD []) (t⁻¹ • P) ∧
      (P ≠ 0 → ∀ i, info = some i → s.evaluate input info = prfResultInfo CS input i (t⁻¹ • P))) ∧
    (∀ i out, info = some i → s.evaluate input info = .ok out →
      b.state.finalize input r.message r.proof s.getPublicKey info = .ok out) := by
  obtain ⟨σ', _, rng, rng', hb⟩ := hb
  obtain ⟨x, P, -, hx, hP, rfl⟩ := PoprfClient.blindInput_ok wf hb
  rw [PoprfServer.blindEvaluate_eq wf, Res.bind_eq_ok] at hr
  obtain ⟨t, ht, hr⟩ := hr
  rw [Res.bind_eq_ok] at hr
  obtain ⟨⟨p, srng''⟩, hg, hr⟩ := hr
  simp only [Res.ok.injEq, Prod.mk.injEq] at hr
  obtain ⟨rfl, -⟩ := hr
  obtain ⟨htk, htw, hl⟩ := tweakedKey_of_tweak wf hs ht
  have ht0 : t ≠ 0 := by obtain ⟨_, _, _, h⟩ := htw; exact h
  have hv := verifyProof_generateProof wf (by simp [smul_inv_smul₀ ht0]) hg
  have key : (⟨x, x • P⟩ : PoprfClient CS).finalize input ⟨t⁻¹ • x • P⟩ p s.getPublicKey info =
      prfResultInfo CS input (info.getD []) (t⁻¹ • P) := by
    rw [PoprfClient.finalize_eq wf _ hx, PoprfServer.getPublicKey, htk]
    simp only [Res.ok_bind]
    rw [hv]
    simp only [Res.ok_bind, itemResultInfo, prfResultInfo, smul_comm t⁻¹ x P, inv_smul_smul₀ hx,
      if_pos hl]
  refine ⟨⟨P, t, hP, htw, key, fun hne i hi => ?_⟩, ?_⟩
  · subst hi
    rw [PoprfServer.evaluate_eq wf, hP]
    simp only
    rw [if_neg (by rw [isIdentityElem_iff]; exact hne), ht, Res.ok_bind, prfResultInfo]
  rintro i out rfl ho
  rw [PoprfServer.evaluate_eq wf, hP] at ho
  simp only at ho
  split at ho
  · simp at ho
  · rw [ht, Res.ok_bind] at ho
    simp only at key ⊢
    rw [key, ← ho]; rfl

/-- C04, liveness half: the server answers as soon as its generator produces a scalar, unless the info
is too long (`Error::Info`), the tweak is zero (`Error::Protocol`), or the group's hash refuses the info
(a panic, excluded for the shipped groups). -/
theorem C04_poprf_answers (wf : CS.WF) (s : PoprfServer CS) (b : BlindedElement CS)
    (info : Option Bytes) {σ : Type} [RngCore σ] (srng : σ)
    (hr : (CS.group.randomScalar srng).isSome) (hl : (info.getD []).length ≤ 65535)
    (t : CS.Scalar) (ht : IsTweak CS s.sk (info.getD []) t) :
    ∃ r srng', s.blindEvaluate srng b info = .ok (r, srng') := by
  obtain ⟨m, hm, htm, hz⟩ := ht
  rw [PoprfServer.blindEvaluate_eq wf, computeTweak_eq wf, if_pos hl, hm]
  simp only [← htm]
  rw [if_neg (by rw [VGroup.Lawful.isZeroScalar_iff]; exact hz)]
  simp only [Res.ok_bind]
  rcases generateProof_cases wf srng t CS.group.baseElem (t • CS.group.baseElem) [t⁻¹ • b.value]
    [b.value] .Poprf with ⟨h, -⟩ | ⟨-, -, h, -⟩ | ⟨-, -, _, _, _, _, h⟩
  · simp at h
  · simp [h] at hr
  · rw [h]; exact ⟨_, _, rfl⟩

section examples
open Toy

/-- The hypotheses of C04 hold. -/
example : ∃ (s : PoprfServer suite) (b : PoprfClientBlindResult suite)
    (r : PoprfServerEvaluateResult suite) (g : Rng) (out : Bytes), s.Made ∧
    PoprfClient.Blinded [1, 2, 3] b ∧
    s.blindEvaluate (⟨9⟩ : Rng) b.message (some [42]) = .ok (r, g) ∧
    s.evaluate [1, 2, 3] (some [42]) = .ok out := by
  have hs : PoprfServer.newWithKey suite [7] = .ok ⟨7, 7⟩ := by rfl
  obtain ⟨⟨b, r⟩, hb⟩ := Res.exists_of_isOk
    (x := PoprfClient.blindInput suite [1, 2, 3] (⟨5⟩ : Rng)) (by decide +kernel)
  obtain ⟨o, ho⟩ := Res.exists_of_isOk
    (x := (⟨7, 7⟩ : PoprfServer suite).evaluate [1, 2, 3] (some [42])) (by decide +kernel)
  obtain ⟨r, g, hr⟩ := C04_poprf_answers wf (⟨7, 7⟩ : PoprfServer suite) b.message (some [42])
    (⟨9⟩ : Rng) rfl (by decide) _ ⟨_, rfl, rfl, by decide +kernel⟩
  exact ⟨_, b, r, g, o, .newWithKey _ _ hs, ⟨_, _, _, _, hb⟩, hr, ho⟩

end examples

/-- C05: the messages and the single proof of a POPRF batch are accepted, and the i-th result is the
PRF value of the i-th input under the common info (which is what `evaluate` returns for `Some(info)`). -/
theorem C05_poprf_batch_correct (wf : CS.WF) (s : PoprfServer CS) (hs : s.Made)
    (inputs : List Bytes) (info : Option Bytes) (bs : List (PoprfClientBlindResult CS))
    (hb : List.Forall₂ PoprfClient.Blinded inputs bs)
    {σ : Type} [RngCore σ] (srng srng' : σ) (r : PoprfServerBatchEvaluateResult CS)
    (hr : s.batchBlindEvaluate srng (bs.map (·.message)) info = .ok (r, srng')) :
    ∃ t outs, IsTweak CS s.sk (info.getD []) t ∧
      PoprfClient.batchFinalize inputs (bs.map (·.state)) r.messages r.proof s.getPublicKey info
        = .ok outs ∧
      List.Forall₂ (fun input out =>
        (∃ P, Spec.hashToGroup CS .Poprf input = .ok P ∧
          out = prfResultInfo CS input (info.getD []) (t⁻¹ • P) ∧
          (P ≠ 0 → ∀ i, info = some i → s.evaluate input info = out)) ∧
        ∀ i o, info = some i → s.evaluate input info = .ok o → out = .ok o) inputs outs := by
  rw [PoprfServer.batch_eq wf, Res.bind_eq_ok] at hr
  obtain ⟨t, ht, hr⟩ := hr
  rw [Res.bind_eq_ok] at hr
  obtain ⟨⟨p, srng''⟩, hg, hr⟩ := hr
  simp only [Res.ok.injEq, Prod.mk.injEq] at hr
  obtain ⟨rfl, -⟩ := hr
  obtain ⟨htk, htw, hl⟩ := tweakedKey_of_tweak wf hs ht
  have ht0 : t ≠ 0 := by obtain ⟨_, _, _, h⟩ := htw; exact h
  have hg' : generateProof CS srng t CS.group.baseElem (t • CS.group.baseElem)
      ((bs.map (·.message)).map fun b => t⁻¹ • b.value) ((bs.map (·.message)).map (·.value)) .Poprf
      = .ok (p, srng'') := by
    revert hg
    cases generateProof CS srng t CS.group.baseElem (t • CS.group.baseElem)
      ((bs.map (·.message)).map fun b => t⁻¹ • b.value) ((bs.map (·.message)).map (·.value)) .Poprf <;>
      simp
  have hv := verifyProof_generateProof wf
    (by simp [Function.comp_def, smul_inv_smul₀ ht0]) hg'
  have hblind : ∀ c ∈ bs.map (·.state), c.blind ≠ 0 := by
    intro c hc
    obtain ⟨b, hbm, rfl⟩ := List.mem_map.mp hc
    clear hg hg' hv hc
    induction hb with
    | nil => simp at hbm
    | cons h _ ih =>
      rcases List.mem_cons.mp hbm with rfl | hbm
      · obtain ⟨_, _, _, _, h⟩ := h
        obtain ⟨x, P, -, hx, -, rfl⟩ := PoprfClient.blindInput_ok wf h
        exact hx
      · exact ih hbm
  have hbe : (bs.map (·.state)).map (·.blindedElement) = (bs.map (·.message)).map (·.value) := by
    clear hg hg' hv hblind
    induction hb with
    | nil => rfl
    | cons h _ ih =>
      obtain ⟨_, _, _, _, h⟩ := h
      obtain ⟨x, P, -, hx, -, rfl⟩ := PoprfClient.blindInput_ok wf h
      simpa using ih
  have hlen := hb.length_eq
  rw [PoprfClient.batchFinalize_eq wf _ _ hblind, PoprfServer.getPublicKey, htk, hbe]
  simp only [List.map_map, Function.comp_def, Res.ok_bind] at hv ⊢
  rw [hv]
  simp only [Res.ok_bind]
  rw [if_pos (by simpa using hlen)]
  refine ⟨t, _, htw, rfl, ?_⟩
  clear hg hg' hv hblind hbe hlen
  induction hb with
  | nil => simp
  | cons h _ ih =>
    obtain ⟨_, _, _, _, h⟩ := h
    obtain ⟨x, P, -, hx, hP, rfl⟩ := PoprfClient.blindInput_ok wf h
    simp only [List.map_cons, List.zip_cons_cons]
    refine List.Forall₂.cons ⟨⟨P, hP, ?_, fun hne i hi => ?_⟩, ?_⟩ ih
    · simp only [itemResultInfo, prfResultInfo, smul_comm t⁻¹ x P, inv_smul_smul₀ hx, if_pos hl]
    · subst hi
      rw [PoprfServer.evaluate_eq wf, hP]
      simp only
      rw [if_neg (by rw [isIdentityElem_iff]; exact hne), ht, Res.ok_bind]
      simp only [itemResultInfo, smul_comm t⁻¹ x P, inv_smul_smul₀ hx, if_pos hl]
      rfl
    · rintro i o rfl ho
      rw [PoprfServer.evaluate_eq wf, hP] at ho
      simp only at ho
      split at ho
      · simp at ho
      · rw [ht, Res.ok_bind] at ho
        simp only [itemResultInfo, smul_comm t⁻¹ x P, inv_smul_smul₀ hx, if_pos hl]; exact ho

/-- C05, liveness half: batches of at most 65535 elements are answered. -/
theorem C05_poprf_batch_answers (wf : CS.WF) (s : PoprfServer CS) (bs : List (BlindedElement CS))
    (info : Option Bytes) {σ : Type} [RngCore σ] (srng : σ)
    (hr : (CS.group.randomScalar srng).isSome) (hn : bs.length ≤ 65535)
    (hl : (info.getD []).length ≤ 65535) (t : CS.Scalar) (ht : IsTweak CS s.sk (info.getD []) t) :
    ∃ r srng', s.batchBlindEvaluate srng bs info = .ok (r, srng') := by
  obtain ⟨m, hm, htm, hz⟩ := ht
  rw [PoprfServer.batch_eq wf, computeTweak_eq wf, if_pos hl, hm]
  simp only [← htm]
  rw [if_neg (by rw [VGroup.Lawful.isZeroScalar_iff]; exact hz)]
  simp only [Res.ok_bind]
  rcases generateProof_cases wf srng t CS.group.baseElem (t • CS.group.baseElem)
    (bs.map fun b => t⁻¹ • b.value) (bs.map (·.value)) .Poprf
    with ⟨h, -⟩ | ⟨-, -, h, -⟩ | ⟨-, -, _, _, _, _, h⟩
  · simp at h; omega
  · simp [h] at hr
  · rw [h]; exact ⟨_, _, rfl⟩

section examples
open Toy

/-- The hypotheses of C05 hold for a batch of two inputs and no info. -/
example : ∃ (s : PoprfServer suite) (bs : List (PoprfClientBlindResult suite))
    (r : PoprfServerBatchEvaluateResult suite) (g : Rng), s.Made ∧
    List.Forall₂ PoprfClient.Blinded [[1, 2, 3], [4]] bs ∧
    s.batchBlindEvaluate (⟨9⟩ : Rng) (bs.map (·.message)) none = .ok (r, g) := by
  have hs : PoprfServer.newWithKey suite [7] = .ok ⟨7, 7⟩ := by rfl
  obtain ⟨⟨b1, _⟩, hb1⟩ := Res.exists_of_isOk
    (x := PoprfClient.blindInput suite [1, 2, 3] (⟨5⟩ : Rng)) (by decide +kernel)
  obtain ⟨⟨b2, _⟩, hb2⟩ := Res.exists_of_isOk
    (x := PoprfClient.blindInput suite [4] (⟨6⟩ : Rng)) (by decide +kernel)
  obtain ⟨r, g, hr⟩ := C05_poprf_batch_answers wf (⟨7, 7⟩ : PoprfServer suite)
    ([b1, b2].map (·.message)) none (⟨9⟩ : Rng) rfl (by simp) (by decide) _
    ⟨_, rfl, rfl, by decide +kernel⟩
  exact ⟨_, [b1, b2], r, g, .newWithKey _ _ hs,
    .cons ⟨_, _, _, _, hb1⟩ (.cons ⟨_, _, _, _, hb2⟩ .nil), hr⟩

end examples

end Voprf
