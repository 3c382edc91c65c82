import Verif.Props.Binding

/-!
# C36, C37: which key a response is accepted under — POPRF and batches
-/

namespace Voprf

open Spec

variable {CS : CipherSuite} [L : CS.group.Lawful]

/-- C36 for a batch of an honest `VoprfServer`: if the client accepts the server's messages (with any proof)
under a public key other than the base multiple of the server's private key, then the composite of the
blinded elements is the identity or the challenge hash hit its single answerable value. -/
theorem C36_voprf_batch_other_key (wf : CS.WF) (s : VoprfServer CS) (clients : List (VoprfClient CS))
    {σ : Type} [RngCore σ] (rng rng' : σ) (r : VoprfServerBatchEvaluateResult CS)
    (hr : s.batchBlindEvaluate rng (clients.map fun c => ⟨c.blindedElement⟩) = .ok (r, rng'))
    (inputs : List Bytes) (proof : Proof CS) (pk : CS.Elem) (hpk : pk ≠ s.sk • CS.group.baseElem)
    (outs : List (Res Bytes))
    (h : VoprfClient.batchFinalize inputs clients r.messages proof pk = .ok outs) :
    ∃ ws, weights CS .Voprf pk (clients.map (·.blindedElement)) (r.messages.map (·.value)) = .ok ws ∧
      (lincomb ws (clients.map (·.blindedElement)) = 0 ∨
       LuckyHash CS .Voprf pk (lincomb ws (clients.map (·.blindedElement)))
        (lincomb ws (r.messages.map (·.value))) proof.cScalar proof.sScalar) := by
  obtain ⟨ws, hws, h⟩ := C10_voprf_batch_sound wf inputs clients r.messages proof pk outs h
  refine ⟨ws, hws, h.imp_left ?_⟩
  rw [VoprfServer.batch_eq, Res.bind_eq_ok] at hr
  obtain ⟨p, -, hr⟩ := hr
  simp only [Res.ok.injEq, Prod.mk.injEq] at hr
  obtain ⟨rfl, -⟩ := hr
  have hm : ((clients.map fun c => (⟨c.blindedElement⟩ : BlindedElement CS)).map
      fun b => (⟨s.sk • b.value⟩ : EvaluationElement CS)).map (·.value) =
      (clients.map (·.blindedElement)).map fun P => s.sk • P := by simp [Function.comp_def]
  rw [hm, lincomb_smul]
  rintro ⟨k, h1, h2⟩
  have h0 : (s.sk - k) • lincomb ws (clients.map (·.blindedElement)) = 0 := by
    rw [sub_smul, h2, sub_self]
  refine (smul_eq_zero.mp h0).resolve_left fun hk => hpk ?_
  rw [h1, sub_eq_zero.mp hk]

/-- C36 in POPRF mode, for a batch of an honest server (of any size, so also for a single request): if the
client accepts the server's messages, with any proof and for the same info, under a public key other than
the base multiple of the server's private key, then the composite of the messages is the identity or the
challenge hash hit its single answerable value. -/
theorem C36_poprf_batch_other_key (wf : CS.WF) (s : PoprfServer CS) (clients : List (PoprfClient CS))
    (info : Option Bytes) {σ : Type} [RngCore σ] (rng rng' : σ) (r : PoprfServerBatchEvaluateResult CS)
    (hr : s.batchBlindEvaluate rng (clients.map fun c => ⟨c.blindedElement⟩) info = .ok (r, rng'))
    (inputs : List Bytes) (proof : Proof CS) (pk : CS.Elem) (hpk : pk ≠ s.sk • CS.group.baseElem)
    (outs : List (Res Bytes))
    (h : PoprfClient.batchFinalize inputs clients r.messages proof pk info = .ok outs) :
    ∃ m ws, Spec.hashToScalar CS .Poprf (infoInput (info.getD [])) = .ok m ∧
      weights CS .Poprf (m • CS.group.baseElem + pk) (r.messages.map (·.value))
        (clients.map (·.blindedElement)) = .ok ws ∧
      (lincomb ws (r.messages.map (·.value)) = 0 ∨
       LuckyHash CS .Poprf (m • CS.group.baseElem + pk) (lincomb ws (r.messages.map (·.value)))
        (lincomb ws (clients.map (·.blindedElement))) proof.cScalar proof.sScalar) := by
  obtain ⟨m, ws, hm, hws, h⟩ := C10_poprf_batch_sound wf inputs clients r.messages proof pk info outs h
  refine ⟨m, ws, hm, hws, h.imp_left ?_⟩
  rw [PoprfServer.batch_eq wf, Res.bind_eq_ok] at hr
  obtain ⟨t, ht, hr⟩ := hr
  obtain ⟨m', -, hm', rfl, hz⟩ := computeTweak_ok wf ht
  rw [hm] at hm'
  cases Except.ok.inj hm'
  rw [Res.bind_eq_ok] at hr
  obtain ⟨p, -, hr⟩ := hr
  simp only [Res.ok.injEq, Prod.mk.injEq] at hr
  obtain ⟨rfl, -⟩ := hr
  have hb : clients.map (·.blindedElement) =
      (((clients.map fun c => (⟨c.blindedElement⟩ : BlindedElement CS)).map
        fun b => (⟨(s.sk + m)⁻¹ • b.value⟩ : EvaluationElement CS)).map (·.value)).map
        fun P => (s.sk + m) • P := by
    simp [Function.comp_def, smul_inv_smul₀ hz]
  generalize ((clients.map fun c => (⟨c.blindedElement⟩ : BlindedElement CS)).map
        fun b => (⟨(s.sk + m)⁻¹ • b.value⟩ : EvaluationElement CS)).map (·.value) = Cs at hb ⊢
  rw [hb, lincomb_smul]
  rintro ⟨k, h1, h2⟩
  have h0 : (s.sk + m - k) • lincomb ws Cs = 0 := by rw [sub_smul, h2, sub_self]
  refine (smul_eq_zero.mp h0).resolve_left fun hk => hpk ?_
  rw [← sub_eq_zero.mp hk, add_smul, add_comm] at h1
  exact add_right_cancel h1

/-- C36 in POPRF mode for a single request and any message made with key `t`: under a public key whose
tweaked key is another one, acceptance means a hash coincidence, whatever proof accompanies it. -/
theorem C36_poprf_other_key (wf : CS.WF) (client : PoprfClient CS) (input : Bytes) (t : CS.Scalar)
    (ht : t ≠ 0) (e : EvaluationElement CS) (he : e.value = t⁻¹ • client.blindedElement)
    (hb : client.blindedElement ≠ 0) (proof : Proof CS) (pk : CS.Elem) (info : Option Bytes)
    (m : CS.Scalar) (hm : Spec.hashToScalar CS .Poprf (infoInput (info.getD [])) = .ok m)
    (hpk : m • CS.group.baseElem + pk ≠ t • CS.group.baseElem) (out : Bytes)
    (h : client.finalize input e proof pk info = .ok out) :
    weight CS .Poprf (m • CS.group.baseElem + pk) 0 e.value client.blindedElement = .ok 0 ∨
    ∃ w, weight CS .Poprf (m • CS.group.baseElem + pk) 0 e.value client.blindedElement = .ok w ∧
      LuckyHash CS .Poprf (m • CS.group.baseElem + pk) (w • e.value)
        (w • client.blindedElement) proof.cScalar proof.sScalar := by
  refine C10_poprf_finalize_sound wf client input e proof pk info m hm out h ?_
  rintro ⟨k, h1, h2⟩
  rw [he] at h2
  have h3 : (t - k) • t⁻¹ • client.blindedElement = 0 := by
    rw [sub_smul, ← h2, smul_inv_smul₀ ht, sub_self]
  rcases smul_eq_zero.mp h3 with h0 | h0
  · exact hpk (by rw [h1, sub_eq_zero.mp h0])
  · rcases smul_eq_zero.mp h0 with h0 | h0
    · exact inv_ne_zero ht h0
    · exact hb h0

/-- C36 in POPRF mode: an accepted finalization for a true statement returns the output determined by the
public key and the info: if `HashToScalar(info)·G + pk = t·G` it is
`Hash(⟨input⟩ ⟨info⟩ ⟨t⁻¹·HashToGroup(input)⟩ "Finalize")`. -/
theorem C36_poprf_output_of_key (wf : CS.WF) (input : Bytes) (info : Option Bytes) (pk : CS.Elem)
    (m : CS.Scalar) (hm : Spec.hashToScalar CS .Poprf (infoInput (info.getD [])) = .ok m)
    (b : PoprfClientBlindResult CS) (hb : PoprfClient.Blinded input b) (e : EvaluationElement CS)
    (proof : Proof CS) (hs : SameKey CS (m • CS.group.baseElem + pk) e.value b.message.value)
    (out : Bytes) (h : b.state.finalize input e proof pk info = .ok out) :
    ∃ (t : CS.Scalar) (P : CS.Elem), t ≠ 0 ∧ m • CS.group.baseElem + pk = t • CS.group.baseElem ∧
      Spec.hashToGroup CS .Poprf input = .ok P ∧
      out = Spec.outputInfo CS input (info.getD []) (t⁻¹ • P) := by
  obtain ⟨σ', _, g, g', hbl⟩ := hb
  obtain ⟨x, P, -, hx, hP, rfl⟩ := PoprfClient.blindInput_ok wf hbl
  obtain ⟨t, h1, h2⟩ := hs
  obtain ⟨m', hm', -, hne, -⟩ := (C09_poprf_single wf input ⟨x, x • P⟩ e proof pk info).1 out h
  rw [hm] at hm'
  cases Except.ok.inj hm'
  have ht : t ≠ 0 := by
    rintro rfl; rw [zero_smul] at h1; exact hne h1
  refine ⟨t, P, ht, h1, hP, ?_⟩
  rw [PoprfClient.finalize_eq wf _ hx, Res.bind_eq_ok] at h
  obtain ⟨_, -, h⟩ := h
  rw [Res.bind_eq_ok] at h
  obtain ⟨_, -, h⟩ := h
  simp only [itemResultInfo] at h
  split at h
  · split at h
    · simp only [Res.ok.injEq] at h
      simp only at h2
      have : e.value = t⁻¹ • x • P := by rw [h2, inv_smul_smul₀ ht]
      rw [← h, this, smul_comm t⁻¹, inv_smul_smul₀ hx]
    · simp at h
  · simp at h

/-- C37 inside POPRF batches: an item of an accepted batch whose own statement is true has the result
determined by the public key, the info and its input. -/
theorem C37_poprf_batch (wf : CS.WF) (inputs : List Bytes) (clients : List (PoprfClient CS))
    (hc : ∀ c ∈ clients, c.blind ≠ 0) (messages : List (EvaluationElement CS)) (proof : Proof CS)
    (pk : CS.Elem) (info : Option Bytes) (m : CS.Scalar)
    (hm : Spec.hashToScalar CS .Poprf (infoInput (info.getD [])) = .ok m) (outs : List (Res Bytes))
    (h : PoprfClient.batchFinalize inputs clients messages proof pk info = .ok outs)
    (i : Nat) (input : Bytes) (b : PoprfClientBlindResult CS) (e : EvaluationElement CS)
    (hi : inputs[i]? = some input) (hci : clients[i]? = some b.state) (hmi : messages[i]? = some e)
    (hb : PoprfClient.Blinded input b)
    (hs : SameKey CS (m • CS.group.baseElem + pk) e.value b.message.value) :
    ∃ (t : CS.Scalar) (P : CS.Elem), t ≠ 0 ∧ m • CS.group.baseElem + pk = t • CS.group.baseElem ∧
      Spec.hashToGroup CS .Poprf input = .ok P ∧
      outs[i]? = some (prfResultInfo CS input (info.getD []) (t⁻¹ • P)) := by
  have ho := (C15_poprf_one_to_one wf _ _ hc _ _ _ _ _ h).2.2.2 i input b.state e hi hci hmi
  obtain ⟨-, -, m', hm', -, hne, -⟩ := C09_poprf_batch_only wf _ _ _ _ _ _ _ h
  rw [hm] at hm'
  cases Except.ok.inj hm'
  obtain ⟨σ', _, g, g', hbl⟩ := hb
  obtain ⟨x, P, -, hx, hP, rfl⟩ := PoprfClient.blindInput_ok wf hbl
  obtain ⟨t, h1, h2⟩ := hs
  have ht : t ≠ 0 := by
    rintro rfl; rw [zero_smul] at h1; exact hne h1
  refine ⟨t, P, ht, h1, hP, ?_⟩
  simp only at h2
  have : e.value = t⁻¹ • x • P := by rw [h2, inv_smul_smul₀ ht]
  rw [ho, this]
  simp only
  rw [smul_comm t⁻¹, inv_smul_smul₀ hx]

section examples
open Toy

/-- The hypotheses of `C36_voprf_batch_other_key` can be met (in a group of 251 elements, by search): the
two messages of a server with key 5 are accepted under the public key `7·G`. -/
example : (7 : F) ≠ 5 * 1 ∧
    (do let (r, _) ← (⟨5, 5⟩ : VoprfServer suite).batchBlindEvaluate (⟨9⟩ : Rng)
          (([⟨2, 6⟩, ⟨3, 9⟩] : List (VoprfClient suite)).map fun c : VoprfClient suite => ⟨c.blindedElement⟩)
        VoprfClient.batchFinalize [[1], [2]] [⟨2, 6⟩, ⟨3, 9⟩] r.messages ⟨0, 166⟩ (7 : F)).isOk = true := by
  constructor <;> decide +kernel

/-- The same for `C36_poprf_batch_other_key`. -/
example : (7 : F) ≠ 5 * 1 ∧
    (do let (r, _) ← (⟨5, 5⟩ : PoprfServer suite).batchBlindEvaluate (⟨9⟩ : Rng)
          (([⟨2, 6⟩, ⟨3, 9⟩] : List (PoprfClient suite)).map fun c : PoprfClient suite => ⟨c.blindedElement⟩) (some [1])
        PoprfClient.batchFinalize [[1], [2]] [⟨2, 6⟩, ⟨3, 9⟩] r.messages ⟨2, 96⟩ (7 : F)
          (some [1])).isOk = true := by
  constructor <;> decide +kernel

/-- The same for `C36_poprf_other_key`: the message is `t⁻¹·6` for the tweaked key `t` of the private key 5
and the client accepts it under `7·G`. -/
example : ∃ m t : F, Spec.hashToScalar suite .Poprf (infoInput [1]) = .ok m ∧ t = 5 + m ∧ t ≠ 0 ∧
    m * 1 + 7 ≠ t * 1 ∧ (6 : F) ≠ 0 ∧
    ((⟨2, 6⟩ : PoprfClient suite).finalize [1] ⟨(t⁻¹ * 6 : F)⟩ ⟨2, 221⟩ (7 : F) (some [1])).isOk
      = true := by
  refine ⟨_, _, rfl, rfl, ?_, ?_, ?_, ?_⟩ <;> decide +kernel

/-- An honest POPRF batch of two meets the hypotheses of `C37_poprf_batch` at both positions, with different
inputs. -/
example : ∃ (bs : List (PoprfClientBlindResult suite)) (r : PoprfServerBatchEvaluateResult suite)
    (m : suite.Scalar) (outs : List (Res Bytes)),
    List.Forall₂ PoprfClient.Blinded [[1, 2, 3], [4]] bs ∧
    Spec.hashToScalar suite .Poprf (infoInput [42]) = .ok m ∧
    (∀ c ∈ bs.map (·.state), c.blind ≠ 0) ∧
    PoprfClient.batchFinalize [[1, 2, 3], [4]] (bs.map (·.state)) r.messages r.proof (7 : F) (some [42])
      = .ok outs ∧
    List.Forall₂ (fun b e => SameKey suite (m • suite.group.baseElem + (7 : suite.Scalar) • suite.group.baseElem) e.value b.message.value)
      bs r.messages := by
  have hs : PoprfServer.newWithKey suite [7] = .ok ⟨7, 7⟩ := by rfl
  obtain ⟨⟨b1, g1⟩, h1⟩ := Res.exists_of_isOk
    (x := PoprfClient.blindInput suite [1, 2, 3] (⟨5⟩ : Rng)) (by decide +kernel)
  obtain ⟨⟨b2, g2⟩, h2⟩ := Res.exists_of_isOk
    (x := PoprfClient.blindInput suite [4] (⟨77⟩ : Rng)) (by decide +kernel)
  have hb : List.Forall₂ PoprfClient.Blinded [[1, 2, 3], [4]] [b1, b2] :=
    .cons ⟨_, _, _, _, h1⟩ (.cons ⟨_, _, _, _, h2⟩ .nil)
  obtain ⟨r, g, hr⟩ := C05_poprf_batch_answers wf (⟨7, 7⟩ : PoprfServer suite)
    ([b1, b2].map (·.message)) (some [42]) (⟨9⟩ : Rng) rfl (by simp) (by decide) _
    ⟨_, rfl, rfl, by decide +kernel⟩
  obtain ⟨t, outs, ⟨m, hm, htm, hz⟩, ho, -⟩ := C05_poprf_batch_correct wf _ (.newWithKey _ _ hs) _
    (some [42]) _ hb _ _ _ hr
  refine ⟨[b1, b2], r, m, outs, hb, hm, ?_, ho, ?_⟩
  · have hne : ∀ i (b : PoprfClientBlindResult suite) (g g' : Rng),
        PoprfClient.blindInput suite i g = .ok (b, g') → b.state.blind ≠ 0 := by
      intro i b g g' hi
      obtain ⟨x, P, -, hx, -, rfl⟩ := PoprfClient.blindInput_ok wf hi
      exact hx
    simp only [List.map_cons, List.map_nil, List.forall_mem_cons, List.not_mem_nil, IsEmpty.forall_iff,
      implies_true, and_true]
    exact ⟨hne _ _ _ _ h1, hne _ _ _ _ h2⟩
  · rw [PoprfServer.batch_eq wf, Res.bind_eq_ok] at hr
    obtain ⟨t', ht', hr⟩ := hr
    obtain ⟨m', -, hm', rfl, hz'⟩ := computeTweak_ok wf ht'
    cases Except.ok.inj (hm.symm.trans hm')
    rw [Res.bind_eq_ok] at hr
    obtain ⟨p, -, hr⟩ := hr
    simp only [Res.ok.injEq, Prod.mk.injEq] at hr
    obtain ⟨rfl, -⟩ := hr
    have key : ∀ b : PoprfClientBlindResult suite, SameKey suite (m • suite.group.baseElem + (7 : suite.Scalar) • suite.group.baseElem)
        (((7 : suite.Scalar) + m)⁻¹ • b.message.value) b.message.value := by
      intro b
      refine ⟨(7 : suite.Scalar) + m, ?_, (smul_inv_smul₀ hz' _).symm⟩
      rw [add_comm (7 : suite.Scalar), add_smul]
    exact .cons (key b1) (.cons (key b2) .nil)

end examples

end Voprf
