import Verif.Props.Correctness

/-!
# C13–C16: batches
-/

namespace Voprf

open Spec

variable {CS : CipherSuite}

/-! ## C13 -/

/-- `VoprfClient::batch_finalize` is proof verification followed by infallible (lazy) unblinding. -/
theorem VoprfClient.batchFinalize_verify (inputs : List Bytes) (clients : List (VoprfClient CS))
    (messages : List (EvaluationElement CS)) (proof : Proof CS) (pk : CS.Elem) :
    ∃ outs, VoprfClient.batchFinalize inputs clients messages proof pk =
      (verifyProof CS CS.group.baseElem pk (clients.map (·.blindedElement)) (messages.map (·.value))
        proof .Voprf >>= fun _ => .ok outs) := by
  unfold VoprfClient.batchFinalize Verifiable.verifiableUnblind
  simp only [bind_assoc, Res.pure_eq, Res.ok_bind]
  exact ⟨_, rfl⟩

variable [L : CS.group.Lawful]

/-- C13, VOPRF server: `batch_blind_evaluate_finish` returns `Error::Batch` exactly on different lengths or
more than 65535 items, and returns no other error. -/
theorem C13_voprf_finish (wf : CS.WF) {σ : Type} [RngCore σ] (s : VoprfServer CS) (rng : σ)
    (bs : List (BlindedElement CS)) (ps : List (PreparedEvaluationElement CS)) (e : Error) :
    s.batchBlindEvaluateFinish rng bs ps = .err e ↔
      e = .Batch ∧ (bs.length ≠ ps.length ∨ 65535 < bs.length) := by
  rw [VoprfServer.finish_eq]
  rcases generateProof_cases wf rng s.sk CS.group.baseElem s.pk (bs.map (·.value))
    (ps.map (·.inner.value)) .Voprf with ⟨h, h'⟩ | ⟨h1, h2, -, h'⟩ | ⟨h1, h2, _, _, _, _, h'⟩
  · rw [h']; simp only [List.length_map] at h; simp [h, eq_comm]
  · rw [h']; simp only [List.length_map] at h1 h2
    simp [h1]; omega
  · rw [h']; simp only [List.length_map] at h1 h2
    simp [h1]; omega

/-- C13, VOPRF server: `batch_blind_evaluate` returns `Error::Batch` exactly for more than 65535 items,
and no other error. -/
theorem C13_voprf_batch (wf : CS.WF) {σ : Type} [RngCore σ] (s : VoprfServer CS) (rng : σ)
    (bs : List (BlindedElement CS)) (e : Error) :
    s.batchBlindEvaluate rng bs = .err e ↔ e = .Batch ∧ 65535 < bs.length := by
  have : s.batchBlindEvaluate rng bs =
      s.batchBlindEvaluateFinish rng bs (s.batchBlindEvaluatePrepare bs) := by
    rw [VoprfServer.batch_eq, VoprfServer.finish_eq, VoprfServer.prepare_eq]
    simp [Function.comp_def]
  rw [this, C13_voprf_finish wf]
  simp [VoprfServer.batchBlindEvaluatePrepare]

/-- C13, POPRF server: `batch_blind_evaluate_finish` returns `Error::Batch` exactly on different lengths
or more than 65535 items, and returns no other error. -/
theorem C13_poprf_finish (wf : CS.WF) {σ : Type} [RngCore σ] (rng : σ)
    (bs : List (BlindedElement CS)) (ps : List (PreparedEvaluationElement CS))
    (t : PoprfPreparedTweak CS) (e : Error) :
    PoprfServer.batchBlindEvaluateFinish rng bs ps t = .err e ↔
      e = .Batch ∧ (bs.length ≠ ps.length ∨ 65535 < bs.length) := by
  rw [PoprfServer.finish_eq]
  rcases generateProof_cases wf rng t.value CS.group.baseElem (t.value • CS.group.baseElem)
    (ps.map (·.inner.value)) (bs.map (·.value)) .Poprf
    with ⟨h, h'⟩ | ⟨h1, h2, -, h'⟩ | ⟨h1, h2, _, _, _, _, h'⟩
  · rw [h']; simp only [List.length_map] at h
    have : bs.length ≠ ps.length ∨ 65535 < bs.length := by omega
    simp [this, eq_comm]
  · rw [h']; simp only [List.length_map] at h1 h2
    simp [h1]; omega
  · rw [h']; simp only [List.length_map] at h1 h2
    simp [h1]; omega

/-- C13, VOPRF client: `batch_finalize` returns `Error::Batch` exactly when the numbers of clients and
messages differ or exceed 65535; the only other error is `ProofVerification`. -/
theorem C13_voprf_finalize (wf : CS.WF) (inputs : List Bytes) (clients : List (VoprfClient CS))
    (messages : List (EvaluationElement CS)) (proof : Proof CS) (pk : CS.Elem) :
    (VoprfClient.batchFinalize inputs clients messages proof pk = .err .Batch ↔
      clients.length ≠ messages.length ∨ 65535 < clients.length) ∧
    (∀ e, VoprfClient.batchFinalize inputs clients messages proof pk = .err e →
      e = .Batch ∨ e = .ProofVerification) := by
  obtain ⟨outs, ho⟩ := VoprfClient.batchFinalize_verify inputs clients messages proof pk
  rw [ho]
  rcases verifyProof_cases wf CS.group.baseElem pk (clients.map (·.blindedElement))
    (messages.map (·.value)) proof .Voprf with ⟨h, h'⟩ | ⟨h1, h2, h' | h'⟩
  · rw [h']; simp only [List.length_map] at h; simp [h]
  · rw [h']; simp only [List.length_map] at h1 h2
    simp [h1]; omega
  · rw [h']; simp only [List.length_map] at h1 h2
    simp [h1]; omega

/-- C13, POPRF client: given an acceptable info, `batch_finalize` returns `Error::Batch` exactly when the
numbers of clients and messages differ or exceed 65535, or the proof verifies (i.e. the call would succeed
with the right number of inputs) and the number of inputs differs. -/
theorem C13_poprf_finalize (wf : CS.WF) (inputs : List Bytes) (clients : List (PoprfClient CS))
    (hc : ∀ c ∈ clients, c.blind ≠ 0) (messages : List (EvaluationElement CS)) (proof : Proof CS)
    (pk : CS.Elem) (info : Option Bytes) (tk : CS.Elem)
    (hi : Poprf.computeTweakedKey CS pk info = .ok tk) :
    (PoprfClient.batchFinalize inputs clients messages proof pk info = .err .Batch ↔
      clients.length ≠ messages.length ∨ 65535 < clients.length ∨
      (inputs.length ≠ clients.length ∧
        (PoprfClient.batchFinalize (List.replicate clients.length []) clients messages proof pk
          info).isOk = true)) := by
  rw [PoprfClient.batchFinalize_eq wf _ _ hc, PoprfClient.batchFinalize_eq wf _ _ hc, hi]
  simp only [Res.ok_bind]
  rcases verifyProof_cases wf CS.group.baseElem tk (messages.map (·.value))
    (clients.map (·.blindedElement)) proof .Poprf with ⟨h, h'⟩ | ⟨h1, h2, h' | h'⟩
  · rw [h']; simp only [List.length_map] at h
    have : clients.length ≠ messages.length ∨ 65535 < clients.length := by omega
    rcases this with h | h <;> simp [h]
  · rw [h']; simp only [List.length_map] at h1 h2
    simp [h1, Res.isOk]; omega
  · rw [h']; simp only [List.length_map] at h1 h2
    by_cases hl : inputs.length = clients.length
    · simp [hl, h1]; omega
    · simp [hl, h1, Res.isOk]

section examples
open Toy

/-- 65536 equal messages make an oversized batch, for which C13 gives `Error::Batch`. -/
example : (⟨7, 7⟩ : VoprfServer suite).batchBlindEvaluate (⟨9⟩ : Rng)
    (List.replicate 65536 ⟨3⟩) = .err .Batch :=
  (C13_voprf_batch wf _ _ _ _).mpr ⟨rfl, by rw [List.length_replicate]; omega⟩

/-- 65535 are accepted. -/
example : ((⟨7, 7⟩ : VoprfServer suite).batchBlindEvaluate (⟨9⟩ : Rng)
    (List.replicate 65535 ⟨3⟩)).isOk = true := by
  obtain ⟨r, g, h⟩ := C03_voprf_batch_answers wf (⟨7, 7⟩ : VoprfServer suite)
    (List.replicate 65535 ⟨3⟩) (by rw [List.length_replicate]) (⟨9⟩ : Rng) rfl
  rw [h]; rfl

/-- The POPRF info hypothesis is met. -/
example : ∃ tk, Poprf.computeTweakedKey suite 7 (some [42]) = .ok tk :=
  Res.exists_of_isOk (by decide +kernel)

end examples

/-! ## C14 -/

/-- C14, the part that holds: a POPRF batch of at most 65535 items never panics, if the group's hash does
not refuse the info. -/
theorem C14_poprf_batch_no_panic_partial (wf : CS.WF) (s : PoprfServer CS) {σ : Type} [RngCore σ]
    (rng : σ) (bs : List (BlindedElement CS)) (info : Option Bytes) (hn : bs.length ≤ 65535)
    (hh : ∃ m, Spec.hashToScalar CS .Poprf (infoInput (info.getD [])) = .ok m) :
    s.batchBlindEvaluate rng bs info ≠ .panic := by
  obtain ⟨m, hm⟩ := hh
  rw [PoprfServer.batch_eq wf, computeTweak_eq wf, hm]
  split
  · simp only
    split
    · simp
    · simp only [Res.ok_bind]
      rcases generateProof_cases wf rng (s.sk + m) CS.group.baseElem
        ((s.sk + m) • CS.group.baseElem) (bs.map fun b => (s.sk + m)⁻¹ • b.value)
        (bs.map (·.value)) .Poprf with ⟨h, -⟩ | ⟨-, -, -, h⟩ | ⟨-, -, _, _, _, _, h⟩
      · simp at h; omega
      · rw [h]; simp
      · rw [h]; simp
  · simp

/-- C14 is false of the code: whenever the server would answer a single element under `info`, a batch of
more than 65535 elements panics (and `Error::Batch` is never returned). -/
theorem C14_poprf_batch_panics (wf : CS.WF) (s : PoprfServer CS) {σ : Type} [RngCore σ]
    (rng rng' rng'' : σ) (b : BlindedElement CS) (r : PoprfServerEvaluateResult CS)
    (info : Option Bytes) (h1 : s.blindEvaluate rng b info = .ok (r, rng'))
    (bs : List (BlindedElement CS)) (hn : 65535 < bs.length) :
    s.batchBlindEvaluate rng'' bs info = .panic := by
  rw [PoprfServer.blindEvaluate_eq wf, Res.bind_eq_ok] at h1
  obtain ⟨t, ht, -⟩ := h1
  rw [PoprfServer.batch_eq wf, ht]
  simp only [Res.ok_bind]
  rcases generateProof_cases wf rng'' t CS.group.baseElem (t • CS.group.baseElem)
    (bs.map fun b => t⁻¹ • b.value) (bs.map (·.value)) .Poprf
    with ⟨-, h⟩ | ⟨-, h, -, -⟩ | ⟨-, h, _⟩
  · rw [h]; rfl
  · simp at h; omega
  · simp at h; omega

/-- The panic is reachable. -/
example : (⟨7, 7⟩ : PoprfServer Toy.suite).batchBlindEvaluate (⟨9⟩ : Toy.Rng)
    (List.replicate 65536 ⟨3⟩) (some [42]) = .panic := by
  obtain ⟨r, g, hr⟩ := C04_poprf_answers Toy.wf (⟨7, 7⟩ : PoprfServer Toy.suite) ⟨3⟩ (some [42])
    (⟨9⟩ : Toy.Rng) rfl (by decide) _ ⟨_, rfl, rfl, by decide +kernel⟩
  exact C14_poprf_batch_panics Toy.wf _ _ _ _ _ _ _ hr _ (by rw [List.length_replicate]; omega)

/-! ## C15 -/

/-- C15, POPRF: on success there is exactly one result per client and per input and per message, and
the i-th is computed from the i-th of each. -/
theorem C15_poprf_one_to_one (wf : CS.WF) (inputs : List Bytes) (clients : List (PoprfClient CS))
    (hc : ∀ c ∈ clients, c.blind ≠ 0) (messages : List (EvaluationElement CS)) (proof : Proof CS)
    (pk : CS.Elem) (info : Option Bytes) (outs : List (Res Bytes))
    (h : PoprfClient.batchFinalize inputs clients messages proof pk info = .ok outs) :
    outs.length = clients.length ∧ inputs.length = clients.length ∧
    messages.length = clients.length ∧
    ∀ (i : Nat) (input : Bytes) (c : PoprfClient CS) (m : EvaluationElement CS),
      inputs[i]? = some input → clients[i]? = some c → messages[i]? = some m →
      outs[i]? = some (prfResultInfo CS input (info.getD []) (c.blind⁻¹ • m.value)) := by
  rw [PoprfClient.batchFinalize_eq wf _ _ hc] at h
  cases htk : Poprf.computeTweakedKey CS pk info with
  | ok tk =>
    have hil : (info.getD []).length ≤ 65535 := by
      rw [computeTweakedKey_eq wf] at htk
      by_contra hcon
      rw [if_neg hcon] at htk
      simp at htk
    rw [htk, Res.ok_bind] at h
    rw [Res.bind_eq_ok] at h
    obtain ⟨_, hv, h⟩ := h
    have hl := (verifyProof_length wf hv).1
    simp only [List.length_map] at hl
    split at h
    · next hi =>
      simp only [Res.ok.injEq] at h
      subst h
      refine ⟨by simp [hl, hi], hi, hl, ?_⟩
      intro i input c m h1 h2 h3
      rw [List.getElem?_map, (List.getElem?_zip_eq_some (z := ((c, m), input))).mpr
        ⟨List.getElem?_zip_eq_some.mpr ⟨h2, h3⟩, h1⟩]
      simp [itemResultInfo, prfResultInfo, hil]
    · simp at h
  | err e => simp [htk] at h
  | panic => simp [htk] at h
  | diverge => simp [htk] at h

/-- C15, VOPRF, the part that holds: the i-th result is computed from the i-th input, client and message.
Missing: the number of inputs is not checked (`C15_voprf_truncates`). -/
theorem C15_voprf_positions_partial (wf : CS.WF) (inputs : List Bytes)
    (clients : List (VoprfClient CS)) (hc : ∀ c ∈ clients, c.blind ≠ 0)
    (messages : List (EvaluationElement CS)) (proof : Proof CS)
    (pk : CS.Elem) (outs : List (Res Bytes))
    (h : VoprfClient.batchFinalize inputs clients messages proof pk = .ok outs) :
    outs.length = min inputs.length clients.length ∧ messages.length = clients.length ∧
    ∀ (i : Nat) (input : Bytes) (c : VoprfClient CS) (m : EvaluationElement CS),
      inputs[i]? = some input → clients[i]? = some c → messages[i]? = some m →
      outs[i]? = some (prfResult CS input (c.blind⁻¹ • m.value)) := by
  rw [VoprfClient.batchFinalize_eq _ _ hc, Res.bind_eq_ok] at h
  obtain ⟨_, hv, h⟩ := h
  have hl := (verifyProof_length wf hv).1
  simp only [List.length_map] at hl
  simp only [Res.ok.injEq] at h
  subst h
  refine ⟨by simp [hl], hl.symm, ?_⟩
  intro i input c m h1 h2 h3
  rw [List.getElem?_map, (List.getElem?_zip_eq_some (z := (input, (c, m)))).mpr
    ⟨h1, List.getElem?_zip_eq_some.mpr ⟨h2, h3⟩⟩]
  simp [itemResult, prfResult]

/-- C15 is false for VOPRF: any list of inputs whatever is accepted along with a valid response;
missing inputs silently shorten the result, surplus ones are ignored. -/
theorem C15_voprf_truncates (wf : CS.WF) (inputs inputs' : List Bytes)
    (clients : List (VoprfClient CS)) (hc : ∀ c ∈ clients, c.blind ≠ 0)
    (messages : List (EvaluationElement CS)) (proof : Proof CS) (pk : CS.Elem)
    (outs : List (Res Bytes))
    (h : VoprfClient.batchFinalize inputs clients messages proof pk = .ok outs) :
    ∃ outs', VoprfClient.batchFinalize inputs' clients messages proof pk = .ok outs' ∧
      outs'.length = min inputs'.length clients.length := by
  have : ∃ outs', VoprfClient.batchFinalize inputs' clients messages proof pk = .ok outs' := by
    obtain ⟨o, ho⟩ := VoprfClient.batchFinalize_verify inputs clients messages proof pk
    obtain ⟨o', ho'⟩ := VoprfClient.batchFinalize_verify inputs' clients messages proof pk
    rw [ho, Res.bind_eq_ok] at h
    obtain ⟨_, hv, -⟩ := h
    exact ⟨o', by rw [ho', hv]; rfl⟩
  obtain ⟨outs', h'⟩ := this
  exact ⟨outs', h', (C15_voprf_positions_partial wf _ _ hc _ _ _ _ h').1⟩

section examples
open Toy

/-- An accepted batch (needed as hypothesis above) exists: an honest run with two items; with
no inputs at all it is still accepted and returns no outputs. -/
example : ∃ (clients : List (VoprfClient suite)) (messages : List (EvaluationElement suite))
    (proof : Proof suite) (pk : suite.Elem) (outs : List (Res Bytes)),
    (∀ c ∈ clients, c.blind ≠ 0) ∧ clients.length = 2 ∧
    VoprfClient.batchFinalize [[1, 2, 3], [4]] clients messages proof pk = .ok outs ∧
    VoprfClient.batchFinalize [] clients messages proof pk = .ok [] := by
  have hs : VoprfServer.newWithKey suite [7] = .ok ⟨7, 7⟩ := by rfl
  obtain ⟨⟨b1, _⟩, hb1⟩ := Res.exists_of_isOk
    (x := VoprfClient.blindInput suite [1, 2, 3] (⟨5⟩ : Rng)) (by decide +kernel)
  obtain ⟨⟨b2, _⟩, hb2⟩ := Res.exists_of_isOk
    (x := VoprfClient.blindInput suite [4] (⟨6⟩ : Rng)) (by decide +kernel)
  obtain ⟨r, g, hr⟩ := C03_voprf_batch_answers wf (⟨7, 7⟩ : VoprfServer suite)
    ([b1, b2].map (·.message)) (by simp) (⟨9⟩ : Rng) rfl
  obtain ⟨outs, ho, -⟩ := C03_voprf_batch_correct wf _ (.newWithKey _ _ hs) [[1, 2, 3], [4]] [b1, b2]
    (.cons ⟨_, _, _, _, hb1⟩ (.cons ⟨_, _, _, _, hb2⟩ .nil)) _ _ r hr
  have hc : ∀ c ∈ [b1, b2].map (·.state), c.blind ≠ 0 := by
    obtain ⟨_, _, _, h1, _, rfl⟩ := VoprfClient.blindInput_ok wf hb1
    obtain ⟨_, _, _, h2, _, rfl⟩ := VoprfClient.blindInput_ok wf hb2
    simp [h1, h2]
  obtain ⟨o', ho', hl⟩ := C15_voprf_truncates wf _ [] _ hc _ _ _ _ ho
  have : o' = [] := by simpa using hl
  subst this
  exact ⟨_, _, _, _, outs, hc, rfl, ho, ho'⟩

end examples

/-! ## C16 -/

/-- C16, VOPRF: (1) the i-th message of a batch is the message a single evaluation of the i-th element
returns, whatever generators are used; (2) the allocating call is prepare followed by finish; (3) the
single call is the batch call on one element. -/
theorem C16_voprf_elementwise (wf : CS.WF) (s : VoprfServer CS) {σ : Type} [RngCore σ] (rng : σ)
    (bs : List (BlindedElement CS)) :
    (∀ r rng', s.batchBlindEvaluate rng bs = .ok (r, rng') → r.messages.length = bs.length ∧
      ∀ (i : Nat) (b : BlindedElement CS) {σ' : Type} [RngCore σ'] (g g' : σ')
        (r1 : VoprfServerEvaluateResult CS), bs[i]? = some b →
        s.blindEvaluate g b = .ok (r1, g') → r.messages[i]? = some r1.message) ∧
    (s.batchBlindEvaluate rng bs =
      s.batchBlindEvaluateFinish rng bs (s.batchBlindEvaluatePrepare bs)) ∧
    (∀ b r rng', s.blindEvaluate rng b = .ok (r, rng') ↔
      s.batchBlindEvaluate rng [b] = .ok (⟨[r.message], r.proof⟩, rng')) := by
  refine ⟨?_, ?_, ?_⟩
  · intro r rng' h
    rw [VoprfServer.batch_eq, Res.bind_eq_ok] at h
    obtain ⟨⟨p, _⟩, -, h⟩ := h
    simp only [Res.ok.injEq, Prod.mk.injEq] at h
    obtain ⟨rfl, -⟩ := h
    refine ⟨by simp, ?_⟩
    intro i b σ' _ g g' r1 hi h1
    rw [VoprfServer.blindEvaluate_eq wf, Res.bind_eq_ok] at h1
    obtain ⟨⟨p1, _⟩, -, h1⟩ := h1
    simp only [Res.ok.injEq, Prod.mk.injEq] at h1
    obtain ⟨rfl, -⟩ := h1
    simp [hi]
  · rw [VoprfServer.batch_eq, VoprfServer.finish_eq, VoprfServer.prepare_eq]
    simp [Function.comp_def]
  · intro b r rng'
    rw [VoprfServer.batch_eq, VoprfServer.blindEvaluate_eq wf]
    simp only [List.map_cons, List.map_nil]
    cases generateProof CS rng s.sk CS.group.baseElem s.pk [b.value] [s.sk • b.value] .Voprf with
    | ok p =>
      obtain ⟨p, g⟩ := p
      obtain ⟨rm, rp⟩ := r
      simp
    | err e => simp
    | panic => simp
    | diverge => simp

/-- C16, POPRF: the same; (2) the allocating call is prepare, collecting the prepared elements, and
finish with its error unwrapped. -/
theorem C16_poprf_elementwise (wf : CS.WF) (s : PoprfServer CS) {σ : Type} [RngCore σ] (rng : σ)
    (bs : List (BlindedElement CS)) (info : Option Bytes) :
    (∀ r rng', s.batchBlindEvaluate rng bs info = .ok (r, rng') → r.messages.length = bs.length ∧
      ∀ (i : Nat) (b : BlindedElement CS) {σ' : Type} [RngCore σ'] (g g' : σ')
        (r1 : PoprfServerEvaluateResult CS), bs[i]? = some b →
        s.blindEvaluate g b info = .ok (r1, g') → r.messages[i]? = some r1.message) ∧
    (∀ prep (ps : List (PreparedEvaluationElement CS)), s.batchBlindEvaluatePrepare bs info = .ok prep →
      prep.preparedEvaluationElements = ps.map Res.ok →
      ∀ r, s.batchBlindEvaluate rng bs info = .ok r ↔
        PoprfServer.batchBlindEvaluateFinish rng bs ps prep.preparedTweak = .ok r) ∧
    (∀ b r rng', s.blindEvaluate rng b info = .ok (r, rng') ↔
      s.batchBlindEvaluate rng [b] info = .ok (⟨[r.message], r.proof⟩, rng')) := by
  refine ⟨?_, ?_, ?_⟩
  · intro r rng' h
    rw [PoprfServer.batch_eq wf, Res.bind_eq_ok] at h
    obtain ⟨t, ht, h⟩ := h
    rw [Res.bind_eq_ok] at h
    obtain ⟨⟨p, _⟩, -, h⟩ := h
    simp only [Res.ok.injEq, Prod.mk.injEq] at h
    obtain ⟨rfl, -⟩ := h
    refine ⟨by simp, ?_⟩
    intro i b σ' _ g g' r1 hi h1
    rw [PoprfServer.blindEvaluate_eq wf, ht, Res.ok_bind, Res.bind_eq_ok] at h1
    obtain ⟨⟨p1, _⟩, -, h1⟩ := h1
    simp only [Res.ok.injEq, Prod.mk.injEq] at h1
    obtain ⟨rfl, -⟩ := h1
    simp [hi]
  · intro prep ps hp hps r
    unfold PoprfServer.batchBlindEvaluate
    rw [hp]
    simp only [Res.ok_bind, hps]
    rw [show List.map Res.ok ps = ps.map (fun a => (Res.ok (id a) : Res _)) from rfl,
      Res.collect_map_ok]
    simp only [Res.ok_bind, List.map_id]
    cases PoprfServer.batchBlindEvaluateFinish rng bs ps prep.preparedTweak <;> simp
  · intro b r rng'
    rw [PoprfServer.batch_eq wf, PoprfServer.blindEvaluate_eq wf]
    cases Poprf.computeTweak CS s.sk info with
    | ok t =>
      simp only [Res.ok_bind, List.map_cons, List.map_nil]
      cases generateProof CS rng t CS.group.baseElem (t • CS.group.baseElem) [t⁻¹ • b.value]
        [b.value] .Poprf with
      | ok p =>
        obtain ⟨p, g⟩ := p
        obtain ⟨rm, rp⟩ := r
        simp
      | err e => simp
      | panic => simp
      | diverge => simp
    | err e => simp
    | panic => simp
    | diverge => simp

/-- The prepared elements of a POPRF batch are all available (no lazy panic), as assumed in (2). -/
theorem C16_poprf_prepared (wf : CS.WF) (s : PoprfServer CS) (bs : List (BlindedElement CS))
    (info : Option Bytes) (prep : PoprfServerBatchEvaluatePrepareResult CS)
    (h : s.batchBlindEvaluatePrepare bs info = .ok prep) :
    ∃ ps : List (PreparedEvaluationElement CS), prep.preparedEvaluationElements = ps.map Res.ok ∧ ps.length = bs.length := by
  rw [PoprfServer.prepare_eq wf, Res.bind_eq_ok] at h
  obtain ⟨t, -, h⟩ := h
  simp only [Res.ok.injEq] at h
  subst h
  exact ⟨bs.map fun b => ⟨⟨t⁻¹ • b.value⟩⟩, by simp, by simp⟩

section examples
open Toy

/-- Single and batch evaluations succeed on the toy suite, so C16 speaks about actual values. -/
example : ((⟨7, 7⟩ : PoprfServer suite).batchBlindEvaluate (⟨9⟩ : Rng) [⟨3⟩, ⟨4⟩] none).isOk = true ∧
    ((⟨7, 7⟩ : PoprfServer suite).blindEvaluate (⟨1⟩ : Rng) ⟨4⟩ none).isOk = true ∧
    ((⟨7, 7⟩ : VoprfServer suite).batchBlindEvaluate (⟨9⟩ : Rng) [⟨3⟩, ⟨4⟩]).isOk = true ∧
    ((⟨7, 7⟩ : VoprfServer suite).blindEvaluate (⟨1⟩ : Rng) ⟨4⟩).isOk = true := by
  decide +kernel

end examples

end Voprf
