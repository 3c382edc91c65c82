import Verif.Props.Keys
import Verif.Props.Soundness
import Verif.Props.Serialization

/-!
# C30–C32: refusals and panics
-/

namespace Voprf

open Spec

variable {CS : CipherSuite} [L : CS.group.Lawful]

theorem OprfClient.Obtained.blind_ne_zero (wf : CS.WF) {c : OprfClient CS} (h : c.Obtained) :
    c.blind ≠ 0 := by
  rcases h with ⟨input, b, ⟨σ, _, rng, rng', hb⟩, rfl⟩ | ⟨bytes, h⟩
  · obtain ⟨r, P, -, hr, -, rfl⟩ := OprfClient.blindInput_ok wf hb
    exact hr
  · exact C20_valid.oprfClient bytes c h

theorem VoprfClient.Obtained.blind_ne_zero (wf : CS.WF) {c : VoprfClient CS} (h : c.Obtained) :
    c.blind ≠ 0 := by
  rcases h with ⟨input, b, ⟨σ, _, rng, rng', hb⟩, rfl⟩ | ⟨bytes, h⟩
  · obtain ⟨r, P, -, hr, -, rfl⟩ := VoprfClient.blindInput_ok wf hb
    exact hr
  · exact (C20_valid.voprfClient bytes c h).1

theorem PoprfClient.Obtained.blind_ne_zero (wf : CS.WF) {c : PoprfClient CS} (h : c.Obtained) :
    c.blind ≠ 0 := by
  rcases h with ⟨input, b, ⟨σ, _, rng, rng', hb⟩, rfl⟩ | ⟨bytes, h⟩
  · obtain ⟨r, P, -, hr, -, rfl⟩ := PoprfClient.blindInput_ok wf hb
    exact hr
  · exact (C20_valid.poprfClient bytes c h).1

/-! ## C30 -/

/-- C30, base mode: `finalize` on a client state obtained through the API succeeds for inputs of at most
65535 bytes, whatever the server sent, and is `Error::Input` for longer ones. -/
theorem C30_oprf_finalize (wf : CS.WF) (c : OprfClient CS) (hc : c.Obtained) (input : Bytes)
    (e : EvaluationElement CS) :
    (input.length ≤ 65535 → ∃ out, c.finalize input e = .ok out) ∧
    (65535 < input.length → c.finalize input e = .err .Input) := by
  rw [OprfClient.finalize_eq c (hc.blind_ne_zero wf)]
  constructor <;> intro h
  · exact ⟨_, if_pos h⟩
  · exact if_neg (by omega)

/-- C30, verifiable mode: once the proof verifies, `finalize` succeeds exactly for inputs of at most 65535
bytes, and a longer input is `Error::Input`. -/
theorem C30_voprf_finalize (wf : CS.WF) (c : VoprfClient CS) (hc : c.Obtained) (input : Bytes)
    (e : EvaluationElement CS) (proof : Proof CS) (pk : CS.Elem)
    (hp : Accepted CS .Voprf pk [c.blindedElement] [e.value] proof.cScalar proof.sScalar) :
    (input.length ≤ 65535 → ∃ out, c.finalize input e proof pk = .ok out) ∧
    (65535 < input.length → c.finalize input e proof pk = .err .Input) := by
  have hv := (verifyProof_iff wf pk [c.blindedElement] [e.value] proof .Voprf rfl (by simp)).1.mpr hp
  rw [VoprfClient.finalize_eq c (hc.blind_ne_zero wf), hv]
  constructor <;> intro h
  · exact ⟨_, if_pos h⟩
  · exact if_neg (by omega)

/-- C30, verifiable batch: an over-long input fails alone with `Error::Input`; the other results are
outputs. -/
theorem C30_voprf_batch (wf : CS.WF) (inputs : List Bytes) (clients : List (VoprfClient CS))
    (hc : ∀ c ∈ clients, c.Obtained) (messages : List (EvaluationElement CS)) (proof : Proof CS)
    (pk : CS.Elem) (outs : List (Res Bytes))
    (h : VoprfClient.batchFinalize inputs clients messages proof pk = .ok outs)
    (i : Nat) (input : Bytes) (hi : inputs[i]? = some input) (r : Res Bytes) (hr : outs[i]? = some r) :
    (input.length ≤ 65535 → ∃ out, r = .ok out) ∧ (65535 < input.length → r = .err .Input) := by
  rw [VoprfClient.batchFinalize_eq _ _ (fun c h => (hc c h).blind_ne_zero wf), Res.bind_eq_ok] at h
  obtain ⟨_, -, h⟩ := h
  simp only [Res.ok.injEq] at h
  subst h
  rw [List.getElem?_map, Option.map_eq_some_iff] at hr
  obtain ⟨⟨x, c, m⟩, hz, rfl⟩ := hr
  rw [List.getElem?_zip_eq_some] at hz
  obtain ⟨hz, -⟩ := hz
  simp only at hz
  rw [hi] at hz
  cases Option.some.inj hz
  constructor <;> intro h
  · exact ⟨_, if_pos h⟩
  · exact if_neg (Nat.not_le.mpr h)

/-- C30, partially oblivious mode: once the info is usable and the proof verifies, `finalize` succeeds
exactly for inputs of at most 65535 bytes. -/
theorem C30_poprf_finalize (wf : CS.WF) (c : PoprfClient CS) (hc : c.Obtained) (input : Bytes)
    (e : EvaluationElement CS) (proof : Proof CS) (pk : CS.Elem) (info : Option Bytes) (m : CS.Scalar)
    (hil : (info.getD []).length ≤ 65535)
    (hm : Spec.hashToScalar CS .Poprf (infoInput (info.getD [])) = .ok m)
    (htk : m • CS.group.baseElem + pk ≠ 0)
    (hp : Accepted CS .Poprf (m • CS.group.baseElem + pk) [e.value] [c.blindedElement]
      proof.cScalar proof.sScalar) :
    (input.length ≤ 65535 → ∃ out, c.finalize input e proof pk info = .ok out) ∧
    (65535 < input.length → c.finalize input e proof pk info = .err .Input) := by
  have hv := (verifyProof_iff wf (m • CS.group.baseElem + pk) [e.value] [c.blindedElement] proof
    .Poprf rfl (by simp)).1.mpr hp
  rw [PoprfClient.finalize_eq wf c (hc.blind_ne_zero wf), computeTweakedKey_eq wf, if_pos hil, hm]
  simp only
  rw [if_neg (by rw [isIdentityElem_iff]; exact htk)]
  simp only [Res.ok_bind, hv]
  constructor <;> intro h
  · refine ⟨_, (if_pos h).trans (if_pos hil)⟩
  · exact if_neg (by omega)

/-- C30, partially oblivious batch: an over-long input fails alone with `Error::Input`. -/
theorem C30_poprf_batch (wf : CS.WF) (inputs : List Bytes) (clients : List (PoprfClient CS))
    (hc : ∀ c ∈ clients, c.Obtained) (messages : List (EvaluationElement CS)) (proof : Proof CS)
    (pk : CS.Elem) (info : Option Bytes) (outs : List (Res Bytes))
    (h : PoprfClient.batchFinalize inputs clients messages proof pk info = .ok outs)
    (i : Nat) (input : Bytes) (hi : inputs[i]? = some input) (r : Res Bytes) (hr : outs[i]? = some r) :
    (input.length ≤ 65535 → ∃ out, r = .ok out) ∧ (65535 < input.length → r = .err .Input) := by
  rw [PoprfClient.batchFinalize_eq wf _ _ (fun c h => (hc c h).blind_ne_zero wf), Res.bind_eq_ok] at h
  obtain ⟨tk, htk, h⟩ := h
  have hil : (info.getD []).length ≤ 65535 := by
    rw [computeTweakedKey_eq wf] at htk
    by_contra hn
    rw [if_neg hn] at htk
    simp at htk
  rw [Res.bind_eq_ok] at h
  obtain ⟨_, -, h⟩ := h
  split at h
  · simp only [Res.ok.injEq] at h
    subst h
    rw [List.getElem?_map, Option.map_eq_some_iff] at hr
    obtain ⟨⟨x, y⟩, hz, rfl⟩ := hr
    rw [List.getElem?_zip_eq_some] at hz
    obtain ⟨-, hz⟩ := hz
    simp only at hz
    rw [hi] at hz
    cases Option.some.inj hz
    constructor <;> intro h
    · exact ⟨_, (if_pos h).trans (if_pos hil)⟩
    · exact if_neg (Nat.not_le.mpr h)
  · simp at h

/-- C30, direct evaluation: an over-long input is `Error::Input` in all three modes (in POPRF mode unless
the info is already unusable). -/
theorem C30_evaluate (wf : CS.WF) (so : OprfServer CS) (sv : VoprfServer CS) (input : Bytes)
    (h : 65535 < input.length) :
    so.evaluate input = .err .Input ∧ sv.evaluate input = .err .Input ∧
    ∀ (sp : PoprfServer CS) (info : Option Bytes) (t : CS.Scalar),
      Poprf.computeTweak CS sp.sk info = .ok t → sp.evaluate input info = .err .Input := by
  have hn : ¬ input.length ≤ 65535 := by omega
  refine ⟨?_, ?_, ?_⟩
  · rw [OprfServer.evaluate_eq wf]
    simp only [if_neg hn]
    split
    · rfl
    · split <;> rfl
  · rw [VoprfServer.evaluate_eq wf]
    simp only [if_neg hn]
    split
    · rfl
    · split <;> rfl
  · intro sp info t ht
    rw [PoprfServer.evaluate_eq wf]
    split
    · rfl
    · split
      · rfl
      · rw [ht]
        simp only [Res.ok_bind]

/-- C30, info: every POPRF call given an info longer than 65535 bytes returns `Error::Info`, whatever its
other arguments (wrong proof, mismatched batch, …); `evaluate` does so for every input it would otherwise
hash. -/
theorem C30_info_too_long (wf : CS.WF) (info : Bytes) (h : 65535 < info.length) :
    (∀ (s : PoprfServer CS) {σ : Type} [RngCore σ] (rng : σ) (b : BlindedElement CS),
      s.blindEvaluate rng b (some info) = .err .Info) ∧
    (∀ (s : PoprfServer CS) {σ : Type} [RngCore σ] (rng : σ) (bs : List (BlindedElement CS)),
      s.batchBlindEvaluate rng bs (some info) = .err .Info) ∧
    (∀ (s : PoprfServer CS) (bs : List (BlindedElement CS)),
      s.batchBlindEvaluatePrepare bs (some info) = .err .Info) ∧
    (∀ (s : PoprfServer CS) (input : Bytes) (P : CS.Elem),
      Spec.hashToGroup CS .Poprf input = .ok P → P ≠ 0 →
      s.evaluate input (some info) = .err .Info) ∧
    (∀ (c : PoprfClient CS) (input : Bytes) (e : EvaluationElement CS) (proof : Proof CS) (pk : CS.Elem),
      c.finalize input e proof pk (some info) = .err .Info) ∧
    (∀ (inputs : List Bytes) (cs : List (PoprfClient CS)) (es : List (EvaluationElement CS))
      (proof : Proof CS) (pk : CS.Elem),
      PoprfClient.batchFinalize inputs cs es proof pk (some info) = .err .Info) := by
  have hn : ¬ ((some info).getD ([] : Bytes)).length ≤ 65535 := by simp; omega
  have ht : ∀ sk : CS.Scalar, Poprf.computeTweak CS sk (some info) = .err .Info := by
    intro sk; rw [computeTweak_eq wf, if_neg hn]
  have htk : ∀ pk : CS.Elem, Poprf.computeTweakedKey CS pk (some info) = .err .Info := by
    intro pk; rw [computeTweakedKey_eq wf, if_neg hn]
  have hb : ∀ (inputs : List Bytes) (cs : List (PoprfClient CS)) (es : List (EvaluationElement CS))
      (proof : Proof CS) (pk : CS.Elem),
      PoprfClient.batchFinalize inputs cs es proof pk (some info) = .err .Info := by
    intro inputs cs es proof pk
    unfold PoprfClient.batchFinalize Poprf.poprfUnblind
    have := htk pk
    simp only [Option.getD_some]
    rw [this]; rfl
  refine ⟨?_, ?_, ?_, ?_, ?_, hb⟩
  · intro s σ _ rng b; rw [PoprfServer.blindEvaluate_eq wf, ht]; rfl
  · intro s σ _ rng bs; rw [PoprfServer.batch_eq wf, ht]; rfl
  · intro s bs; rw [PoprfServer.prepare_eq wf, ht]; rfl
  · intro s input P hP h0
    rw [PoprfServer.evaluate_eq wf, hP]
    simp only
    rw [if_neg (by rw [isIdentityElem_iff]; exact h0), ht]; rfl
  · intro c input e proof pk
    unfold PoprfClient.finalize
    rw [hb]; rfl

section examples
open Toy

theorem Toy.obtained_voprf : (⟨3, 5⟩ : VoprfClient suite).Obtained := .inr ⟨[3, 5], by rfl⟩

/-- An accepted proof for an obtained client state: the hypotheses of the C30 theorems are met. -/
example : ∃ (proof : Proof suite) (e : EvaluationElement suite),
    Accepted suite .Voprf (7 : F) [(⟨3, 5⟩ : VoprfClient suite).blindedElement] [e.value]
      proof.cScalar proof.sScalar := by
  obtain ⟨out, h⟩ := Res.exists_of_isOk (x := do
    let r ← (⟨7, 7⟩ : VoprfServer suite).blindEvaluate (⟨9⟩ : Rng) ⟨5⟩
    (⟨3, 5⟩ : VoprfClient suite).finalize [1, 2] r.1.message r.1.proof (7 : F)) (by decide +kernel)
  rw [Res.bind_eq_ok] at h
  obtain ⟨r, -, h⟩ := h
  exact ⟨r.1.proof, r.1.message, (C09_voprf_single wf _ _ _ _ _).1 _ h⟩

end examples

/-! ## C31 -/

/-- C31: `blind` is `Error::Input` exactly if the group's hash-to-curve refuses the input, and that is its
only error; when the hash accepts it (and the generator yields a scalar) it succeeds. No length or identity
check is made. -/
theorem C31_blind (wf : CS.WF) {σ : Type} [RngCore σ] (input : Bytes) (rng rng' : σ) (r : CS.Scalar)
    (hr : CS.group.randomScalar rng = some (r, rng')) :
    ((OprfClient.blindInput CS input rng = .err .Input ↔
        ∃ e, Spec.hashToGroup CS .Oprf input = .error e) ∧
      ((∃ P, Spec.hashToGroup CS .Oprf input = .ok P) → ∃ b, OprfClient.blindInput CS input rng = .ok (b, rng'))) ∧
    ((VoprfClient.blindInput CS input rng = .err .Input ↔
        ∃ e, Spec.hashToGroup CS .Voprf input = .error e) ∧
      ((∃ P, Spec.hashToGroup CS .Voprf input = .ok P) → ∃ b, VoprfClient.blindInput CS input rng = .ok (b, rng'))) ∧
    ((PoprfClient.blindInput CS input rng = .err .Input ↔
        ∃ e, Spec.hashToGroup CS .Poprf input = .error e) ∧
      ((∃ P, Spec.hashToGroup CS .Poprf input = .ok P) → ∃ b, PoprfClient.blindInput CS input rng = .ok (b, rng'))) := by
  rw [OprfClient.blindInput_eq wf, VoprfClient.blindInput_eq wf, PoprfClient.blindInput_eq wf, hr]
  simp only
  refine ⟨?_, ?_, ?_⟩
  · cases Spec.hashToGroup CS .Oprf input <;> simp
  · cases Spec.hashToGroup CS .Voprf input <;> simp
  · cases Spec.hashToGroup CS .Poprf input <;> simp

/-- C31 for a group whose hash accepts everything (both shipped groups): `blind` never fails, in particular
not for the empty input, an input longer than 65535 bytes (which `finalize` then refuses, C30) or an input
hashing to the identity (which `evaluate` refuses). -/
theorem C31_blind_total (wf : CS.WF) (th : CS.group.TotalHash) {σ : Type} [RngCore σ] (input : Bytes)
    (rng rng' : σ) (r : CS.Scalar) (hr : CS.group.randomScalar rng = some (r, rng')) :
    (∃ b, OprfClient.blindInput CS input rng = .ok (b, rng')) ∧
    (∃ b, VoprfClient.blindInput CS input rng = .ok (b, rng')) ∧
    (∃ b, PoprfClient.blindInput CS input rng = .ok (b, rng')) := by
  have h : ∀ m, ∃ P, Spec.hashToGroup CS m input = .ok P := fun m =>
    th.hashToCurve_ok _ _ _ (by simp [ascii_len_h2g]; omega)
  obtain ⟨⟨-, h1⟩, ⟨-, h2⟩, ⟨-, h3⟩⟩ := C31_blind wf input rng rng' r hr
  exact ⟨h1 (h _), h2 (h _), h3 (h _)⟩

/-- C31: the identity check is made by `evaluate`. -/
theorem C31_evaluate_identity (wf : CS.WF) (so : OprfServer CS) (sv : VoprfServer CS)
    (sp : PoprfServer CS) (input : Bytes) (info : Option Bytes) :
    (Spec.hashToGroup CS .Oprf input = .ok 0 → so.evaluate input = .err .Input) ∧
    (Spec.hashToGroup CS .Voprf input = .ok 0 → sv.evaluate input = .err .Input) ∧
    (Spec.hashToGroup CS .Poprf input = .ok 0 → sp.evaluate input info = .err .Input) := by
  have h0 : CS.group.isIdentityElem (0 : CS.Elem) = true := (isIdentityElem_iff 0).mpr rfl
  refine ⟨fun h => ?_, fun h => ?_, fun h => ?_⟩
  · rw [OprfServer.evaluate_eq wf, h]; simp only; rw [if_pos h0]
  · rw [VoprfServer.evaluate_eq wf, h]; simp only; rw [if_pos h0]
  · rw [PoprfServer.evaluate_eq wf, h]; simp only; rw [if_pos h0]

section examples
open Toy

/-- The empty input and one of 65536 bytes are blinded, although the documentation of `blind` announces
`Error::Input`. -/
example : (∃ b, OprfClient.blindInput suite [] (⟨3⟩ : Rng) = .ok (b, ⟨4⟩)) ∧
    (∃ b, OprfClient.blindInput suite (List.replicate 65536 1) (⟨3⟩ : Rng) = .ok (b, ⟨4⟩)) :=
  ⟨(C31_blind_total wf totalHash [] _ _ _ rfl).1, (C31_blind_total wf totalHash _ _ _ _ rfl).1⟩

end examples

/-! ## C32 -/

/-- The info hash cannot refuse: either the group's hash accepts everything, or the framed info (4 + 2 +
length bytes) stays within the documented limit, or the info is refused for its length first. -/
def InfoHashable (CS : CipherSuite) (info : Option Bytes) : Prop :=
  CS.group.TotalHash ∨ (info.getD []).length + 6 ≤ 65535 ∨ 65535 < (info.getD []).length

omit L in
theorem infoHash_ok [CS.group.Lawful] {info : Option Bytes} (h : InfoHashable CS info)
    (hl : (info.getD []).length ≤ 65535) :
    ∃ m, Spec.hashToScalar CS .Poprf (infoInput (info.getD [])) = .ok m := by
  rcases h with th | h | h
  · exact th.hashToScalar_ok _ _ _ (by simp [ascii_len_h2s]; omega)
  · exact VGroup.Lawful.hashToScalar_ok _ _ _ (by simp [infoInput, ascii_len_info]; omega)
      (by simp [infoInput, ascii_len_info]; omega) (by simp [ascii_len_h2s]; omega)
  · omega

theorem computeTweak_ne_panic (wf : CS.WF) {info : Option Bytes} (h : InfoHashable CS info)
    (sk : CS.Scalar) : Poprf.computeTweak CS sk info ≠ .panic := by
  rw [computeTweak_eq wf]
  split
  · next hl =>
    obtain ⟨m, hm⟩ := infoHash_ok h hl
    rw [hm]; simp only; split <;> simp
  · simp

theorem computeTweakedKey_ne_panic (wf : CS.WF) {info : Option Bytes} (h : InfoHashable CS info)
    (pk : CS.Elem) : Poprf.computeTweakedKey CS pk info ≠ .panic := by
  rw [computeTweakedKey_eq wf]
  split
  · next hl =>
    obtain ⟨m, hm⟩ := infoHash_ok h hl
    rw [hm]; simp only; split <;> simp
  · simp

theorem Res.bind_ne_panic {α β : Type} {x : Res α} {f : α → Res β} (hx : x ≠ .panic)
    (hf : ∀ a, x = .ok a → f a ≠ .panic) : (x >>= f) ≠ .panic := by
  cases x with
  | ok a => exact hf a rfl
  | err e => simp
  | panic => exact absurd rfl hx
  | diverge => simp

theorem generateProof_ne_panic (wf : CS.WF) {σ : Type} [RngCore σ] (rng : σ) (k : CS.Scalar)
    (A B : CS.Elem) (Cs Ds : List CS.Elem) (mode : Mode) :
    generateProof CS rng k A B Cs Ds mode ≠ .panic := by
  rcases generateProof_cases wf rng k A B Cs Ds mode with ⟨-, h⟩ | ⟨-, -, -, h⟩ | ⟨-, -, _, _, _, _, h⟩
    <;> rw [h] <;> simp

theorem verifyProof_ne_panic (wf : CS.WF) (A B : CS.Elem) (Cs Ds : List CS.Elem) (proof : Proof CS)
    (mode : Mode) : verifyProof CS A B Cs Ds proof mode ≠ .panic := by
  rcases verifyProof_cases wf A B Cs Ds proof mode with ⟨-, h⟩ | ⟨-, -, h | h⟩ <;> rw [h] <;> simp

theorem deriveKeyInternal_ne_panic (wf : CS.WF) (seed info : Bytes) (mode : Mode) :
    deriveKeyInternal CS seed info mode ≠ .panic := by
  by_cases hi : info.length ≤ 65535
  · rw [deriveKeyInternal_of_le wf _ _ _ hi]
    intro h
    rw [deriveKeyLoop_spec] at h
    rcases h with ⟨n, _, _, ⟨k', _, hk, he⟩ | ⟨_, _, he⟩⟩ | ⟨_, he⟩ <;> simp at he
  · rw [deriveKeyInternal_of_gt wf _ _ _ (by omega)]; simp

theorem deriveKeypair_ne_panic (wf : CS.WF) (seed info : Bytes) (mode : Mode) :
    deriveKeypair CS seed info mode ≠ .panic :=
  Res.bind_ne_panic (deriveKeyInternal_ne_panic wf seed info mode) (by simp)

omit L in
theorem Res.ofExcept_ne_panic {α : Type} (x : Except Error α) : Res.ofExcept x ≠ .panic := by
  cases x <;> simp

theorem hashToGroup_ne_panic (wf : CS.WF) (input : Bytes) (mode : Mode) :
    Voprf.hashToGroup CS input mode ≠ .panic := by
  rw [hashToGroup_eq wf]
  cases Spec.hashToGroup CS mode input <;> simp

/-- C32, base mode: no call panics, for all arguments; the client state given to `finalize` must have been
obtained through the API. (`blind_evaluate` cannot fail at all.) -/
theorem C32_oprf (wf : CS.WF) :
    (∀ {σ : Type} [RngCore σ] (input : Bytes) (rng : σ), OprfClient.blindInput CS input rng ≠ .panic) ∧
    (∀ (c : OprfClient CS), c.Obtained → ∀ (input : Bytes) (e : EvaluationElement CS),
      c.finalize input e ≠ .panic) ∧
    (∀ {σ : Type} [RngCore σ] (rng : σ), OprfServer.new CS rng ≠ .panic) ∧
    (∀ key : Bytes, OprfServer.newWithKey CS key ≠ .panic) ∧
    (∀ seed info : Bytes, OprfServer.newFromSeed CS seed info ≠ .panic) ∧
    (∀ (s : OprfServer CS) (input : Bytes), s.evaluate input ≠ .panic) := by
  have seedCase : ∀ seed info : Bytes, OprfServer.newFromSeed CS seed info ≠ .panic := fun seed info =>
    Res.bind_ne_panic (deriveKeyInternal_ne_panic wf seed info _) (by simp)
  refine ⟨?_, ?_, ?_, ?_, seedCase, ?_⟩
  · intro σ _ input rng
    rw [OprfClient.blindInput_eq wf]
    split
    · simp
    · split <;> simp
  · intro c hc input e
    rw [OprfClient.finalize_eq c (hc.blind_ne_zero wf)]
    split <;> simp
  · intro σ _ rng; exact Res.bind_ne_panic (seedCase _ _) (by simp)
  · intro key; exact Res.bind_ne_panic (Res.ofExcept_ne_panic _) (by simp)
  · intro s input
    rw [OprfServer.evaluate_eq wf]
    split
    · simp
    · split
      · simp
      · split <;> simp

/-- C32, verifiable mode: no call panics, and no item of a finalized batch does. -/
theorem C32_voprf (wf : CS.WF) :
    (∀ {σ : Type} [RngCore σ] (input : Bytes) (rng : σ), VoprfClient.blindInput CS input rng ≠ .panic) ∧
    (∀ (c : VoprfClient CS), c.Obtained → ∀ (input : Bytes) (e : EvaluationElement CS)
      (proof : Proof CS) (pk : CS.Elem), c.finalize input e proof pk ≠ .panic) ∧
    (∀ (inputs : List Bytes) (cs : List (VoprfClient CS)), (∀ c ∈ cs, c.Obtained) →
      ∀ (es : List (EvaluationElement CS)) (proof : Proof CS) (pk : CS.Elem),
      VoprfClient.batchFinalize inputs cs es proof pk ≠ .panic ∧
      ∀ outs, VoprfClient.batchFinalize inputs cs es proof pk = .ok outs → ∀ r ∈ outs, r ≠ .panic) ∧
    (∀ {σ : Type} [RngCore σ] (rng : σ), VoprfServer.new CS rng ≠ .panic) ∧
    (∀ key : Bytes, VoprfServer.newWithKey CS key ≠ .panic) ∧
    (∀ seed info : Bytes, VoprfServer.newFromSeed CS seed info ≠ .panic) ∧
    (∀ {σ : Type} [RngCore σ] (s : VoprfServer CS) (rng : σ) (b : BlindedElement CS),
      s.blindEvaluate rng b ≠ .panic) ∧
    (∀ {σ : Type} [RngCore σ] (s : VoprfServer CS) (rng : σ) (bs : List (BlindedElement CS)),
      s.batchBlindEvaluate rng bs ≠ .panic) ∧
    (∀ {σ : Type} [RngCore σ] (s : VoprfServer CS) (rng : σ) (bs : List (BlindedElement CS))
      (ps : List (PreparedEvaluationElement CS)), s.batchBlindEvaluateFinish rng bs ps ≠ .panic) ∧
    (∀ (s : VoprfServer CS) (input : Bytes), s.evaluate input ≠ .panic) := by
  have seedCase : ∀ seed info : Bytes, VoprfServer.newFromSeed CS seed info ≠ .panic := fun seed info =>
    Res.bind_ne_panic (deriveKeypair_ne_panic wf seed info _) (by simp)
  refine ⟨?_, ?_, ?_, ?_, ?_, seedCase, ?_, ?_, ?_, ?_⟩
  · intro σ _ input rng
    rw [VoprfClient.blindInput_eq wf]
    split
    · simp
    · split <;> simp
  · intro c hc input e proof pk
    rw [VoprfClient.finalize_eq c (hc.blind_ne_zero wf)]
    refine Res.bind_ne_panic (verifyProof_ne_panic wf _ _ _ _ _ _) fun _ _ => ?_
    unfold itemResult; split <;> simp
  · intro inputs cs hc es proof pk
    rw [VoprfClient.batchFinalize_eq _ _ (fun c h => (hc c h).blind_ne_zero wf)]
    refine ⟨Res.bind_ne_panic (verifyProof_ne_panic wf _ _ _ _ _ _) (by simp), ?_⟩
    intro outs h r hr
    rw [Res.bind_eq_ok] at h
    obtain ⟨_, -, h⟩ := h
    cases Res.ok.inj h
    obtain ⟨p, -, rfl⟩ := List.mem_map.mp hr
    unfold itemResult; split <;> simp
  · intro σ _ rng; exact Res.bind_ne_panic (seedCase _ _) (by simp)
  · intro key; exact Res.bind_ne_panic (Res.ofExcept_ne_panic _) (by simp)
  · intro σ _ s rng b
    rw [VoprfServer.blindEvaluate_eq wf]
    exact Res.bind_ne_panic (generateProof_ne_panic wf _ _ _ _ _ _ _) (by simp)
  · intro σ _ s rng bs
    rw [VoprfServer.batch_eq]
    exact Res.bind_ne_panic (generateProof_ne_panic wf _ _ _ _ _ _ _) (by simp)
  · intro σ _ s rng bs ps
    rw [VoprfServer.finish_eq]
    exact Res.bind_ne_panic (generateProof_ne_panic wf _ _ _ _ _ _ _) (by simp)
  · intro s input
    rw [VoprfServer.evaluate_eq wf]
    split
    · simp
    · split
      · simp
      · split <;> simp

/-- C32, partially oblivious mode: no call panics (given an info whose hash cannot refuse), except
`batch_blind_evaluate` on more than 65535 items, see C14. -/
theorem C32_poprf (wf : CS.WF) (info : Option Bytes) (hi : InfoHashable CS info) :
    (∀ {σ : Type} [RngCore σ] (input : Bytes) (rng : σ), PoprfClient.blindInput CS input rng ≠ .panic) ∧
    (∀ (c : PoprfClient CS), c.Obtained → ∀ (input : Bytes) (e : EvaluationElement CS)
      (proof : Proof CS) (pk : CS.Elem), c.finalize input e proof pk info ≠ .panic) ∧
    (∀ (inputs : List Bytes) (cs : List (PoprfClient CS)), (∀ c ∈ cs, c.Obtained) →
      ∀ (es : List (EvaluationElement CS)) (proof : Proof CS) (pk : CS.Elem),
      PoprfClient.batchFinalize inputs cs es proof pk info ≠ .panic ∧
      ∀ outs, PoprfClient.batchFinalize inputs cs es proof pk info = .ok outs →
        ∀ r ∈ outs, r ≠ .panic) ∧
    (∀ {σ : Type} [RngCore σ] (rng : σ), PoprfServer.new CS rng ≠ .panic) ∧
    (∀ key : Bytes, PoprfServer.newWithKey CS key ≠ .panic) ∧
    (∀ seed kinfo : Bytes, PoprfServer.newFromSeed CS seed kinfo ≠ .panic) ∧
    (∀ {σ : Type} [RngCore σ] (s : PoprfServer CS) (rng : σ) (b : BlindedElement CS),
      s.blindEvaluate rng b info ≠ .panic) ∧
    (∀ {σ : Type} [RngCore σ] (s : PoprfServer CS) (rng : σ) (bs : List (BlindedElement CS)),
      bs.length ≤ 65535 → s.batchBlindEvaluate rng bs info ≠ .panic) ∧
    (∀ (s : PoprfServer CS) (bs : List (BlindedElement CS)),
      s.batchBlindEvaluatePrepare bs info ≠ .panic ∧
      ∀ prep, s.batchBlindEvaluatePrepare bs info = .ok prep →
        ∀ r ∈ prep.preparedEvaluationElements, r ≠ .panic) ∧
    (∀ {σ : Type} [RngCore σ] (rng : σ) (bs : List (BlindedElement CS))
      (ps : List (PreparedEvaluationElement CS)) (t : PoprfPreparedTweak CS),
      PoprfServer.batchBlindEvaluateFinish rng bs ps t ≠ .panic) ∧
    (∀ (s : PoprfServer CS) (input : Bytes), s.evaluate input info ≠ .panic) := by
  have seedCase : ∀ seed info : Bytes, PoprfServer.newFromSeed CS seed info ≠ .panic := fun seed info =>
    Res.bind_ne_panic (deriveKeypair_ne_panic wf seed info _) (by simp)
  refine ⟨?_, ?_, ?_, ?_, ?_, seedCase, ?_, ?_, ?_, ?_, ?_⟩
  · intro σ _ input rng
    rw [PoprfClient.blindInput_eq wf]
    split
    · simp
    · split <;> simp
  · intro c hc input e proof pk
    rw [PoprfClient.finalize_eq wf c (hc.blind_ne_zero wf)]
    refine Res.bind_ne_panic (computeTweakedKey_ne_panic wf hi _) fun _ _ => ?_
    refine Res.bind_ne_panic (verifyProof_ne_panic wf _ _ _ _ _ _) fun _ _ => ?_
    unfold itemResultInfo; split
    · split <;> simp
    · simp
  · intro inputs cs hc es proof pk
    rw [PoprfClient.batchFinalize_eq wf _ _ (fun c h => (hc c h).blind_ne_zero wf)]
    constructor
    · refine Res.bind_ne_panic (computeTweakedKey_ne_panic wf hi _) fun _ _ => ?_
      refine Res.bind_ne_panic (verifyProof_ne_panic wf _ _ _ _ _ _) fun _ _ => ?_
      split <;> simp
    · intro outs h r hr
      rw [Res.bind_eq_ok] at h
      obtain ⟨_, -, h⟩ := h
      rw [Res.bind_eq_ok] at h
      obtain ⟨_, -, h⟩ := h
      split at h
      · cases Res.ok.inj h
        obtain ⟨p, -, rfl⟩ := List.mem_map.mp hr
        unfold itemResultInfo; split
        · split <;> simp
        · simp
      · simp at h
  · intro σ _ rng; exact Res.bind_ne_panic (seedCase _ _) (by simp)
  · intro key; exact Res.bind_ne_panic (Res.ofExcept_ne_panic _) (by simp)
  · intro σ _ s rng b
    rw [PoprfServer.blindEvaluate_eq wf]
    refine Res.bind_ne_panic (computeTweak_ne_panic wf hi _) fun _ _ => ?_
    exact Res.bind_ne_panic (generateProof_ne_panic wf _ _ _ _ _ _ _) (by simp)
  · intro σ _ s rng bs hn
    rw [PoprfServer.batch_eq wf]
    refine Res.bind_ne_panic (computeTweak_ne_panic wf hi _) fun t _ => ?_
    refine Res.bind_ne_panic ?_ (by simp)
    rcases generateProof_cases wf rng t CS.group.baseElem (t • CS.group.baseElem)
        (bs.map fun b => t⁻¹ • b.value) (bs.map (·.value)) .Poprf
      with ⟨h, -⟩ | ⟨-, -, -, h⟩ | ⟨-, -, _, _, _, _, h⟩
    · simp at h; omega
    · rw [h]; simp
    · rw [h]; simp
  · intro s bs
    rw [PoprfServer.prepare_eq wf]
    refine ⟨Res.bind_ne_panic (computeTweak_ne_panic wf hi _) (by simp), ?_⟩
    intro prep h r hr
    rw [Res.bind_eq_ok] at h
    obtain ⟨_, -, h⟩ := h
    cases Res.ok.inj h
    obtain ⟨p, -, rfl⟩ := List.mem_map.mp hr
    simp
  · intro σ _ rng bs ps t
    rw [PoprfServer.finish_eq]
    exact Res.bind_ne_panic (generateProof_ne_panic wf _ _ _ _ _ _ _) (by simp)
  · intro s input
    rw [PoprfServer.evaluate_eq wf]
    split
    · simp
    · split
      · simp
      · refine Res.bind_ne_panic (computeTweak_ne_panic wf hi _) fun _ _ => ?_
        split
        · split <;> (try split) <;> simp
        · simp

omit L in
/-- The identifier-length condition of `WF` is needed: with a longer identifier `blind` panics as soon as
the generator has delivered a scalar. -/
theorem C32_long_identifier_panics (h : 65535 < CS.ID.length + 21) {σ : Type} [RngCore σ] (input : Bytes)
    (rng rng' : σ) (r : CS.Scalar) (hr : CS.group.randomScalar rng = some (r, rng')) :
    OprfClient.blindInput CS input rng = .panic ∧ VoprfClient.blindInput CS input rng = .panic ∧
      PoprfClient.blindInput CS input rng = .panic := by
  have hd : ∀ m : Mode, Voprf.hashToGroup CS input m = .panic := by
    intro m
    unfold Voprf.hashToGroup Dst.new
    rw [if_neg]
    · rfl
    · simp [STR_HASH_TO_GROUP, STR_OPRF]; omega
  simp [OprfClient.blindInput, VoprfClient.blindInput, PoprfClient.blindInput, hr,
    OprfClient.deterministicBlindUncheckedInner, VoprfClient.deterministicBlindUncheckedInner,
    PoprfClient.deterministicBlindUncheckedInner, Voprf.deterministicBlindUnchecked, hd]

/-- The restriction to clients obtained through the safe API is needed: a zero blind (possible only through
the `danger` API) makes `finalize` panic whenever the group's inversion of zero panics. -/
theorem C32_zero_blind_panics (h : CS.group.invertScalar 0 = none) (input : Bytes)
    (e : EvaluationElement CS) : (⟨0⟩ : OprfClient CS).finalize input e = .panic := by
  unfold OprfClient.finalize
  rw [h]; rfl

section examples
open Toy

/-- `InfoHashable` covers every info for a group with total hashes, and short infos for every group. -/
example (info : Option Bytes) : InfoHashable suite info := .inl totalHash
example : InfoHashable suite (some [1, 2]) := .inr (.inl (by decide))
/-- Obtained clients exist. -/
example : (⟨3⟩ : OprfClient suite).Obtained := .inr ⟨[3], by rfl⟩
example : suite.group.invertScalar (0 : F) = none := by decide +kernel

end examples

end Voprf
