import Verif.Props.Transcripts
import Verif.Props.Errors

/-!
# C27 and C28 for the code: the strings that are actually hashed are injective encodings

Every statement names an encoding (a formula of `Spec/Transcript.lean`), says that it is injective, and that the code
hashes exactly that encoding.
-/

namespace Voprf

open Spec

variable {CS : CipherSuite} [L : CS.group.Lawful]

/-- C27: `⟨input⟩ ⟨element⟩ "Finalize"` and `⟨input⟩ ⟨info⟩ ⟨element⟩ "Finalize"` are injective encodings with disjoint
images, one of (input, element) and one of (input, info, element), and every output of the OPRF and VOPRF clients and servers is the digest of
the first, and every output of the POPRF client (no info counting as the empty one) and of the POPRF server (given an
info) is the digest of the second. Without an info the POPRF server's `evaluate` uses the first (see C06). -/
theorem C27_encodings (wf : CS.WF) (enc : Bytes → CS.Elem → Bytes) (encI : Bytes → Bytes → CS.Elem → Bytes)
    (henc : enc = fun x P => finalizeInput x (CS.group.serializeElem P))
    (hencI : encI = fun x i P => finalizeInputInfo x i (CS.group.serializeElem P)) :
    (∀ x x' P P', x.length ≤ 65535 → x'.length ≤ 65535 → enc x P = enc x' P' → x = x' ∧ P = P') ∧
    (∀ x x' i i' P P', x.length ≤ 65535 → x'.length ≤ 65535 → i.length ≤ 65535 → i'.length ≤ 65535 →
      encI x i P = encI x' i' P' → x = x' ∧ i = i' ∧ P = P') ∧
    (∀ x x' i P P', x.length ≤ 65535 → x'.length ≤ 65535 → i.length ≤ 65535 → enc x P ≠ encI x' i P') ∧
    (∀ (c : OprfClient CS), c.Obtained → ∀ (x : Bytes) (e : EvaluationElement CS) (out : Bytes),
      c.finalize x e = .ok out → x.length ≤ 65535 ∧ out = CS.hash.digest (enc x (c.blind⁻¹ • e.value))) ∧
    (∀ (c : VoprfClient CS), c.Obtained → ∀ (x : Bytes) (e : EvaluationElement CS) (proof : Proof CS)
      (pk : CS.Elem) (out : Bytes), c.finalize x e proof pk = .ok out →
      x.length ≤ 65535 ∧ out = CS.hash.digest (enc x (c.blind⁻¹ • e.value))) ∧
    (∀ (c : PoprfClient CS), c.Obtained → ∀ (x : Bytes) (info : Option Bytes) (e : EvaluationElement CS)
      (proof : Proof CS) (pk : CS.Elem) (out : Bytes), c.finalize x e proof pk info = .ok out →
      x.length ≤ 65535 ∧ (info.getD []).length ≤ 65535 ∧
        out = CS.hash.digest (encI x (info.getD []) (c.blind⁻¹ • e.value))) ∧
    (∀ (s : OprfServer CS) (x out : Bytes), s.evaluate x = .ok out → x.length ≤ 65535 ∧
      ∃ P, Spec.hashToGroup CS .Oprf x = .ok P ∧ out = CS.hash.digest (enc x (s.sk • P))) ∧
    (∀ (s : VoprfServer CS) (x out : Bytes), s.evaluate x = .ok out → x.length ≤ 65535 ∧
      ∃ P, Spec.hashToGroup CS .Voprf x = .ok P ∧ out = CS.hash.digest (enc x (s.sk • P))) ∧
    (∀ (s : PoprfServer CS) (x : Bytes) (info : Option Bytes) (out : Bytes), s.evaluate x info = .ok out →
      x.length ≤ 65535 ∧ (info.getD []).length ≤ 65535 ∧
      ∃ P m, Spec.hashToGroup CS .Poprf x = .ok P ∧
        Spec.hashToScalar CS .Poprf (infoInput (info.getD [])) = .ok m ∧
        out = CS.hash.digest (match info with
          | some i => encI x i ((s.sk + m)⁻¹ • P)
          | none => enc x ((s.sk + m)⁻¹ • P))) := by
  have sl := serialize_length_le (CS := CS) wf
  subst henc hencI
  refine ⟨?_, ?_, ?_, ?_, ?_, ?_, ?_, ?_, ?_⟩
  · intro x x' P P' h h' he
    obtain ⟨h1, h2⟩ := finalizeInput_injective _ _ _ _ h h' (sl _) (sl _) he
    exact ⟨h1, serializeElem_injective h2⟩
  · intro x x' i i' P P' h h' hi hi' he
    obtain ⟨h1, h2, h3⟩ := finalizeInputInfo_injective _ _ _ _ _ _ h h' hi hi' (sl _) (sl _) he
    exact ⟨h1, h2, serializeElem_injective h3⟩
  · intro x x' i P P' h h' hi
    exact finalizeInput_ne_finalizeInputInfo _ _ _ _ _ h h' hi (sl _)
  · intro c hc x e out h
    rw [OprfClient.finalize_eq c (hc.blind_ne_zero wf)] at h
    split at h
    · next hl => exact ⟨hl, (Res.ok.inj h).symm⟩
    · simp at h
  · intro c hc x e proof pk out h
    rw [VoprfClient.finalize_eq c (hc.blind_ne_zero wf), Res.bind_eq_ok] at h
    obtain ⟨_, -, h⟩ := h
    unfold itemResult at h
    split at h
    · next hl => exact ⟨hl, (Res.ok.inj h).symm⟩
    · simp at h
  · intro c hc x info e proof pk out h
    rw [PoprfClient.finalize_eq wf c (hc.blind_ne_zero wf), Res.bind_eq_ok] at h
    obtain ⟨_, -, h⟩ := h
    rw [Res.bind_eq_ok] at h
    obtain ⟨_, -, h⟩ := h
    unfold itemResultInfo at h
    split at h
    · next hl =>
      split at h
      · next hi => exact ⟨hl, hi, (Res.ok.inj h).symm⟩
      · simp at h
    · simp at h
  · intro s x out h
    rw [OprfServer.evaluate_eq wf] at h
    split at h
    · simp at h
    · next P hP =>
      split at h
      · simp at h
      · split at h
        · next hl => exact ⟨hl, P, hP, (Res.ok.inj h).symm⟩
        · simp at h
  · intro s x out h
    rw [VoprfServer.evaluate_eq wf] at h
    split at h
    · simp at h
    · next P hP =>
      split at h
      · simp at h
      · split at h
        · next hl => exact ⟨hl, P, hP, (Res.ok.inj h).symm⟩
        · simp at h
  · intro s x info out h
    rw [PoprfServer.evaluate_eq wf] at h
    split at h
    · simp at h
    · next P hP =>
      split at h
      · simp at h
      · rw [Res.bind_eq_ok] at h
        obtain ⟨t, ht, h⟩ := h
        obtain ⟨m, hil, hm, rfl, -⟩ := computeTweak_ok wf ht
        split at h
        · next hl => exact ⟨hl, hil, P, m, hP, hm, by cases info <;> exact (Res.ok.inj h).symm⟩
        · simp at h

/-- C28: the challenge transcript hashed by `generate_proof` and `verify_proof` determines all five
elements. -/
theorem C28_challenge_injective (wf : CS.WF) (B M Z T U B' M' Z' T' U' : CS.Elem)
    (h : (Voprf.challengeInput CS B M Z T U).flatten = (Voprf.challengeInput CS B' M' Z' T' U').flatten) :
    B = B' ∧ M = M' ∧ Z = Z' ∧ T = T' ∧ U = U' := by
  rw [challengeInput_flatten, challengeInput_flatten] at h
  exact challengeInput_injective wf _ _ _ _ _ _ _ _ _ _ h

/-- C28: the transcript hashed by `compute_composites` for one item determines the seed, the index and the
two elements of the item. -/
theorem C28_composite_injective (wf : CS.WF) (sd sd' : Bytes) (hs : sd.length = CS.hash.outputSize)
    (hs' : sd'.length = CS.hash.outputSize) (i i' : Nat) (hi : i ≤ 65535) (hi' : i' ≤ 65535)
    (C D C' D' : CS.Elem)
    (h : (Voprf.compositeInput CS sd i C D).flatten = (Voprf.compositeInput CS sd' i' C' D').flatten) :
    sd = sd' ∧ i = i' ∧ C = C' ∧ D = D' := by
  rw [compositeInput_flatten _ hs, compositeInput_flatten _ hs'] at h
  have := CS.hash.outputSize_lt
  exact compositeInput_injective wf _ _ (by omega) (by omega) _ _ hi hi' _ _ _ _ h

/-- C28: the seed computed by `compute_composites` is the digest of `⟨key⟩ ⟨"Seed-" contextString⟩`, which is an injective
encoding of the key and the mode. -/
theorem C28_seed_injective (wf : CS.WF) (enc : CS.Elem → Mode → Bytes)
    (henc : enc = fun B m => framed (CS.group.serializeElem B) ++ framed (ascii "Seed-" ++ contextString CS m)) :
    (∀ B B' m m', enc B m = enc B' m' → B = B' ∧ m = m') ∧
      ∀ B m, compositesSeed CS B m = .ok (CS.hash.digest (enc B m)) := by
  subst henc
  exact ⟨fun _ _ _ _ h => seedInput_injective wf _ _ _ _ h, fun B m => compositesSeed_eq wf B m⟩

/-- C28: `compute_tweak` and `compute_tweaked_key` hash `"Info" ⟨info⟩`, an injective encoding of the info, and that encoding
is never a challenge transcript or a composite transcript, which never coincide either. -/
theorem C28_kinds_disjoint (wf : CS.WF) (enc : Bytes → Bytes) (henc : enc = fun info => ascii "Info" ++ framed info) :
    (∀ (B M Z T U C D : CS.Elem) (sd : Bytes) (_ : sd.length = CS.hash.outputSize) (i : Nat),
      (Voprf.challengeInput CS B M Z T U).flatten ≠ (Voprf.compositeInput CS sd i C D).flatten) ∧
      (∀ i i', i.length ≤ 65535 → i'.length ≤ 65535 → enc i = enc i' → i = i') ∧
      (∀ (k : CS.Scalar) (pk : CS.Elem) (info : Bytes) (m : CS.Scalar), info.length ≤ 65535 →
        CS.group.hashToScalar CS.hash [enc info] [ascii "HashToScalar-" ++ contextString CS .Poprf] = .ok m →
        (k + m ≠ 0 → Poprf.computeTweak CS k (some info) = .ok (k + m)) ∧
        (m • CS.group.baseElem + pk ≠ 0 →
          Poprf.computeTweakedKey CS pk (some info) = .ok (m • CS.group.baseElem + pk))) ∧
      (∀ (B M Z T U C D : CS.Elem) (sd : Bytes) (_ : sd.length = CS.hash.outputSize) (i : Nat)
        (info : Bytes), (Voprf.challengeInput CS B M Z T U).flatten ≠ enc info ∧
        (Voprf.compositeInput CS sd i C D).flatten ≠ enc info) := by
  have hd := fun (B M Z T U C D : CS.Elem) (sd : Bytes) (hsd : sd.length = CS.hash.outputSize) (i : Nat)
    (info : Bytes) => scalarInputs_disjoint' wf B M Z T U C D sd hsd i info
  have henc : enc = infoInput := henc
  subst henc
  refine ⟨fun B M Z T U C D sd hsd i => ?_, ?_, ?_, fun B M Z T U C D sd hsd i info => ?_⟩
  · rw [challengeInput_flatten, compositeInput_flatten _ hsd]
    exact (hd B M Z T U C D sd hsd i []).1
  · intro i i' hi hi' h
    exact (framed_append_inj (a := []) (b := []) hi hi'
      (by simpa [infoInput] using List.append_cancel_left h)).1
  · intro k pk info m hil hm
    have hm' : Spec.hashToScalar CS .Poprf (infoInput info) = .ok m := hm
    refine ⟨fun h => ?_, fun h => ?_⟩
    · rw [computeTweak_eq wf]
      simp only [Option.getD_some, if_pos hil, hm']
      rw [if_neg (by rw [VGroup.Lawful.isZeroScalar_iff]; exact h)]
    · rw [computeTweakedKey_eq wf]
      simp only [Option.getD_some, if_pos hil, hm']
      rw [if_neg (by rw [isIdentityElem_iff]; exact h)]
  · rw [challengeInput_flatten, compositeInput_flatten _ hsd]
    exact (hd B M Z T U C D sd hsd i info).2

section examples
open Toy

/-- The transcripts on the toy suite are non-empty, and the outputs of C27 exist. -/
example : (Voprf.challengeInput suite (7 : F) (2 : F) (14 : F) (5 : F) (10 : F)).flatten.length = 24 ∧
    ((⟨7⟩ : OprfServer suite).evaluate [1, 2, 3]).isOk = true := by decide +kernel

end examples

end Voprf
