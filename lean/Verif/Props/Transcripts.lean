import Verif.Props.Info
import Verif.Props.Serialization

/-!
# C26–C29: injective encodings
-/

namespace Voprf

open Spec

variable {CS : CipherSuite}

/-! ## C29 -/

/-- C29: the two-byte encoder accepts exactly the lengths up to 65535, and its output read as a big-endian
number is the length; larger lengths are refused, never truncated. -/
theorem C29_length_framing (n : Nat) :
    (n ≤ 65535 → ∃ hi lo : UInt8, i2osp2 n = .ok [hi, lo] ∧ hi.toNat * 256 + lo.toNat = n) ∧
    (65535 < n → i2osp2 n = .error .I2osp) := by
  refine ⟨fun h => ⟨_, _, i2osp2_of_le h, ?_⟩, i2osp2_of_gt⟩
  simp only [UInt8.toNat_ofNat']
  omega

/-- C29, decoding back: different lengths have different encodings. -/
theorem C29_injective (n m : Nat) (b : Bytes) (hn : i2osp2 n = .ok b) (hm : i2osp2 m = .ok b) :
    n = m := by
  by_cases h1 : n ≤ 65535
  · by_cases h2 : m ≤ 65535
    · obtain ⟨hi, lo, e1, e2⟩ := (C29_length_framing n).1 h1
      obtain ⟨hi', lo', e1', e2'⟩ := (C29_length_framing m).1 h2
      rw [hn] at e1; rw [hm] at e1'
      have := (Except.ok.inj e1).symm.trans (Except.ok.inj e1')
      simp only [List.cons.injEq, and_true] at this
      rw [← e2, ← e2', this.1, this.2]
    · rw [i2osp2_of_gt (by omega)] at hm; simp at hm
  · rw [i2osp2_of_gt (by omega)] at hn; simp at hn

example : i2osp2 65535 = .ok [255, 255] ∧ i2osp2 65536 = .error .I2osp ∧ i2osp2 258 = .ok [1, 2] :=
  ⟨rfl, rfl, rfl⟩

theorem be16_inj {n m : Nat} (hn : n ≤ 65535) (hm : m ≤ 65535) (h : be16 n = be16 m) : n = m :=
  C29_injective n m (be16 n) (i2osp2_of_le hn) (by rw [h]; exact i2osp2_of_le hm)

/-- A length-framed string followed by anything can be read back. -/
theorem framed_append_inj {x y a b : Bytes} (hx : x.length ≤ 65535) (hy : y.length ≤ 65535)
    (h : framed x ++ a = framed y ++ b) : x = y ∧ a = b := by
  unfold framed at h
  rw [List.append_assoc, List.append_assoc] at h
  obtain ⟨h1, h2⟩ := List.append_inj h (by simp)
  have hl := be16_inj hx hy h1
  exact List.append_inj h2 hl

/-! ## C26 -/

/-- The four uses of a domain-separation tag. -/
inductive Purpose
  | hashToGroup
  | hashToScalar
  | deriveKeyPair
  | seed
  deriving DecidableEq

/-- The string constant the code uses for each purpose (`src/common.rs:33-40`). -/
def Purpose.tag : Purpose → Bytes
  | .hashToGroup => STR_HASH_TO_GROUP
  | .hashToScalar => STR_HASH_TO_SCALAR
  | .deriveKeyPair => STR_DERIVE_KEYPAIR
  | .seed => STR_SEED

theorem purpose_inj (p q : Purpose) (x y : Bytes) (h : p.tag ++ x = q.tag ++ y) : p = q := by
  have h5 := congrArg (List.take 5) h
  have h7 := congrArg (List.take 12) h
  cases p <;> cases q <;> first
    | rfl
    | (exfalso
       simp only [Purpose.tag, STR_HASH_TO_GROUP, STR_HASH_TO_SCALAR, STR_DERIVE_KEYPAIR, STR_SEED,
         List.take_append] at h5 h7
       revert h5 h7
       simp)

theorem contextString_inj (CS CS' : CipherSuite) (m m' : Mode)
    (h : contextString CS m = contextString CS' m') : m = m' ∧ CS.ID = CS'.ID := by
  unfold contextString at h
  simp only [List.append_assoc] at h
  have h := (List.append_cancel_left h)
  simp only [List.cons_append, List.nil_append, List.cons.injEq] at h
  refine ⟨?_, List.append_cancel_left h.2⟩
  have := h.1
  cases m <;> cases m' <;> first | rfl | (exfalso; revert this; decide)

/-- C26: the tags actually built by the code (concatenating the two parts handed to the hash) are equal
only for the same purpose, the same mode and the same ciphersuite identifier. -/
theorem C26_domain_separation (CS CS' : CipherSuite) (p p' : Purpose) (m m' : Mode) (d d' : Dst)
    (hd : Dst.new CS p.tag m = .ok d) (hd' : Dst.new CS' p'.tag m' = .ok d')
    (h : d.asDst.flatten = d'.asDst.flatten) : p = p' ∧ m = m' ∧ CS.ID = CS'.ID := by
  have key : ∀ (CS : CipherSuite) (p : Purpose) (m : Mode) (d : Dst),
      Dst.new CS p.tag m = .ok d → d.asDst.flatten = p.tag ++ contextString CS m := by
    intro CS p m d hd
    unfold Dst.new at hd
    simp only at hd
    split at hd
    · simp only [Res.ok.injEq] at hd
      subst hd
      simp only [Dst.asDst, List.flatten_cons, List.flatten_nil, contextString, STR_OPRF_eq,
        modeByte_eq, List.append_assoc, List.append_nil]
      rfl
    · simp at hd
  rw [key _ _ _ _ hd, key _ _ _ _ hd'] at h
  have hp := purpose_inj _ _ _ _ h
  subst hp
  obtain ⟨h1, h2⟩ := contextString_inj _ _ _ _ (List.append_cancel_left h)
  exact ⟨rfl, h1, h2⟩

/-- The tag of each call site is one of the four, so C26 covers all of them; building it succeeds. -/
example : [STR_HASH_TO_GROUP, STR_HASH_TO_SCALAR, STR_DERIVE_KEYPAIR, STR_SEED] =
    [Purpose.hashToGroup, .hashToScalar, .deriveKeyPair, .seed].map Purpose.tag ∧
    ∀ (p : Purpose) (m : Mode), ∃ d, Dst.new Toy.suite p.tag m = .ok d := by
  refine ⟨by decide, ?_⟩
  intro p m
  cases p <;> cases m <;> exact ⟨_, rfl⟩

/-! ## C27 -/

/-- OPRF and VOPRF: the hashed string determines the input and the element encoding. -/
theorem finalizeInput_injective (x x' e e' : Bytes) (hx : x.length ≤ 65535) (hx' : x'.length ≤ 65535)
    (he : e.length ≤ 65535) (he' : e'.length ≤ 65535)
    (h : finalizeInput x e = finalizeInput x' e') : x = x' ∧ e = e' := by
  unfold finalizeInput at h
  simp only [List.append_assoc] at h
  obtain ⟨h1, h⟩ := framed_append_inj hx hx' h
  obtain ⟨h2, -⟩ := framed_append_inj he he' h
  exact ⟨h1, h2⟩

/-- The hashed string determines the input, the info and the element encoding. -/
theorem finalizeInputInfo_injective (x x' i i' e e' : Bytes) (hx : x.length ≤ 65535)
    (hx' : x'.length ≤ 65535) (hi : i.length ≤ 65535) (hi' : i'.length ≤ 65535)
    (he : e.length ≤ 65535) (he' : e'.length ≤ 65535)
    (h : finalizeInputInfo x i e = finalizeInputInfo x' i' e') : x = x' ∧ i = i' ∧ e = e' := by
  unfold finalizeInputInfo at h
  simp only [List.append_assoc] at h
  obtain ⟨h1, h⟩ := framed_append_inj hx hx' h
  obtain ⟨h2, h⟩ := framed_append_inj hi hi' h
  obtain ⟨h3, -⟩ := framed_append_inj he he' h
  exact ⟨h1, h2, h3⟩

/-- No OPRF/VOPRF output string equals a POPRF output string. -/
theorem finalizeInput_ne_finalizeInputInfo (x x' i e e' : Bytes) (hx : x.length ≤ 65535) (hx' : x'.length ≤ 65535)
    (hi : i.length ≤ 65535) (he : e.length ≤ 65535) :
    finalizeInput x e ≠ finalizeInputInfo x' i e' := by
  intro h
  unfold finalizeInput finalizeInputInfo at h
  simp only [List.append_assoc] at h
  obtain ⟨-, h⟩ := framed_append_inj hx hx' h
  obtain ⟨-, h⟩ := framed_append_inj he hi h
  have := congrArg List.length h
  simp at this

variable [L : CS.group.Lawful]

/-- C27 at the API, base mode: equal outputs of two servers on two inputs mean equal keys and inputs, or the
two strings that were hashed are a collision of the hash function. -/
theorem C27_oprf_outputs (wf : CS.WF) (s s' : OprfServer CS) (x x' out : Bytes)
    (h : s.evaluate x = .ok out) (h' : s'.evaluate x' = .ok out) :
    (x = x' ∧ s.sk = s'.sk) ∨ ∃ P P', Spec.hashToGroup CS .Oprf x = .ok P ∧ Spec.hashToGroup CS .Oprf x' = .ok P' ∧
      finalizeInput x (CS.group.serializeElem (s.sk • P)) ≠ finalizeInput x' (CS.group.serializeElem (s'.sk • P')) ∧
      CS.hash.digest (finalizeInput x (CS.group.serializeElem (s.sk • P))) = out ∧
      CS.hash.digest (finalizeInput x' (CS.group.serializeElem (s'.sk • P'))) = out := by
  have key : ∀ (s : OprfServer CS) (x : Bytes), s.evaluate x = .ok out → ∃ P,
      Spec.hashToGroup CS .Oprf x = .ok P ∧ P ≠ 0 ∧ x.length ≤ 65535 ∧
      out = Spec.output CS x (s.sk • P) := by
    intro s x h
    rw [OprfServer.evaluate_eq wf] at h
    cases hP : Spec.hashToGroup CS .Oprf x with
    | error e => simp [hP] at h
    | ok P =>
      simp only [hP] at h
      split at h
      · simp at h
      · next hid =>
        split at h
        · next hl =>
          exact ⟨P, rfl, (isIdentityElem_eq_false P).mp (by simpa using hid), hl,
            (Res.ok.inj h).symm⟩
        · simp at h
  obtain ⟨P, hP, h0, hl, e⟩ := key s x h
  obtain ⟨P', hP', h0', hl', e'⟩ := key s' x' h'
  by_cases heq : finalizeInput x (CS.group.serializeElem (s.sk • P)) =
      finalizeInput x' (CS.group.serializeElem (s'.sk • P'))
  · left
    obtain ⟨rfl, h2⟩ := finalizeInput_injective _ _ _ _ hl hl' (serialize_length_le wf _)
      (serialize_length_le wf _) heq
    refine ⟨rfl, ?_⟩
    rw [hP] at hP'
    cases Except.ok.inj hP'
    have := serializeElem_injective h2
    have h3 : (s.sk - s'.sk) • P = 0 := by rw [sub_smul, this, sub_self]
    rcases smul_eq_zero.mp h3 with h4 | h4
    · exact sub_eq_zero.mp h4
    · exact absurd h4 h0
  · right
    exact ⟨P, P', hP, hP', heq, e.symm, e'.symm⟩

/-- C27 at the API, verifiable mode. -/
theorem C27_voprf_outputs (wf : CS.WF) (s s' : VoprfServer CS) (x x' out : Bytes)
    (h : s.evaluate x = .ok out) (h' : s'.evaluate x' = .ok out) :
    (x = x' ∧ s.sk = s'.sk) ∨ ∃ P P', Spec.hashToGroup CS .Voprf x = .ok P ∧ Spec.hashToGroup CS .Voprf x' = .ok P' ∧
      finalizeInput x (CS.group.serializeElem (s.sk • P)) ≠ finalizeInput x' (CS.group.serializeElem (s'.sk • P')) ∧
      CS.hash.digest (finalizeInput x (CS.group.serializeElem (s.sk • P))) = out ∧
      CS.hash.digest (finalizeInput x' (CS.group.serializeElem (s'.sk • P'))) = out := by
  have key : ∀ (s : VoprfServer CS) (x : Bytes), s.evaluate x = .ok out → ∃ P,
      Spec.hashToGroup CS .Voprf x = .ok P ∧ P ≠ 0 ∧ x.length ≤ 65535 ∧
      out = Spec.output CS x (s.sk • P) := by
    intro s x h
    rw [VoprfServer.evaluate_eq wf] at h
    cases hP : Spec.hashToGroup CS .Voprf x with
    | error e => simp [hP] at h
    | ok P =>
      simp only [hP] at h
      split at h
      · simp at h
      · next hid =>
        split at h
        · next hl =>
          exact ⟨P, rfl, (isIdentityElem_eq_false P).mp (by simpa using hid), hl,
            (Res.ok.inj h).symm⟩
        · simp at h
  obtain ⟨P, hP, h0, hl, e⟩ := key s x h
  obtain ⟨P', hP', h0', hl', e'⟩ := key s' x' h'
  by_cases heq : finalizeInput x (CS.group.serializeElem (s.sk • P)) =
      finalizeInput x' (CS.group.serializeElem (s'.sk • P'))
  · left
    obtain ⟨rfl, h2⟩ := finalizeInput_injective _ _ _ _ hl hl' (serialize_length_le wf _)
      (serialize_length_le wf _) heq
    refine ⟨rfl, ?_⟩
    rw [hP] at hP'
    cases Except.ok.inj hP'
    have := serializeElem_injective h2
    have h3 : (s.sk - s'.sk) • P = 0 := by rw [sub_smul, this, sub_self]
    rcases smul_eq_zero.mp h3 with h4 | h4
    · exact sub_eq_zero.mp h4
    · exact absurd h4 h0
  · right
    exact ⟨P, P', hP, hP', heq, e.symm, e'.symm⟩

/-- C27 at the API, POPRF with info: equal outputs mean equal input, info and private key, or
the two strings that were hashed are a collision. -/
theorem C27_poprf_outputs (wf : CS.WF) (s s' : PoprfServer CS) (x x' i i' out : Bytes)
    (h : s.evaluate x (some i) = .ok out) (h' : s'.evaluate x' (some i') = .ok out) :
    (x = x' ∧ i = i' ∧ s.sk = s'.sk) ∨ ∃ P P' m m', Spec.hashToGroup CS .Poprf x = .ok P ∧
      Spec.hashToGroup CS .Poprf x' = .ok P' ∧ Spec.hashToScalar CS .Poprf (infoInput i) = .ok m ∧
      Spec.hashToScalar CS .Poprf (infoInput i') = .ok m' ∧
      finalizeInputInfo x i (CS.group.serializeElem ((s.sk + m)⁻¹ • P)) ≠
        finalizeInputInfo x' i' (CS.group.serializeElem ((s'.sk + m')⁻¹ • P')) ∧
      CS.hash.digest (finalizeInputInfo x i (CS.group.serializeElem ((s.sk + m)⁻¹ • P))) = out ∧
      CS.hash.digest (finalizeInputInfo x' i' (CS.group.serializeElem ((s'.sk + m')⁻¹ • P'))) = out := by
  have key : ∀ (s : PoprfServer CS) (x i : Bytes), s.evaluate x (some i) = .ok out → ∃ P m,
      Spec.hashToGroup CS .Poprf x = .ok P ∧ P ≠ 0 ∧ x.length ≤ 65535 ∧ i.length ≤ 65535 ∧
      Spec.hashToScalar CS .Poprf (infoInput i) = .ok m ∧
      out = Spec.outputInfo CS x i ((s.sk + m)⁻¹ • P) := by
    intro s x i h
    rw [PoprfServer.evaluate_eq wf] at h
    cases hP : Spec.hashToGroup CS .Poprf x with
    | error e => simp [hP] at h
    | ok P =>
      simp only [hP] at h
      split at h
      · simp at h
      · next hid =>
        rw [Res.bind_eq_ok] at h
        obtain ⟨t, ht, h⟩ := h
        obtain ⟨m, hil, hm, rfl, -⟩ := computeTweak_ok wf ht
        split at h
        · next hl =>
          exact ⟨P, m, rfl, (isIdentityElem_eq_false P).mp (by simpa using hid), hl, hil, hm,
            (Res.ok.inj h).symm⟩
        · simp at h
  obtain ⟨P, m, hP, h0, hl, hil, hm, e⟩ := key s x i h
  obtain ⟨P', m', hP', h0', hl', hil', hm', e'⟩ := key s' x' i' h'
  by_cases heq : finalizeInputInfo x i (CS.group.serializeElem ((s.sk + m)⁻¹ • P)) =
      finalizeInputInfo x' i' (CS.group.serializeElem ((s'.sk + m')⁻¹ • P'))
  · left
    obtain ⟨rfl, rfl, h2⟩ := finalizeInputInfo_injective _ _ _ _ _ _ hl hl' hil hil'
      (serialize_length_le wf _) (serialize_length_le wf _) heq
    refine ⟨rfl, rfl, ?_⟩
    rw [hP] at hP'
    cases Except.ok.inj hP'
    rw [hm] at hm'
    cases Except.ok.inj hm'
    have := serializeElem_injective h2
    have h3 : ((s.sk + m)⁻¹ - (s'.sk + m)⁻¹) • P = 0 := by rw [sub_smul, this, sub_self]
    rcases smul_eq_zero.mp h3 with h4 | h4
    · exact add_right_cancel (inv_injective (sub_eq_zero.mp h4))
    · exact absurd h4 h0
  · right
    exact ⟨P, P', m, m', hP, hP', hm, hm', heq, e.symm, e'.symm⟩

section examples
open Toy

/-- Both sides of C27 occur on the toy suite (whose hash collides easily). -/
example : ((⟨7⟩ : OprfServer suite).evaluate [1, 2, 3]).isOk = true ∧
    ((⟨7, 7⟩ : PoprfServer suite).evaluate [1, 2, 3] (some [4])).isOk = true := by decide +kernel

end examples

/-! ## C28 -/

/-- The challenge transcript determines all five elements. -/
theorem challengeInput_injective (wf : CS.WF) (B M Z T U B' M' Z' T' U' : CS.Elem)
    (h : Spec.challengeInput (CS.group.serializeElem B) (CS.group.serializeElem M)
        (CS.group.serializeElem Z) (CS.group.serializeElem T) (CS.group.serializeElem U) =
      Spec.challengeInput (CS.group.serializeElem B') (CS.group.serializeElem M')
        (CS.group.serializeElem Z') (CS.group.serializeElem T') (CS.group.serializeElem U')) :
    B = B' ∧ M = M' ∧ Z = Z' ∧ T = T' ∧ U = U' := by
  have l := serialize_length_le wf
  unfold Spec.challengeInput at h
  simp only [List.append_assoc] at h
  obtain ⟨h1, h⟩ := framed_append_inj (l _) (l _) h
  obtain ⟨h2, h⟩ := framed_append_inj (l _) (l _) h
  obtain ⟨h3, h⟩ := framed_append_inj (l _) (l _) h
  obtain ⟨h4, h⟩ := framed_append_inj (l _) (l _) h
  obtain ⟨h5, -⟩ := framed_append_inj (l _) (l _) h
  exact ⟨serializeElem_injective h1, serializeElem_injective h2, serializeElem_injective h3,
    serializeElem_injective h4, serializeElem_injective h5⟩

/-- A composite transcript determines the seed, the index and the two elements. -/
theorem compositeInput_injective (wf : CS.WF) (sd sd' : Bytes) (hs : sd.length ≤ 65535)
    (hs' : sd'.length ≤ 65535) (i i' : Nat) (hi : i ≤ 65535) (hi' : i' ≤ 65535)
    (C D C' D' : CS.Elem)
    (h : Spec.compositeInput sd i (CS.group.serializeElem C) (CS.group.serializeElem D) =
      Spec.compositeInput sd' i' (CS.group.serializeElem C') (CS.group.serializeElem D')) :
    sd = sd' ∧ i = i' ∧ C = C' ∧ D = D' := by
  have l := serialize_length_le wf
  unfold Spec.compositeInput at h
  simp only [List.append_assoc] at h
  obtain ⟨h1, h⟩ := framed_append_inj hs hs' h
  obtain ⟨h2, h⟩ := List.append_inj h (by simp)
  obtain ⟨h3, h⟩ := framed_append_inj (l _) (l _) h
  obtain ⟨h4, -⟩ := framed_append_inj (l _) (l _) h
  exact ⟨h1, be16_inj hi hi' h2, serializeElem_injective h3, serializeElem_injective h4⟩

/-- The string hashed to the composite seed determines the public key and the mode. -/
theorem seedInput_injective (wf : CS.WF) (B B' : CS.Elem) (m m' : Mode)
    (h : framed (CS.group.serializeElem B) ++ framed (ascii "Seed-" ++ contextString CS m) =
      framed (CS.group.serializeElem B') ++ framed (ascii "Seed-" ++ contextString CS m')) :
    B = B' ∧ m = m' := by
  have l := serialize_length_le wf
  obtain ⟨h1, h⟩ := framed_append_inj (l _) (l _) h
  have hc : ∀ m, (ascii "Seed-" ++ contextString CS m).length ≤ 65535 := by
    intro m
    have := wf.id_length
    rw [List.length_append, contextString_length, ascii_len_seed]; omega
  obtain ⟨h2, -⟩ := framed_append_inj (a := []) (b := []) (hc m) (hc m') (by simpa using h)
  exact ⟨serializeElem_injective h1, (contextString_inj _ _ _ _ (List.append_cancel_left h2)).1⟩

omit L in
/-- The three kinds of strings hashed under the `HashToScalar-` tag (challenges, composites, framed
info) never coincide. -/
theorem scalarInputs_disjoint' (wf : CS.WF) (B M Z T U C D : CS.Elem) (sd : Bytes)
    (hsd : sd.length = CS.hash.outputSize) (i : Nat) (info : Bytes) :
    let chal := Spec.challengeInput (CS.group.serializeElem B) (CS.group.serializeElem M)
      (CS.group.serializeElem Z) (CS.group.serializeElem T) (CS.group.serializeElem U)
    let comp := Spec.compositeInput sd i (CS.group.serializeElem C)
      (CS.group.serializeElem D)
    chal ≠ comp ∧ chal ≠ infoInput info ∧ comp ≠ infoInput info := by
  have hd : ∀ n : Nat, n ≤ 13103 → ∀ x y z : Bytes, x.length = n →
      framed x ++ y ≠ ascii "Info" ++ z := by
    intro n hn x y z hx h
    have h2 := congrArg (List.take 2) h
    have e1 : (framed x ++ y).take 2 = be16 n := by
      unfold framed; rw [hx, List.append_assoc]
      exact List.take_left' rfl
    have e2 : (ascii "Info" ++ z).take 2 = be16 18798 := by
      have : ascii "Info" ++ z = [73, 110] ++ ([102, 111] ++ z) := by simp [ascii]
      rw [this]; exact List.take_left' rfl
    rw [e1, e2] at h2
    have := be16_inj (by omega) (by omega) h2
    omega
  have h1 := wf.elem_length
  have h2 := CS.hash.outputSize_lt
  refine ⟨?_, ?_, ?_⟩
  · intro h
    unfold Spec.challengeInput Spec.compositeInput at h
    have := (List.append_inj' h (by rw [ascii_len_challenge, ascii_len_composite])).2
    revert this; decide
  · unfold Spec.challengeInput infoInput
    simp only [List.append_assoc]
    exact hd CS.group.elemLen (by omega) _ _ _ (CS.group.serializeElem_length _)
  · unfold Spec.compositeInput infoInput
    simp only [List.append_assoc]
    exact hd CS.hash.outputSize (by omega) _ _ _ hsd

/-- The same for the seeds the code computes. -/
theorem scalarInputs_disjoint (wf : CS.WF) (B M Z T U C D : CS.Elem) (m : Mode) (B' : CS.Elem) (i : Nat)
    (info : Bytes) :
    let chal := Spec.challengeInput (CS.group.serializeElem B) (CS.group.serializeElem M)
      (CS.group.serializeElem Z) (CS.group.serializeElem T) (CS.group.serializeElem U)
    let comp := Spec.compositeInput (Spec.seed CS m B') i (CS.group.serializeElem C)
      (CS.group.serializeElem D)
    chal ≠ comp ∧ chal ≠ infoInput info ∧ comp ≠ infoInput info :=
  scalarInputs_disjoint' wf B M Z T U C D _ (seed_length _ _) i info

/-- The transcripts are those of C09/C10 (`challenge`, `weight`), whose calls succeed on the toy suite. -/
example : ∃ c w, Spec.challenge Toy.suite .Voprf 7 2 14 5 10 = .ok c ∧
    Spec.weight Toy.suite .Voprf 7 0 2 14 = .ok w := ⟨_, _, rfl, rfl⟩

end Voprf
