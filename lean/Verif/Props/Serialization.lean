import Verif.Spec.Wire
import Verif.Props.Correctness

/-!
# C17–C22: the byte formats
-/

namespace Voprf

open Spec

variable {CS : CipherSuite} [L : CS.group.Lawful]

/-! ## Readers -/

theorem takeExt_append (a b : Bytes) : takeExt (a ++ b) a.length = some (a, b) := by
  unfold takeExt
  rw [if_neg (by simp)]
  simp

theorem readElem_append (P : CS.Elem) (h : P ≠ 0) (rest : Bytes) :
    readElem CS.group (CS.group.serializeElem P ++ rest) = .ok (P, rest) := by
  unfold readElem
  rw [← CS.group.serializeElem_length P, takeExt_append]
  simp [VGroup.Lawful.deserializeElem_serialize P h]

theorem readElem_zero (rest : Bytes) :
    readElem CS.group (CS.group.serializeElem 0 ++ rest) = .err .Deserialization := by
  unfold readElem
  rw [← CS.group.serializeElem_length 0, takeExt_append]
  simp [VGroup.Lawful.deserializeElem_serialize_zero]

theorem readScalar_append (a : CS.Scalar) (h : a ≠ 0) (rest : Bytes) :
    readScalar CS.group (CS.group.serializeScalar a ++ rest) = .ok (a, rest) := by
  unfold readScalar
  rw [← CS.group.serializeScalar_length a, takeExt_append]
  simp [VGroup.Lawful.deserializeScalar_serialize a h]

theorem readScalar_zero (rest : Bytes) :
    readScalar CS.group (CS.group.serializeScalar 0 ++ rest) = .err .Deserialization := by
  unfold readScalar
  rw [← CS.group.serializeScalar_length 0, takeExt_append]
  simp [VGroup.Lawful.deserializeScalar_serialize_zero]

/-- what `readScalar` does on any slice -/
theorem readScalar_cases (input : Bytes) :
    (readScalar CS.group input = .err .Deserialization ∧
      ∀ rest, CS.group.scalarLen ≤ input.length →
        readScalar CS.group (input ++ rest) = .err .Deserialization) ∨
    (∃ a, a ≠ 0 ∧ CS.group.scalarLen ≤ input.length ∧
      CS.group.deserializeScalar (input.take CS.group.scalarLen) = .ok a ∧
      readScalar CS.group input = .ok (a, input.drop CS.group.scalarLen) ∧
      ∀ rest, readScalar CS.group (input ++ rest) =
        .ok (a, input.drop CS.group.scalarLen ++ rest)) := by
  unfold readScalar takeExt
  by_cases hl : CS.group.scalarLen > input.length
  · left; simp [hl]
  · have hle : CS.group.scalarLen ≤ input.length := by omega
    have h2 : ∀ rest : Bytes, ¬ CS.group.scalarLen > (input ++ rest).length := by
      intro rest; rw [List.length_append]; omega
    cases hd : CS.group.deserializeScalar (input.take CS.group.scalarLen) with
    | error e =>
      left
      have he := VGroup.Lawful.deserializeScalar_error _ _ hd
      subst he
      refine ⟨by simp [hl, hd], ?_⟩
      intro rest _
      rw [if_neg (h2 rest), List.take_append_of_le_length hle]
      simp [hd]
    | ok a =>
      right
      refine ⟨a, VGroup.Lawful.deserializeScalar_ne_zero _ _ hd, hle, rfl, by simp [hl, hd], ?_⟩
      intro rest
      rw [if_neg (h2 rest), List.take_append_of_le_length hle, List.drop_append_of_le_length hle]
      simp [hd]

/-- what `readElem` does on any slice -/
theorem readElem_cases (input : Bytes) :
    (readElem CS.group input = .err .Deserialization ∧
      ∀ rest, CS.group.elemLen ≤ input.length →
        readElem CS.group (input ++ rest) = .err .Deserialization) ∨
    (∃ a, a ≠ 0 ∧ CS.group.elemLen ≤ input.length ∧
      CS.group.deserializeElem (input.take CS.group.elemLen) = .ok a ∧
      readElem CS.group input = .ok (a, input.drop CS.group.elemLen) ∧
      ∀ rest, readElem CS.group (input ++ rest) =
        .ok (a, input.drop CS.group.elemLen ++ rest)) := by
  unfold readElem takeExt
  by_cases hl : CS.group.elemLen > input.length
  · left; simp [hl]
  · have hle : CS.group.elemLen ≤ input.length := by omega
    have h2 : ∀ rest : Bytes, ¬ CS.group.elemLen > (input ++ rest).length := by
      intro rest; rw [List.length_append]; omega
    cases hd : CS.group.deserializeElem (input.take CS.group.elemLen) with
    | error e =>
      left
      have he := VGroup.Lawful.deserializeElem_error _ _ hd
      subst he
      refine ⟨by simp [hl, hd], ?_⟩
      intro rest _
      rw [if_neg (h2 rest), List.take_append_of_le_length hle]
      simp [hd]
    | ok a =>
      right
      refine ⟨a, VGroup.Lawful.deserializeElem_ne_zero _ _ hd, hle, rfl, by simp [hl, hd], ?_⟩
      intro rest
      rw [if_neg (h2 rest), List.take_append_of_le_length hle, List.drop_append_of_le_length hle]
      simp [hd]

/-! ## C17 -/

/-- C17: `deserialize(serialize(x))` is `Ok(x)` exactly for the valid values of each wire type; for the
others it is `Error::Deserialization`. -/
theorem C17_roundtrip : AllWire CS fun w => ∀ x,
    (w.Valid x → w.deserialize (w.serialize x) = .ok x) ∧
    (¬ w.Valid x → w.deserialize (w.serialize x) = .err .Deserialization) := by
  have s1 : ∀ a : CS.Scalar, (a ≠ 0 → readScalar CS.group (CS.group.serializeScalar a) = .ok (a, [])) ∧
      (a = 0 → readScalar CS.group (CS.group.serializeScalar a) = .err .Deserialization) := by
    intro a
    constructor
    · intro h; simpa using readScalar_append a h []
    · rintro rfl; simpa using readScalar_zero (CS := CS) []
  have e1 : ∀ a : CS.Elem, (a ≠ 0 → readElem CS.group (CS.group.serializeElem a) = .ok (a, [])) ∧
      (a = 0 → readElem CS.group (CS.group.serializeElem a) = .err .Deserialization) := by
    intro a
    constructor
    · intro h; simpa using readElem_append a h []
    · rintro rfl; simpa using readElem_zero (CS := CS) []
  constructor
  · rintro ⟨b⟩
    exact ⟨fun h => by simp [OprfClient.wire, OprfClient.deserialize, OprfClient.serialize, (s1 b).1 h],
      fun h => by
        simp [OprfClient.wire, OprfClient.deserialize, OprfClient.serialize, (s1 b).2 (not_not.mp h)]⟩
  · rintro ⟨b, e⟩
    simp only [VoprfClient.wire, VoprfClient.deserialize, VoprfClient.serialize]
    by_cases hb : b = 0
    · subst hb; simp [readScalar_zero]
    · rw [readScalar_append b hb]
      by_cases he : e = 0
      · simp [he, (e1 0).2 rfl]
      · simp [he, hb, (e1 e).1 he]
  · rintro ⟨b, e⟩
    simp only [PoprfClient.wire, PoprfClient.deserialize, PoprfClient.serialize]
    by_cases hb : b = 0
    · subst hb; simp [readScalar_zero]
    · rw [readScalar_append b hb]
      by_cases he : e = 0
      · simp [he, (e1 0).2 rfl]
      · simp [he, hb, (e1 e).1 he]
  · rintro ⟨b⟩
    exact ⟨fun h => by simp [OprfServer.wire, OprfServer.deserialize, OprfServer.serialize, (s1 b).1 h],
      fun h => by
        simp [OprfServer.wire, OprfServer.deserialize, OprfServer.serialize, (s1 b).2 (not_not.mp h)]⟩
  · rintro ⟨b, e⟩
    simp only [VoprfServer.wire, VoprfServer.deserialize, VoprfServer.serialize]
    by_cases hb : b = 0
    · subst hb; simp [readScalar_zero]
    · rw [readScalar_append b hb]
      by_cases he : e = 0
      · simp [he, (e1 0).2 rfl]
      · simp [he, hb, (e1 e).1 he]
  · rintro ⟨b, e⟩
    simp only [PoprfServer.wire, PoprfServer.deserialize, PoprfServer.serialize]
    by_cases hb : b = 0
    · subst hb; simp [readScalar_zero]
    · rw [readScalar_append b hb]
      by_cases he : e = 0
      · simp [he, (e1 0).2 rfl]
      · simp [he, hb, (e1 e).1 he]
  · rintro ⟨c, s⟩
    simp only [Proof.wire, Proof.deserialize, Proof.serialize]
    by_cases hb : c = 0
    · subst hb; simp [readScalar_zero]
    · rw [readScalar_append c hb]
      by_cases he : s = 0
      · simp [he, (s1 0).2 rfl]
      · simp [he, hb, (s1 s).1 he]
  · rintro ⟨b⟩
    exact ⟨fun h => by
        simp [BlindedElement.wire, BlindedElement.deserialize, BlindedElement.serialize, (e1 b).1 h],
      fun h => by
        simp [BlindedElement.wire, BlindedElement.deserialize, BlindedElement.serialize,
          (e1 b).2 (not_not.mp h)]⟩
  · rintro ⟨b⟩
    exact ⟨fun h => by
        simp [EvaluationElement.wire, EvaluationElement.deserialize, EvaluationElement.serialize,
          (e1 b).1 h],
      fun h => by
        simp [EvaluationElement.wire, EvaluationElement.deserialize, EvaluationElement.serialize,
          (e1 b).2 (not_not.mp h)]⟩

/-- C17 for reachable states: servers from the constructors and clients that blinded an input not hashing
to the identity are valid, so they do round-trip; so do the messages of such clients. -/
theorem C17_reachable (wf : CS.WF) :
    (∀ s : OprfServer CS, s.Made → OprfServer.deserialize CS s.serialize = .ok s) ∧
    (∀ s : VoprfServer CS, s.Made → VoprfServer.deserialize CS s.serialize = .ok s) ∧
    (∀ s : PoprfServer CS, s.Made → PoprfServer.deserialize CS s.serialize = .ok s) ∧
    (∀ input (b : OprfClientBlindResult CS), OprfClient.Blinded input b →
      OprfClient.deserialize CS b.state.serialize = .ok b.state) ∧
    (∀ input (b : VoprfClientBlindResult CS), VoprfClient.Blinded input b →
      Spec.hashToGroup CS .Voprf input ≠ .ok 0 →
      VoprfClient.deserialize CS b.state.serialize = .ok b.state ∧
      BlindedElement.deserialize CS b.message.serialize = .ok b.message) ∧
    (∀ input (b : PoprfClientBlindResult CS), PoprfClient.Blinded input b →
      Spec.hashToGroup CS .Poprf input ≠ .ok 0 →
      PoprfClient.deserialize CS b.state.serialize = .ok b.state ∧
      BlindedElement.deserialize CS b.message.serialize = .ok b.message) := by
  have nz : ∀ k : CS.Scalar, k ≠ 0 → k • CS.group.baseElem ≠ 0 := fun k hk h =>
    hk ((smul_base_eq_zero k).mp h)
  refine ⟨?_, ?_, ?_, ?_, ?_, ?_⟩
  · intro s hs; exact (C17_roundtrip.oprfServer s).1 (hs.sk_ne_zero wf)
  · intro s hs
    obtain ⟨h1, h2⟩ := hs.key wf
    exact (C17_roundtrip.voprfServer s).1 ⟨h1, by rw [h2]; exact nz _ h1⟩
  · intro s hs
    obtain ⟨h1, h2⟩ := hs.key wf
    exact (C17_roundtrip.poprfServer s).1 ⟨h1, by rw [h2]; exact nz _ h1⟩
  · rintro input b ⟨σ, _, g, g', hb⟩
    obtain ⟨x, P, -, hx, hP, rfl⟩ := OprfClient.blindInput_ok wf hb
    exact (C17_roundtrip.oprfClient _).1 hx
  · rintro input b ⟨σ, _, g, g', hb⟩ h0
    obtain ⟨x, P, -, hx, hP, rfl⟩ := VoprfClient.blindInput_ok wf hb
    have : x • P ≠ 0 := fun h => (smul_eq_zero.mp h).elim hx (fun h => h0 (h ▸ hP))
    exact ⟨(C17_roundtrip.voprfClient _).1 ⟨hx, this⟩, (C17_roundtrip.blindedElement _).1 this⟩
  · rintro input b ⟨σ, _, g, g', hb⟩ h0
    obtain ⟨x, P, -, hx, hP, rfl⟩ := PoprfClient.blindInput_ok wf hb
    have : x • P ≠ 0 := fun h => (smul_eq_zero.mp h).elim hx (fun h => h0 (h ▸ hP))
    exact ⟨(C17_roundtrip.poprfClient _).1 ⟨hx, this⟩, (C17_roundtrip.blindedElement _).1 this⟩

/-! ## C18 -/

/-- C18: the serialization of every value of each wire type has exactly the published length. -/
theorem C18_lengths : AllWire CS fun w => ∀ x, (w.serialize x).length = w.len := by
  constructor <;> intro x
  · exact CS.group.serializeScalar_length _
  · simp [VoprfClient.wire, VoprfClient.serialize, VoprfClientLen, CS.group.serializeScalar_length,
      CS.group.serializeElem_length]
  · simp [PoprfClient.wire, PoprfClient.serialize, PoprfClientLen, CS.group.serializeScalar_length,
      CS.group.serializeElem_length]
  · exact CS.group.serializeScalar_length _
  · simp [VoprfServer.wire, VoprfServer.serialize, VoprfServerLen, CS.group.serializeScalar_length,
      CS.group.serializeElem_length]
  · simp [PoprfServer.wire, PoprfServer.serialize, PoprfServerLen, CS.group.serializeScalar_length,
      CS.group.serializeElem_length]
  · simp [Proof.wire, Proof.serialize, ProofLen, CS.group.serializeScalar_length]
  · exact CS.group.serializeElem_length _
  · exact CS.group.serializeElem_length _

/-- C18, in numbers: states of verifiable clients and servers take one scalar and one element, a proof two
scalars, whatever the size of the batch it covers. -/
theorem C18_values (CS : CipherSuite) :
    OprfClientLen CS = CS.group.scalarLen ∧ OprfServerLen CS = CS.group.scalarLen ∧
    VoprfClientLen CS = CS.group.scalarLen + CS.group.elemLen ∧
    PoprfClientLen CS = CS.group.scalarLen + CS.group.elemLen ∧
    VoprfServerLen CS = CS.group.scalarLen + CS.group.elemLen ∧
    PoprfServerLen CS = CS.group.scalarLen + CS.group.elemLen ∧
    ProofLen CS = 2 * CS.group.scalarLen ∧
    BlindedElementLen CS = CS.group.elemLen ∧ EvaluationElementLen CS = CS.group.elemLen :=
  ⟨rfl, rfl, rfl, rfl, rfl, rfl, by unfold ProofLen; omega, rfl, rfl⟩

/-! ## Outputs -/

omit L in
theorem serverEvaluateHashInput_length {input : Bytes} {info : Option Bytes} {e out : Bytes}
    (h : serverEvaluateHashInput CS input info e = .ok out) : out.length = CS.hash.outputSize := by
  unfold serverEvaluateHashInput at h
  obtain ⟨_, -, h⟩ := Res.bind_eq_ok.mp h
  cases info with
  | none =>
    obtain ⟨_, -, h⟩ := Res.bind_eq_ok.mp h
    obtain ⟨_, -, h⟩ := Res.bind_eq_ok.mp h
    cases h
    exact CS.hash.digest_length _
  | some info =>
    obtain ⟨_, -, h⟩ := Res.bind_eq_ok.mp h
    obtain ⟨_, -, h⟩ := Res.bind_eq_ok.mp h
    obtain ⟨_, -, h⟩ := Res.bind_eq_ok.mp h
    cases h
    exact CS.hash.digest_length _

omit L in
theorem Oprf.finalizeItem_length {item : Bytes × Res CS.Elem} {out : Bytes}
    (h : Oprf.finalizeItem CS item = .ok out) : out.length = CS.hash.outputSize := by
  unfold Oprf.finalizeItem at h
  obtain ⟨_, -, h⟩ := Res.bind_eq_ok.mp h
  obtain ⟨_, -, h⟩ := Res.bind_eq_ok.mp h
  cases h
  exact CS.hash.digest_length _

omit L in
theorem Verifiable.finalizeItem_length {item : Bytes × Res CS.Elem} {out : Bytes}
    (h : Verifiable.finalizeItem CS item = .ok out) : out.length = CS.hash.outputSize := by
  unfold Verifiable.finalizeItem at h
  obtain ⟨_, -, h⟩ := Res.bind_eq_ok.mp h
  obtain ⟨_, -, h⟩ := Res.bind_eq_ok.mp h
  cases h
  exact CS.hash.digest_length _

omit L in
theorem Poprf.finalizeItem_length {item : (Res CS.Elem × Bytes) × Bytes} {out : Bytes}
    (h : Poprf.finalizeItem CS item = .ok out) : out.length = CS.hash.outputSize := by
  unfold Poprf.finalizeItem at h
  obtain ⟨_, -, h⟩ := Res.bind_eq_ok.mp h
  obtain ⟨_, -, h⟩ := Res.bind_eq_ok.mp h
  obtain ⟨_, -, h⟩ := Res.bind_eq_ok.mp h
  cases h
  exact CS.hash.digest_length _

/-- C18: every output a client or a server computes, alone or in a batch, in each mode and with any info, has exactly the
length of the suite's hash. -/
theorem C18_outputs (CS : CipherSuite) (out : Bytes) :
    (∀ (c : OprfClient CS) input e, c.finalize input e = .ok out → out.length = CS.hash.outputSize) ∧
    (∀ (s : OprfServer CS) input, s.evaluate input = .ok out → out.length = CS.hash.outputSize) ∧
    (∀ (c : VoprfClient CS) input e proof pk, c.finalize input e proof pk = .ok out → out.length = CS.hash.outputSize) ∧
    (∀ (s : VoprfServer CS) input, s.evaluate input = .ok out → out.length = CS.hash.outputSize) ∧
    (∀ inputs (cs : List (VoprfClient CS)) es proof pk outs, VoprfClient.batchFinalize inputs cs es proof pk = .ok outs →
      .ok out ∈ outs → out.length = CS.hash.outputSize) ∧
    (∀ (c : PoprfClient CS) input e proof pk info, c.finalize input e proof pk info = .ok out →
      out.length = CS.hash.outputSize) ∧
    (∀ (s : PoprfServer CS) input info, s.evaluate input info = .ok out → out.length = CS.hash.outputSize) ∧
    (∀ inputs (cs : List (PoprfClient CS)) es proof pk info outs,
      PoprfClient.batchFinalize inputs cs es proof pk info = .ok outs → .ok out ∈ outs →
        out.length = CS.hash.outputSize) := by
  have hv : ∀ inputs (cs : List (VoprfClient CS)) es proof pk outs, VoprfClient.batchFinalize inputs cs es proof pk = .ok outs →
      .ok out ∈ outs → out.length = CS.hash.outputSize := by
    intro inputs cs es proof pk outs h hm
    unfold VoprfClient.batchFinalize at h
    obtain ⟨_, -, h⟩ := Res.bind_eq_ok.mp h
    cases h
    obtain ⟨_, -, h⟩ := List.mem_map.mp hm
    exact Verifiable.finalizeItem_length h
  have hp : ∀ inputs (cs : List (PoprfClient CS)) es proof pk info outs,
      PoprfClient.batchFinalize inputs cs es proof pk info = .ok outs → .ok out ∈ outs →
        out.length = CS.hash.outputSize := by
    intro inputs cs es proof pk info outs h hm
    unfold PoprfClient.batchFinalize at h
    obtain ⟨_, -, h⟩ := Res.bind_eq_ok.mp h
    unfold Poprf.finalizeAfterUnblind at h
    split at h
    · cases h
    · cases h
      obtain ⟨_, -, h⟩ := List.mem_map.mp hm
      exact Poprf.finalizeItem_length h
  refine ⟨?_, ?_, ?_, ?_, hv, ?_, ?_, hp⟩
  · intro c input e h
    unfold OprfClient.finalize at h
    obtain ⟨inv, -, h⟩ := Res.bind_eq_ok.mp h
    exact Oprf.finalizeItem_length (item := (input, .ok (CS.group.elemMul e.value inv))) h
  · intro s input h
    unfold OprfServer.evaluate at h
    obtain ⟨_, -, h⟩ := Res.bind_eq_ok.mp h
    split at h
    · cases h
    · exact serverEvaluateHashInput_length h
  · intro c input e proof pk h
    unfold VoprfClient.finalize at h
    obtain ⟨l, h', h⟩ := Res.bind_eq_ok.mp h
    obtain ⟨o, h1, h⟩ := Res.bind_eq_ok.mp h
    cases l with
    | nil => cases h1
    | cons a l => cases h1; exact hv _ _ _ _ _ _ h' (h ▸ List.mem_cons_self)
  · intro s input h
    unfold VoprfServer.evaluate at h
    obtain ⟨_, -, h⟩ := Res.bind_eq_ok.mp h
    split at h
    · cases h
    · exact serverEvaluateHashInput_length h
  · intro c input e proof pk info h
    unfold PoprfClient.finalize at h
    obtain ⟨l, h', h⟩ := Res.bind_eq_ok.mp h
    obtain ⟨o, h1, h⟩ := Res.bind_eq_ok.mp h
    cases l with
    | nil => cases h1
    | cons a l => cases h1; exact hp _ _ _ _ _ _ _ h' (h ▸ List.mem_cons_self)
  · intro s input info h
    unfold PoprfServer.evaluate at h
    obtain ⟨_, -, h⟩ := Res.bind_eq_ok.mp h
    split at h
    · cases h
    · obtain ⟨_, -, h⟩ := Res.bind_eq_ok.mp h
      obtain ⟨_, -, h⟩ := Res.bind_eq_ok.mp h
      exact serverEvaluateHashInput_length h

/-- The hypothesis is met: a server of the small suite evaluates an input, to two bytes. -/
example : ∃ out, OprfServer.evaluate (CS := Toy.suite) ⟨(7 : ZMod 251)⟩ [1, 2, 3] = .ok out ∧ out.length = 2 := by
  obtain ⟨out, h⟩ := Res.exists_of_isOk (x := OprfServer.evaluate (CS := Toy.suite) ⟨(7 : ZMod 251)⟩ [1, 2, 3]) (by decide +kernel)
  exact ⟨out, h, ((C18_outputs Toy.suite out).2.1 _ _ h)⟩

/-! ## C19–C21 -/

/-- the complete behaviour of a wire type's `deserialize` -/
def WireFormat.Reads {α : Type} (w : WireFormat α) : Prop :=
  ∀ input : Bytes,
    (w.deserialize input = .err .Deserialization ∧
      (w.len ≤ input.length → ∀ rest, w.deserialize (input ++ rest) = .err .Deserialization)) ∨
    (∃ x, w.deserialize input = .ok x ∧ w.Valid x ∧ w.len ≤ input.length ∧
      ∀ rest, w.deserialize (input ++ rest) = .ok x)

theorem allWire_reads : AllWire CS fun w => w.Reads := by
  constructor <;> intro input
  · simp only [OprfClient.wire, OprfClient.deserialize, OprfClientLen]
    rcases readScalar_cases (CS := CS) input with ⟨h, h'⟩ | ⟨a, ha, hl, -, h, h'⟩
    · exact .inl ⟨by simp [h], fun hl rest => by simp [h' rest hl]⟩
    · exact .inr ⟨⟨a⟩, by simp [h], ha, hl, fun rest => by simp [h' rest]⟩
  · simp only [VoprfClient.wire, VoprfClient.deserialize, VoprfClientLen]
    rcases readScalar_cases (CS := CS) input with ⟨h, h'⟩ | ⟨a, ha, hl, -, h, h'⟩
    · exact .inl ⟨by simp [h], fun hl rest => by simp [h' rest (by omega)]⟩
    · rcases readElem_cases (CS := CS) (input.drop CS.group.scalarLen) with
        ⟨g, g'⟩ | ⟨e, he, gl, -, g, g'⟩
      · exact .inl ⟨by simp [h, g], fun hl rest => by
          simp [h' rest, g' rest (by rw [List.length_drop]; omega)]⟩
      · rw [List.length_drop] at gl
        exact .inr ⟨⟨a, e⟩, by simp [h, g], ⟨ha, he⟩, by omega, fun rest => by simp [h' rest, g' rest]⟩
  · simp only [PoprfClient.wire, PoprfClient.deserialize, PoprfClientLen]
    rcases readScalar_cases (CS := CS) input with ⟨h, h'⟩ | ⟨a, ha, hl, -, h, h'⟩
    · exact .inl ⟨by simp [h], fun hl rest => by simp [h' rest (by omega)]⟩
    · rcases readElem_cases (CS := CS) (input.drop CS.group.scalarLen) with
        ⟨g, g'⟩ | ⟨e, he, gl, -, g, g'⟩
      · exact .inl ⟨by simp [h, g], fun hl rest => by
          simp [h' rest, g' rest (by rw [List.length_drop]; omega)]⟩
      · rw [List.length_drop] at gl
        exact .inr ⟨⟨a, e⟩, by simp [h, g], ⟨ha, he⟩, by omega, fun rest => by simp [h' rest, g' rest]⟩
  · simp only [OprfServer.wire, OprfServer.deserialize, OprfServerLen]
    rcases readScalar_cases (CS := CS) input with ⟨h, h'⟩ | ⟨a, ha, hl, -, h, h'⟩
    · exact .inl ⟨by simp [h], fun hl rest => by simp [h' rest hl]⟩
    · exact .inr ⟨⟨a⟩, by simp [h], ha, hl, fun rest => by simp [h' rest]⟩
  · simp only [VoprfServer.wire, VoprfServer.deserialize, VoprfServerLen]
    rcases readScalar_cases (CS := CS) input with ⟨h, h'⟩ | ⟨a, ha, hl, -, h, h'⟩
    · exact .inl ⟨by simp [h], fun hl rest => by simp [h' rest (by omega)]⟩
    · rcases readElem_cases (CS := CS) (input.drop CS.group.scalarLen) with
        ⟨g, g'⟩ | ⟨e, he, gl, -, g, g'⟩
      · exact .inl ⟨by simp [h, g], fun hl rest => by
          simp [h' rest, g' rest (by rw [List.length_drop]; omega)]⟩
      · rw [List.length_drop] at gl
        exact .inr ⟨⟨a, e⟩, by simp [h, g], ⟨ha, he⟩, by omega, fun rest => by simp [h' rest, g' rest]⟩
  · simp only [PoprfServer.wire, PoprfServer.deserialize, PoprfServerLen]
    rcases readScalar_cases (CS := CS) input with ⟨h, h'⟩ | ⟨a, ha, hl, -, h, h'⟩
    · exact .inl ⟨by simp [h], fun hl rest => by simp [h' rest (by omega)]⟩
    · rcases readElem_cases (CS := CS) (input.drop CS.group.scalarLen) with
        ⟨g, g'⟩ | ⟨e, he, gl, -, g, g'⟩
      · exact .inl ⟨by simp [h, g], fun hl rest => by
          simp [h' rest, g' rest (by rw [List.length_drop]; omega)]⟩
      · rw [List.length_drop] at gl
        exact .inr ⟨⟨a, e⟩, by simp [h, g], ⟨ha, he⟩, by omega, fun rest => by simp [h' rest, g' rest]⟩
  · simp only [Proof.wire, Proof.deserialize, ProofLen]
    rcases readScalar_cases (CS := CS) input with ⟨h, h'⟩ | ⟨a, ha, hl, -, h, h'⟩
    · exact .inl ⟨by simp [h], fun hl rest => by simp [h' rest (by omega)]⟩
    · rcases readScalar_cases (CS := CS) (input.drop CS.group.scalarLen) with
        ⟨g, g'⟩ | ⟨e, he, gl, -, g, g'⟩
      · exact .inl ⟨by simp [h, g], fun hl rest => by
          simp [h' rest, g' rest (by rw [List.length_drop]; omega)]⟩
      · rw [List.length_drop] at gl
        exact .inr ⟨⟨a, e⟩, by simp [h, g], ⟨ha, he⟩, by omega, fun rest => by simp [h' rest, g' rest]⟩
  · simp only [BlindedElement.wire, BlindedElement.deserialize, BlindedElementLen]
    rcases readElem_cases (CS := CS) input with ⟨h, h'⟩ | ⟨a, ha, hl, -, h, h'⟩
    · exact .inl ⟨by simp [h], fun hl rest => by simp [h' rest hl]⟩
    · exact .inr ⟨⟨a⟩, by simp [h], ha, hl, fun rest => by simp [h' rest]⟩
  · simp only [EvaluationElement.wire, EvaluationElement.deserialize, EvaluationElementLen]
    rcases readElem_cases (CS := CS) input with ⟨h, h'⟩ | ⟨a, ha, hl, -, h, h'⟩
    · exact .inl ⟨by simp [h], fun hl rest => by simp [h' rest hl]⟩
    · exact .inr ⟨⟨a⟩, by simp [h], ha, hl, fun rest => by simp [h' rest]⟩

theorem AllWire.imp {p q : ∀ {α : Type}, WireFormat α → Prop}
    (h : ∀ {α : Type} (w : WireFormat α), p w → q w) (a : AllWire CS p) : AllWire CS q :=
  ⟨h _ a.1, h _ a.2, h _ a.3, h _ a.4, h _ a.5, h _ a.6, h _ a.7, h _ a.8, h _ a.9⟩

/-- C19: for every byte string `deserialize` returns a value or `Error::Deserialization` (it never panics
or returns another error), and strings shorter than the published length are always refused. -/
theorem C19_total : AllWire CS fun w => ∀ input : Bytes,
    ((∃ x, w.deserialize input = .ok x) ∨ w.deserialize input = .err .Deserialization) ∧
    (input.length < w.len → w.deserialize input = .err .Deserialization) := by
  refine AllWire.imp ?_ allWire_reads
  intro α w h input
  rcases h input with ⟨h, -⟩ | ⟨x, h, -, hl, -⟩
  · exact ⟨.inr h, fun _ => h⟩
  · exact ⟨.inl ⟨x, h⟩, fun hc => absurd hl (by omega)⟩

/-- C20: whatever is deserialized is valid: no zero scalar, no identity element. -/
theorem C20_valid : AllWire CS fun w => ∀ (input : Bytes) x, w.deserialize input = .ok x → w.Valid x := by
  refine AllWire.imp ?_ allWire_reads
  intro α w h input x hx
  rcases h input with ⟨h, -⟩ | ⟨y, h, hv, -, -⟩
  · simp [h] at hx
  · rw [h] at hx; cases hx; exact hv

/-- C20 for private keys given as bytes: `new_with_key` succeeds only with a non-zero scalar and builds a
non-identity public key. -/
theorem C20_new_with_key (key : Bytes) :
    (∀ s, OprfServer.newWithKey CS key = .ok s → s.sk ≠ 0) ∧
    (∀ s, VoprfServer.newWithKey CS key = .ok s → s.sk ≠ 0 ∧ s.pk ≠ 0) ∧
    (∀ s, PoprfServer.newWithKey CS key = .ok s → s.sk ≠ 0 ∧ s.pk ≠ 0) := by
  refine ⟨?_, ?_, ?_⟩
  · intro s h
    simp only [OprfServer.newWithKey, Res.bind_eq_ok, Res.ofExcept_eq_ok, Res.pure_eq,
      Res.ok.injEq] at h
    obtain ⟨k, hk, rfl⟩ := h
    exact VGroup.Lawful.deserializeScalar_ne_zero _ _ hk
  · intro s h
    simp only [VoprfServer.newWithKey, Res.bind_eq_ok, Res.ofExcept_eq_ok, Res.pure_eq,
      Res.ok.injEq, VGroup.Lawful.elemMul_eq] at h
    obtain ⟨k, hk, rfl⟩ := h
    have := VGroup.Lawful.deserializeScalar_ne_zero _ _ hk
    exact ⟨this, fun h => this ((smul_base_eq_zero k).mp h)⟩
  · intro s h
    simp only [PoprfServer.newWithKey, Res.bind_eq_ok, Res.ofExcept_eq_ok, Res.pure_eq,
      Res.ok.injEq, VGroup.Lawful.elemMul_eq] at h
    obtain ⟨k, hk, rfl⟩ := h
    have := VGroup.Lawful.deserializeScalar_ne_zero _ _ hk
    exact ⟨this, fun h => this ((smul_base_eq_zero k).mp h)⟩

/-- C21: `deserialize` looks at the first `len` bytes only: the result on a string is the result on its
prefix, so appending anything to an accepted string changes nothing and is not rejected. -/
theorem C21_prefix : AllWire CS fun w => ∀ input : Bytes,
    w.deserialize input = w.deserialize (input.take w.len) := by
  refine AllWire.imp ?_ allWire_reads
  intro α w h input
  by_cases hl : w.len ≤ input.length
  · have hlt : (input.take w.len).length = w.len := by simp [hl]
    have hr := h (input.take w.len)
    rcases hr with ⟨h1, h2⟩ | ⟨x, h1, -, -, h2⟩
    · rw [h1, ← h2 (by omega) (input.drop w.len), List.take_append_drop]
    · rw [h1, ← h2 (input.drop w.len), List.take_append_drop]
  · rw [List.take_of_length_le (by omega)]

/-- C21: trailing bytes are accepted. -/
theorem C21_trailing : AllWire CS fun w => ∀ (input rest : Bytes) x,
    w.deserialize input = .ok x → w.deserialize (input ++ rest) = .ok x := by
  refine AllWire.imp ?_ allWire_reads
  intro α w h input rest x hx
  rcases h input with ⟨h1, -⟩ | ⟨y, h1, -, -, h2⟩
  · simp [h1] at hx
  · rw [h1] at hx; cases hx; exact h2 rest

/-! ## C22 -/

theorem serializeElem_injective : Function.Injective CS.group.serializeElem := by
  intro P Q h
  by_cases hP : P = 0
  · by_cases hQ : Q = 0
    · rw [hP, hQ]
    · have h1 := VGroup.Lawful.deserializeElem_serialize Q hQ
      rw [← h, hP, VGroup.Lawful.deserializeElem_serialize_zero] at h1
      simp at h1
  · by_cases hQ : Q = 0
    · have h1 := VGroup.Lawful.deserializeElem_serialize P hP
      rw [h, hQ, VGroup.Lawful.deserializeElem_serialize_zero] at h1
      simp at h1
    · have h1 := VGroup.Lawful.deserializeElem_serialize P hP
      rw [h, VGroup.Lawful.deserializeElem_serialize Q hQ] at h1
      exact (Except.ok.inj h1).symm

theorem serializeScalar_injective : Function.Injective CS.group.serializeScalar := by
  intro P Q h
  by_cases hP : P = 0
  · by_cases hQ : Q = 0
    · rw [hP, hQ]
    · have h1 := VGroup.Lawful.deserializeScalar_serialize Q hQ
      rw [← h, hP, VGroup.Lawful.deserializeScalar_serialize_zero] at h1
      simp at h1
  · by_cases hQ : Q = 0
    · have h1 := VGroup.Lawful.deserializeScalar_serialize P hP
      rw [h, hQ, VGroup.Lawful.deserializeScalar_serialize_zero] at h1
      simp at h1
    · have h1 := VGroup.Lawful.deserializeScalar_serialize P hP
      rw [h, VGroup.Lawful.deserializeScalar_serialize Q hQ] at h1
      exact (Except.ok.inj h1).symm

/-- C22: equal serializations come from equal values, valid or not. -/
theorem C22_injective : AllWire CS fun w => Function.Injective w.serialize := by
  have hse : ∀ (a b : CS.Scalar) (P Q : CS.Elem),
      CS.group.serializeScalar a ++ CS.group.serializeElem P =
        CS.group.serializeScalar b ++ CS.group.serializeElem Q → a = b ∧ P = Q := by
    intro a b P Q h
    obtain ⟨h1, h2⟩ := List.append_inj h (by simp [CS.group.serializeScalar_length])
    exact ⟨serializeScalar_injective h1, serializeElem_injective h2⟩
  constructor
  · rintro ⟨a⟩ ⟨b⟩ h; exact congrArg _ (serializeScalar_injective h)
  · rintro ⟨a, P⟩ ⟨b, Q⟩ h; obtain ⟨rfl, rfl⟩ := hse _ _ _ _ h; rfl
  · rintro ⟨a, P⟩ ⟨b, Q⟩ h; obtain ⟨rfl, rfl⟩ := hse _ _ _ _ h; rfl
  · rintro ⟨a⟩ ⟨b⟩ h; exact congrArg _ (serializeScalar_injective h)
  · rintro ⟨a, P⟩ ⟨b, Q⟩ h; obtain ⟨rfl, rfl⟩ := hse _ _ _ _ h; rfl
  · rintro ⟨a, P⟩ ⟨b, Q⟩ h; obtain ⟨rfl, rfl⟩ := hse _ _ _ _ h; rfl
  · rintro ⟨a, P⟩ ⟨b, Q⟩ h
    obtain ⟨h1, h2⟩ := List.append_inj h (by simp [CS.group.serializeScalar_length])
    have e1 : a = b := serializeScalar_injective h1
    have e2 : P = Q := serializeScalar_injective h2
    rw [e1, e2]
  · rintro ⟨a⟩ ⟨b⟩ h; exact congrArg _ (serializeElem_injective h)
  · rintro ⟨a⟩ ⟨b⟩ h; exact congrArg _ (serializeElem_injective h)

/-- For a group with canonical decoding, every accepted string starts with the serialization of the value
it decodes to: there is one encoding per value. -/
theorem C22_canonical (hcan : CS.group.Canonical) : AllWire CS fun w => ∀ (input : Bytes) x,
    w.deserialize input = .ok x → input.take w.len = w.serialize x := by
  have rs : ∀ (input : Bytes) a rest, readScalar CS.group input = .ok (a, rest) →
      input = CS.group.serializeScalar a ++ rest := by
    intro input a rest h
    rcases readScalar_cases (CS := CS) input with ⟨h', -⟩ | ⟨a', _, _, hd, h', -⟩
    · simp [h'] at h
    · rw [h'] at h
      simp only [Res.ok.injEq, Prod.mk.injEq] at h
      obtain ⟨rfl, rfl⟩ := h
      rw [← hcan.scalar _ _ hd, List.take_append_drop]
  have re : ∀ (input : Bytes) a rest, readElem CS.group input = .ok (a, rest) →
      input = CS.group.serializeElem a ++ rest := by
    intro input a rest h
    rcases readElem_cases (CS := CS) input with ⟨h', -⟩ | ⟨a', _, _, hd, h', -⟩
    · simp [h'] at h
    · rw [h'] at h
      simp only [Res.ok.injEq, Prod.mk.injEq] at h
      obtain ⟨rfl, rfl⟩ := h
      rw [← hcan.elem _ _ hd, List.take_append_drop]
  have tk : ∀ (a b : Bytes) n, a.length = n → (a ++ b).take n = a := by
    rintro a b n rfl; simp
  have ls := C18_lengths (CS := CS)
  constructor <;> intro input x h
  · simp only [OprfClient.wire, OprfClient.deserialize, Res.bind_eq_ok] at h
    obtain ⟨⟨a, r⟩, h1, h2⟩ := h
    simp only [Res.pure_eq, Res.ok.injEq] at h2
    subst h2
    rw [rs _ _ _ h1]; exact tk _ _ _ (ls.oprfClient _)
  · simp only [VoprfClient.wire, VoprfClient.deserialize, Res.bind_eq_ok] at h
    obtain ⟨⟨a, r⟩, h1, ⟨e, r'⟩, h2, h3⟩ := h
    simp only [Res.pure_eq, Res.ok.injEq] at h3
    simp only at h2
    subst h3
    rw [rs _ _ _ h1, re _ _ _ h2, ← List.append_assoc]; exact tk _ _ _ (ls.voprfClient ⟨a, e⟩)
  · simp only [PoprfClient.wire, PoprfClient.deserialize, Res.bind_eq_ok] at h
    obtain ⟨⟨a, r⟩, h1, ⟨e, r'⟩, h2, h3⟩ := h
    simp only [Res.pure_eq, Res.ok.injEq] at h3
    simp only at h2
    subst h3
    rw [rs _ _ _ h1, re _ _ _ h2, ← List.append_assoc]; exact tk _ _ _ (ls.poprfClient ⟨a, e⟩)
  · simp only [OprfServer.wire, OprfServer.deserialize, Res.bind_eq_ok] at h
    obtain ⟨⟨a, r⟩, h1, h2⟩ := h
    simp only [Res.pure_eq, Res.ok.injEq] at h2
    subst h2
    rw [rs _ _ _ h1]; exact tk _ _ _ (ls.oprfServer _)
  · simp only [VoprfServer.wire, VoprfServer.deserialize, Res.bind_eq_ok] at h
    obtain ⟨⟨a, r⟩, h1, ⟨e, r'⟩, h2, h3⟩ := h
    simp only [Res.pure_eq, Res.ok.injEq] at h3
    simp only at h2
    subst h3
    rw [rs _ _ _ h1, re _ _ _ h2, ← List.append_assoc]; exact tk _ _ _ (ls.voprfServer ⟨a, e⟩)
  · simp only [PoprfServer.wire, PoprfServer.deserialize, Res.bind_eq_ok] at h
    obtain ⟨⟨a, r⟩, h1, ⟨e, r'⟩, h2, h3⟩ := h
    simp only [Res.pure_eq, Res.ok.injEq] at h3
    simp only at h2
    subst h3
    rw [rs _ _ _ h1, re _ _ _ h2, ← List.append_assoc]; exact tk _ _ _ (ls.poprfServer ⟨a, e⟩)
  · simp only [Proof.wire, Proof.deserialize, Res.bind_eq_ok] at h
    obtain ⟨⟨a, r⟩, h1, ⟨e, r'⟩, h2, h3⟩ := h
    simp only [Res.pure_eq, Res.ok.injEq] at h3
    simp only at h2
    subst h3
    rw [rs _ _ _ h1, rs _ _ _ h2, ← List.append_assoc]; exact tk _ _ _ (ls.proof ⟨a, e⟩)
  · simp only [BlindedElement.wire, BlindedElement.deserialize, Res.bind_eq_ok] at h
    obtain ⟨⟨a, r⟩, h1, h2⟩ := h
    simp only [Res.pure_eq, Res.ok.injEq] at h2
    subst h2
    rw [re _ _ _ h1]; exact tk _ _ _ (ls.blindedElement _)
  · simp only [EvaluationElement.wire, EvaluationElement.deserialize, Res.bind_eq_ok] at h
    obtain ⟨⟨a, r⟩, h1, h2⟩ := h
    simp only [Res.pure_eq, Res.ok.injEq] at h2
    subst h2
    rw [re _ _ _ h1]; exact tk _ _ _ (ls.evaluationElement _)

section examples
open Toy

/-- A valid client state, an invalid proof, a too short string and trailing bytes, on the toy suite. -/
example : VoprfClient.deserialize suite (⟨7, 9⟩ : VoprfClient suite).serialize = .ok ⟨7, 9⟩ ∧
    Proof.deserialize suite (⟨7, (0 : F)⟩ : Proof suite).serialize = .err .Deserialization ∧
    Proof.deserialize suite [7] = .err .Deserialization ∧
    Proof.deserialize suite [7, 8, 99, 100] = .ok ⟨7, 8⟩ := ⟨rfl, rfl, rfl, rfl⟩

theorem Toy.canonical : suite.group.Canonical := by
  have h : ∀ (b : Bytes) (a : F), Toy.des b = .ok a → b = Toy.ser a := by
    intro b a h
    unfold Toy.des at h
    split at h
    · next x =>
      split at h
      · simp at h
      · next hx =>
        simp only [Except.ok.injEq] at h
        subst h
        have : ((x.toNat : F)).val = x.toNat := ZMod.val_cast_of_lt (by omega)
        simp [Toy.ser, this]
    · simp at h
  exact ⟨h, h⟩

end examples

end Voprf
