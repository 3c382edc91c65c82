import Verif.Props.Binding
import Verif.Props.Transcripts

/-!
# C08, C23–C25, C33, C46: blinding, keys and key derivation
-/

namespace Voprf

open Spec

variable {CS : CipherSuite} [L : CS.group.Lawful]

/-! ## C46 -/

omit L in
/-- C46: `blind` is `deterministic_blind_unchecked` applied to the scalar drawn from the generator (in all
three modes); `deterministic_blind_unchecked` keeps exactly the given blind. -/
theorem C46_blind_is_deterministic {σ : Type} [RngCore σ] (input : Bytes) (rng : σ) :
    (OprfClient.blindInput CS input rng =
      match CS.group.randomScalar rng with
      | none => .diverge
      | some (x, rng') => (OprfClient.deterministicBlindUnchecked CS input x) >>= fun b => .ok (b, rng')) ∧
    (VoprfClient.blindInput CS input rng =
      match CS.group.randomScalar rng with
      | none => .diverge
      | some (x, rng') => (VoprfClient.deterministicBlindUnchecked CS input x) >>= fun b => .ok (b, rng')) ∧
    (PoprfClient.blindInput CS input rng =
      match CS.group.randomScalar rng with
      | none => .diverge
      | some (x, rng') => (PoprfClient.deterministicBlindUnchecked CS input x) >>= fun b => .ok (b, rng')) := by
  unfold OprfClient.blindInput VoprfClient.blindInput PoprfClient.blindInput
  cases CS.group.randomScalar rng with
  | none => exact ⟨rfl, rfl, rfl⟩
  | some p => exact ⟨rfl, rfl, rfl⟩

/-- C46: the state of `deterministic_blind_unchecked(input, x)` has blind `x` (so `get_blind` returns it) and
the message is `x·HashToGroup(input)`; it fails exactly when hashing fails. -/
theorem C46_deterministic_value (wf : CS.WF) (input : Bytes) (x : CS.Scalar) :
    (∀ P, Spec.hashToGroup CS .Oprf input = .ok P →
      OprfClient.deterministicBlindUnchecked CS input x = .ok ⟨⟨x⟩, ⟨x • P⟩⟩) ∧
    (∀ P, Spec.hashToGroup CS .Voprf input = .ok P →
      VoprfClient.deterministicBlindUnchecked CS input x = .ok ⟨⟨x, x • P⟩, ⟨x • P⟩⟩) ∧
    (∀ P, Spec.hashToGroup CS .Poprf input = .ok P →
      PoprfClient.deterministicBlindUnchecked CS input x = .ok ⟨⟨x, x • P⟩, ⟨x • P⟩⟩) ∧
    (∀ b : OprfClientBlindResult CS, OprfClient.deterministicBlindUnchecked CS input x = .ok b →
      b.state.getBlind = x) := by
  have h1 : ∀ P, Spec.hashToGroup CS .Oprf input = .ok P →
      OprfClient.deterministicBlindUnchecked CS input x = .ok ⟨⟨x⟩, ⟨x • P⟩⟩ := by
    intro P hP
    simp [OprfClient.deterministicBlindUnchecked, OprfClient.deterministicBlindUncheckedInner,
      Voprf.deterministicBlindUnchecked, hashToGroup_eq wf, hP]
  refine ⟨h1, ?_, ?_, ?_⟩
  · intro P hP
    simp [VoprfClient.deterministicBlindUnchecked, VoprfClient.deterministicBlindUncheckedInner,
      Voprf.deterministicBlindUnchecked, hashToGroup_eq wf, hP]
  · intro P hP
    simp [PoprfClient.deterministicBlindUnchecked, PoprfClient.deterministicBlindUncheckedInner,
      Voprf.deterministicBlindUnchecked, hashToGroup_eq wf, hP]
  · intro b hb
    simp only [OprfClient.deterministicBlindUnchecked, OprfClient.deterministicBlindUncheckedInner,
      Res.bind_eq_ok, Res.pure_eq, Res.ok.injEq] at hb
    obtain ⟨_, -, rfl⟩ := hb
    rfl

/-- C46: `derive_key` returns the private key of `new_from_seed` (same errors included), in each mode, and
the unchecked constructors and accessors of messages are inverse to each other. -/
theorem C46_derive_key (seed info : Bytes) :
    (OprfServer.newFromSeed CS seed info = (deriveKey CS seed info .Oprf >>= fun k => .ok ⟨k⟩)) ∧
    (VoprfServer.newFromSeed CS seed info =
      (deriveKey CS seed info .Voprf >>= fun k => .ok ⟨k, k • CS.group.baseElem⟩)) ∧
    (PoprfServer.newFromSeed CS seed info =
      (deriveKey CS seed info .Poprf >>= fun k => .ok ⟨k, k • CS.group.baseElem⟩)) ∧
    (∀ v : CS.Elem, (BlindedElement.fromValueUnchecked v).getValue = v) ∧
    (∀ v : CS.Elem, (EvaluationElement.fromValueUnchecked v).getValue = v) ∧
    (∀ b : BlindedElement CS, BlindedElement.fromValueUnchecked b.getValue = b) ∧
    (∀ b : EvaluationElement CS, EvaluationElement.fromValueUnchecked b.getValue = b) := by
  refine ⟨rfl, ?_, ?_, fun _ => rfl, fun _ => rfl, fun _ => rfl, fun _ => rfl⟩
  · simp [VoprfServer.newFromSeed, deriveKeypair, deriveKey, bind_assoc]
  · simp [PoprfServer.newFromSeed, deriveKeypair, deriveKey, bind_assoc]

/-- The calls succeed on the toy suite. -/
example : (OprfClient.deterministicBlindUnchecked Toy.suite [1, 2] 5).isOk = true ∧
    (deriveKey Toy.suite [1, 2] [3] .Voprf).isOk = true := by decide +kernel

/-! ## C08 -/

/-- C08: for an input not hashing to the identity, each non-identity element is the message of exactly one
non-zero blind, and no non-zero blind gives the identity (all three modes). -/
theorem C08_blinding_bijective (wf : CS.WF) (input : Bytes) (Q : CS.Elem) :
    (∀ P, Spec.hashToGroup CS .Oprf input = .ok P → P ≠ 0 →
      (Q ≠ 0 → ∃! x : CS.Scalar, x ≠ 0 ∧ ∃ b,
        OprfClient.deterministicBlindUnchecked CS input x = .ok b ∧ b.message.value = Q) ∧
      (Q = 0 → ¬ ∃ x : CS.Scalar, x ≠ 0 ∧ ∃ b,
        OprfClient.deterministicBlindUnchecked CS input x = .ok b ∧ b.message.value = Q)) ∧
    (∀ P, Spec.hashToGroup CS .Voprf input = .ok P → P ≠ 0 →
      (Q ≠ 0 → ∃! x : CS.Scalar, x ≠ 0 ∧ ∃ b,
        VoprfClient.deterministicBlindUnchecked CS input x = .ok b ∧ b.message.value = Q) ∧
      (Q = 0 → ¬ ∃ x : CS.Scalar, x ≠ 0 ∧ ∃ b,
        VoprfClient.deterministicBlindUnchecked CS input x = .ok b ∧ b.message.value = Q)) ∧
    (∀ P, Spec.hashToGroup CS .Poprf input = .ok P → P ≠ 0 →
      (Q ≠ 0 → ∃! x : CS.Scalar, x ≠ 0 ∧ ∃ b,
        PoprfClient.deterministicBlindUnchecked CS input x = .ok b ∧ b.message.value = Q) ∧
      (Q = 0 → ¬ ∃ x : CS.Scalar, x ≠ 0 ∧ ∃ b,
        PoprfClient.deterministicBlindUnchecked CS input x = .ok b ∧ b.message.value = Q)) := by
  have key : ∀ P : CS.Elem, P ≠ 0 →
      (Q ≠ 0 → ∃! x : CS.Scalar, x ≠ 0 ∧ x • P = Q) ∧
      (Q = 0 → ¬ ∃ x : CS.Scalar, x ≠ 0 ∧ x • P = Q) := by
    intro P hP
    obtain ⟨p, rfl⟩ := VGroup.Lawful.base_generates (G := CS.group) P
    obtain ⟨q, rfl⟩ := VGroup.Lawful.base_generates (G := CS.group) Q
    have hp : p ≠ 0 := fun h => hP (by rw [h, zero_smul])
    constructor
    · intro hQ
      have hq : q ≠ 0 := fun h => hQ (by rw [h, zero_smul])
      refine ⟨q * p⁻¹, ⟨mul_ne_zero hq (inv_ne_zero hp), ?_⟩, ?_⟩
      · rw [← mul_smul, mul_assoc, inv_mul_cancel₀ hp, mul_one]
      · rintro y ⟨-, hy⟩
        rw [← mul_smul] at hy
        rw [← smul_base_inj hy, mul_assoc, mul_inv_cancel₀ hp, mul_one]
    · rintro hQ ⟨x, hx, h⟩
      rw [hQ] at h
      exact (smul_eq_zero.mp h).elim hx hP
  refine ⟨?_, ?_, ?_⟩
  · intro P hP h0
    have hv : ∀ x, (∃ b, OprfClient.deterministicBlindUnchecked CS input x = .ok b ∧
        b.message.value = Q) ↔ x • P = Q := by
      intro x
      rw [(C46_deterministic_value wf input x).1 P hP]
      exact ⟨fun ⟨b, h1, h2⟩ => by cases h1; exact h2, fun h => ⟨_, rfl, h⟩⟩
    simp only [hv]
    exact key P h0
  · intro P hP h0
    have hv : ∀ x, (∃ b, VoprfClient.deterministicBlindUnchecked CS input x = .ok b ∧
        b.message.value = Q) ↔ x • P = Q := by
      intro x
      rw [(C46_deterministic_value wf input x).2.1 P hP]
      exact ⟨fun ⟨b, h1, h2⟩ => by cases h1; exact h2, fun h => ⟨_, rfl, h⟩⟩
    simp only [hv]
    exact key P h0
  · intro P hP h0
    have hv : ∀ x, (∃ b, PoprfClient.deterministicBlindUnchecked CS input x = .ok b ∧
        b.message.value = Q) ↔ x • P = Q := by
      intro x
      rw [(C46_deterministic_value wf input x).2.2.1 P hP]
      exact ⟨fun ⟨b, h1, h2⟩ => by cases h1; exact h2, fun h => ⟨_, rfl, h⟩⟩
    simp only [hv]
    exact key P h0

/-- The number of values with a property that one value has, or none has. -/
theorem card_unique {α : Type} {Q : Prop} {p : α → Prop} (h : (Q → ∃! x, p x) ∧ (¬ Q → ¬ ∃ x, p x)) [Decidable Q] :
    Nat.card {x // p x} = if Q then 1 else 0 := by
  split
  · obtain ⟨x, hx, hu⟩ := h.1 ‹_›
    rw [Nat.card_eq_one_iff_unique]
    exact ⟨⟨fun a b => Subtype.ext ((hu _ a.2).trans (hu _ b.2).symm)⟩, ⟨⟨x, hx⟩⟩⟩
  · have e := h.2 ‹_›
    rw [not_exists] at e
    exact Nat.card_eq_zero.mpr (.inl ⟨fun a => e _ a.2⟩)

/-- C08, independence: for two inputs not hashing to the identity, every transmitted message is produced by
equally many non-zero blinds; a uniformly drawn blind makes the message independent of the input (all three modes). -/
theorem C08_same_distribution (wf : CS.WF) (input input' : Bytes) (P P' : CS.Elem) (h0 : P ≠ 0) (h0' : P' ≠ 0)
    (Q : CS.Elem) :
    (Spec.hashToGroup CS .Oprf input = .ok P → Spec.hashToGroup CS .Oprf input' = .ok P' →
      Nat.card {x : CS.Scalar // x ≠ 0 ∧ ∃ b,
        OprfClient.deterministicBlindUnchecked CS input x = .ok b ∧ b.message.value = Q} =
      Nat.card {x : CS.Scalar // x ≠ 0 ∧ ∃ b,
        OprfClient.deterministicBlindUnchecked CS input' x = .ok b ∧ b.message.value = Q}) ∧
    (Spec.hashToGroup CS .Voprf input = .ok P → Spec.hashToGroup CS .Voprf input' = .ok P' →
      Nat.card {x : CS.Scalar // x ≠ 0 ∧ ∃ b,
        VoprfClient.deterministicBlindUnchecked CS input x = .ok b ∧ b.message.value = Q} =
      Nat.card {x : CS.Scalar // x ≠ 0 ∧ ∃ b,
        VoprfClient.deterministicBlindUnchecked CS input' x = .ok b ∧ b.message.value = Q}) ∧
    (Spec.hashToGroup CS .Poprf input = .ok P → Spec.hashToGroup CS .Poprf input' = .ok P' →
      Nat.card {x : CS.Scalar // x ≠ 0 ∧ ∃ b,
        PoprfClient.deterministicBlindUnchecked CS input x = .ok b ∧ b.message.value = Q} =
      Nat.card {x : CS.Scalar // x ≠ 0 ∧ ∃ b,
        PoprfClient.deterministicBlindUnchecked CS input' x = .ok b ∧ b.message.value = Q}) := by
  classical
  obtain ⟨h1, h2, h3⟩ := C08_blinding_bijective wf input Q
  obtain ⟨h1', h2', h3'⟩ := C08_blinding_bijective wf input' Q
  have w : ∀ {p : CS.Scalar → Prop}, (Q ≠ 0 → ∃! x, p x) ∧ (Q = 0 → ¬ ∃ x, p x) →
      (Q ≠ 0 → ∃! x, p x) ∧ (¬ Q ≠ 0 → ¬ ∃ x, p x) := fun h => ⟨h.1, fun hq => h.2 (not_not.1 hq)⟩
  refine ⟨fun hP hP' => ?_, fun hP hP' => ?_, fun hP hP' => ?_⟩
  · rw [card_unique (w (h1 P hP h0)), card_unique (w (h1' P' hP' h0'))]
  · rw [card_unique (w (h2 P hP h0)), card_unique (w (h2' P' hP' h0'))]
  · rw [card_unique (w (h3 P hP h0)), card_unique (w (h3' P' hP' h0'))]

/-- The restriction to inputs not hashing to the identity is needed: `blind` does not check for it, and such
an input is sent as the identity whatever the blind (see C31). -/
theorem C08_identity_input (wf : CS.WF) (input : Bytes) (x : CS.Scalar)
    (hP : Spec.hashToGroup CS .Oprf input = .ok 0) :
    ∃ b, OprfClient.deterministicBlindUnchecked CS input x = .ok b ∧ b.message.value = 0 := by
  refine ⟨_, (C46_deterministic_value wf input x).1 0 hP, ?_⟩
  exact smul_zero x

/-- On the toy suite the input `[1, 2, 3]` hashes to a non-identity element in all modes. -/
example : ∀ m : Mode, ∃ P : Toy.F, Spec.hashToGroup Toy.suite m [1, 2, 3] = .ok P ∧ P ≠ 0 := by
  intro m
  cases m
  · exact ⟨_, rfl, by decide +kernel⟩
  · exact ⟨_, rfl, by decide +kernel⟩
  · exact ⟨_, rfl, by decide +kernel⟩

/-! ## C23 -/

/-- C23: servers built by `new`, `new_with_key` or `new_from_seed` have a non-zero private key and exactly
its public key. -/
theorem C23_public_key (wf : CS.WF) :
    (∀ s : VoprfServer CS, s.Made → s.sk ≠ 0 ∧ s.getPublicKey = s.sk • CS.group.baseElem) ∧
    (∀ s : PoprfServer CS, s.Made → s.sk ≠ 0 ∧ s.getPublicKey = s.sk • CS.group.baseElem) :=
  ⟨fun _ hs => hs.key wf, fun _ hs => hs.key wf⟩

/-- C23: `deserialize` does not check that the two halves belong together: any non-zero scalar followed by
any non-identity element is accepted as a server. -/
theorem C23_deserialize_unchecked (sk : CS.Scalar) (pk : CS.Elem) (h : sk ≠ 0) (h' : pk ≠ 0)
    (rest : Bytes) :
    VoprfServer.deserialize CS (CS.group.serializeScalar sk ++ CS.group.serializeElem pk ++ rest)
      = .ok ⟨sk, pk⟩ ∧
    PoprfServer.deserialize CS (CS.group.serializeScalar sk ++ CS.group.serializeElem pk ++ rest)
      = .ok ⟨sk, pk⟩ := by
  have h1 := (C17_roundtrip.voprfServer (⟨sk, pk⟩ : VoprfServer CS)).1 ⟨h, h'⟩
  have h2 := (C17_roundtrip.poprfServer (⟨sk, pk⟩ : PoprfServer CS)).1 ⟨h, h'⟩
  exact ⟨(C21_trailing (CS := CS)).voprfServer _ rest _ h1,
    (C21_trailing (CS := CS)).poprfServer _ rest _ h2⟩

/-- C23: an inconsistent VOPRF server (as `deserialize` may return) gets an answer to a non-identity request
accepted under its own public key only by a hash coincidence. -/
theorem C23_inconsistent_voprf (wf : CS.WF) (s : VoprfServer CS)
    (hs : s.pk ≠ s.sk • CS.group.baseElem) (client : VoprfClient CS)
    (hb : client.blindedElement ≠ 0) {σ : Type} [RngCore σ] (rng rng' : σ)
    (r : VoprfServerEvaluateResult CS)
    (hr : s.blindEvaluate rng ⟨client.blindedElement⟩ = .ok (r, rng')) (input out : Bytes)
    (h : client.finalize input r.message r.proof s.getPublicKey = .ok out) :
    weight CS .Voprf s.pk 0 client.blindedElement r.message.value = .ok 0 ∨
    ∃ w, weight CS .Voprf s.pk 0 client.blindedElement r.message.value = .ok w ∧
      LuckyHash CS .Voprf s.pk (w • client.blindedElement) (w • r.message.value) r.proof.cScalar r.proof.sScalar := by
  rw [VoprfServer.blindEvaluate_eq wf, Res.bind_eq_ok] at hr
  obtain ⟨p, -, hr⟩ := hr
  simp only [Res.ok.injEq, Prod.mk.injEq] at hr
  obtain ⟨rfl, -⟩ := hr
  exact C36_other_key wf client input s.sk ⟨s.sk • client.blindedElement⟩ rfl hb p.1 s.pk hs out h

/-- C23: the same for an inconsistent POPRF server. -/
theorem C23_inconsistent_poprf (wf : CS.WF) (s : PoprfServer CS)
    (hs : s.pk ≠ s.sk • CS.group.baseElem) (client : PoprfClient CS)
    (hb : client.blindedElement ≠ 0) {σ : Type} [RngCore σ] (rng rng' : σ) (info : Option Bytes)
    (m : CS.Scalar) (hm : Spec.hashToScalar CS .Poprf (infoInput (info.getD [])) = .ok m)
    (r : PoprfServerEvaluateResult CS)
    (hr : s.blindEvaluate rng ⟨client.blindedElement⟩ info = .ok (r, rng')) (input out : Bytes)
    (h : client.finalize input r.message r.proof s.getPublicKey info = .ok out) :
    weight CS .Poprf (m • CS.group.baseElem + s.pk) 0 r.message.value client.blindedElement = .ok 0 ∨
    ∃ w, weight CS .Poprf (m • CS.group.baseElem + s.pk) 0 r.message.value client.blindedElement
        = .ok w ∧
      LuckyHash CS .Poprf (m • CS.group.baseElem + s.pk) (w • r.message.value)
        (w • client.blindedElement) r.proof.cScalar r.proof.sScalar := by
  refine C10_poprf_finalize_sound wf client input r.message r.proof s.pk info m hm out h ?_
  rw [PoprfServer.blindEvaluate_eq wf, Res.bind_eq_ok] at hr
  obtain ⟨t, ht, hr⟩ := hr
  obtain ⟨m1, -, hm1, rfl, hz⟩ := computeTweak_ok wf ht
  rw [hm] at hm1
  cases Except.ok.inj hm1
  rw [Res.bind_eq_ok] at hr
  obtain ⟨p, -, hr⟩ := hr
  simp only [Res.ok.injEq, Prod.mk.injEq] at hr
  obtain ⟨rfl, -⟩ := hr
  obtain ⟨k, hk⟩ := VGroup.Lawful.base_generates (G := CS.group) s.pk
  rw [hk] at hs ⊢
  rw [← add_smul, sameKey_iff]
  intro hc
  simp only at hc
  have h2 : ((m + k) - (s.sk + m)) • (s.sk + m)⁻¹ • client.blindedElement = 0 := by
    rw [sub_smul, ← hc, smul_inv_smul₀ hz, sub_self]
  rcases smul_eq_zero.mp h2 with h0 | h0
  · exact hs (by rw [show k = s.sk by linear_combination h0])
  · rcases smul_eq_zero.mp h0 with h0 | h0
    · exact inv_ne_zero hz h0
    · exact hb h0

/-- An inconsistent server is accepted by `deserialize` on the toy suite, and refused by its client. -/
example : VoprfServer.deserialize Toy.suite [5, 7] = .ok ⟨5, 7⟩ ∧ (7 : Toy.F) ≠ 5 * 1 ∧
    ((do let (r, _) ← (⟨5, 7⟩ : VoprfServer Toy.suite).blindEvaluate (⟨9⟩ : Toy.Rng) ⟨6⟩
         (⟨2, 6⟩ : VoprfClient Toy.suite).finalize [1, 2, 3] r.message r.proof 7).err?
      = some .ProofVerification) := ⟨rfl, by decide +kernel, by decide +kernel⟩

/-! ## C24 -/

/-- C24: `new_from_seed` returns the first non-zero candidate `HashToScalar(seed ‖ ⟨info⟩ ‖ counter)` with
counter 0..255. -/
theorem C24_first_candidate (wf : CS.WF) (seed info : Bytes) (mode : Mode) (k : CS.Scalar) :
    deriveKey CS seed info mode = .ok k ↔
      info.length ≤ 65535 ∧ k ≠ 0 ∧ ∃ n < 256, keyCandidate CS mode seed info n = .ok k ∧
        ∀ j < n, keyCandidate CS mode seed info j = .ok 0 := by
  unfold deriveKey
  by_cases hi : info.length ≤ 65535
  · rw [deriveKeyInternal_of_le wf _ _ _ hi, deriveKeyLoop_spec]
    simp only [Nat.zero_add]
    constructor
    · rintro (⟨n, hn, hj, ⟨k', hk', h0, he⟩ | ⟨_, _, he⟩⟩ | ⟨_, he⟩)
      · cases Res.ok.inj he
        exact ⟨hi, h0, n, hn, hk', hj⟩
      · simp at he
      · simp at he
    · rintro ⟨-, h0, n, hn, hk, hj⟩
      exact .inl ⟨n, hn, hj, .inl ⟨k, hk, h0, rfl⟩⟩
  · rw [deriveKeyInternal_of_gt wf _ _ _ (by omega)]
    simp [hi]

/-- C24: the errors. `Error::DeriveKeyPair` exactly for an info longer than 65535 bytes or a hash refusal
before the first non-zero candidate; `Error::Protocol` exactly when all 256 candidates are zero; no other
error, no panic. -/
theorem C24_errors (wf : CS.WF) (seed info : Bytes) (mode : Mode) :
    (deriveKey CS seed info mode = .err .DeriveKeyPair ↔
      65535 < info.length ∨ ∃ n < 256, (∃ e, keyCandidate CS mode seed info n = .error e) ∧
        ∀ j < n, keyCandidate CS mode seed info j = .ok 0) ∧
    (deriveKey CS seed info mode = .err .Protocol ↔
      info.length ≤ 65535 ∧ ∀ j < 256, keyCandidate CS mode seed info j = .ok 0) ∧
    ((∃ k, deriveKey CS seed info mode = .ok k) ∨
      deriveKey CS seed info mode = .err .DeriveKeyPair ∨
      deriveKey CS seed info mode = .err .Protocol) := by
  unfold deriveKey
  by_cases hi : info.length ≤ 65535
  · have h := fun r => deriveKeyLoop_spec (CS := CS) seed info mode 256 0 r
    simp only [Nat.zero_add] at h
    simp only [← deriveKeyInternal_of_le wf seed info mode hi] at h
    refine ⟨?_, ?_, ?_⟩
    · rw [h]
      constructor
      · rintro (⟨n, hn, hj, ⟨k', hk', h0, he⟩ | ⟨e, hk, _⟩⟩ | ⟨_, he⟩)
        · simp at he
        · exact .inr ⟨n, hn, ⟨e, hk⟩, hj⟩
        · simp at he
      · rintro (hc | ⟨n, hn, ⟨e, hk⟩, hj⟩)
        · omega
        · exact .inl ⟨n, hn, hj, .inr ⟨e, hk, rfl⟩⟩
    · rw [h]
      constructor
      · rintro (⟨n, hn, hj, ⟨k', hk', h0, he⟩ | ⟨e, hk, he⟩⟩ | ⟨hz, _⟩)
        · simp at he
        · simp at he
        · exact ⟨hi, hz⟩
      · rintro ⟨-, hz⟩
        exact .inr ⟨hz, rfl⟩
    · rcases (h _).mp rfl with ⟨n, hn, hj, ⟨k', hk', h0, he⟩ | ⟨e, hk, he⟩⟩ | ⟨hz, he⟩
      · exact .inl ⟨k', he⟩
      · exact .inr (.inl he)
      · exact .inr (.inr he)
  · rw [deriveKeyInternal_of_gt wf _ _ _ (by omega)]
    refine ⟨by simp; omega, by simp [hi], by simp⟩

/-- C24: the servers built from a seed have exactly this key (so it is deterministic), and `new` uses
`ScalarLen` random bytes as the seed with an empty info. -/
theorem C24_servers {σ : Type} [RngCore σ] (seed info : Bytes) (rng : σ) :
    (∀ s, OprfServer.newFromSeed CS seed info = .ok s → deriveKey CS seed info .Oprf = .ok s.sk) ∧
    (∀ s, VoprfServer.newFromSeed CS seed info = .ok s → deriveKey CS seed info .Voprf = .ok s.sk) ∧
    (∀ s, PoprfServer.newFromSeed CS seed info = .ok s → deriveKey CS seed info .Poprf = .ok s.sk) ∧
    (∀ s rng', OprfServer.new CS rng = .ok (s, rng') →
      OprfServer.newFromSeed CS (RngCore.fillBytes rng CS.group.scalarLen).1 [] = .ok s) ∧
    (∀ s rng', VoprfServer.new CS rng = .ok (s, rng') →
      VoprfServer.newFromSeed CS (RngCore.fillBytes rng CS.group.scalarLen).1 [] = .ok s) ∧
    (∀ s rng', PoprfServer.new CS rng = .ok (s, rng') →
      PoprfServer.newFromSeed CS (RngCore.fillBytes rng CS.group.scalarLen).1 [] = .ok s) := by
  obtain ⟨h1, h2, h3, -⟩ := C46_derive_key (CS := CS) seed info
  refine ⟨?_, ?_, ?_, ?_, ?_, ?_⟩
  · intro s h
    rw [h1, Res.bind_eq_ok] at h
    obtain ⟨k, hk, h⟩ := h
    cases Res.ok.inj h; exact hk
  · intro s h
    rw [h2, Res.bind_eq_ok] at h
    obtain ⟨k, hk, h⟩ := h
    cases Res.ok.inj h; exact hk
  · intro s h
    rw [h3, Res.bind_eq_ok] at h
    obtain ⟨k, hk, h⟩ := h
    cases Res.ok.inj h; exact hk
  · intro s rng' h
    simp only [OprfServer.new, Res.bind_eq_ok, Res.pure_eq, Res.ok.injEq, Prod.mk.injEq] at h
    obtain ⟨s', h, rfl, -⟩ := h
    exact h
  · intro s rng' h
    simp only [VoprfServer.new, Res.bind_eq_ok, Res.pure_eq, Res.ok.injEq, Prod.mk.injEq] at h
    obtain ⟨s', h, rfl, -⟩ := h
    exact h
  · intro s rng' h
    simp only [PoprfServer.new, Res.bind_eq_ok, Res.pure_eq, Res.ok.injEq, Prod.mk.injEq] at h
    obtain ⟨s', h, rfl, -⟩ := h
    exact h

/-- Successful and failing key derivations on the toy suite. -/
example : (deriveKey Toy.suite [1, 2] [3] .Oprf).isOk = true ∧
    deriveKey Toy.suite [1, 2] (List.replicate 65536 0) .Oprf = .err .DeriveKeyPair :=
  ⟨by decide +kernel, ((C24_errors Toy.wf _ _ _).1).mpr (.inl (by rw [List.length_replicate]; decide))⟩

/-! ## C25 -/

/-- The string hashed to the key candidate with a given counter. -/
def keyInput (seed info : Bytes) (counter : Nat) : Bytes :=
  seed ++ framed info ++ [UInt8.ofNat counter]

omit L in
/-- `keyInput` is what the candidates of C24 are computed from. -/
theorem keyCandidate_eq (seed info : Bytes) (mode : Mode) (n : Nat) :
    keyCandidate CS mode seed info n = CS.group.hashToScalar CS.hash [keyInput seed info n]
      [ascii "DeriveKeyPair" ++ contextString CS mode] := rfl

/-- C25 is false of the code: in every ciphersuite and mode, seed `""` with info `0x0000` derives the same
key as seed `0x0002` with an empty info. -/
theorem C25_unframed_seed_collides (wf : CS.WF) (mode : Mode) :
    deriveKey CS [] [0, 0] mode = deriveKey CS [0, 2] [] mode ∧
    (([] : Bytes), ([0, 0] : Bytes)) ≠ (([0, 2] : Bytes), ([] : Bytes)) := by
  refine ⟨?_, by decide⟩
  have hk : ∀ n, keyCandidate CS mode [] [0, 0] n = keyCandidate CS mode [0, 2] [] n := fun _ => rfl
  have h : ∀ r, deriveKeyInternal CS [] [0, 0] mode = r ↔ deriveKeyInternal CS [0, 2] [] mode = r := by
    intro r
    rw [deriveKeyInternal_of_le wf _ _ _ (by decide), deriveKeyInternal_of_le wf _ _ _ (by decide),
      deriveKeyLoop_spec, deriveKeyLoop_spec]
    simp only [hk]
  exact ((h _).mpr rfl)

/-- The colliding derivation does succeed on the toy suite. -/
example : (deriveKey Toy.suite [] [0, 0] .Oprf).isOk = true := by decide +kernel

/-! ## C33 -/

/-- C33: no secret scalar is zero: blinds drawn by `blind`, private keys of constructed servers, POPRF
tweaks; and whatever `deserialize` returns (C20). -/
theorem C33_nonzero (wf : CS.WF) :
    (∀ input (b : OprfClientBlindResult CS), OprfClient.Blinded input b → b.state.blind ≠ 0) ∧
    (∀ input (b : VoprfClientBlindResult CS), VoprfClient.Blinded input b → b.state.blind ≠ 0) ∧
    (∀ input (b : PoprfClientBlindResult CS), PoprfClient.Blinded input b → b.state.blind ≠ 0) ∧
    (∀ s : OprfServer CS, s.Made → s.sk ≠ 0) ∧
    (∀ s : VoprfServer CS, s.Made → s.sk ≠ 0) ∧
    (∀ s : PoprfServer CS, s.Made → s.sk ≠ 0) ∧
    (∀ (s : PoprfServer CS) bs info prep, s.batchBlindEvaluatePrepare bs info = .ok prep →
      prep.preparedTweak.value ≠ 0) ∧
    (∀ bytes c, OprfClient.deserialize CS bytes = .ok c → c.blind ≠ 0) ∧
    (∀ bytes c, VoprfClient.deserialize CS bytes = .ok c → c.blind ≠ 0) ∧
    (∀ bytes c, PoprfClient.deserialize CS bytes = .ok c → c.blind ≠ 0) ∧
    (∀ bytes s, OprfServer.deserialize CS bytes = .ok s → s.sk ≠ 0) ∧
    (∀ bytes s, VoprfServer.deserialize CS bytes = .ok s → s.sk ≠ 0) ∧
    (∀ bytes s, PoprfServer.deserialize CS bytes = .ok s → s.sk ≠ 0) := by
  have v := C20_valid (CS := CS)
  refine ⟨?_, ?_, ?_, fun s h => h.sk_ne_zero wf, fun s h => (h.key wf).1, fun s h => (h.key wf).1, ?_,
    fun b c h => v.oprfClient b c h, fun b c h => (v.voprfClient b c h).1,
    fun b c h => (v.poprfClient b c h).1, fun b c h => v.oprfServer b c h,
    fun b c h => (v.voprfServer b c h).1, fun b c h => (v.poprfServer b c h).1⟩
  · rintro input b ⟨σ, _, g, g', hb⟩
    obtain ⟨x, P, -, hx, hP, rfl⟩ := OprfClient.blindInput_ok wf hb
    exact hx
  · rintro input b ⟨σ, _, g, g', hb⟩
    obtain ⟨x, P, -, hx, hP, rfl⟩ := VoprfClient.blindInput_ok wf hb
    exact hx
  · rintro input b ⟨σ, _, g, g', hb⟩
    obtain ⟨x, P, -, hx, hP, rfl⟩ := PoprfClient.blindInput_ok wf hb
    exact hx
  · intro s bs info prep h
    rw [PoprfServer.prepare_eq wf, Res.bind_eq_ok] at h
    obtain ⟨t, ht, h⟩ := h
    cases Res.ok.inj h
    obtain ⟨_, -, -, -, hz⟩ := computeTweak_ok wf ht
    exact hz

end Voprf
