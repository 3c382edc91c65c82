import Verif.Lemmas.Api
import Verif.Spec.Reach

/-!
# Key derivation and constructed servers
-/

set_option linter.unusedSectionVars false

namespace Voprf

open Spec

variable {CS : CipherSuite} [L : CS.group.Lawful]

/-- The derivation loop in terms of the candidates. -/
theorem deriveKeyLoop_eq (seed info : Bytes) (mode : Mode) : ∀ fuel counter,
    deriveKeyLoop CS seed (be16 info.length) info
      ⟨ascii "DeriveKeyPair" ++ (ascii "OPRFV1-" ++ [modeByte mode] ++ ascii "-"), CS.ID⟩
      (fuel + 1) counter =
      match keyCandidate CS mode seed info counter with
      | .error _ => .err .DeriveKeyPair
      | .ok k => if CS.group.isZeroScalar k then
          deriveKeyLoop CS seed (be16 info.length) info
            ⟨ascii "DeriveKeyPair" ++ (ascii "OPRFV1-" ++ [modeByte mode] ++ ascii "-"), CS.ID⟩
            fuel (counter + 1)
        else .ok k := by
  intro fuel counter
  rw [deriveKeyLoop]
  simp only [Dst.asDst]
  rw [hashToScalar_dst]
  have : ([seed, be16 info.length, info, [UInt8.ofNat counter]] : List Bytes).flatten
      = seed ++ framed info ++ [UInt8.ofNat counter] := by simp [framed]
  rw [this, ← keyCandidate]
  cases keyCandidate CS mode seed info counter with
  | error e => rfl
  | ok k =>
    simp only [Res.mapErr_ok, Res.ok_bind]
    cases CS.group.isZeroScalar k <;> simp

theorem deriveKeyInternal_of_gt (wf : CS.WF) (seed info : Bytes) (mode : Mode)
    (h : 65535 < info.length) : deriveKeyInternal CS seed info mode = .err .DeriveKeyPair := by
  unfold deriveKeyInternal
  rw [STR_DERIVE_KEYPAIR_eq, Dst.new_ok wf (by decide)]
  simp [i2osp2_of_gt h]

theorem deriveKeyInternal_of_le (wf : CS.WF) (seed info : Bytes) (mode : Mode)
    (h : info.length ≤ 65535) :
    deriveKeyInternal CS seed info mode =
      deriveKeyLoop CS seed (be16 info.length) info
        ⟨ascii "DeriveKeyPair" ++ (ascii "OPRFV1-" ++ [modeByte mode] ++ ascii "-"), CS.ID⟩ 256 0 := by
  unfold deriveKeyInternal
  rw [STR_DERIVE_KEYPAIR_eq, Dst.new_ok wf (by decide)]
  simp [i2osp2_of_le h]

/-- Result of the loop: the first non-zero candidate, or the first refusal. -/
theorem deriveKeyLoop_spec (seed info : Bytes) (mode : Mode) : ∀ fuel counter (r : Res CS.Scalar),
    deriveKeyLoop CS seed (be16 info.length) info
      ⟨ascii "DeriveKeyPair" ++ (ascii "OPRFV1-" ++ [modeByte mode] ++ ascii "-"), CS.ID⟩
      fuel counter = r ↔
    ((∃ n, n < fuel ∧ (∀ j < n, keyCandidate CS mode seed info (counter + j) = .ok 0) ∧
        ((∃ k, keyCandidate CS mode seed info (counter + n) = .ok k ∧ k ≠ 0 ∧ r = .ok k) ∨
         (∃ e, keyCandidate CS mode seed info (counter + n) = .error e ∧ r = .err .DeriveKeyPair)))
      ∨ ((∀ j < fuel, keyCandidate CS mode seed info (counter + j) = .ok 0) ∧
          r = .err .Protocol)) := by
  intro fuel
  induction fuel with
  | zero => intro c r; simp [deriveKeyLoop, eq_comm]
  | succ fuel ih =>
    intro c r
    rw [deriveKeyLoop_eq]
    cases hc : keyCandidate CS mode seed info c with
    | error e =>
      simp only
      constructor
      · rintro rfl
        exact Or.inl ⟨0, by omega, by simp, Or.inr ⟨e, by simpa using hc, rfl⟩⟩
      · rintro (⟨n, hn, hj, h⟩ | ⟨hj, _⟩)
        · rcases Nat.eq_zero_or_pos n with rfl | hpos
          · rcases h with ⟨k, hk, _⟩ | ⟨e', _, rfl⟩
            · simp [hc] at hk
            · rfl
          · have := hj 0 hpos; simp [hc] at this
        · have := hj 0 (by omega); simp [hc] at this
    | ok k =>
      simp only
      by_cases hk : k = 0
      · subst hk
        rw [if_pos ((VGroup.Lawful.isZeroScalar_iff _).mpr rfl), ih]
        constructor
        · rintro (⟨n, hn, hj, h⟩ | ⟨hj, hr⟩)
          · refine Or.inl ⟨n + 1, by omega, ?_, ?_⟩
            · intro j hjn
              rcases j with _ | j
              · simpa using hc
              · have := hj j (by omega); rwa [Nat.add_assoc, Nat.add_comm 1 j] at this
            · rwa [Nat.add_assoc, Nat.add_comm 1 n] at h
          · refine Or.inr ⟨?_, hr⟩
            intro j hjn
            rcases j with _ | j
            · simpa using hc
            · have := hj j (by omega); rwa [Nat.add_assoc, Nat.add_comm 1 j] at this
        · rintro (⟨n, hn, hj, h⟩ | ⟨hj, hr⟩)
          · rcases n with _ | n
            · exfalso
              rcases h with ⟨k, hk, hk0, _⟩ | ⟨e', he', _⟩
              · simp [hc] at hk; exact hk0 hk.symm
              · simp [hc] at he'
            · refine Or.inl ⟨n, by omega, ?_, ?_⟩
              · intro j hjn
                have := hj (j + 1) (by omega)
                rwa [Nat.add_comm j 1, ← Nat.add_assoc] at this
              · rwa [Nat.add_comm n 1, ← Nat.add_assoc] at h
          · refine Or.inr ⟨?_, hr⟩
            intro j hjn
            have := hj (j + 1) (by omega)
            rwa [Nat.add_comm j 1, ← Nat.add_assoc] at this
      · rw [if_neg (fun h => hk ((VGroup.Lawful.isZeroScalar_iff _).mp h))]
        constructor
        · rintro rfl
          exact Or.inl ⟨0, by omega, by simp, Or.inl ⟨k, by simpa using hc, hk, rfl⟩⟩
        · rintro (⟨n, hn, hj, h⟩ | ⟨hj, _⟩)
          · rcases Nat.eq_zero_or_pos n with rfl | hpos
            · rcases h with ⟨k', hk', _, rfl⟩ | ⟨e', he', _⟩
              · simp [hc] at hk'; rw [hk']
              · simp [hc] at he'
            · have := hj 0 hpos; simp [hc] at this; exact absurd this hk
          · have := hj 0 (by omega); simp [hc] at this; exact absurd this hk

theorem deriveKeyInternal_ne_zero (wf : CS.WF) {seed info : Bytes} {mode : Mode} {k : CS.Scalar}
    (h : deriveKeyInternal CS seed info mode = .ok k) : k ≠ 0 := by
  by_cases hi : info.length ≤ 65535
  · rw [deriveKeyInternal_of_le wf _ _ _ hi, deriveKeyLoop_spec] at h
    rcases h with ⟨n, _, _, ⟨k', _, hk, he⟩ | ⟨_, _, he⟩⟩ | ⟨_, he⟩
    · simp only [Res.ok.injEq] at he; rwa [he]
    · simp at he
    · simp at he
  · rw [deriveKeyInternal_of_gt wf _ _ _ (by omega)] at h; simp at h

theorem deriveKeypair_ok {seed info : Bytes} {mode : Mode} {sk : CS.Scalar} {pk : CS.Elem} :
    deriveKeypair CS seed info mode = .ok (sk, pk) ↔
      deriveKeyInternal CS seed info mode = .ok sk ∧ pk = sk • CS.group.baseElem := by
  unfold deriveKeypair
  cases deriveKeyInternal CS seed info mode <;> simp [eq_comm]
  rintro rfl; exact Iff.rfl

theorem OprfServer.Made.sk_ne_zero (wf : CS.WF) {s : OprfServer CS} (h : s.Made) : s.sk ≠ 0 := by
  have seedCase : ∀ seed info, OprfServer.newFromSeed CS seed info = .ok s → s.sk ≠ 0 := by
    intro seed info h
    simp only [OprfServer.newFromSeed, Res.bind_eq_ok, Res.pure_eq, Res.ok.injEq] at h
    obtain ⟨sk, hk, rfl⟩ := h
    exact deriveKeyInternal_ne_zero wf hk
  cases h with
  | new rng rng' _ h =>
    simp only [OprfServer.new, Res.bind_eq_ok, Res.pure_eq, Res.ok.injEq, Prod.mk.injEq] at h
    obtain ⟨s', hs', rfl, _⟩ := h
    exact seedCase _ _ hs'
  | newWithKey key _ h =>
    simp only [OprfServer.newWithKey, Res.bind_eq_ok, Res.pure_eq, Res.ok.injEq] at h
    obtain ⟨sk, hk, rfl⟩ := h
    exact VGroup.Lawful.deserializeScalar_ne_zero _ _ (Res.ofExcept_eq_ok.mp hk)
  | newFromSeed seed info _ h => exact seedCase _ _ h

theorem VoprfServer.Made.key (wf : CS.WF) {s : VoprfServer CS} (h : s.Made) :
    s.sk ≠ 0 ∧ s.pk = s.sk • CS.group.baseElem := by
  have seedCase : ∀ seed info, VoprfServer.newFromSeed CS seed info = .ok s →
      s.sk ≠ 0 ∧ s.pk = s.sk • CS.group.baseElem := by
    intro seed info h
    simp only [VoprfServer.newFromSeed, Res.bind_eq_ok, Res.pure_eq, Res.ok.injEq] at h
    obtain ⟨⟨sk, pk⟩, hk, rfl⟩ := h
    rw [deriveKeypair_ok] at hk
    exact ⟨deriveKeyInternal_ne_zero wf hk.1, hk.2⟩
  cases h with
  | new rng rng' _ h =>
    simp only [VoprfServer.new, Res.bind_eq_ok, Res.pure_eq, Res.ok.injEq, Prod.mk.injEq] at h
    obtain ⟨s', hs', rfl, _⟩ := h
    exact seedCase _ _ hs'
  | newWithKey key _ h =>
    simp only [VoprfServer.newWithKey, Res.bind_eq_ok, Res.pure_eq, Res.ok.injEq] at h
    obtain ⟨sk, hk, rfl⟩ := h
    exact ⟨VGroup.Lawful.deserializeScalar_ne_zero _ _ (Res.ofExcept_eq_ok.mp hk), by simp⟩
  | newFromSeed seed info _ h => exact seedCase _ _ h

theorem PoprfServer.Made.key (wf : CS.WF) {s : PoprfServer CS} (h : s.Made) :
    s.sk ≠ 0 ∧ s.pk = s.sk • CS.group.baseElem := by
  have seedCase : ∀ seed info, PoprfServer.newFromSeed CS seed info = .ok s →
      s.sk ≠ 0 ∧ s.pk = s.sk • CS.group.baseElem := by
    intro seed info h
    simp only [PoprfServer.newFromSeed, Res.bind_eq_ok, Res.pure_eq, Res.ok.injEq] at h
    obtain ⟨⟨sk, pk⟩, hk, rfl⟩ := h
    rw [deriveKeypair_ok] at hk
    exact ⟨deriveKeyInternal_ne_zero wf hk.1, hk.2⟩
  cases h with
  | new rng rng' _ h =>
    simp only [PoprfServer.new, Res.bind_eq_ok, Res.pure_eq, Res.ok.injEq, Prod.mk.injEq] at h
    obtain ⟨s', hs', rfl, _⟩ := h
    exact seedCase _ _ hs'
  | newWithKey key _ h =>
    simp only [PoprfServer.newWithKey, Res.bind_eq_ok, Res.pure_eq, Res.ok.injEq] at h
    obtain ⟨sk, hk, rfl⟩ := h
    exact ⟨VGroup.Lawful.deserializeScalar_ne_zero _ _ (Res.ofExcept_eq_ok.mp hk), by simp⟩
  | newFromSeed seed info _ h => exact seedCase _ _ h

/-! ## Proof hashes do not refuse -/

theorem dst_nonempty (par : Bytes) (mode : Mode) : 1 ≤ (par ++ contextString CS mode).length := by
  rw [List.length_append, contextString_length]; omega

theorem weight_ok (wf : CS.WF) (mode : Mode) (B : CS.Elem) (i : Nat) (C D : CS.Elem) :
    ∃ w, weight CS mode B i C D = .ok w := by
  have h1 := wf.elem_length
  have h2 := CS.hash.outputSize_lt
  have hl : (Spec.compositeInput (Spec.seed CS mode B) i (CS.group.serializeElem C)
      (CS.group.serializeElem D)).length = CS.hash.outputSize + 2 * CS.group.elemLen + 17 := by
    simp [Spec.compositeInput, seed_length, CS.group.serializeElem_length, ascii_len_composite]
    omega
  exact VGroup.Lawful.hashToScalar_ok _ _ _ (by omega) (by omega) (dst_nonempty _ _)

theorem weightsFrom_ok (wf : CS.WF) (mode : Mode) (B : CS.Elem) :
    ∀ (i : Nat) (ps : List (CS.Elem × CS.Elem)), ∃ ws, weightsFrom CS mode B i ps = .ok ws ∧
      ws.length = ps.length := by
  intro i ps
  induction ps generalizing i with
  | nil => exact ⟨[], rfl, rfl⟩
  | cons p ps ih =>
    obtain ⟨C, D⟩ := p
    obtain ⟨w, hw⟩ := weight_ok wf mode B i C D
    obtain ⟨ws, hws, hl⟩ := ih (i + 1)
    exact ⟨w :: ws, by simp [weightsFrom, hw, hws, bind, Except.bind, pure, Except.pure], by simp [hl]⟩

theorem weights_ok (wf : CS.WF) (mode : Mode) (B : CS.Elem) (Cs Ds : List CS.Elem) :
    ∃ ws, weights CS mode B Cs Ds = .ok ws ∧ ws.length = min Cs.length Ds.length := by
  obtain ⟨ws, h, hl⟩ := weightsFrom_ok wf mode B 0 (Cs.zip Ds)
  exact ⟨ws, h, by simpa using hl⟩

theorem challenge_ok (wf : CS.WF) (mode : Mode) (B M Z t2 t3 : CS.Elem) :
    ∃ c, challenge CS mode B M Z t2 t3 = .ok c := by
  have h1 := wf.elem_length
  have hl : (Spec.challengeInput (CS.group.serializeElem B) (CS.group.serializeElem M)
      (CS.group.serializeElem Z) (CS.group.serializeElem t2) (CS.group.serializeElem t3)).length
      = 5 * (CS.group.elemLen + 2) + 9 := by
    simp [Spec.challengeInput, CS.group.serializeElem_length, ascii_len_challenge]
    omega
  exact VGroup.Lawful.hashToScalar_ok _ _ _ (by omega) (by omega) (dst_nonempty _ _)

/-- `generate_proof` never panics: it returns `Error::Batch`, loops in the RNG, or succeeds. -/
theorem generateProof_cases (wf : CS.WF) {σ : Type} [RngCore σ] (rng : σ) (k : CS.Scalar)
    (A B : CS.Elem) (Cs Ds : List CS.Elem) (mode : Mode) :
    ((Cs.length ≠ Ds.length ∨ 65535 < Cs.length) ∧
      generateProof CS rng k A B Cs Ds mode = .err .Batch) ∨
    (Cs.length = Ds.length ∧ Cs.length ≤ 65535 ∧ CS.group.randomScalar rng = none ∧
      generateProof CS rng k A B Cs Ds mode = .diverge) ∨
    (Cs.length = Ds.length ∧ Cs.length ≤ 65535 ∧ ∃ r rng' p,
      CS.group.randomScalar rng = some (r, rng') ∧
      generateProof CS rng k A B Cs Ds mode = .ok (p, rng')) := by
  rw [generateProof_eq wf]
  by_cases hn : Cs.length ≠ Ds.length ∨ 65535 < Cs.length
  · exact Or.inl ⟨hn, by rw [if_pos hn]⟩
  · rw [if_neg hn]
    have h1 : Cs.length = Ds.length := by
      by_contra h; exact hn (Or.inl h)
    have h2 : Cs.length ≤ 65535 := by
      by_contra h; exact hn (Or.inr (by omega))
    obtain ⟨ws, hws, -⟩ := weights_ok wf mode B Cs Ds
    simp only [hws]
    cases hr : CS.group.randomScalar rng with
    | none => exact Or.inr (Or.inl ⟨h1, h2, rfl, rfl⟩)
    | some p =>
      obtain ⟨r, rng'⟩ := p
      obtain ⟨c, hc⟩ := challenge_ok wf mode B (lincomb ws Cs) (k • lincomb ws Cs) (r • A)
            (r • lincomb ws Cs)
      exact Or.inr (Or.inr ⟨h1, h2, r, rng', ⟨c, r - c * k⟩, rfl, by simp only [hc]⟩)

/-- `verify_proof` never panics or diverges. -/
theorem verifyProof_cases (wf : CS.WF) (A B : CS.Elem) (Cs Ds : List CS.Elem) (proof : Proof CS)
    (mode : Mode) :
    ((Cs.length ≠ Ds.length ∨ 65535 < Cs.length) ∧
      verifyProof CS A B Cs Ds proof mode = .err .Batch) ∨
    (Cs.length = Ds.length ∧ Cs.length ≤ 65535 ∧
      (verifyProof CS A B Cs Ds proof mode = .err .ProofVerification ∨
        verifyProof CS A B Cs Ds proof mode = .ok ())) := by
  rw [verifyProof_eq wf]
  by_cases hn : Cs.length ≠ Ds.length ∨ 65535 < Cs.length
  · exact Or.inl ⟨hn, by rw [if_pos hn]⟩
  · rw [if_neg hn]
    have h1 : Cs.length = Ds.length := by
      by_contra h; exact hn (Or.inl h)
    have h2 : Cs.length ≤ 65535 := by
      by_contra h; exact hn (Or.inr (by omega))
    obtain ⟨ws, hws, -⟩ := weights_ok wf mode B Cs Ds
    obtain ⟨c, hc⟩ := challenge_ok wf mode B (lincomb ws Cs) (lincomb ws Ds)
            (proof.sScalar • A + proof.cScalar • B)
            (proof.sScalar • lincomb ws Cs + proof.cScalar • lincomb ws Ds)
    refine Or.inr ⟨h1, h2, ?_⟩
    simp only [hws, hc]
    by_cases h : CS.group.scalarCtEq c proof.cScalar <;> simp [h]

end Voprf
