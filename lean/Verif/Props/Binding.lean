import Verif.Props.Soundness
import Mathlib.LinearAlgebra.Pi
import Mathlib.Algebra.Module.BigOperators
import Mathlib.SetTheory.Cardinal.Finite
import Mathlib.Algebra.BigOperators.Fin

/-!
# C11, C12, C35–C37: batches, zero knowledge, and what a verified response is bound to
-/

namespace Voprf

open Spec

variable {CS : CipherSuite} [L : CS.group.Lawful]

/-! ## C11 -/

theorem lincomb_ofFn {n : Nat} (w : Fin n → CS.Scalar) (P : Fin n → CS.Elem) :
    lincomb (List.ofFn w) (List.ofFn P) = ∑ i, w i • P i := by
  induction n with
  | zero => simp [lincomb]
  | succ n ih =>
    rw [Fin.sum_univ_succ, List.ofFn_succ, List.ofFn_succ, ← ih]
    simp [lincomb]

theorem sameKey_iff (k : CS.Scalar) (C D : CS.Elem) :
    SameKey CS (k • CS.group.baseElem) C D ↔ D = k • C := by
  constructor
  · rintro ⟨k', h1, h2⟩
    rw [smul_base_inj h1]; exact h2
  · intro h; exact ⟨k, rfl, h⟩

theorem sameKey_sum_iff {n : Nat} (k : CS.Scalar) (C D : Fin n → CS.Elem) (w : Fin n → CS.Scalar) :
    SameKey CS (k • CS.group.baseElem) (lincomb (List.ofFn w) (List.ofFn C))
      (lincomb (List.ofFn w) (List.ofFn D)) ↔ ∑ i, w i • (D i - k • C i) = 0 := by
  rw [sameKey_iff, lincomb_ofFn, lincomb_ofFn, Finset.smul_sum]
  simp only [smul_sub, Finset.sum_sub_distrib]
  rw [sub_eq_zero]
  simp only [smul_comm k]

/-- C11: if the `j`-th pair of a batch is wrong then, the other weights being fixed, exactly one value of
the `j`-th weight makes the composite statement true. -/
theorem C11_one_weight {n : Nat} (B : CS.Elem) (C D : Fin n → CS.Elem) (j : Fin n)
    (hbad : ¬ SameKey CS B (C j) (D j)) (w : Fin n → CS.Scalar) :
    ∃! x, SameKey CS B (lincomb (List.ofFn (Function.update w j x)) (List.ofFn C))
      (lincomb (List.ofFn (Function.update w j x)) (List.ofFn D)) := by
  obtain ⟨k, rfl⟩ := VGroup.Lawful.base_generates (G := CS.group) B
  have hne : D j - k • C j ≠ 0 := by
    rw [sub_ne_zero]; exact fun h => hbad ((sameKey_iff k _ _).mpr h)
  obtain ⟨e, he⟩ := VGroup.Lawful.base_generates (G := CS.group) (D j - k • C j)
  have he0 : e ≠ 0 := by rintro rfl; simp [he] at hne
  obtain ⟨t, ht⟩ := VGroup.Lawful.base_generates (G := CS.group)
    (∑ i ∈ Finset.univ.erase j, w i • (D i - k • C i))
  have key : ∀ x, ∑ i, Function.update w j x i • (D i - k • C i) =
      (x * e + t) • CS.group.baseElem := by
    intro x
    rw [← Finset.add_sum_erase _ _ (Finset.mem_univ j), add_smul, mul_smul, ← he, ← ht,
      Function.update_self]
    congr 1
    apply Finset.sum_congr rfl
    intro i hi
    rw [Function.update_of_ne (Finset.ne_of_mem_erase hi)]
  refine ⟨-t * e⁻¹, ?_, ?_⟩
  · simp only [sameKey_sum_iff, key, smul_base_eq_zero]
    rw [mul_assoc, inv_mul_cancel₀ he0]; ring
  · intro x hx
    simp only [sameKey_sum_iff, key, smul_base_eq_zero] at hx
    rw [← eq_neg_iff_add_eq_zero] at hx
    rw [← hx, mul_assoc, mul_inv_cancel₀ he0, mul_one]

/-- C11: among all `q^n` assignments of weights to a batch with at least one wrong pair, a fraction of
exactly `1/q` makes the composite statement true. -/
theorem C11_fraction {n : Nat} (B : CS.Elem) (C D : Fin n → CS.Elem)
    (hbad : ∃ j, ¬ SameKey CS B (C j) (D j)) :
    Nat.card {w : Fin n → CS.Scalar // SameKey CS B (lincomb (List.ofFn w) (List.ofFn C))
        (lincomb (List.ofFn w) (List.ofFn D))} * Nat.card CS.Scalar = Nat.card CS.Scalar ^ n := by
  obtain ⟨j, hbad⟩ := hbad
  obtain ⟨k, rfl⟩ := VGroup.Lawful.base_generates (G := CS.group) B
  have hne : D j - k • C j ≠ 0 := by
    rw [sub_ne_zero]; exact fun h => hbad ((sameKey_iff k _ _).mpr h)
  choose e he using fun i => VGroup.Lawful.base_generates (G := CS.group) (D i - k • C i)
  have he0 : e j ≠ 0 := by
    intro h; rw [he j, h, zero_smul] at hne; exact hne rfl
  have := VGroup.Lawful.finite_scalar (G := CS.group)
  let f : (Fin n → CS.Scalar) →+ CS.Scalar :=
    { toFun := fun w => ∑ i, w i * e i
      map_zero' := by simp
      map_add' := by intro a b; simp [add_mul, Finset.sum_add_distrib] }
  have hker : ∀ w, SameKey CS (k • CS.group.baseElem) (lincomb (List.ofFn w) (List.ofFn C))
        (lincomb (List.ofFn w) (List.ofFn D)) ↔ w ∈ f.ker := by
    intro w
    rw [sameKey_sum_iff, AddMonoidHom.mem_ker]
    simp only [he, ← mul_smul, ← Finset.sum_smul, smul_base_eq_zero]
    rfl
  have hsurj : Function.Surjective f := by
    intro x
    refine ⟨Pi.single j (x * (e j)⁻¹), ?_⟩
    change ∑ i, (Pi.single j (x * (e j)⁻¹) : Fin n → CS.Scalar) i * e i = x
    rw [Finset.sum_eq_single j]
    · rw [Pi.single_eq_same, mul_assoc, inv_mul_cancel₀ he0, mul_one]
    · intro i _ hi; rw [Pi.single_eq_of_ne hi, zero_mul]
    · simp
  have hidx : f.ker.index = Nat.card CS.Scalar := by
    rw [AddSubgroup.index_ker, AddMonoidHom.range_eq_top.mpr hsurj]
    exact Nat.card_congr AddSubgroup.topEquiv.toEquiv
  have h := f.ker.card_mul_index
  rw [hidx] at h
  rw [Nat.card_congr (Equiv.subtypeEquivRight hker), show Nat.card CS.Scalar ^ n =
    Nat.card (Fin n → CS.Scalar) by simp [Nat.card_fun]]
  exact h

section examples
open Toy

/-- A batch of two with a wrong second pair (key 7, `C = (1, 2)`, `D = (7, 3)`). -/
example : ∃ j : Fin 2, ¬ SameKey suite (7 : F) (![(1 : F), 2] j) (![(7 : F), 3] j) := by
  refine ⟨1, ?_⟩
  rintro ⟨k, h1, h2⟩
  have key : ∀ k : F, ¬ ((7 : F) = k * 1 ∧ (3 : F) = k * 2) := by decide +kernel
  exact key k ⟨h1, h2⟩

end examples

/-! ## C12 -/

/-- C12, the real prover: the proof of a batch answered by `VoprfServer` is the Schnorr-like response
`s = ρ - c·k` to the hash challenge on the commitments `ρ·G`, `ρ·M`, for the non-zero `ρ` drawn from the
generator. -/
theorem C12_voprf_proof_shape (wf : CS.WF) (s : VoprfServer CS) {σ : Type} [RngCore σ] (rng rng' : σ)
    (bs : List (BlindedElement CS)) (r : VoprfServerBatchEvaluateResult CS)
    (h : s.batchBlindEvaluate rng bs = .ok (r, rng')) :
    ∃ ws ρ, weights CS .Voprf s.pk (bs.map (·.value)) (r.messages.map (·.value)) = .ok ws ∧
      CS.group.randomScalar rng = some (ρ, rng') ∧ ρ ≠ 0 ∧
      challenge CS .Voprf s.pk (lincomb ws (bs.map (·.value)))
        (lincomb ws (r.messages.map (·.value))) (ρ • CS.group.baseElem)
        (ρ • lincomb ws (bs.map (·.value))) = .ok r.proof.cScalar ∧
      r.proof.sScalar = ρ - r.proof.cScalar * s.sk := by
  rw [VoprfServer.batch_eq, Res.bind_eq_ok] at h
  obtain ⟨⟨p, g⟩, hg, h⟩ := h
  simp only [Res.ok.injEq, Prod.mk.injEq] at h
  obtain ⟨rfl, rfl⟩ := h
  rw [generateProof_eq wf] at hg
  split at hg
  · simp at hg
  · cases hws : weights CS .Voprf s.pk (bs.map (·.value)) (bs.map fun b => s.sk • b.value) with
    | error e => simp [hws] at hg
    | ok ws =>
      simp only [hws] at hg
      cases hr : CS.group.randomScalar rng with
      | none => simp [hr] at hg
      | some q =>
        obtain ⟨ρ, g'⟩ := q
        simp only [hr] at hg
        have hmap : (bs.map fun b => s.sk • b.value) = (bs.map (·.value)).map fun P => s.sk • P := by
          simp [Function.comp_def]
        cases hc : challenge CS .Voprf s.pk (lincomb ws (bs.map (·.value)))
            (s.sk • lincomb ws (bs.map (·.value))) (ρ • CS.group.baseElem)
            (ρ • lincomb ws (bs.map (·.value))) with
        | error e => simp [hc] at hg
        | ok c =>
          simp only [hc, Res.ok.injEq, Prod.mk.injEq] at hg
          obtain ⟨rfl, rfl⟩ := hg
          refine ⟨ws, ρ, by simpa [Function.comp_def] using hws, rfl,
            VGroup.Lawful.randomScalar_ne_zero _ _ _ hr, ?_, rfl⟩
          rw [show ((bs.map fun b => (⟨s.sk • b.value⟩ : EvaluationElement CS)).map (·.value)) =
            (bs.map (·.value)).map fun P => s.sk • P by simp [Function.comp_def], lincomb_smul]
          exact hc

/-- The same for a `PoprfServer`: key `t = sk + m` and the two lists exchanged. -/
theorem C12_poprf_proof_shape (wf : CS.WF) {σ : Type} [RngCore σ] (rng rng' : σ)
    (bs : List (BlindedElement CS)) (t : PoprfPreparedTweak CS) (ht : t.value ≠ 0)
    (r : PoprfServerBatchEvaluateResult CS)
    (h : PoprfServer.batchBlindEvaluateFinish rng bs
      (bs.map fun b => ⟨⟨(t.value)⁻¹ • b.value⟩⟩) t = .ok (r, rng')) :
    ∃ ws ρ, weights CS .Poprf (t.value • CS.group.baseElem) (r.messages.map (·.value))
        (bs.map (·.value)) = .ok ws ∧
      CS.group.randomScalar rng = some (ρ, rng') ∧ ρ ≠ 0 ∧
      challenge CS .Poprf (t.value • CS.group.baseElem) (lincomb ws (r.messages.map (·.value)))
        (lincomb ws (bs.map (·.value))) (ρ • CS.group.baseElem)
        (ρ • lincomb ws (r.messages.map (·.value))) = .ok r.proof.cScalar ∧
      r.proof.sScalar = ρ - r.proof.cScalar * t.value := by
  rw [PoprfServer.finish_eq, Res.bind_eq_ok] at h
  obtain ⟨⟨p, g⟩, hg, h⟩ := h
  simp only [Res.ok.injEq, Prod.mk.injEq] at h
  obtain ⟨rfl, rfl⟩ := h
  simp only [List.map_map, Function.comp_def] at hg ⊢
  have hb : bs.map (·.value) = (bs.map fun b => (t.value)⁻¹ • b.value).map fun P => t.value • P := by
    simp [Function.comp_def, smul_inv_smul₀ ht]
  rw [generateProof_eq wf] at hg
  split at hg
  · simp at hg
  · cases hws : weights CS .Poprf (t.value • CS.group.baseElem)
        (bs.map fun b => (t.value)⁻¹ • b.value) (bs.map (·.value)) with
    | error e => simp [hws] at hg
    | ok ws =>
      simp only [hws] at hg
      cases hr : CS.group.randomScalar rng with
      | none => simp [hr] at hg
      | some q =>
        obtain ⟨ρ, g'⟩ := q
        simp only [hr] at hg
        cases hc : challenge CS .Poprf (t.value • CS.group.baseElem)
            (lincomb ws (bs.map fun b => (t.value)⁻¹ • b.value))
            (t.value • lincomb ws (bs.map fun b => (t.value)⁻¹ • b.value))
            (ρ • CS.group.baseElem) (ρ • lincomb ws (bs.map fun b => (t.value)⁻¹ • b.value)) with
        | error e => simp [hc] at hg
        | ok c =>
          simp only [hc, Res.ok.injEq, Prod.mk.injEq] at hg
          obtain ⟨rfl, rfl⟩ := hg
          refine ⟨ws, ρ, rfl, rfl, VGroup.Lawful.randomScalar_ne_zero _ _ _ hr, ?_, rfl⟩
          rw [hb, lincomb_smul]
          exact hc

/-- C12, POPRF: the proof of a batch answered by a `PoprfServer` under `info` is made with the key
`t = sk + HashToScalar(info)`, from the evaluation elements to the blinded ones. -/
theorem C12_poprf_batch_proof_shape (wf : CS.WF) (s : PoprfServer CS) {σ : Type} [RngCore σ] (rng rng' : σ)
    (bs : List (BlindedElement CS)) (info : Option Bytes) (r : PoprfServerBatchEvaluateResult CS)
    (h : s.batchBlindEvaluate rng bs info = .ok (r, rng')) :
    ∃ t ws ρ, IsTweak CS s.sk (info.getD []) t ∧
      weights CS .Poprf (t • CS.group.baseElem) (r.messages.map (·.value)) (bs.map (·.value)) = .ok ws ∧
      CS.group.randomScalar rng = some (ρ, rng') ∧ ρ ≠ 0 ∧
      challenge CS .Poprf (t • CS.group.baseElem) (lincomb ws (r.messages.map (·.value)))
        (lincomb ws (bs.map (·.value))) (ρ • CS.group.baseElem)
        (ρ • lincomb ws (r.messages.map (·.value))) = .ok r.proof.cScalar ∧
      r.proof.sScalar = ρ - r.proof.cScalar * t := by
  rw [PoprfServer.batch_eq wf, Res.bind_eq_ok] at h
  obtain ⟨t, ht, h⟩ := h
  have hT := computeTweak_ok wf ht
  obtain ⟨m, hl, hm, htm, ht0⟩ := hT
  rw [Res.bind_eq_ok] at h
  obtain ⟨⟨p, g⟩, hg, h⟩ := h
  have hg' : generateProof CS rng t CS.group.baseElem (t • CS.group.baseElem)
      (bs.map fun b => t⁻¹ • b.value) (bs.map (·.value)) .Poprf = .ok (p, g) := by
    revert hg
    cases generateProof CS rng t CS.group.baseElem (t • CS.group.baseElem)
      (bs.map fun b => t⁻¹ • b.value) (bs.map (·.value)) .Poprf <;> simp [Res.unwrap]
  obtain ⟨ws, ρ, h'⟩ := C12_poprf_proof_shape wf rng rng' bs ⟨t⟩ ht0 r (by
    rw [PoprfServer.finish_eq]
    simp only [List.map_map, Function.comp_def]
    rw [hg']
    exact h)
  exact ⟨t, ws, ρ, ⟨m, hm, htm, ht0⟩, h'⟩

/-- C12: the proof of a single answer is that of a batch of one. -/
theorem C12_single_proof_shape (wf : CS.WF) {σ : Type} [RngCore σ] (rng rng' : σ) (b : BlindedElement CS) :
    (∀ (s : VoprfServer CS) r, s.blindEvaluate rng b = .ok (r, rng') →
      s.batchBlindEvaluate rng [b] = .ok (⟨[r.message], r.proof⟩, rng')) ∧
    (∀ (s : PoprfServer CS) info r, s.blindEvaluate rng b info = .ok (r, rng') →
      s.batchBlindEvaluate rng [b] info = .ok (⟨[r.message], r.proof⟩, rng')) := by
  constructor
  · intro s r h
    rw [VoprfServer.blindEvaluate_eq wf, Res.bind_eq_ok] at h
    obtain ⟨⟨p, g⟩, hg, h⟩ := h
    simp only [Res.ok.injEq, Prod.mk.injEq] at h
    obtain ⟨rfl, rfl⟩ := h
    rw [VoprfServer.batch_eq]
    simp [hg]
  · intro s info r h
    rw [PoprfServer.blindEvaluate_eq wf, Res.bind_eq_ok] at h
    obtain ⟨t, ht, h⟩ := h
    rw [Res.bind_eq_ok] at h
    obtain ⟨⟨p, g⟩, hg, h⟩ := h
    simp only [Res.ok.injEq, Prod.mk.injEq] at h
    obtain ⟨rfl, rfl⟩ := h
    rw [PoprfServer.batch_eq wf, ht]
    simp [hg]

/-- A proof transcript: the two commitments, the challenge and the response. -/
structure ProofTranscript (CS : CipherSuite) where
  t2 : CS.Elem
  t3 : CS.Elem
  c : CS.Scalar
  s : CS.Scalar

/-- What the prover with key `k` produces from its random `ρ` when the challenge is `c`. -/
def ProofTranscript.real (k : CS.Scalar) (M : CS.Elem) (c ρ : CS.Scalar) : ProofTranscript CS :=
  ⟨ρ • CS.group.baseElem, ρ • M, c, ρ - c * k⟩

/-- What a simulator knowing only the public values `B`, `M`, `Z` produces from a random response. -/
def ProofTranscript.simulated (B M Z : CS.Elem) (c s : CS.Scalar) : ProofTranscript CS :=
  ⟨s • CS.group.baseElem + c • B, s • M + c • Z, c, s⟩

/-- C12: for a true statement and any challenge, every transcript is produced by exactly as many non-zero
`ρ` of the real prover as responses of the simulator with non-identity first commitment: the two have the
same distribution, and the simulator does not use the key. -/
theorem C12_simulation (k : CS.Scalar) (M : CS.Elem) (c : CS.Scalar) (τ : ProofTranscript CS) :
    Nat.card {ρ : CS.Scalar // ρ ≠ 0 ∧ ProofTranscript.real k M c ρ = τ} =
    Nat.card {s : CS.Scalar //
      (ProofTranscript.simulated (k • CS.group.baseElem) M (k • M) c s).t2 ≠ 0 ∧
      ProofTranscript.simulated (k • CS.group.baseElem) M (k • M) c s = τ} := by
  have hE : ∀ ρ, ProofTranscript.real k M c ρ =
      ProofTranscript.simulated (k • CS.group.baseElem) M (k • M) c (ρ - c * k) := by
    intro ρ
    simp only [ProofTranscript.real, ProofTranscript.simulated, ← mul_smul, ← add_smul,
      sub_add_cancel]
  refine Nat.card_congr ((Equiv.subRight (c * k)).subtypeEquiv ?_)
  intro ρ
  simp only [Equiv.subRight_apply, ← hE]
  rw [show (ProofTranscript.real k M c ρ).t2 = ρ • CS.group.baseElem from rfl, Ne, Ne,
    smul_base_eq_zero]

/-- C12: for a fixed challenge the map from the prover's random scalar to its response is a bijection. -/
theorem C12_response_bijective (k c : CS.Scalar) :
    Function.Bijective fun ρ : CS.Scalar => (ρ - c * k : CS.Scalar) :=
  (Equiv.subRight (c * k)).bijective

/-- C12: for *every* challenge and response (true statement or not) the simulated transcript passes the
verification equations. -/
theorem C12_simulated_verifies (B M Z : CS.Elem) (c s : CS.Scalar) :
    Answerable CS B M Z (ProofTranscript.simulated B M Z c s).t2
      (ProofTranscript.simulated B M Z c s).t3 c := ⟨s, rfl, rfl⟩

section examples
open Toy

/-- The same for whole POPRF batches and single requests. -/
example : ((⟨7, 7⟩ : PoprfServer suite).batchBlindEvaluate (⟨9⟩ : Rng) [⟨3⟩, ⟨4⟩] (some [1])).isOk = true ∧
    ((⟨7, 7⟩ : PoprfServer suite).blindEvaluate (⟨9⟩ : Rng) ⟨3⟩ (some [1])).isOk = true ∧
    ((⟨7, 7⟩ : VoprfServer suite).blindEvaluate (⟨9⟩ : Rng) ⟨3⟩).isOk = true := by
  refine ⟨?_, ?_, ?_⟩ <;> decide +kernel

/-- A server with two requests does answer, so the proof-shape theorem speaks about actual proofs. -/
example : ((⟨7, 7⟩ : VoprfServer suite).batchBlindEvaluate (⟨9⟩ : Rng) [⟨3⟩, ⟨4⟩]).isOk = true ∧
    (PoprfServer.batchBlindEvaluateFinish (⟨9⟩ : Rng)
      ([⟨3⟩, ⟨4⟩].map fun b : BlindedElement suite =>
        (⟨⟨suite.group.elemMul b.value ((7 : F)⁻¹ : F)⟩⟩ : PreparedEvaluationElement suite) |>.inner.value
          |> BlindedElement.mk)
      [⟨⟨3⟩⟩, ⟨⟨4⟩⟩] ⟨7⟩).isOk = true := by
  constructor <;> decide +kernel

end examples

/-! ## C36, C37: the output is determined by the public key -/

/-- C36: a message computed with key `k` for a non-identity blinded element is accepted under another
public key only by a hash coincidence, whatever proof accompanies it. -/
theorem C36_other_key (wf : CS.WF) (client : VoprfClient CS) (input : Bytes) (k : CS.Scalar)
    (e : EvaluationElement CS) (he : e.value = k • client.blindedElement)
    (hb : client.blindedElement ≠ 0) (proof : Proof CS) (pk : CS.Elem)
    (hpk : pk ≠ k • CS.group.baseElem) (out : Bytes)
    (h : client.finalize input e proof pk = .ok out) :
    weight CS .Voprf pk 0 client.blindedElement e.value = .ok 0 ∨
    ∃ w, weight CS .Voprf pk 0 client.blindedElement e.value = .ok w ∧
      LuckyHash CS .Voprf pk (w • client.blindedElement) (w • e.value) proof.cScalar proof.sScalar := by
  refine C10_voprf_finalize_sound wf client input e proof pk out h ?_
  rintro ⟨k', h1, h2⟩
  rw [he] at h2
  have : (k - k') • client.blindedElement = 0 := by rw [sub_smul, h2, sub_self]
  rcases smul_eq_zero.mp this with h0 | h0
  · exact hpk (by rw [h1, sub_eq_zero.mp h0])
  · exact hb h0

/-- C36 for an honest server: an answer of a `VoprfServer` is accepted under a public key other than the
base multiple of its private key only by a hash coincidence. -/
theorem C36_honest_server_other_key (wf : CS.WF) (s : VoprfServer CS) (b : VoprfClientBlindResult CS)
    (input : Bytes) (hbl : VoprfClient.Blinded input b) (P : CS.Elem)
    (hP : Spec.hashToGroup CS .Voprf input = .ok P) (hP0 : P ≠ 0)
    {σ : Type} [RngCore σ] (rng rng' : σ) (r : VoprfServerEvaluateResult CS)
    (hr : s.blindEvaluate rng b.message = .ok (r, rng')) (pk : CS.Elem)
    (hpk : pk ≠ s.sk • CS.group.baseElem) (proof : Proof CS) (out : Bytes)
    (h : b.state.finalize input r.message proof pk = .ok out) :
    weight CS .Voprf pk 0 b.message.value r.message.value = .ok 0 ∨
    ∃ w, weight CS .Voprf pk 0 b.message.value r.message.value = .ok w ∧
      LuckyHash CS .Voprf pk (w • b.message.value) (w • r.message.value) proof.cScalar proof.sScalar := by
  obtain ⟨σ', _, g, g', hbl⟩ := hbl
  obtain ⟨x, P', -, hx, hP', rfl⟩ := VoprfClient.blindInput_ok wf hbl
  rw [hP] at hP'
  cases Except.ok.inj hP'
  rw [VoprfServer.blindEvaluate_eq wf, Res.bind_eq_ok] at hr
  obtain ⟨p, -, hr⟩ := hr
  simp only [Res.ok.injEq, Prod.mk.injEq] at hr
  obtain ⟨rfl, -⟩ := hr
  exact C36_other_key wf ⟨x, x • P⟩ input s.sk ⟨s.sk • x • P⟩ rfl
    (fun h0 => by rcases smul_eq_zero.mp h0 with h0 | h0
                  · exact hx h0
                  · exact hP0 h0) proof pk hpk out h

/-- C36: an accepted finalization for a true statement returns the output determined by the public key:
if `pk = k·G` it is `Hash(⟨input⟩ ⟨k·HashToGroup(input)⟩ "Finalize")`. -/
theorem C36_output_of_key (wf : CS.WF) (input : Bytes) (b : VoprfClientBlindResult CS)
    (hb : VoprfClient.Blinded input b) (e : EvaluationElement CS) (proof : Proof CS) (pk : CS.Elem)
    (hs : SameKey CS pk b.message.value e.value) (out : Bytes)
    (h : b.state.finalize input e proof pk = .ok out) :
    ∃ (k : CS.Scalar) (P : CS.Elem), pk = k • CS.group.baseElem ∧ Spec.hashToGroup CS .Voprf input = .ok P ∧
      out = Spec.output CS input (k • P) := by
  obtain ⟨σ', _, g, g', hbl⟩ := hb
  obtain ⟨x, P, -, hx, hP, rfl⟩ := VoprfClient.blindInput_ok wf hbl
  obtain ⟨k, h1, h2⟩ := hs
  refine ⟨k, P, h1, hP, ?_⟩
  rw [VoprfClient.finalize_eq _ hx, Res.bind_eq_ok] at h
  obtain ⟨_, -, h⟩ := h
  rw [itemResult] at h
  split at h
  · simp only [Res.ok.injEq] at h
    rw [← h, h2, smul_comm k, inv_smul_smul₀ hx]
  · simp at h

/-- C37: two accepted VOPRF finalizations of the same input under the same public key, both for true
statements, return the same output: blinds, servers, proofs and messages do not matter. -/
theorem C37_voprf (wf : CS.WF) (input : Bytes) (pk : CS.Elem)
    (b b' : VoprfClientBlindResult CS) (hb : VoprfClient.Blinded input b)
    (hb' : VoprfClient.Blinded input b') (e e' : EvaluationElement CS) (proof proof' : Proof CS)
    (hs : SameKey CS pk b.message.value e.value) (hs' : SameKey CS pk b'.message.value e'.value)
    (out out' : Bytes) (h : b.state.finalize input e proof pk = .ok out)
    (h' : b'.state.finalize input e' proof' pk = .ok out') : out = out' := by
  obtain ⟨k, P, hk, hP, rfl⟩ := C36_output_of_key wf input b hb e proof pk hs out h
  obtain ⟨k', P', hk', hP', rfl⟩ := C36_output_of_key wf input b' hb' e' proof' pk hs' out' h'
  rw [hP] at hP'
  cases Except.ok.inj hP'
  rw [smul_base_inj (hk.symm.trans hk')]

/-- C37 inside batches: an item of an accepted VOPRF batch whose own statement is true has the result
determined by the public key and its input. -/
theorem C37_voprf_batch (wf : CS.WF) (inputs : List Bytes) (clients : List (VoprfClient CS))
    (hc : ∀ c ∈ clients, c.blind ≠ 0) (messages : List (EvaluationElement CS)) (proof : Proof CS)
    (pk : CS.Elem) (outs : List (Res Bytes))
    (h : VoprfClient.batchFinalize inputs clients messages proof pk = .ok outs)
    (i : Nat) (input : Bytes) (b : VoprfClientBlindResult CS) (e : EvaluationElement CS)
    (hi : inputs[i]? = some input) (hci : clients[i]? = some b.state) (hmi : messages[i]? = some e)
    (hb : VoprfClient.Blinded input b) (hs : SameKey CS pk b.message.value e.value) :
    ∃ (k : CS.Scalar) (P : CS.Elem), pk = k • CS.group.baseElem ∧ Spec.hashToGroup CS .Voprf input = .ok P ∧
      outs[i]? = some (prfResult CS input (k • P)) := by
  have ho := (C15_voprf_positions_partial wf _ _ hc _ _ _ _ h).2.2 i input b.state e hi hci hmi
  obtain ⟨σ', _, g, g', hbl⟩ := hb
  obtain ⟨x, P, -, hx, hP, rfl⟩ := VoprfClient.blindInput_ok wf hbl
  obtain ⟨k, h1, h2⟩ := hs
  refine ⟨k, P, h1, hP, ?_⟩
  rw [ho, h2]
  simp only
  rw [smul_comm k, inv_smul_smul₀ hx]

/-- C37 in POPRF mode: same input, info and public key give the same output for true statements. -/
theorem C37_poprf (wf : CS.WF) (input : Bytes) (info : Option Bytes) (pk : CS.Elem) (m : CS.Scalar)
    (hm : Spec.hashToScalar CS .Poprf (infoInput (info.getD [])) = .ok m)
    (b b' : PoprfClientBlindResult CS) (hb : PoprfClient.Blinded input b)
    (hb' : PoprfClient.Blinded input b') (e e' : EvaluationElement CS) (proof proof' : Proof CS)
    (hs : SameKey CS (m • CS.group.baseElem + pk) e.value b.message.value)
    (hs' : SameKey CS (m • CS.group.baseElem + pk) e'.value b'.message.value)
    (out out' : Bytes) (h : b.state.finalize input e proof pk info = .ok out)
    (h' : b'.state.finalize input e' proof' pk info = .ok out') : out = out' := by
  have key : ∀ (b : PoprfClientBlindResult CS) (hb : PoprfClient.Blinded input b)
      (e : EvaluationElement CS) (proof : Proof CS)
      (hs : SameKey CS (m • CS.group.baseElem + pk) e.value b.message.value) (out : Bytes)
      (h : b.state.finalize input e proof pk info = .ok out),
      ∃ (t : CS.Scalar) (P : CS.Elem), m • CS.group.baseElem + pk = t • CS.group.baseElem ∧
        Spec.hashToGroup CS .Poprf input = .ok P ∧
        out = Spec.outputInfo CS input (info.getD []) (t⁻¹ • P) := by
    intro b hb e proof hs out h
    obtain ⟨σ', _, g, g', hbl⟩ := hb
    obtain ⟨x, P, -, hx, hP, rfl⟩ := PoprfClient.blindInput_ok wf hbl
    obtain ⟨t, h1, h2⟩ := hs
    refine ⟨t, P, h1, hP, ?_⟩
    obtain ⟨m', hm', -, hne, -⟩ := (C09_poprf_single wf input ⟨x, x • P⟩ e proof pk info).1 out h
    rw [hm] at hm'
    cases Except.ok.inj hm'
    have ht : t ≠ 0 := by
      rintro rfl; rw [zero_smul] at h1; exact hne h1
    rw [PoprfClient.finalize_eq wf _ hx, Res.bind_eq_ok] at h
    obtain ⟨_, -, h⟩ := h
    rw [Res.bind_eq_ok] at h
    obtain ⟨_, -, h⟩ := h
    simp only [itemResultInfo] at h
    split at h
    · split at h
      · simp only [Res.ok.injEq] at h
        simp only at h2
        have : e.value = t⁻¹ • x • P := by rw [h2, inv_smul_smul₀ ht]
        rw [← h, this, smul_comm t⁻¹, inv_smul_smul₀ hx]
      · simp at h
    · simp at h
  obtain ⟨t, P, ht, hP, rfl⟩ := key b hb e proof hs out h
  obtain ⟨t', P', ht', hP', rfl⟩ := key b' hb' e' proof' hs' out' h'
  rw [hP] at hP'
  cases Except.ok.inj hP'
  rw [smul_base_inj (ht.symm.trans ht')]

/-! ## C35 -/

/-- C35: infos hashing to different scalars give different messages for the same non-identity element. -/
theorem C35_messages_differ (wf : CS.WF) (s : PoprfServer CS) (b : BlindedElement CS)
    (hb : b.value ≠ 0) (info info' : Option Bytes) (m m' : CS.Scalar)
    (hm : Spec.hashToScalar CS .Poprf (infoInput (info.getD [])) = .ok m)
    (hm' : Spec.hashToScalar CS .Poprf (infoInput (info'.getD [])) = .ok m') (hne : m ≠ m')
    {σ : Type} [RngCore σ] (g g1 g' g1' : σ) (r r' : PoprfServerEvaluateResult CS)
    (h : s.blindEvaluate g b info = .ok (r, g1)) (h' : s.blindEvaluate g' b info' = .ok (r', g1')) :
    r.message ≠ r'.message := by
  have key : ∀ (info : Option Bytes) (m : CS.Scalar)
      (_ : Spec.hashToScalar CS .Poprf (infoInput (info.getD [])) = .ok m) (g g1 : σ)
      (r : PoprfServerEvaluateResult CS) (_ : s.blindEvaluate g b info = .ok (r, g1)),
      s.sk + m ≠ 0 ∧ r.message = ⟨(s.sk + m)⁻¹ • b.value⟩ := by
    intro info m hm g g1 r h
    rw [PoprfServer.blindEvaluate_eq wf, Res.bind_eq_ok] at h
    obtain ⟨t, ht, h⟩ := h
    obtain ⟨m', -, hm', rfl, hz⟩ := computeTweak_ok wf ht
    rw [hm] at hm'
    cases Except.ok.inj hm'
    rw [Res.bind_eq_ok] at h
    obtain ⟨p, -, h⟩ := h
    simp only [Res.ok.injEq, Prod.mk.injEq] at h
    exact ⟨hz, by rw [← h.1]⟩
  obtain ⟨hz, e1⟩ := key info m hm g g1 r h
  obtain ⟨hz', e2⟩ := key info' m' hm' g' g1' r' h'
  rw [e1, e2]
  intro heq
  simp only [EvaluationElement.mk.injEq] at heq
  have : ((s.sk + m)⁻¹ - (s.sk + m')⁻¹) • b.value = 0 := by rw [sub_smul, heq, sub_self]
  rcases smul_eq_zero.mp this with h0 | h0
  · exact hne (add_left_cancel (inv_injective (sub_eq_zero.mp h0)))
  · exact hb h0

/-- C35: a message made for `info` is accepted by a client that asks for `info'` only by a hash
coincidence, if the infos hash to different scalars. -/
theorem C35_info_bound (wf : CS.WF) (s : PoprfServer CS) (hs : s.Made) (input : Bytes)
    (client : PoprfClient CS) (hb : client.blindedElement ≠ 0) (info info' : Option Bytes)
    (m m' : CS.Scalar)
    (hm : Spec.hashToScalar CS .Poprf (infoInput (info.getD [])) = .ok m)
    (hm' : Spec.hashToScalar CS .Poprf (infoInput (info'.getD [])) = .ok m') (hne : m ≠ m')
    {σ : Type} [RngCore σ] (g g1 : σ) (r : PoprfServerEvaluateResult CS)
    (h : s.blindEvaluate g ⟨client.blindedElement⟩ info = .ok (r, g1))
    (proof : Proof CS) (out : Bytes)
    (hout : client.finalize input r.message proof s.getPublicKey info' = .ok out) :
    weight CS .Poprf (m' • CS.group.baseElem + s.pk) 0 r.message.value client.blindedElement
        = .ok 0 ∨
    ∃ w, weight CS .Poprf (m' • CS.group.baseElem + s.pk) 0 r.message.value client.blindedElement
        = .ok w ∧
      LuckyHash CS .Poprf (m' • CS.group.baseElem + s.pk) (w • r.message.value)
        (w • client.blindedElement) proof.cScalar proof.sScalar := by
  refine C10_poprf_finalize_sound wf client input r.message proof s.pk info' m' hm' out hout ?_
  rw [PoprfServer.blindEvaluate_eq wf, Res.bind_eq_ok] at h
  obtain ⟨t, ht, h⟩ := h
  obtain ⟨m1, -, hm1, rfl, hz⟩ := computeTweak_ok wf ht
  rw [hm] at hm1
  cases Except.ok.inj hm1
  rw [Res.bind_eq_ok] at h
  obtain ⟨p, -, h⟩ := h
  simp only [Res.ok.injEq, Prod.mk.injEq] at h
  obtain ⟨rfl, -⟩ := h
  rw [(hs.key wf).2, ← add_smul]
  rw [sameKey_iff]
  intro hc
  simp only at hc
  have h1 : (m' + s.sk) • (s.sk + m)⁻¹ • client.blindedElement =
      (s.sk + m) • (s.sk + m)⁻¹ • client.blindedElement := by
    rw [← hc, smul_inv_smul₀ hz]
  have h2 : ((m' + s.sk) - (s.sk + m)) • (s.sk + m)⁻¹ • client.blindedElement = 0 := by
    rw [sub_smul, h1, sub_self]
  rcases smul_eq_zero.mp h2 with h0 | h0
  · exact hne (by linear_combination -h0)
  · rcases smul_eq_zero.mp h0 with h0 | h0
    · exact inv_ne_zero hz h0
    · exact hb h0

section examples
open Toy

/-- C36's hypotheses can all be met, i.e. the hash coincidence is possible (here, in a group with 251
elements, found by search): the message `30 = 5·6` is accepted under the public key `7·G`. -/
example : ((⟨2, 6⟩ : VoprfClient suite).finalize [1, 2, 3] ⟨30⟩ ⟨248, 98⟩ 7).isOk = true ∧
    (30 : F) = 5 * 6 ∧ (6 : F) ≠ 0 ∧ (7 : F) ≠ 5 * 1 := by
  refine ⟨?_, ?_, ?_, ?_⟩ <;> decide +kernel

/-- C35's hypotheses can be met: the two infos hash differently, the server answers for `[1]`, and a
(lucky) proof makes the client asking for `[2]` accept. -/
example : (⟨7, 7⟩ : PoprfServer suite).Made ∧
    (∃ m m' : F, Spec.hashToScalar suite .Poprf (infoInput [1]) = .ok m ∧
      Spec.hashToScalar suite .Poprf (infoInput [2]) = .ok m' ∧ m ≠ m') ∧
    (do let (r, _) ← (⟨7, 7⟩ : PoprfServer suite).blindEvaluate (⟨9⟩ : Rng) ⟨6⟩ (some [1])
        (⟨2, 6⟩ : PoprfClient suite).finalize [1, 2, 3] r.message ⟨250, 240⟩ 7 (some [2])).isOk
      = true := by
  have hs : PoprfServer.newWithKey suite [7] = .ok ⟨7, 7⟩ := by rfl
  exact ⟨.newWithKey _ _ hs, ⟨_, _, rfl, rfl, by decide +kernel⟩, by decide +kernel⟩

/-- Two different blindings of the same input answered by the same server meet C37's hypotheses. -/
example : ∃ (b b' : VoprfClientBlindResult suite) (r r' : VoprfServerEvaluateResult suite)
    (out out' : Bytes), VoprfClient.Blinded [1, 2, 3] b ∧ VoprfClient.Blinded [1, 2, 3] b' ∧
    SameKey suite 7 b.message.value r.message.value ∧
    SameKey suite 7 b'.message.value r'.message.value ∧
    b.state.finalize [1, 2, 3] r.message r.proof 7 = .ok out ∧
    b'.state.finalize [1, 2, 3] r'.message r'.proof 7 = .ok out' := by
  have hs : VoprfServer.newWithKey suite [7] = .ok ⟨7, 7⟩ := by rfl
  obtain ⟨o, ho⟩ := Res.exists_of_isOk
    (x := (⟨7, 7⟩ : VoprfServer suite).evaluate [1, 2, 3]) (by decide +kernel)
  have one : ∀ g : Rng, (VoprfClient.blindInput suite [1, 2, 3] g).isOk = true →
      ∃ (b : VoprfClientBlindResult suite) (r : VoprfServerEvaluateResult suite) (out : Bytes),
      VoprfClient.Blinded [1, 2, 3] b ∧ SameKey suite 7 b.message.value r.message.value ∧
      b.state.finalize [1, 2, 3] r.message r.proof 7 = .ok out := by
    intro g hg
    obtain ⟨⟨b, g0⟩, hb⟩ := Res.exists_of_isOk hg
    obtain ⟨r, g1, hr⟩ := C02_voprf_answers wf (⟨7, 7⟩ : VoprfServer suite) b.message (⟨9⟩ : Rng) rfl
    refine ⟨b, r, o, ⟨_, _, _, _, hb⟩, ?_,
      (C02_voprf_correct wf _ (.newWithKey _ _ hs) _ b ⟨_, _, _, _, hb⟩ _ _ _ hr).2 o ho⟩
    rw [VoprfServer.blindEvaluate_eq wf, Res.bind_eq_ok] at hr
    obtain ⟨p, -, hr⟩ := hr
    simp only [Res.ok.injEq, Prod.mk.injEq] at hr
    obtain ⟨rfl, -⟩ := hr
    exact ⟨7, by rfl, rfl⟩
  obtain ⟨b, r, out, h1, h2, h3⟩ := one ⟨5⟩ (by decide +kernel)
  obtain ⟨b', r', out', h1', h2', h3'⟩ := one ⟨77⟩ (by decide +kernel)
  exact ⟨b, b', r, r', out, out', h1, h1', h2, h2', h3, h3'⟩

end examples

end Voprf
