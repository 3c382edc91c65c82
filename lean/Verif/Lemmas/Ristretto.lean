import Verif.Spec.Dalek
import Verif.Spec.Contract
import Verif.Lemmas.Expand
import Verif.Lemmas.Loops
import Mathlib.Algebra.Field.ZMod
import Mathlib.FieldTheory.Finite.Basic

/-!
# The Ristretto255 group implementation meets the contract
-/

namespace Voprf.Ristretto

open Rfc9380

variable {D : Dalek}

theorem ell_lt : ell < 256 ^ 32 := by rw [ell_val]; decide

theorem ell_le (H : HashAlg) : (64 + H.outputSize - 1) / H.outputSize ≤ 255 := by
  have h0 := H.outputSize_pos
  rw [Nat.div_le_iff_le_mul_add_pred h0]
  omega

/-- What both hash functions start from: 64 bytes of `expand_message_xmd`. -/
theorem uniform_eq (H : HashAlg) (input dst : List Bytes) :
    (H2C.expandMessage H input dst 64).map (fun e => (e.fillBytes H 64).1) =
      expandMessageXmd H.digest H.outputSize H.blockSize input.flatten dst.flatten 64 := by
  have h := H2C.hashToFieldBytes_eq (H := H) input dst 64 1
  unfold H2C.hashToFieldBytes at h
  rw [Nat.mul_one] at h
  cases he : H2C.expandMessage H input dst 64 with
  | none =>
      rw [he] at h
      simp only [Option.bind_eq_bind, Option.bind_none] at h
      cases hx : expandMessageXmd H.digest H.outputSize H.blockSize input.flatten dst.flatten 64 with
      | none => rfl
      | some u => rw [hx] at h; simp at h
  | some e =>
      rw [he] at h
      simp only [Option.bind_eq_bind, Option.bind_some, H2C.fillMany] at h
      cases hx : expandMessageXmd H.digest H.outputSize H.blockSize input.flatten dst.flatten 64 with
      | none => rw [hx] at h; simp at h
      | some u =>
          rw [hx] at h
          simp only [Option.map_some, List.range_succ, List.range_zero, List.nil_append, List.map_cons,
            List.map_nil, Nat.zero_mul, List.drop_zero, Option.some.injEq, List.cons.injEq,
            and_true] at h
          have hu : u.length ≤ 64 := by
            unfold expandMessageXmd at hx
            simp only at hx
            split at hx
            · simp at hx
            · simp only [Option.some.injEq] at hx
              rw [← hx, List.length_take]
              exact Nat.min_le_left _ _
          rw [Option.map_some, h, List.take_of_length_le hu]

theorem hashToCurve_eq (H : HashAlg) (input dst : List Bytes) :
    hashToCurve D H input dst =
      match expandMessageXmd H.digest H.outputSize H.blockSize input.flatten dst.flatten 64 with
      | some u => .ok (D.fromUniformBytes u)
      | none => .error .Input := by
  rw [← uniform_eq]
  unfold hashToCurve
  cases H2C.expandMessage H input dst 64 <;> rfl

theorem hashToScalar_eq (H : HashAlg) (input dst : List Bytes) :
    hashToScalar H input dst =
      match expandMessageXmd H.digest H.outputSize H.blockSize input.flatten dst.flatten 64 with
      | some u => .ok (ofLeBytes u : Scalar)
      | none => .error .Input := by
  rw [← uniform_eq]
  unfold hashToScalar
  cases H2C.expandMessage H input dst 64 <;> rfl

theorem expand_some (H : HashAlg) (msg dst : Bytes) (hd : 1 ≤ dst.length) :
    ∃ u, expandMessageXmd H.digest H.outputSize H.blockSize msg dst 64 = some u := by
  unfold expandMessageXmd
  have := ell_le H
  simp only
  rw [if_neg (by omega)]
  exact ⟨_, rfl⟩

theorem hashToCurve_ok (H : HashAlg) (x d : Bytes) (hd : 1 ≤ d.length) :
    ∃ P, hashToCurve D H [x] [d] = .ok P := by
  obtain ⟨u, hu⟩ := expand_some H x d hd
  rw [hashToCurve_eq]
  simp only [List.flatten_cons, List.flatten_nil, List.append_nil, hu]
  exact ⟨_, rfl⟩

theorem hashToScalar_ok (H : HashAlg) (x d : Bytes) (hd : 1 ≤ d.length) :
    ∃ k, hashToScalar H [x] [d] = .ok k := by
  obtain ⟨u, hu⟩ := expand_some H x d hd
  rw [hashToScalar_eq]
  simp only [List.flatten_cons, List.flatten_nil, List.append_nil, hu]
  exact ⟨_, rfl⟩

/-! ## Scalars -/

theorem deserializeScalar_iff {b : Bytes} {k : Scalar} :
    deserializeScalar b = .ok k ↔ b = toLeBytes 32 k.val ∧ k ≠ 0 := by
  unfold deserializeScalar fromCanonicalBytes
  constructor
  · intro h
    split at h
    · simp at h
    · next hl =>
      have hl : b.length = 32 := by simpa using hl
      split at h
      · next k' hk =>
        simp only [Except.ok.injEq] at h
        subst h
        obtain ⟨hk, h0⟩ := Option.filter_eq_some_iff.mp hk
        split at hk
        · next hlt =>
          simp only [Option.some.injEq] at hk
          refine ⟨?_, by simpa using h0⟩
          rw [← hk, ZMod.val_natCast, Nat.mod_eq_of_lt hlt, ← hl, toLeBytes_ofLeBytes]
        · simp at hk
      · simp at h
  · rintro ⟨h, h0⟩
    have hl : b.length = 32 := by rw [h, toLeBytes_length]
    have hv : ofLeBytes b = k.val := by
      rw [h, ofLeBytes_toLeBytes _ _ (lt_trans (ZMod.val_lt k) ell_lt)]
    have hf : Option.filter (fun scalar : Scalar => decide (scalar ≠ 0)) (some k) = some k :=
      Option.filter_eq_some_iff.mpr ⟨rfl, decide_eq_true h0⟩
    rw [if_neg (by simp [hl]), hv, if_pos (ZMod.val_lt k), ZMod.natCast_zmod_val, hf]

theorem deserializeScalar_serialize (k : Scalar) (h : k ≠ 0) :
    deserializeScalar (serializeScalar k) = .ok k := deserializeScalar_iff.mpr ⟨rfl, h⟩

theorem deserializeScalar_ne_zero (b : Bytes) (k : Scalar) (h : deserializeScalar b = .ok k) :
    k ≠ 0 := (deserializeScalar_iff.mp h).2

theorem deserializeScalar_error (b : Bytes) (e : Error) (h : deserializeScalar b = .error e) :
    e = .Deserialization := by
  unfold deserializeScalar at h
  split at h
  · simpa using h.symm
  · split at h <;> simp at h
    exact h.symm

theorem deserializeScalar_zero :
    deserializeScalar (serializeScalar 0) = .error .Deserialization := by
  cases h : deserializeScalar (serializeScalar 0) with
  | error e => rw [deserializeScalar_error _ _ h]
  | ok k =>
      exfalso
      obtain ⟨h1, h0⟩ := deserializeScalar_iff.mp h
      unfold serializeScalar at h1
      have := congrArg ofLeBytes h1
      rw [ofLeBytes_toLeBytes _ _ (lt_trans (ZMod.val_lt _) ell_lt),
        ofLeBytes_toLeBytes _ _ (lt_trans (ZMod.val_lt _) ell_lt)] at this
      exact h0 (ZMod.val_injective _ this).symm

theorem invert_eq (k : Scalar) (h : k ≠ 0) : invertScalar k = some k⁻¹ := by
  unfold invertScalar
  have h2 : 2 ≤ ell := (Fact.out : ell.Prime).two_le
  refine congrArg some (eq_inv_of_mul_eq_one_left ?_)
  rw [← pow_succ, show ell - 2 + 1 = ell - 1 by omega]
  exact ZMod.pow_card_sub_one_eq_one h

theorem invert_zero : invertScalar 0 = some 0 := by
  unfold invertScalar
  have h2 : ell - 2 ≠ 0 := by rw [ell_val]; decide
  rw [zero_pow h2]

/-! ## Randomness -/

theorem draw_some {σ : Type} [RngCore σ] {s s' : σ} {k : Scalar} (h : drawScalar s = (some k, s')) :
    k ≠ 0 ∧ k = (ofLeBytes (RngCore.fillBytes s 64).1 : Scalar) ∧ s' = (RngCore.fillBytes s 64).2 := by
  simp only [drawScalar, Prod.mk.injEq] at h
  obtain ⟨h, h2⟩ := h
  split at h
  · next h0 =>
    simp only [Option.some.injEq] at h
    subst h
    exact ⟨h0, rfl, h2.symm⟩
  · simp at h

theorem run_some {σ : Type} [RngCore σ] {s : σ} {r : Scalar × σ} (h : Run drawScalar s r) :
    r.1 ≠ 0 := by
  induction h with
  | stop hd => exact (draw_some hd).1
  | again _ _ ih => exact ih

/-! ## The contract -/

section
variable [L : D.Lawful]

theorem deserializeElem_iff {b : Bytes} {P : D.Point} :
    deserializeElem D b = .ok P ↔ b = D.compress P ∧ P ≠ 0 := by
  have hcanon : ∀ b P, (D.decompress b).filter (fun point => !D.ctEq point D.identity) = some P ↔
      b = D.compress P ∧ P ≠ 0 := by
    intro b P
    rw [Option.filter_eq_some_iff]
    constructor
    · rintro ⟨h, h'⟩
      refine ⟨L.decompress_canonical _ _ h, ?_⟩
      rintro rfl
      rw [L.identity_eq, (L.ctEq_iff 0 0).mpr rfl] at h'
      simp at h'
    · rintro ⟨rfl, h⟩
      refine ⟨L.decompress_compress P, ?_⟩
      rw [Bool.not_eq_true', ← Bool.not_eq_true, L.ctEq_iff, L.identity_eq]
      exact h
  unfold deserializeElem
  constructor
  · intro h
    split at h
    · simp at h
    · split at h
      · next hk =>
        simp only [Except.ok.injEq] at h
        subst h
        exact (hcanon _ _).mp hk
      · simp at h
  · intro h
    rw [if_neg (by rw [h.1, D.compress_length]; simp), (hcanon b P).mpr h]

omit L in
theorem deserializeElem_error (b : Bytes) (e : Error) (h : deserializeElem D b = .error e) :
    e = .Deserialization := by
  unfold deserializeElem at h
  split at h
  · simpa using h.symm
  · split at h <;> simp at h
    exact h.symm

theorem compress_injective {P Q : D.Point} (h : D.compress P = D.compress Q) : P = Q := by
  have h1 := L.decompress_compress P
  rw [h, L.decompress_compress Q] at h1
  simpa using h1.symm

theorem deserializeElem_zero :
    deserializeElem D (D.compress 0) = .error .Deserialization := by
  cases h : deserializeElem D (D.compress 0) with
  | error e => rw [deserializeElem_error _ _ h]
  | ok P =>
      exfalso
      obtain ⟨h1, h0⟩ := deserializeElem_iff.mp h
      exact h0 (compress_injective h1).symm

end

instance : Field (group D).Scalar := inferInstanceAs (Field Scalar)
instance [L : D.Lawful] : AddCommGroup (group D).Elem := L.addCommGroup
instance [L : D.Lawful] : Module (group D).Scalar (group D).Elem := L.module

theorem isZero_iff (k : Scalar) : isZeroScalar k = true ↔ k = 0 := decide_eq_true_iff

/-- The implementation meets the whole contract. -/
noncomputable instance lawful (D : Dalek) [L : D.Lawful] : (group D).Lawful where
  finite_scalar := inferInstanceAs (Finite Scalar)
  elemAdd_eq := L.add_eq
  elemMul_eq := L.mul_eq
  elemCtEq_iff := L.ctEq_iff
  scalarAdd_eq _ _ := rfl
  scalarMul_eq _ _ := rfl
  scalarSub_eq _ _ := rfl
  scalarCtEq_iff P Q := by simp [group]
  elemZeroize_eq := L.zeroize_eq
  scalarZeroize_eq _ := rfl
  identityElem_eq := L.identity_eq
  baseElem_ne_zero := L.basepoint_ne_zero
  base_generates := L.generates
  isZeroScalar_iff := isZero_iff
  invertScalar_eq := invert_eq
  randomScalar_ne_zero s s' k h := run_some ((sampleLoop_iff drawScalar s _).mp h)
  deserializeElem_serialize P h := deserializeElem_iff.mpr ⟨rfl, h⟩
  deserializeElem_serialize_zero := deserializeElem_zero
  deserializeElem_ne_zero _ _ h := (deserializeElem_iff.mp h).2
  deserializeElem_error := deserializeElem_error
  deserializeScalar_serialize := deserializeScalar_serialize
  deserializeScalar_serialize_zero := deserializeScalar_zero
  deserializeScalar_ne_zero := deserializeScalar_ne_zero
  deserializeScalar_error := deserializeScalar_error
  hashToCurve_flatten H xs ds := by
    show hashToCurve D H xs ds = hashToCurve D H _ _
    rw [hashToCurve_eq, hashToCurve_eq]; simp
  hashToScalar_flatten H xs ds := by
    show hashToScalar H xs ds = hashToScalar H _ _
    rw [hashToScalar_eq, hashToScalar_eq]; simp
  hashToCurve_ok H x d _ _ hd := hashToCurve_ok H x d hd
  hashToScalar_ok H x d _ _ hd := hashToScalar_ok H x d hd

theorem totalHash (D : Dalek) : (group D).TotalHash := ⟨hashToCurve_ok, hashToScalar_ok⟩

theorem scalar_canonical (b : Bytes) (k : Scalar) (h : deserializeScalar b = .ok k) :
    b = serializeScalar k := (deserializeScalar_iff.mp h).1

theorem canonical (D : Dalek) [D.Lawful] : (group D).Canonical :=
  ⟨fun _ _ h => (deserializeElem_iff.mp h).1, scalar_canonical⟩

end Voprf.Ristretto
