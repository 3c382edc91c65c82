import Verif.Lemmas.Ristretto
import Verif.Lemmas.Nist
import Verif.Spec.Samples
import Verif.Toy

/-!
# C41–C43: the group implementations shipped with the crate
-/

namespace Voprf

open Spec Rfc9380

/-! ## C41: Ristretto255 -/

section ristretto

open Ristretto

theorem leNat_eq : ∀ b, leNat b = ofLeBytes b
  | [] => rfl
  | c :: cs => by rw [leNat, ofLeBytes, leNat_eq cs]

/-- C41: the Ristretto255 implementation meets the contract of the `Group` trait (given the contract of the
point library); its hashes never fail and its codecs are canonical. -/
theorem C41_ristretto_contract (D : Dalek) [D.Lawful] :
    Nonempty (Ristretto.group D).Lawful ∧ (Ristretto.group D).TotalHash ∧
      (Ristretto.group D).Canonical ∧
      (Ristretto.group D).elemLen = 32 ∧ (Ristretto.group D).scalarLen = 32 :=
  ⟨⟨lawful D⟩, totalHash D, canonical D, rfl, rfl⟩

/-- C41: `deserialize_scalar` accepts exactly the 32-byte little-endian encodings of the integers strictly
between 0 and ℓ; anything else is `Error::Deserialization`. -/
theorem C41_ristretto_scalar_decoding (D : Dalek) (b : Bytes) :
    (∀ k : Scalar, (Ristretto.group D).deserializeScalar b = .ok k ↔
      b.length = 32 ∧ 0 < leNat b ∧ leNat b < ell ∧ k = (leNat b : Scalar)) ∧
    (¬ (b.length = 32 ∧ 0 < leNat b ∧ leNat b < ell) →
      (Ristretto.group D).deserializeScalar b = .error .Deserialization) := by
  have key : ∀ k : Scalar, Ristretto.deserializeScalar b = .ok k ↔
      b.length = 32 ∧ 0 < leNat b ∧ leNat b < ell ∧ k = (leNat b : Scalar) := by
    intro k
    rw [deserializeScalar_iff, leNat_eq]
    constructor
    · rintro ⟨h, h0⟩
      have hv : ofLeBytes b = k.val := by
        rw [h, ofLeBytes_toLeBytes _ _ (lt_trans (ZMod.val_lt k) ell_lt)]
      rw [hv]
      refine ⟨by rw [h, toLeBytes_length], ?_, ZMod.val_lt k, (ZMod.natCast_zmod_val k).symm⟩
      exact Nat.pos_of_ne_zero fun h' => h0 ((ZMod.val_eq_zero k).mp h')
    · rintro ⟨hl, h0, hlt, rfl⟩
      have hv : ((ofLeBytes b : Nat) : Scalar).val = ofLeBytes b := by
        rw [ZMod.val_natCast, Nat.mod_eq_of_lt hlt]
      refine ⟨by rw [hv, ← hl, toLeBytes_ofLeBytes], ?_⟩
      intro h'
      rw [h', ZMod.val_zero] at hv
      omega
  refine ⟨key, fun h => ?_⟩
  show Ristretto.deserializeScalar b = .error .Deserialization
  cases hd : Ristretto.deserializeScalar b with
  | error e => rw [Ristretto.deserializeScalar_error _ _ hd]
  | ok k => exact absurd ((key k).mp hd) (by tauto)

/-- C41: `deserialize_elem` accepts exactly the canonical encodings of the elements other than the
identity. -/
theorem C41_ristretto_element_decoding (D : Dalek) [D.Lawful] (b : Bytes) :
    (∀ P : D.Point, (Ristretto.group D).deserializeElem b = .ok P ↔
      b = (Ristretto.group D).serializeElem P ∧ P ≠ D.identity) ∧
    ((∀ P : D.Point, P ≠ D.identity → b ≠ (Ristretto.group D).serializeElem P) →
      (Ristretto.group D).deserializeElem b = .error .Deserialization) := by
  have key : ∀ P : D.Point, Ristretto.deserializeElem D b = .ok P ↔
      b = D.compress P ∧ P ≠ D.identity := by
    intro P
    rw [Ristretto.deserializeElem_iff, Dalek.Lawful.identity_eq]
  refine ⟨key, fun h => ?_⟩
  show Ristretto.deserializeElem D b = .error .Deserialization
  cases hd : Ristretto.deserializeElem D b with
  | error e => rw [Ristretto.deserializeElem_error _ _ hd]
  | ok P =>
      obtain ⟨h1, h2⟩ := (key P).mp hd
      exact absurd h1 (h P h2)

/-- C41: hashing follows RFC 9380 Appendix B and RFC 9497 §4.1: 64 bytes of `expand_message_xmd` of the
concatenated message and tag, fed to the one-way map, or reduced modulo ℓ as a little-endian integer; it
fails (with `InternalError::Input`) only for an empty tag. -/
theorem C41_ristretto_hash (D : Dalek) (H : HashAlg) (input dst : List Bytes) :
    (dst.flatten ≠ [] → ∃ u, expandMessageXmd H.digest H.outputSize H.blockSize input.flatten
        dst.flatten 64 = some u ∧
      (Ristretto.group D).hashToCurve H input dst = .ok (D.fromUniformBytes u) ∧
      (Ristretto.group D).hashToScalar H input dst = .ok (leNat u : Scalar)) ∧
    (dst.flatten = [] →
      (Ristretto.group D).hashToCurve H input dst = .error .Input ∧
      (Ristretto.group D).hashToScalar H input dst = .error .Input) := by
  constructor
  · intro hd
    obtain ⟨u, hu⟩ := Ristretto.expand_some H input.flatten dst.flatten
      (List.length_pos_iff.mpr hd)
    refine ⟨u, hu, ?_, ?_⟩
    · show Ristretto.hashToCurve D H input dst = _
      rw [Ristretto.hashToCurve_eq, hu]
      rfl
    · show Ristretto.hashToScalar H input dst = _
      rw [Ristretto.hashToScalar_eq, hu, leNat_eq]
      rfl
  · intro hd
    have hn : expandMessageXmd H.digest H.outputSize H.blockSize input.flatten dst.flatten 64 = none := by
      unfold expandMessageXmd
      simp [hd]
    constructor
    · show Ristretto.hashToCurve D H input dst = _
      rw [Ristretto.hashToCurve_eq, hn]
      rfl
    · show Ristretto.hashToScalar H input dst = _
      rw [Ristretto.hashToScalar_eq, hn]
      rfl

/-- C41: inversion never panics; it inverts every non-zero scalar and maps zero to zero. -/
theorem C41_ristretto_invert (D : Dalek) (k : Scalar) :
    ∃ j : Scalar, (Ristretto.group D).invertScalar k = some j ∧ (k ≠ 0 → k * j = 1) ∧ (k = 0 → j = 0) := by
  by_cases h : k = 0
  · subst h
    exact ⟨0, Ristretto.invert_zero, fun h => absurd rfl h, fun _ => rfl⟩
  · exact ⟨k⁻¹, Ristretto.invert_eq k h, fun _ => mul_inv_cancel₀ h, fun h' => absurd h' h⟩

/-- A second instance of the contract besides `ristretto255`: the integers modulo ℓ, encoded like scalars.
(Cryptographically worthless, but of the right order and with a canonical 32-byte encoding.) -/
def modelDalek : Dalek where
  Point := Scalar
  identity := 0
  basepoint := 1
  add := (· + ·)
  mul P k := k * P
  ctEq P Q := decide (P = Q)
  zeroize _ := 0
  compress := Ristretto.serializeScalar
  compress_length := Ristretto.serializeScalar_length
  decompress b := if b.length = 32 then fromCanonicalBytes b else none
  fromUniformBytes := fromBytesModOrderWide

theorem model_decompress {b : Bytes} {P : Scalar} :
    (if b.length = 32 then fromCanonicalBytes b else none) = some P ↔ b = Ristretto.serializeScalar P := by
  unfold fromCanonicalBytes Ristretto.serializeScalar
  constructor
  · intro h
    split at h
    · next hl =>
      split at h
      · next hlt =>
        simp only [Option.some.injEq] at h
        rw [← h, ZMod.val_natCast, Nat.mod_eq_of_lt hlt, ← hl, toLeBytes_ofLeBytes]
      · simp at h
    · simp at h
  · intro h
    have hv : ofLeBytes b = P.val := by
      rw [h, ofLeBytes_toLeBytes _ _ (lt_trans (ZMod.val_lt P) ell_lt)]
    rw [if_pos (by rw [h, toLeBytes_length]), hv, if_pos (ZMod.val_lt P), ZMod.natCast_zmod_val]

theorem model_ctEq (P Q : Scalar) : decide (P = Q) = true ↔ P = Q := decide_eq_true_iff

instance : AddCommGroup modelDalek.Point := inferInstanceAs (AddCommGroup Scalar)
instance : Module Scalar modelDalek.Point := inferInstanceAs (Module Scalar Scalar)

instance : modelDalek.Lawful where
  identity_eq := rfl
  add_eq _ _ := rfl
  mul_eq _ _ := rfl
  ctEq_iff P Q := model_ctEq P Q
  zeroize_eq _ := rfl
  basepoint_ne_zero := one_ne_zero (α := Scalar)
  generates P := ⟨P, (mul_one (M := Scalar) P).symm⟩
  decompress_compress _ := model_decompress.mpr rfl
  decompress_canonical _ _ h := model_decompress.mp h

/-- There are non-identity elements, and encodings that are accepted and refused. -/
example : modelDalek.basepoint ≠ modelDalek.identity := one_ne_zero (α := Scalar)

end ristretto

/-! ## C42: the NIST curves -/

section nist

open Nist Sec1

/-- C42: for a curve of prime order the implementation meets the contract of the `Group` trait, with
element length one more than the field length, and its hashes never fail. -/
theorem C42_nist_contract (c : Params) [PrimeOrder c] :
    Nonempty (Nist.group c).Lawful ∧ (Nist.group c).TotalHash ∧
      (Nist.group c).elemLen = c.fieldLen + 1 ∧ (Nist.group c).scalarLen = c.fieldLen :=
  ⟨⟨lawful c⟩, totalHash c, rfl, rfl⟩

/-- C42: `serialize_elem` writes the compressed SEC 1 form, and the identity as zeros. -/
theorem C42_nist_serialize (c : Params) :
    (∀ x y (h : c.curve.Nonsingular x y),
      (Nist.group c).serializeElem (.some x y h : c.Point) = compressed c.fieldLen x.val y.val) ∧
    (Nist.group c).serializeElem (0 : c.Point) = List.replicate (c.fieldLen + 1) 0 :=
  ⟨fun _ _ h => compressed_eq h, serialize_zero⟩

/-- C42: `deserialize_elem` accepts exactly the compressed, uncompressed and compact SEC 1 encodings of
the affine points (never the identity); anything else is `Error::Deserialization`. -/
theorem C42_nist_element_decoding (c : Params) [PrimeOrder c] (b : Bytes) :
    (∀ P : c.Point, (Nist.group c).deserializeElem b = .ok P ↔
      ∃ x y h, P = .some x y h ∧
        (b = compressed c.fieldLen x.val y.val ∨ b = uncompressed c.fieldLen x.val y.val ∨
          (b = compact c.fieldLen x.val ∧ y.val ≤ (-y).val))) ∧
    ((¬ ∃ P : c.Point, (Nist.group c).deserializeElem b = .ok P) →
      (Nist.group c).deserializeElem b = .error .Deserialization) := by
  refine ⟨fun P => ?_, fun h => ?_⟩
  · exact Nist.deserializeElem_iff.trans fromSec1_iff
  · cases hd : (Nist.group c).deserializeElem b with
    | error e => rw [Nist.deserializeElem_error _ _ hd]
    | ok P => exact absurd ⟨P, hd⟩ h

/-- C42, a deviation from the documentation ("fixed-length"): every point is accepted in two or three
different encodings, of two different lengths. -/
theorem C42_nist_element_not_canonical (c : Params) [PrimeOrder c] :
    ¬ (Nist.group c).Canonical := by
  intro h
  have hb : c.curve.Nonsingular (c.gx : c.Fp) (c.gy : c.Fp) := nonsingular_of_eq c.generator
  have hd := ((C42_nist_element_decoding c (uncompressed c.fieldLen (c.gx : c.Fp).val
    (c.gy : c.Fp).val)).1 (.some _ _ hb)).mpr ⟨_, _, hb, rfl, .inr (.inl rfl)⟩
  have := (congrArg List.length (h.elem _ _ hd)).trans ((Nist.group c).serializeElem_length _)
  have hl : (uncompressed c.fieldLen (c.gx : c.Fp).val (c.gy : c.Fp).val).length
      = 2 * c.fieldLen + 1 := by
    simp [uncompressed, i2osp_length]; omega
  rw [hl] at this
  have h2 : (Nist.group c).elemLen = c.fieldLen + 1 := rfl
  have := fieldLen_pos c
  omega

/-- C42: restricted to the documented length, decoding accepts the encoding of `serialize_elem` and, for a
point whose `y` is the smaller root, also `05 || X`. -/
theorem C42_nist_element_fixed_length (c : Params) [PrimeOrder c] (b : Bytes)
    (hl : b.length = (Nist.group c).elemLen) (P : c.Point) :
    (Nist.group c).deserializeElem b = .ok P ↔
      P ≠ 0 ∧ (b = (Nist.group c).serializeElem P ∨
        ∃ x y h, P = .some x y h ∧ b = compact c.fieldLen x.val ∧ y.val ≤ (-y).val) := by
  have hl : b.length = c.fieldLen + 1 := hl
  rw [(C42_nist_element_decoding c b).1 P]
  constructor
  · rintro ⟨x, y, h, rfl, hb | hb | hb⟩
    · exact ⟨by simp, .inl (hb.trans (compressed_eq h).symm)⟩
    · exfalso
      rw [hb] at hl
      simp [uncompressed, i2osp_length] at hl
      have := fieldLen_pos c
      omega
    · exact ⟨by simp, .inr ⟨x, y, h, rfl, hb⟩⟩
  · rintro ⟨h0, hb | ⟨x, y, h, rfl, hb⟩⟩
    · cases P with
      | zero => exact absurd rfl h0
      | some x y h => exact ⟨x, y, h, rfl, .inl (hb.trans (compressed_eq h))⟩
    · exact ⟨x, y, h, rfl, .inr (.inr hb)⟩

/-- C42: `deserialize_scalar` accepts exactly the big-endian encodings of the integers strictly between 0
and `n` in `fieldLen` bytes, or in 24 bytes or more with leading zeros dropped; anything else is
`Error::Deserialization`. -/
theorem C42_nist_scalar_decoding (c : Params) (b : Bytes) :
    (∀ k : c.Fn, (Nist.group c).deserializeScalar b = .ok k ↔
      (b.length = c.fieldLen ∨ 24 ≤ b.length ∧ b.length < c.fieldLen) ∧
        0 < os2ip b ∧ os2ip b < c.n ∧ k = (os2ip b : c.Fn)) ∧
    ((¬ ∃ k : c.Fn, (Nist.group c).deserializeScalar b = .ok k) →
      (Nist.group c).deserializeScalar b = .error .Deserialization) := by
  refine ⟨fun k => ?_, fun h => ?_⟩
  · rw [show ((Nist.group c).deserializeScalar b = .ok k) ↔ _ from Nist.deserializeScalar_iff,
      secretKeyFromSlice_iff, i2osp_eq]
    have hos : os2ip b = ofBeBytes b := rfl
    rw [hos]
    constructor
    · rintro ⟨h0, hl, hb⟩
      have hv : ofBeBytes b = k.val := by
        have := congrArg ofBeBytes hb
        rwa [ofBeBytes_replicate_zero, ofBeBytes_toBeBytes _ _ (lt_trans (ZMod.val_lt k) c.n_lt)] at this
      rw [hv]
      exact ⟨hl, Nat.pos_of_ne_zero fun h' => h0 ((ZMod.val_eq_zero k).mp h'), ZMod.val_lt k,
        (ZMod.natCast_zmod_val k).symm⟩
    · rintro ⟨hl, h0, hlt, rfl⟩
      have hv : ((ofBeBytes b : Nat) : c.Fn).val = ofBeBytes b := by
        rw [ZMod.val_natCast, Nat.mod_eq_of_lt hlt]
      refine ⟨?_, hl, ?_⟩
      · intro h'
        rw [h', ZMod.val_zero] at hv
        omega
      · rw [hv, ← ofBeBytes_replicate_zero (c.fieldLen - b.length) b]
        have hlen : (List.replicate (c.fieldLen - b.length) (0 : UInt8) ++ b).length = c.fieldLen := by
          simp; omega
        have := toBeBytes_ofBeBytes (List.replicate (c.fieldLen - b.length) (0 : UInt8) ++ b)
        rw [hlen] at this
        exact this.symm
  · cases hd : (Nist.group c).deserializeScalar b with
    | error e => rw [Nist.deserializeScalar_error _ _ hd]
    | ok P => exact absurd ⟨P, hd⟩ h

/-- C42: hashing to a scalar is RFC 9380 `hash_to_field` modulo `n`, and fails (with
`InternalError::Input`) only for an empty tag. -/
theorem C42_nist_hash_to_scalar (c : Params) (H : HashAlg) (input dst : List Bytes) :
    (dst.flatten ≠ [] → ∃ u, expandMessageXmd H.digest H.outputSize H.blockSize input.flatten
        dst.flatten c.okmLen = some u ∧
      (Nist.group c).hashToScalar H input dst = .ok (os2ip u : c.Fn)) ∧
    (dst.flatten = [] → (Nist.group c).hashToScalar H input dst = .error .Input) := by
  constructor
  · intro hd
    obtain ⟨u, hu⟩ := Nist.expand_some H input.flatten dst.flatten c.okmLen c.okmLen_pos
      (by have := c.okmLen_le; omega) (List.length_pos_iff.mpr hd)
    refine ⟨u, hu, ?_⟩
    show Nist.hashToScalar c H input dst = _
    rw [Nist.hashToScalar_eq, hu]
    have : u.length ≤ c.okmLen := by
      unfold expandMessageXmd at hu
      simp only at hu
      split at hu
      · simp at hu
      · simp only [Option.some.injEq] at hu
        rw [← hu, List.length_take]
        exact Nat.min_le_left _ _
    simp only [List.take_of_length_le this]
    rfl
  · intro hd
    have hn : expandMessageXmd H.digest H.outputSize H.blockSize input.flatten dst.flatten c.okmLen
        = none := by
      unfold expandMessageXmd
      simp [hd]
    show Nist.hashToScalar c H input dst = _
    rw [Nist.hashToScalar_eq, hn]
    rfl

/-- RFC 9380 `sgn0` for a prime field (§4.1): the parity of the canonical integer. -/
def sgn0Spec {p : Nat} (x : ZMod p) : Bool := decide (x.val % 2 = 1)

/-- C42: hashing to the curve is RFC 9380 `hash_to_curve` with `expand_message_xmd` and the simplified SWU
map: the sum of the two points obtained from the two field elements; it fails only for an empty tag. -/
theorem C42_nist_hash_to_curve (c : Params) (H : HashAlg) (input dst : List Bytes) :
    (dst.flatten ≠ [] → ∃ u x₀ y₀ x₁ y₁, ∃ h₀ : c.curve.Nonsingular x₀ y₀,
      ∃ h₁ : c.curve.Nonsingular x₁ y₁,
      expandMessageXmd H.digest H.outputSize H.blockSize input.flatten dst.flatten (c.okmLen * 2)
        = some u ∧
      IsSswu (c.a : c.Fp) (c.b : c.Fp) (c.z : c.Fp) sgn0Spec (os2ip (u.take c.okmLen) : c.Fp) x₀ y₀ ∧
      IsSswu (c.a : c.Fp) (c.b : c.Fp) (c.z : c.Fp) sgn0Spec (os2ip (u.drop c.okmLen) : c.Fp) x₁ y₁ ∧
      (Nist.group c).hashToCurve H input dst =
        .ok ((.some x₀ y₀ h₀ : c.Point) + (.some x₁ y₁ h₁ : c.Point))) ∧
    (dst.flatten = [] → (Nist.group c).hashToCurve H input dst = .error .Input) := by
  have hs : (sgn0Spec : c.Fp → Bool) = sgn0 := by
    funext x
    unfold sgn0Spec sgn0 isOdd
    rcases Nat.mod_two_eq_zero_or_one x.val with h | h <;> rw [h] <;> rfl
  constructor
  · intro hd
    obtain ⟨u, hu⟩ := Nist.expand_some H input.flatten dst.flatten (c.okmLen * 2)
      (by have := c.okmLen_pos; omega) (by have := c.okmLen_le; omega) (List.length_pos_iff.mpr hd)
    have hm : ∀ v : c.Fp, mapToCurve c v = .some _ _ (nonsingular_of_eq (osswu_on_curve c v)) := by
      intro v
      unfold mapToCurve
      rw [dif_pos (osswu_on_curve c v)]
      rfl
    refine ⟨u, _, _, _, _,
      nonsingular_of_eq (osswu_on_curve c (os2ip (u.take c.okmLen) : c.Fp)),
      nonsingular_of_eq (osswu_on_curve c (os2ip (u.drop c.okmLen) : c.Fp)), hu, ?_, ?_, ?_⟩
    · rw [hs]; exact osswu_isSswu c _
    · rw [hs]; exact osswu_isSswu c _
    · show Nist.hashToCurve c H input dst = _
      rw [Nist.hashToCurve_eq, hu]
      simp only [hm]
      have : (u.drop c.okmLen).length ≤ c.okmLen := by
        unfold expandMessageXmd at hu
        simp only at hu
        split at hu
        · simp at hu
        · simp only [Option.some.injEq] at hu
          rw [← hu, List.length_drop, List.length_take]
          omega
      rw [List.take_of_length_le this]
      rfl
  · intro hd
    have hn : expandMessageXmd H.digest H.outputSize H.blockSize input.flatten dst.flatten
        (c.okmLen * 2) = none := by
      unfold expandMessageXmd
      simp [hd]
    show Nist.hashToCurve c H input dst = _
    rw [Nist.hashToCurve_eq, hn]
    rfl

/-- C42: inversion panics exactly on zero. -/
theorem C42_nist_invert (c : Params) (k : c.Fn) :
    ((Nist.group c).invertScalar k = none ↔ k = 0) ∧
    (k ≠ 0 → ∃ j : c.Fn, (Nist.group c).invertScalar k = some j ∧ k * j = 1) := by
  constructor
  · show Nist.invertScalar k = none ↔ k = 0
    unfold Nist.invertScalar
    split <;> simp_all
  · intro h
    exact ⟨k⁻¹, if_neg h, mul_inv_cancel₀ h⟩

end nist

/-! ## C43: random scalars -/

theorem after_eq {σ α : Type} [RngCore σ] (len : Nat) (dr : σ → Option α × σ)
    (h : ∀ s, (dr s).2 = (RngCore.fillBytes s len).2) (s : σ) :
    ∀ i, RngCore.fillBytes (after dr s i) len = sample s len i
  | 0 => rfl
  | i + 1 => by
      rw [after, Function.iterate_succ_apply', sample]
      congr 1
      rw [← after_eq len dr h s i]
      exact h _

section
open Nist

/-- C43 for the NIST curves: the result is the first `fieldLen`-byte sample whose big-endian value lies
strictly between 0 and `n`; the call never returns exactly when no sample does; no other randomness is
consumed. -/
theorem C43_nist_random_scalar (c : Params) {σ : Type} [RngCore σ] (s : σ) :
    (∀ (k : c.Fn) (s' : σ), (Nist.group c).randomScalar s = some (k, s') ↔
      ∃ i, (∀ j < i, ¬ (0 < os2ip (sample s c.fieldLen j).1 ∧ os2ip (sample s c.fieldLen j).1 < c.n)) ∧
        0 < os2ip (sample s c.fieldLen i).1 ∧ os2ip (sample s c.fieldLen i).1 < c.n ∧
        k = (os2ip (sample s c.fieldLen i).1 : c.Fn) ∧ s' = (sample s c.fieldLen i).2) ∧
    ((Nist.group c).randomScalar s = none ↔
      ∀ i, ¬ (0 < os2ip (sample s c.fieldLen i).1 ∧ os2ip (sample s c.fieldLen i).1 < c.n)) ∧
    (∀ (k : c.Fn) (s' : σ), (Nist.group c).randomScalar s = some (k, s') → k ≠ 0) := by
  have hos : ∀ b, os2ip b = ofBeBytes b := fun _ => rfl
  have hdraw : ∀ t : σ, draw c t =
      (if 0 < os2ip (RngCore.fillBytes t c.fieldLen).1 ∧ os2ip (RngCore.fillBytes t c.fieldLen).1 < c.n
        then some (os2ip (RngCore.fillBytes t c.fieldLen).1 : c.Fn) else none,
        (RngCore.fillBytes t c.fieldLen).2) := by
    intro t
    simp only [draw, drawScalar, scalarFromRepr, hos, RngCore.fillBytes_length, true_and]
    congr 1
    by_cases hlt : ofBeBytes (RngCore.fillBytes t c.fieldLen).1 < c.n
    · rw [if_pos hlt, Option.bind_some, nonZero]
      have hz : ((ofBeBytes (RngCore.fillBytes t c.fieldLen).1 : Nat) : c.Fn) = 0 ↔
          ofBeBytes (RngCore.fillBytes t c.fieldLen).1 = 0 := by
        rw [ZMod.natCast_eq_zero_iff]
        exact ⟨fun h => Nat.eq_zero_of_dvd_of_lt h hlt, fun h => h ▸ dvd_zero _⟩
      by_cases h0 : ofBeBytes (RngCore.fillBytes t c.fieldLen).1 = 0
      · rw [if_pos (hz.mpr h0), if_neg (by omega)]
      · rw [if_neg (fun h => h0 (hz.mp h)), if_pos ⟨by omega, hlt⟩]
    · rw [if_neg hlt, Option.bind_none, if_neg (by tauto)]
  have haft := after_eq c.fieldLen (draw c) (fun t => by rw [hdraw]) s
  have hsome : ∀ (k : c.Fn) (s' : σ), (Nist.group c).randomScalar s = some (k, s') ↔
      Run (draw c) s (k, s') := fun k s' => randomScalar_iff s (k, s')
  refine ⟨fun k s' => ?_, ?_, fun k s' h => run_some ((hsome k s').mp h)⟩
  · rw [hsome, run_iff_first]
    refine exists_congr fun i => and_congr (forall₂_congr fun j _ => ?_) ?_
    · rw [hdraw, haft]
      simp only
      split <;> simp_all
    · rw [hdraw, haft, Prod.mk.injEq]
      constructor
      · rintro ⟨h1, h2⟩
        split at h1
        · next h =>
          simp only [Option.some.injEq] at h1
          exact ⟨h.1, h.2, h1.symm, h2.symm⟩
        · simp at h1
      · rintro ⟨h1, h2, h3, h4⟩
        rw [if_pos ⟨h1, h2⟩, h3, h4]
        exact ⟨rfl, rfl⟩
  · refine Iff.trans (run_none_iff (draw c) s _ (fun r => hsome r.1 r.2)) ?_
    refine forall_congr' fun i => ?_
    rw [hdraw, haft]
    simp only
    split <;> simp_all

end

section
open Ristretto

/-- C43 for Ristretto255: the result is the first 64-byte sample, read as a little-endian integer, that is
not a multiple of ℓ; the call never returns exactly when every sample is. -/
theorem C43_ristretto_random_scalar (D : Dalek) {σ : Type} [RngCore σ] (s : σ) :
    (∀ (k : Scalar) (s' : σ), (Ristretto.group D).randomScalar s = some (k, s') ↔
      ∃ i, (∀ j < i, ell ∣ leNat (sample s 64 j).1) ∧ ¬ ell ∣ leNat (sample s 64 i).1 ∧
        k = (leNat (sample s 64 i).1 : Scalar) ∧ s' = (sample s 64 i).2) ∧
    ((Ristretto.group D).randomScalar s = none ↔ ∀ i, ell ∣ leNat (sample s 64 i).1) ∧
    (∀ (k : Scalar) (s' : σ), (Ristretto.group D).randomScalar s = some (k, s') → k ≠ 0) := by
  have hdraw : ∀ t : σ, drawScalar t =
      (if ell ∣ leNat (RngCore.fillBytes t 64).1 then none
        else some (leNat (RngCore.fillBytes t 64).1 : Scalar), (RngCore.fillBytes t 64).2) := by
    intro t
    have he : fromBytesModOrderWide (RngCore.fillBytes t 64).1 =
        ((leNat (RngCore.fillBytes t 64).1 : Nat) : Scalar) := by rw [leNat_eq]; rfl
    have hz : fromBytesModOrderWide (RngCore.fillBytes t 64).1 = 0 ↔
        ell ∣ leNat (RngCore.fillBytes t 64).1 := by rw [he, ZMod.natCast_eq_zero_iff]
    simp only [drawScalar]
    refine congrArg (·, _) ?_
    by_cases h : ell ∣ leNat (RngCore.fillBytes t 64).1
    · rw [if_pos h, if_neg (fun h' => h' (hz.mpr h))]
    · rw [if_neg h, if_pos (fun h' => h (hz.mp h')), he]
  have haft := after_eq 64 (drawScalar (σ := σ)) (fun t => by rw [hdraw]) s
  have hsome : ∀ (k : Scalar) (s' : σ), (Ristretto.group D).randomScalar s = some (k, s') ↔
      Run drawScalar s (k, s') := fun k s' => sampleLoop_iff drawScalar s (k, s')
  refine ⟨fun k s' => ?_, ?_, fun k s' h => Ristretto.run_some ((hsome k s').mp h)⟩
  · rw [hsome, run_iff_first]
    refine exists_congr fun i => and_congr (forall₂_congr fun j _ => ?_) ?_
    · rw [hdraw, haft]
      simp only
      split <;> simp_all
    · rw [hdraw, haft, Prod.mk.injEq]
      constructor
      · rintro ⟨h1, h2⟩
        split at h1
        · simp at h1
        · next h =>
          simp only [Option.some.injEq] at h1
          exact ⟨h, h1.symm, h2.symm⟩
      · rintro ⟨h1, h3, h4⟩
        rw [if_neg h1, h3, h4]
        exact ⟨rfl, rfl⟩
  · refine Iff.trans (run_none_iff drawScalar s _ (fun r => hsome r.1 r.2)) ?_
    refine forall_congr' fun i => ?_
    rw [hdraw, haft]
    simp only
    split <;> simp_all

end

end Voprf
