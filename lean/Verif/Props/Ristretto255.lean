import Verif.Lemmas.RistrettoGroup
import Verif.Props.Suites

/-!
# C41 and C48 for ristretto255, with nothing assumed of the group

`Model/Ristretto255.lean` has the formulas of RFC 9496 §4 (which `curve25519-dalek` implements);
`Lemmas/RistrettoPoint.lean` makes them the point library `ristretto255`.
-/

namespace Voprf

open Spec Ristretto Formula Curve.Edwards

/-- RFC 9496 §4, §4.3: a point library is ristretto255.  Its elements are the doubles of the points of edwards25519
modulo the points of order dividing 4, with the sum of the curve, and are encoded by `Rfc9496.Encodes`. -/
structure IsRistretto255 (L : Dalek) (f : { A : Ed // ∃ B, A = 2 • B } → L.Point) : Prop where
  /-- every element is the class of a double -/
  surjective : Function.Surjective f
  /-- classes modulo the 4-torsion -/
  eq_iff : ∀ A B, f A = f B ↔ 4 • (A.1 - B.1) = 0
  identity : ∀ A, A.1 = 0 → f A = L.identity
  add : ∀ A B C, C.1 = A.1 + B.1 → L.add (f A) (f B) = f C
  mul : ∀ A C (k : Scalar), C.1 = k.val • A.1 → L.mul (f A) k = f C
  ctEq : ∀ P Q, L.ctEq P Q = true ↔ P = Q
  /-- the base point is the class of the point with `y = 4/5` and even `x` -/
  basepoint : ∃ B, f B = L.basepoint ∧ B.1.y = 4 / 5 ∧ ¬ Negative B.1.x
  /-- the encoding: 32 bytes, little-endian -/
  compress : ∀ A b, b = L.compress (f A) ↔ b.length = 32 ∧ leNat b < Formula.p ∧
    ∃ A' : Ed, 4 • (A.1 - A') = 0 ∧ Rfc9496.Encodes (¬ Negative ·) ((leNat b : Nat) : Fp) A'.x A'.y
  /-- decoding accepts the encodings and nothing else -/
  decompress : ∀ b P, L.decompress b = some P ↔ b = L.compress P
  /-- the one-way map: the sum of the images of the two halves (255 bits of each) -/
  fromUniformBytes : ∀ b, ∃ A B C, L.fromUniformBytes b = f C ∧ C.1 = A + B ∧
    Rfc9496.IsMap (¬ Negative ·) dd im (SQRT_AD_MINUS_ONE : Nat) ((leNat (b.take 32) % 2 ^ 255 : Nat) : Fp) A.x A.y ∧
    Rfc9496.IsMap (¬ Negative ·) dd im (SQRT_AD_MINUS_ONE : Nat)
      ((leNat ((b.drop 32).take 32) % 2 ^ 255 : Nat) : Fp) B.x B.y

/-- C41: the constants are those of RFC 9496 §4.1, and the curve has `8 ℓ` points. -/
theorem C41_ristretto255_parameters :
    Formula.p = 2 ^ 255 - 19 ∧ Formula.p.Prime ∧ ell = 2 ^ 252 + 27742317777372353535851937790883648493 ∧ ell.Prime ∧
    dd = -121665 / 121666 ∧ im ^ 2 = -1 ∧ ¬ Negative im ∧ ((SQRT_AD_MINUS_ONE : Nat) : Fp) ^ 2 = -dd - 1 ∧
    Negative ((SQRT_AD_MINUS_ONE : Nat) : Fp) ∧ Nat.card Ed = 8 * ell := by
  refine ⟨by decide +kernel, Fact.out, by rw [ell_val]; decide +kernel, Fact.out, ?_, im_sq, ?_, sqrt_ad_minus_one, ?_, card_ed⟩
  · have h0 : (121666 : Fp) ≠ 0 := by
      have : ((121666 : Nat) : Fp) ≠ 0 := by
        rw [Ne, ZMod.natCast_eq_zero_iff, Nat.dvd_iff_mod_eq_zero]; decide +kernel
      simpa using this
    rw [eq_div_iff h0]
    have : ((Formula.D * 121666 + 121665 : Nat) : Fp) = ((0 : Nat) : Fp) := eq_of_mod (by decide +kernel)
    push_cast at this
    rw [dd]
    linear_combination this
  · rw [im, ← isNeg_iff]; decide +kernel
  · rw [← isNeg_iff]; decide +kernel

/-- C41: the formulas of RFC 9496 compute ristretto255. -/
theorem C41_ristretto255_rfc9496 : ∃ f, IsRistretto255 ristretto255 f := by
  have hm : ∀ A : { A : Ed // ∃ B, A = 2 • B }, A.1 ∈ Pt.even dd one_add_dd_square := fun A => by
    rw [even_eq_doubles, mem_doubles]; exact A.2
  have hm' : ∀ A : Ed, A ∈ Pt.even dd one_add_dd_square → ∃ B, A = 2 • B := fun A h => by
    rwa [even_eq_doubles, mem_doubles] at h
  refine ⟨fun A => RPoint.ofEven ⟨A.1, hm A⟩, ?_, ?_, ?_, ?_, ?_, RPoint.ctEq_iff, ?_, ?_, ?_, ?_⟩
  · intro P
    obtain ⟨⟨A, hA⟩, h⟩ := RPoint.ofEven_surjective P
    exact ⟨⟨A, hm' A hA⟩, h⟩
  · intro A B
    rw [← mem_four_iff]
    exact RPoint.ofEven_eq_iff _ _
  · intro A h
    refine Eq.trans ?_ RPoint.identity_eq.symm
    exact (RPoint.ofEven_eq_zero (hm A)).mpr (h ▸ zero_mem _)
  · intro A B C h
    refine (RPoint.add_eq _ _).trans ?_
    rw [← map_add]
    exact congrArg _ (Subtype.ext h.symm)
  · intro A C k h
    refine (RPoint.mul_eq _ _).trans ?_
    rw [RPoint.scalar_smul, ← map_nsmul]
    exact congrArg _ (Subtype.ext h.symm)
  · obtain ⟨A, rA, _, hA, _⟩ := rep_base
    refine ⟨⟨A, hm' A hA⟩, RPoint.ofEven_eq (P := ⟨base, valid_base⟩) hA rA, ?_, ?_⟩
    · have h5 : (5 : Fp) ≠ 0 := by
        have : ((5 : Nat) : Fp) ≠ 0 := by
          rw [Ne, ZMod.natCast_eq_zero_iff, Nat.dvd_iff_mod_eq_zero]; decide +kernel
        simpa using this
      have hy : ((base.y : Nat) : Fp) = A.y := by rw [rA.y]; simp [base]
      rw [eq_div_iff h5]
      show A.y * 5 = 4
      rw [← hy]
      have : ((base.y * 5 : Nat) : Fp) = ((4 : Nat) : Fp) := eq_of_mod (by decide +kernel)
      push_cast at this
      exact this
    · have hx : ((base.x : Nat) : Fp) = A.x := by rw [rA.x]; simp [base]
      show ¬ Negative A.x
      rw [← hx, ← isNeg_iff]
      decide +kernel
  · intro A b
    refine (RPoint.compress_ofEven (hm A) b).trans ?_
    simp only [leNat_eq, mem_four_iff, RPoint.encodes_iff]
  · exact fun b P => ⟨RPoint.decompress_canonical b P, fun h => h ▸ RPoint.decompress_compress P⟩
  · intro b
    obtain ⟨A, B, hA, hB, r, mA, mB⟩ := oneWayMap_points b
    refine ⟨A, B, ⟨A + B, hm' _ (add_mem hA hB)⟩, ?_, rfl, ?_, ?_⟩
    · exact (RPoint.ofEven_eq (P := ⟨oneWayMap b, oneWayMap_spec b⟩) (add_mem hA hB) r).symm
    · rw [leNat_eq]; exact mA
    · rw [leNat_eq]; exact mB

/-- C41: with the formulas of RFC 9496 the implementation meets the contract of the `Group` trait; its hashes never
fail and its codecs are canonical. -/
theorem C41_ristretto255_contract :
    Nonempty (Ristretto.group ristretto255).Lawful ∧ (Ristretto.group ristretto255).TotalHash ∧
      (Ristretto.group ristretto255).Canonical ∧
      (Ristretto.group ristretto255).elemLen = 32 ∧ (Ristretto.group ristretto255).scalarLen = 32 :=
  C41_ristretto_contract ristretto255

/-- C41: `deserialize_elem` accepts exactly the 32-byte little-endian encodings of the field elements `s ≠ 0` that
encode a point of the curve (RFC 9496 §4.3.1); anything else is `Error::Deserialization`. -/
theorem C41_ristretto255_element_decoding (b : Bytes) :
    ((∃ P, (Ristretto.group ristretto255).deserializeElem b = .ok P) ↔
      b.length = 32 ∧ 0 < leNat b ∧ leNat b < Formula.p ∧
        ∃ A : Ed, Rfc9496.Encodes (¬ Negative ·) ((leNat b : Nat) : Fp) A.x A.y) ∧
    ((¬ ∃ P, (Ristretto.group ristretto255).deserializeElem b = .ok P) →
      (Ristretto.group ristretto255).deserializeElem b = .error .Deserialization) := by
  constructor
  · have key : (∃ P, (Ristretto.group ristretto255).deserializeElem b = .ok P) ↔
        ∃ P : RPoint, b = P.compress ∧ P ≠ 0 := by
      refine exists_congr fun P => ((C41_ristretto_element_decoding ristretto255 b).1 P).trans ?_
      exact and_congr Iff.rfl (by rw [show ristretto255.identity = (0 : RPoint) from RPoint.identity_eq]; rfl)
    rw [key, leNat_eq]
    constructor
    · rintro ⟨P, hb, h0⟩
      obtain ⟨⟨A, hA⟩, rfl⟩ := RPoint.ofEven_surjective P
      obtain ⟨hl, hp, A', dA, cA⟩ := (RPoint.compress_ofEven hA b).mp hb
      refine ⟨hl, Nat.pos_of_ne_zero fun hz => h0 ?_, hp, A', RPoint.encodes_iff.mpr cA⟩
      rw [RPoint.ofEven_eq_zero]
      have hy : A'.y = 1 := by have := cA.eq; rw [hz] at this; simpa using this
      have hx : A'.x = 0 := by
        have e := A'.eq
        rw [hy] at e
        have : A'.x ^ 2 * (1 + dd) = 0 := by linear_combination -e
        exact pow_eq_zero_iff two_ne_zero |>.mp ((mul_eq_zero.mp this).resolve_right one_add_dd_ne_zero)
      have : A' ∈ Pt.four dd := by rw [Pt.mem_four, hx, zero_mul]
      have := add_mem dA this
      rwa [sub_add_cancel] at this
    · rintro ⟨hl, h0, hp, A, hA⟩
      have cA := RPoint.encodes_iff.mp hA
      obtain ⟨Q, hQ, rQ⟩ := decode_of_canon hp cA
      obtain ⟨_, B, hB, rB, _⟩ := decode_some hQ
      have hE : A ∈ Pt.even dd one_add_dd_square := rQ.unique rB ▸ hB
      refine ⟨RPoint.ofEven ⟨A, hE⟩, (RPoint.compress_ofEven hE b).mpr
        ⟨hl, hp, A, by rw [sub_self]; exact zero_mem _, cA⟩, fun hz => ?_⟩
      rw [RPoint.ofEven_eq_zero, Pt.mem_four] at hz
      have hs : ((ofLeBytes b : Nat) : Fp) = 0 := by
        rcases mul_eq_zero.mp hz with hx | hy
        · have e := A.eq
          rw [hx] at e
          rcases mul_eq_zero.mp (show (A.y - 1) * (1 + A.y) = 0 by linear_combination e) with h | h
          · have e2 := cA.eq
            have : (2 : Fp) * ((ofLeBytes b : Nat) : Fp) ^ 2 = 0 := by
              linear_combination e2 - (1 + ((ofLeBytes b : Nat) : Fp) ^ 2) * h
            exact pow_eq_zero_iff two_ne_zero |>.mp ((mul_eq_zero.mp this).resolve_left two_ne)
          · exact absurd h cA.y_ne_neg_one
        · exact absurd hy cA.y_ne
      have : ofLeBytes b = 0 := (cast_inj hp (by have := p_two; omega)).mpr (by rw [hs]; simp)
      omega
  · intro h
    cases hd : (Ristretto.group ristretto255).deserializeElem b with
    | error e => rw [Ristretto.deserializeElem_error (D := ristretto255) _ _ hd]
    | ok P => exact absurd ⟨P, hd⟩ h

/-- C48: the fourth shipped suite, with the formulas of RFC 9496; no assumption on any group remains. -/
theorem C48_ristretto255 : Shipped (Ristretto255Sha512 ristretto255) ∧
    Nat.card (Ristretto255Sha512 ristretto255).Elem = 2 ^ 252 + 27742317777372353535851937790883648493 :=
  ⟨.ristretto255 _ inferInstance, (C48_order ristretto255).2.2.2⟩

end Voprf
