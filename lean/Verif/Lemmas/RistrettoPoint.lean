import Verif.Lemmas.Ristretto255
import Verif.Lemmas.Loops
import Verif.Spec.Dalek
import Mathlib.GroupTheory.Perm.Cycle.Type
import Mathlib.GroupTheory.SpecificGroups.Cyclic

/-!
# The ristretto255 point library

`RistrettoPoint` of `curve25519-dalek` is a point of edwards25519 in extended coordinates, compared by the rule of
RFC 9496 §4.3.3 and exposing its coordinates only through `compress`.  It is modelled by the quotient of the valid
coordinates by that comparison; the operations are the formulas of `Model/Ristretto255.lean`.  The contract
`Dalek.Lawful` is proved of it, not assumed.
-/

namespace Voprf.Ristretto

open Curve Curve.Edwards

namespace Formula

/-- Coordinates of a point of edwards25519 that is twice a point (`1 + d y²` is a square). -/
def Valid (P : Point) : Prop := ∃ A : Ed, A ∈ Pt.even dd one_add_dd_square ∧ Rep P A

/-- Valid coordinates: the invariant of `RistrettoPoint`. -/
structure VPoint where
  pt : Point
  valid : Valid pt

/-- RFC 9496 §4.3.3 decides equality modulo the small subgroup. -/
theorem peq_iff {P Q : Point} {A B : Ed} (hP : Rep P A) (hQ : Rep Q B) :
    peq P Q = true ↔ A - B ∈ Pt.four dd := by
  have hz : (P.z : Fp) * Q.z ≠ 0 := mul_ne_zero hP.z hQ.z
  rw [peq, Bool.or_eq_true, beq_iff_eq, beq_iff_eq, cast_inj (mul_lt _ _) (mul_lt _ _),
    cast_inj (mul_lt _ _) (mul_lt _ _), Pt.sub_mem_four]
  simp only [cast_mul, hP.x, hP.y, hQ.x, hQ.y]
  constructor
  · rintro (h | h)
    · exact Or.inl (mul_right_cancel₀ hz (by linear_combination h))
    · exact Or.inr (mul_right_cancel₀ hz (by linear_combination h))
  · rintro (h | h)
    · exact Or.inl (by linear_combination (P.z : Fp) * Q.z * h)
    · exact Or.inr (by linear_combination (P.z : Fp) * Q.z * h)

instance VPoint.setoid : Setoid VPoint where
  r P Q := peq P.pt Q.pt = true
  iseqv := by
    refine ⟨?_, ?_, ?_⟩
    · rintro ⟨P, A, hA, rA⟩
      exact (peq_iff rA rA).mpr (by rw [sub_self]; exact zero_mem _)
    · rintro ⟨P, A, hA, rA⟩ ⟨Q, B, hB, rB⟩ h
      refine (peq_iff rB rA).mpr ?_
      rw [← neg_sub]
      exact neg_mem ((peq_iff rA rB).mp h)
    · rintro ⟨P, A, hA, rA⟩ ⟨Q, B, hB, rB⟩ ⟨R, C, hC, rC⟩ h h'
      refine (peq_iff rA rC).mpr ?_
      have := add_mem ((peq_iff rA rB).mp h) ((peq_iff rB rC).mp h')
      rwa [sub_add_sub_cancel] at this

theorem VPoint.equiv_def {P Q : VPoint} : P ≈ Q ↔ peq P.pt Q.pt = true := Iff.rfl

theorem valid_zero : Valid zero := ⟨0, zero_mem _, rep_zero⟩

theorem valid_base : Valid base := by
  obtain ⟨A, rA, _, hA, _⟩ := rep_base
  exact ⟨A, hA, rA⟩

theorem Valid.padd {P Q : Point} : Valid P → Valid Q → Valid (padd P Q) := by
  rintro ⟨A, hA, rA⟩ ⟨B, hB, rB⟩
  exact ⟨A + B, add_mem hA hB, rA.padd rB⟩

theorem scalar_lt (k : Scalar) : k.val < 2 ^ 255 := by
  have h := ZMod.val_lt k
  have : ell < 2 ^ 255 := by rw [ell_val]; decide +kernel
  omega

theorem Valid.pmul {P : Point} (k : Scalar) : Valid P → Valid (pmul k.val P) := by
  rintro ⟨A, hA, rA⟩
  exact ⟨k.val • A, nsmul_mem hA _, rA.pmul k.val (scalar_lt k)⟩

theorem valid_decode {b : Bytes} {P : Point} (h : decode b = some P) : Valid P := by
  obtain ⟨_, A, hA, rA, _⟩ := decode_some h
  exact ⟨A, hA, rA⟩

/-- `CompressedRistretto::decompress` with its invariant. -/
def decodeV (b : Bytes) : Option VPoint :=
  match h : decode b with
  | none => none
  | some P => some ⟨P, valid_decode h⟩

theorem decodeV_some {b : Bytes} {P : VPoint} : decodeV b = some P ↔ decode b = some P.pt := by
  unfold decodeV
  split
  · next h => simp [h]
  · next Q h =>
    constructor
    · intro h'; injection h' with h'; rw [← h']; exact h
    · intro h'
      rw [h] at h'
      injection h' with h'
      subst h'
      rfl

theorem encode_congr {P Q : VPoint} (h : P ≈ Q) : encode P.pt = encode Q.pt := by
  obtain ⟨P, A, hA, rA⟩ := P
  obtain ⟨Q, B, hB, rB⟩ := Q
  obtain ⟨hp, A', dA, cA⟩ := encode_spec rA hA
  obtain ⟨hq, B', dB, cB⟩ := encode_spec rB hB
  have h := (peq_iff rA rB).mp h
  rw [cast_inj hp hq]
  refine (cA.unique cB ?_).2
  have : A' - B' = -(A - A') + (A - B) + (B - B') := by abel
  rw [this]
  exact add_mem (add_mem (neg_mem dA) h) dB

end Formula

open Formula

/-- `RistrettoPoint`. -/
def RPoint := Quotient VPoint.setoid

namespace RPoint

/-- `RistrettoPoint::identity()`, `src/group/ristretto.rs:81` -/
def identity : RPoint := Quotient.mk _ ⟨zero, valid_zero⟩

/-- `RISTRETTO_BASEPOINT_POINT`, `src/group/ristretto.rs:77` -/
def basepoint : RPoint := Quotient.mk _ ⟨base, valid_base⟩

/-- `&RistrettoPoint + &RistrettoPoint` -/
def add : RPoint → RPoint → RPoint :=
  Quotient.map₂ (fun P Q => ⟨padd P.pt Q.pt, P.valid.padd Q.valid⟩) (by
    rintro ⟨P, A, hA, rA⟩ ⟨P', A', hA', rA'⟩ h ⟨Q, B, hB, rB⟩ ⟨Q', B', hB', rB'⟩ h'
    refine (peq_iff (rA.padd rB) (rA'.padd rB')).mpr ?_
    rw [add_sub_add_comm]
    exact add_mem ((peq_iff rA rA').mp h) ((peq_iff rB rB').mp h'))

/-- `&RistrettoPoint * &Scalar` -/
def mul (P : RPoint) (k : Scalar) : RPoint :=
  Quotient.map (fun P => ⟨pmul k.val P.pt, P.valid.pmul k⟩) (by
    rintro ⟨P, A, hA, rA⟩ ⟨P', A', hA', rA'⟩ h
    refine (peq_iff (rA.pmul _ (scalar_lt k)) (rA'.pmul _ (scalar_lt k))).mpr ?_
    rw [← nsmul_sub]
    exact nsmul_mem ((peq_iff rA rA').mp h) _) P

/-- `RistrettoPoint::ct_eq`, `src/group/ristretto.rs:93` -/
def ctEq : RPoint → RPoint → Bool :=
  Quotient.lift₂ (fun P Q => peq P.pt Q.pt) (by
    intro P Q P' Q' h h'
    rw [Bool.eq_iff_iff, ← VPoint.equiv_def, ← VPoint.equiv_def]
    exact ⟨fun e => Setoid.trans (Setoid.symm h) (Setoid.trans e h'),
      fun e => Setoid.trans h (Setoid.trans e (Setoid.symm h'))⟩)

/-- `RistrettoPoint::compress().to_bytes()`, `src/group/ristretto.rs:86` -/
def compress : RPoint → Bytes :=
  Quotient.lift (fun P => toLeBytes 32 (encode P.pt)) (fun _ _ h => by rw [encode_congr h])

theorem compress_length (P : RPoint) : P.compress.length = 32 := by
  induction P using Quotient.inductionOn with
  | h P => exact toLeBytes_length _ _

/-- `CompressedRistretto::decompress`, `src/group/ristretto.rs:90-92`; the type of its argument is `[u8; 32]`. -/
def decompress (b : Bytes) : Option RPoint :=
  if b.length = 32 then (decodeV b).map (Quotient.mk _) else none

/-- `RistrettoPoint::from_uniform_bytes`, `src/group/ristretto.rs:58` -/
def fromUniformBytes (b : Bytes) : RPoint := Quotient.mk _ ⟨oneWayMap b, oneWayMap_spec b⟩

end RPoint

/-- `RistrettoPoint` and the functions of it that the crate calls, by the formulas of RFC 9496 §4. -/
def ristretto255 : Dalek where
  Point := RPoint
  identity := RPoint.identity
  basepoint := RPoint.basepoint
  add := RPoint.add
  mul := RPoint.mul
  ctEq := RPoint.ctEq
  zeroize _ := RPoint.identity
  compress := RPoint.compress
  compress_length := RPoint.compress_length
  decompress := RPoint.decompress
  fromUniformBytes := RPoint.fromUniformBytes

/-! ## The contract -/

namespace RPoint

/-- The small subgroup inside the even points. -/
abbrev small : AddSubgroup (Pt.even dd one_add_dd_square) := (Pt.four dd).addSubgroupOf _

/-- The class of the affine point. -/
noncomputable def cls (P : VPoint) : Pt.even dd one_add_dd_square ⧸ small :=
  QuotientAddGroup.mk ⟨P.valid.choose, P.valid.choose_spec.1⟩

theorem cls_eq {P : VPoint} {A : Ed} (hA : A ∈ Pt.even dd one_add_dd_square) (rA : Rep P.pt A) :
    cls P = QuotientAddGroup.mk ⟨A, hA⟩ := by
  unfold cls
  congr 2
  exact Rep.unique P.valid.choose_spec.2 rA

theorem cls_eq_iff {P Q : VPoint} : cls P = cls Q ↔ P ≈ Q := by
  rw [cls, cls, eq_comm, QuotientAddGroup.eq, AddSubgroup.mem_addSubgroupOf, VPoint.equiv_def,
    peq_iff P.valid.choose_spec.2 Q.valid.choose_spec.2]
  show -Q.valid.choose + P.valid.choose ∈ _ ↔ _
  rw [neg_add_eq_sub]

/-- Points up to equality are the classes. -/
noncomputable def toCls : RPoint → Pt.even dd one_add_dd_square ⧸ small :=
  Quotient.lift cls (fun _ _ h => cls_eq_iff.mpr h)

theorem rep_exists (A : Ed) : ∃ P : Formula.Point, Rep P A :=
  ⟨⟨A.x.val, A.y.val, 1, Formula.mul A.x.val A.y.val⟩, rep_affine (ZMod.natCast_zmod_val _).symm
    (ZMod.natCast_zmod_val _).symm⟩

theorem toCls_bijective : Function.Bijective toCls := by
  constructor
  · intro P Q
    induction P using Quotient.inductionOn
    induction Q using Quotient.inductionOn
    exact fun h => Quotient.sound (cls_eq_iff.mp h)
  · intro q
    induction q using QuotientAddGroup.induction_on with
    | H A =>
      obtain ⟨A, hA⟩ := A
      obtain ⟨P, rA⟩ := rep_exists A
      exact ⟨Quotient.mk _ ⟨P, A, hA, rA⟩, cls_eq hA rA⟩

noncomputable def clsEquiv : RPoint ≃ Pt.even dd one_add_dd_square ⧸ small := Equiv.ofBijective _ toCls_bijective

noncomputable instance : AddCommGroup RPoint := clsEquiv.addCommGroup

theorem toCls_add (P Q : RPoint) : toCls (P + Q) = toCls P + toCls Q := clsEquiv.apply_symm_apply _
theorem toCls_zero : toCls 0 = 0 := clsEquiv.apply_symm_apply _

/-- The homomorphism to the classes. -/
noncomputable def clsHom : RPoint →+ Pt.even dd one_add_dd_square ⧸ small where
  toFun := toCls
  map_zero' := toCls_zero
  map_add' := toCls_add

theorem clsHom_injective : Function.Injective clsHom := toCls_bijective.1

theorem clsHom_mk (P : VPoint) : clsHom (Quotient.mk _ P) = cls P := rfl

theorem ell_nsmul (P : RPoint) : ell • P = 0 := by
  apply clsHom_injective
  rw [map_nsmul, map_zero]
  induction P using Quotient.inductionOn with
  | h P =>
    obtain ⟨A, hA, rA⟩ := id P.valid
    rw [clsHom_mk, cls_eq hA rA, ← QuotientAddGroup.mk_nsmul, QuotientAddGroup.eq_zero_iff,
      AddSubgroup.mem_addSubgroupOf]
    exact ell_nsmul_even hA

noncomputable instance : Module Scalar RPoint := AddCommGroup.zmodModule ell_nsmul

theorem scalar_smul (k : Scalar) (P : RPoint) : k • P = k.val • P := by
  conv_lhs => rw [← ZMod.natCast_zmod_val k]
  exact Nat.cast_smul_eq_nsmul _ _ _

theorem identity_eq : identity = 0 := by
  apply clsHom_injective
  rw [map_zero, identity, clsHom_mk, cls_eq (zero_mem _) rep_zero]
  rfl

theorem basepoint_ne_zero : basepoint ≠ 0 := by
  intro h
  have h := congrArg clsHom h
  obtain ⟨A, rA, _, hA, h4⟩ := rep_base
  rw [map_zero, basepoint, clsHom_mk, cls_eq hA rA, QuotientAddGroup.eq_zero_iff, AddSubgroup.mem_addSubgroupOf] at h
  exact h4 h

instance : Finite RPoint := Finite.of_equiv _ clsEquiv.symm

/-- ristretto255 has order ℓ. -/
theorem card_RPoint : Nat.card RPoint = ell := by
  have h1 : Nat.card RPoint ∣ 8 * ell := by
    rw [Nat.card_congr clsEquiv, ← card_ed]
    exact (AddSubgroup.card_quotient_dvd_card small).trans (AddSubgroup.card_addSubgroup_dvd_card _)
  have h2 : ell ∣ Nat.card RPoint := by
    have : addOrderOf basepoint = ell := addOrderOf_eq_prime (p := ell) (ell_nsmul _) basepoint_ne_zero
    rw [← this]
    exact addOrderOf_dvd_natCard _
  obtain ⟨m, hm⟩ := h2
  have hl : 0 < ell := ell_prime.pos
  have hm8 : m ∣ 8 := by
    rw [hm, mul_comm 8] at h1
    exact Nat.dvd_of_mul_dvd_mul_left hl h1
  by_cases h : m = 1
  · rw [hm, h, mul_one]
  · exfalso
    obtain ⟨q, hq, hqm⟩ := Nat.exists_prime_and_dvd h
    have h2 : q = 2 := by
      have : q ∣ 2 ^ 3 := hqm.trans hm8
      exact (Nat.prime_dvd_prime_iff_eq hq Nat.prime_two).mp (hq.dvd_of_dvd_pow this)
    have : Fact q.Prime := ⟨hq⟩
    obtain ⟨x, hx⟩ := exists_prime_addOrderOf_dvd_card' (G := RPoint) q (hm ▸ hqm.mul_left _)
    have := addOrderOf_dvd_of_nsmul_eq_zero (ell_nsmul x)
    rw [hx, Nat.prime_dvd_prime_iff_eq hq ell_prime, h2, ell_val] at this
    exact absurd this (by decide +kernel)

theorem generates (P : RPoint) : ∃ k : Scalar, P = k • basepoint := by
  obtain ⟨n, hn⟩ := mem_zmultiples_of_prime_card (p := ell) card_RPoint basepoint_ne_zero (g' := P)
  refine ⟨(n : Scalar), ?_⟩
  rw [← hn]
  exact (Int.cast_smul_eq_zsmul _ _ _).symm

theorem p_lt : Formula.p < 256 ^ 32 := by decide +kernel

theorem compress_mk (P : VPoint) : compress (Quotient.mk _ P) = toLeBytes 32 (encode P.pt) := rfl

theorem decompress_compress (P : RPoint) : decompress P.compress = some P := by
  induction P using Quotient.inductionOn with
  | h P =>
    obtain ⟨A, hA, rA⟩ := id P.valid
    refine (if_pos (compress_length _)).trans ?_
    rw [compress_mk]
    obtain ⟨hlt, A', dA, cA⟩ := encode_spec rA hA
    have hrt : ofLeBytes (toLeBytes 32 (encode P.pt)) = encode P.pt := ofLeBytes_toLeBytes _ _ (hlt.trans p_lt)
    obtain ⟨Q, hQ, rQ⟩ := decode_of_canon (b := toLeBytes 32 (encode P.pt)) (A := A') (by rw [hrt]; exact hlt)
      (by rw [hrt]; exact cA)
    rw [decodeV_some (P := ⟨Q, valid_decode hQ⟩) |>.mpr hQ]
    refine congrArg some (Quotient.sound ?_)
    refine (peq_iff rQ rA).mpr ?_
    rw [← neg_sub]
    exact neg_mem dA

theorem decompress_canonical (b : Bytes) (P : RPoint) (h : decompress b = some P) : b = P.compress := by
  rw [decompress] at h
  split at h
  · next hl =>
    obtain ⟨Q, hQ, rfl⟩ := Option.map_eq_some_iff.mp h
    rw [decodeV_some] at hQ
    obtain ⟨hlt, A, hA, rA, cA⟩ := decode_some hQ
    obtain ⟨hlt', A', dA, cA'⟩ := encode_spec rA hA
    have : encode Q.pt = ofLeBytes b := by
      rw [cast_inj hlt' hlt]
      exact (cA.unique cA' dA).2.symm
    rw [compress_mk, this, ← hl, toLeBytes_ofLeBytes]
  · simp at h

theorem ctEq_iff (P Q : RPoint) : ctEq P Q = true ↔ P = Q := by
  induction P using Quotient.inductionOn
  induction Q using Quotient.inductionOn
  exact ⟨fun h => Quotient.sound h, fun h => Quotient.exact h⟩

theorem add_mk (P Q : VPoint) : add (Quotient.mk _ P) (Quotient.mk _ Q) =
    Quotient.mk _ ⟨padd P.pt Q.pt, P.valid.padd Q.valid⟩ := rfl

theorem mul_mk (P : VPoint) (k : Scalar) : mul (Quotient.mk _ P) k =
    Quotient.mk _ ⟨pmul k.val P.pt, P.valid.pmul k⟩ := rfl

theorem add_eq (P Q : RPoint) : add P Q = P + Q := by
  apply clsHom_injective
  rw [map_add]
  induction P using Quotient.inductionOn with
  | h P =>
    induction Q using Quotient.inductionOn with
    | h Q =>
      obtain ⟨A, hA, rA⟩ := id P.valid
      obtain ⟨B, hB, rB⟩ := id Q.valid
      rw [add_mk, clsHom_mk, clsHom_mk, clsHom_mk, cls_eq hA rA, cls_eq hB rB, cls_eq (add_mem hA hB) (rA.padd rB)]
      rfl

theorem mul_eq (P : RPoint) (k : Scalar) : mul P k = k • P := by
  apply clsHom_injective
  rw [scalar_smul, map_nsmul]
  induction P using Quotient.inductionOn with
  | h P =>
    obtain ⟨A, hA, rA⟩ := id P.valid
    rw [mul_mk, clsHom_mk, clsHom_mk, cls_eq hA rA, cls_eq (nsmul_mem hA _) (rA.pmul k.val (scalar_lt k)),
      ← QuotientAddGroup.mk_nsmul]
    rfl

end RPoint

/-- The formulas of RFC 9496 form a group of prime order ℓ with canonical encodings: nothing is assumed of
ristretto255. -/
noncomputable instance : Dalek.Lawful ristretto255 where
  addCommGroup := inferInstanceAs (AddCommGroup RPoint)
  module := inferInstanceAs (Module Scalar RPoint)
  identity_eq := RPoint.identity_eq
  add_eq := RPoint.add_eq
  mul_eq := RPoint.mul_eq
  ctEq_iff := RPoint.ctEq_iff
  zeroize_eq _ := RPoint.identity_eq
  basepoint_ne_zero := RPoint.basepoint_ne_zero
  generates := RPoint.generates
  decompress_compress := RPoint.decompress_compress
  decompress_canonical := RPoint.decompress_canonical

end Voprf.Ristretto
