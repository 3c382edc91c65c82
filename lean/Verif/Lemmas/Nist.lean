import Verif.Lemmas.Sswu
import Verif.Lemmas.Expand
import Verif.Lemmas.Loops
import Verif.Spec.Sec1
import Verif.Spec.Contract
import Mathlib.Algebra.Module.ZMod

/-!
# The NIST group implementation meets the contract
-/

namespace Voprf.Nist

open Rfc9380 Sec1

variable {c : Params}

theorem i2osp_eq (n : Nat) : ∀ len, i2osp n len = toBeBytes len n := by
  intro len
  induction len generalizing n with
  | zero => rfl
  | succ len ih => simp [i2osp, toBeBytes, ih]

/-! ## Square roots and decompression -/

theorem sqrt_of_sq {alpha y : c.Fp} (h : y ^ 2 = alpha) : ∃ beta, sqrt alpha = some beta := by
  unfold sqrt
  simp only
  refine ⟨_, if_pos ?_⟩
  have h4 := c.p_mod_four
  rw [← pow_mul, ← h, ← pow_mul, show 2 * ((c.p + 1) / 4 * 2) = c.p + 1 by omega, pow_succ,
    ZMod.pow_card, sq]

theorem fieldFromRepr_iff {b : Bytes} {x : c.Fp} :
    fieldFromRepr c b = some x ↔ b = i2osp x.val c.fieldLen := by
  unfold fieldFromRepr
  rw [i2osp_eq]
  constructor
  · intro h
    split at h
    · next h' =>
      simp only [Option.some.injEq] at h
      rw [← h, ZMod.val_natCast, Nat.mod_eq_of_lt h'.2, ← h'.1, toBeBytes_ofBeBytes]
    · simp at h
  · intro h
    have hv : ofBeBytes b = x.val := by
      rw [h, ofBeBytes_toBeBytes _ _ (lt_trans (ZMod.val_lt x) c.p_lt)]
    rw [if_pos ⟨by rw [h, toBeBytes_length], by rw [hv]; exact ZMod.val_lt x⟩, hv,
      ZMod.natCast_zmod_val]

theorem fieldFromRepr_none {b : Bytes} (h : fieldFromRepr c b = none) (x : c.Fp) :
    b ≠ i2osp x.val c.fieldLen := by
  intro hb
  rw [← fieldFromRepr_iff, h] at hb
  simp at hb

theorem some_eq {x y y' : c.Fp} (h : c.curve.Nonsingular x y) (h' : c.curve.Nonsingular x y')
    (e : y = y') : (WeierstrassCurve.Affine.Point.some x y h : c.Point) = .some x y' h' := by
  subst e; rfl

theorem curve_eq {x y : c.Fp} (h : c.curve.Nonsingular x y) : y ^ 2 = rhs c x := by
  have := h.1
  rw [WeierstrassCurve.Affine.equation_iff] at this
  simpa [Params.curve, rhs] using this

theorem decompress_iff {b : Bytes} {odd : Bool} {P : c.Point} :
    decompress c b odd = some P ↔
      ∃ x y h, P = .some x y h ∧ b = i2osp x.val c.fieldLen ∧ (isOdd y = odd ∨ y = 0) := by
  unfold decompress
  cases hx : fieldFromRepr c b with
  | none =>
      simp only [Option.bind_eq_bind, Option.bind_none, reduceCtorEq, false_iff, not_exists]
      rintro x y h ⟨-, hb, -⟩
      exact fieldFromRepr_none hx x hb
  | some x =>
      have hb := fieldFromRepr_iff.mp hx
      simp only [Option.bind_eq_bind, Option.bind_some]
      have inj : ∀ x' : c.Fp, b = i2osp x'.val c.fieldLen → x' = x := by
        intro x' hx'
        rw [← fieldFromRepr_iff, hx] at hx'
        simpa using hx'.symm
      split
      · next hs =>
        simp only [reduceCtorEq, false_iff, not_exists]
        rintro x' y h ⟨-, hb', -⟩
        have := inj x' hb'
        subst this
        obtain ⟨beta, hbeta⟩ := sqrt_of_sq (curve_eq h)
        rw [hs] at hbeta
        simp at hbeta
      · next beta hs =>
        have hb2 := sqrt_sq hs
        constructor
        · intro h
          split at h
          · next ho =>
            simp only [Option.some.injEq] at h
            exact ⟨x, beta, _, h.symm, hb, .inl ho⟩
          · next ho =>
            simp only [Option.some.injEq] at h
            refine ⟨x, -beta, _, h.symm, hb, ?_⟩
            by_cases h0 : beta = 0
            · right; rw [h0, neg_zero]
            · left
              rw [isOdd_neg h0]
              revert ho
              cases isOdd beta <;> cases odd <;> simp
        · rintro ⟨x', y, h, rfl, hb', hy⟩
          have := inj x' hb'
          subst this
          have hyy : y = beta ∨ y = -beta := by
            rw [← sq_eq_sq_iff_eq_or_eq_neg, hb2]
            exact curve_eq h
          have hodd : beta ≠ 0 → isOdd (-beta) = !isOdd beta := isOdd_neg
          split
          · next ho =>
            congr 1
            refine some_eq _ _ ?_
            rcases hyy with h | h
            · exact h.symm
            · by_cases h0 : beta = 0
              · rw [h, h0, neg_zero]
              · exfalso
                rcases hy with hy | hy
                · rw [h, hodd h0, ho] at hy
                  cases odd <;> simp at hy
                · rw [hy, eq_comm, neg_eq_zero] at h
                  exact h0 h
          · next ho =>
            congr 1
            refine some_eq _ _ ?_
            rcases hyy with h | h
            · by_cases h0 : beta = 0
              · rw [h, h0, neg_zero]
              · exfalso
                rcases hy with hy | hy
                · rw [h] at hy; exact ho hy
                · rw [hy] at h
                  exact h0 h.symm
            · exact h.symm

/-! ## The prime-order group -/

/-- The curve has prime order `n` and the published generator generates it. Proved for the concrete curves
in `Verif/Curve/`. -/
class PrimeOrder (c : Params) : Prop where
  order : c.n • baseElem c = 0
  generates : ∀ P : c.Point, ∃ k : Nat, P = k • baseElem c

theorem baseElem_ne_zero (c : Params) : baseElem c ≠ 0 := by
  simp [baseElem, mkPoint]

section
variable [PO : PrimeOrder c]

theorem n_smul (P : c.Point) : c.n • P = 0 := by
  obtain ⟨k, rfl⟩ := PO.generates P
  rw [smul_comm, PO.order, nsmul_zero]

instance module : Module c.Fn c.Point := AddCommGroup.zmodModule n_smul

theorem val_smul (k : c.Fn) (P : c.Point) : k.val • P = k • P := by
  conv_rhs => rw [← ZMod.natCast_zmod_val k]
  rw [Nat.cast_smul_eq_nsmul]

theorem two_fn_ne_zero (c : Params) : (2 : c.Fn) ≠ 0 := by
  have : ((2 : ℕ) : c.Fn) ≠ 0 := by
    rw [Ne, ZMod.natCast_eq_zero_iff]
    intro h
    have := Nat.le_of_dvd (by omega) h
    have := c.two_lt_n
    omega
  simpa using this

/-- A curve of odd prime order has no point with `y = 0`. -/
theorem y_ne_zero {x y : c.Fp} (h : c.curve.Nonsingular x y) : y ≠ 0 := by
  rintro rfl
  have hneg : -(WeierstrassCurve.Affine.Point.some x 0 h : c.Point) = .some x 0 h := by
    rw [WeierstrassCurve.Affine.Point.neg_some]
    simp [WeierstrassCurve.Affine.negY, Params.curve]
  have h2 : (2 : c.Fn) • (WeierstrassCurve.Affine.Point.some x 0 h : c.Point) = 0 := by
    rw [two_smul]
    nth_rw 1 [← hneg]
    exact neg_add_cancel _
  rcases smul_eq_zero.mp h2 with h | h
  · exact two_fn_ne_zero c h
  · simp at h

end

/-! ## Point encodings -/

theorem compressed_eq {x y : c.Fp} (h : c.curve.Nonsingular x y) :
    serializeElem (.some x y h : c.Point) = compressed c.fieldLen x.val y.val := by
  unfold serializeElem toEncodedPoint compressed
  simp only [List.length_cons, toBeBytes_length, Nat.sub_self, List.replicate_zero, List.append_nil,
    i2osp_eq, isOdd, beq_iff_eq]
  congr 1
  rcases Nat.mod_two_eq_zero_or_one y.val with h | h <;> rw [h] <;> simp

theorem serialize_zero : serializeElem (0 : c.Point) = List.replicate (c.fieldLen + 1) 0 := by
  show serializeElem (WeierstrassCurve.Affine.Point.zero : c.Point) = _
  unfold serializeElem toEncodedPoint
  simp [List.replicate_succ]

theorem yCoord_some {x y : c.Fp} (h : c.curve.Nonsingular x y) :
    yCoord (.some x y h : c.Point) = y := rfl

theorem yCoord_neg {x y : c.Fp} (h : c.curve.Nonsingular x y) :
    yCoord (-(.some x y h : c.Point)) = -y := by
  rw [WeierstrassCurve.Affine.Point.neg_some]
  simp [WeierstrassCurve.Affine.negY, Params.curve, yCoord]

theorem fieldLen_pos (c : Params) : 0 < c.fieldLen := by
  rcases Nat.eq_zero_or_pos c.fieldLen with h | h
  · have := c.p_lt
    have := c.p_prime.two_le
    rw [h] at *
    omega
  · exact h

theorem i2osp_inj {x x' : c.Fp} (h : i2osp x.val c.fieldLen = i2osp x'.val c.fieldLen) : x = x' := by
  have h1 := fieldFromRepr_iff.mpr h
  have h2 : fieldFromRepr c (i2osp x.val c.fieldLen) = some x := fieldFromRepr_iff.mpr rfl
  rw [h1] at h2
  simpa using h2.symm

theorem neg_nonsingular {x y : c.Fp} (h : c.curve.Nonsingular x y) : c.curve.Nonsingular x (-y) :=
  nonsingular_of_eq (by rw [neg_sq]; exact curve_eq h)

theorem neg_eq {x y : c.Fp} (h : c.curve.Nonsingular x y) :
    -(.some x y h : c.Point) = .some x (-y) (neg_nonsingular h) := by
  rw [WeierstrassCurve.Affine.Point.neg_some]
  exact some_eq _ _ (by simp [WeierstrassCurve.Affine.negY, Params.curve])

theorem decompact_iff [PO : PrimeOrder c] {b : Bytes} {P : c.Point} :
    decompact c b = some P ↔
      ∃ x y h, P = .some x y h ∧ b = i2osp x.val c.fieldLen ∧ y.val ≤ (-y).val := by
  unfold decompact
  constructor
  · intro h
    cases hd : decompress c b false with
    | none => simp [hd] at h
    | some Q =>
        obtain ⟨x, y, hn, rfl, hb, -⟩ := decompress_iff.mp hd
        simp only [hd, Option.bind_eq_bind, Option.bind_some, yCoord_neg hn, yCoord_some hn] at h
        split at h
        · next hlt =>
          simp only [Option.some.injEq] at h
          rw [← h, neg_eq hn]
          exact ⟨x, -y, _, rfl, hb, by rw [neg_neg]; omega⟩
        · next hlt =>
          simp only [Option.some.injEq] at h
          exact ⟨x, y, hn, h.symm, hb, by omega⟩
  · rintro ⟨x, y, hn, rfl, hb, hle⟩
    have hy := y_ne_zero hn
    have hne : y.val ≠ (-y).val := by
      intro he
      have h1 : isOdd (-y) = !isOdd y := isOdd_neg hy
      have h2 : isOdd (-y) = isOdd y := by unfold isOdd; rw [he]
      rw [h2] at h1
      cases h : isOdd y <;> rw [h] at h1 <;> simp at h1
    cases ho : isOdd y with
    | false =>
        have hd : decompress c b false = some (.some x y hn) :=
          decompress_iff.mpr ⟨x, y, hn, rfl, hb, .inl ho⟩
        simp only [hd, Option.bind_eq_bind, Option.bind_some, yCoord_neg hn, yCoord_some hn]
        rw [if_neg (by omega)]
    | true =>
        have hd : decompress c b false = some (.some x (-y) (neg_nonsingular hn)) :=
          decompress_iff.mpr ⟨x, -y, _, rfl, hb, .inl (by rw [isOdd_neg hy, ho]; rfl)⟩
        simp only [hd, Option.bind_eq_bind, Option.bind_some, yCoord_neg, yCoord_some, neg_neg]
        rw [if_pos (by omega), neg_eq]
        congr 1
        exact some_eq _ _ (neg_neg y)

theorem i2osp_length (x len : Nat) : (i2osp x len).length = len := by rw [i2osp_eq, toBeBytes_length]

/-- Exactly which byte strings `PublicKey::from_sec1_bytes` accepts. -/
theorem fromSec1_iff [PO : PrimeOrder c] {b : Bytes} {P : c.Point} :
    fromSec1Bytes c b = some P ↔
      ∃ x y h, P = .some x y h ∧
        (b = compressed c.fieldLen x.val y.val ∨ b = uncompressed c.fieldLen x.val y.val ∨
          (b = compact c.fieldLen x.val ∧ y.val ≤ (-y).val)) := by
  have hL := fieldLen_pos c
  constructor
  · intro h0'
    unfold fromSec1Bytes at h0'
    split at h0'
    · simp at h0'
    · next tag body =>
      simp only [Option.bind_eq_bind] at h0'
      obtain ⟨e, he, h⟩ := Option.bind_eq_some_iff.mp h0'
      clear h0'
      split at h
      · simp at h
      · next hlen =>
        have hlen : body.length + 1 = e := by simpa using hlen
        split at h
        · simp at h
        · next h0 =>
          split at h
          · next h4 =>
            subst h4
            have he' : 1 + 2 * c.fieldLen = e := by simpa [messageLen] using he
            obtain ⟨y, hy, h1⟩ := Option.bind_eq_some_iff.mp h
            clear h
            obtain ⟨Q, hQ, h⟩ := Option.bind_eq_some_iff.mp h1
            clear h1
            obtain ⟨x, y', hn, rfl, hb, -⟩ := decompress_iff.mp hQ
            split at h
            · next hyy =>
              have hyy : y' = y := hyy
              subst hyy
              refine ⟨x, y', hn, (Option.some.inj h).symm, .inr (.inl ?_)⟩
              rw [uncompressed, ← hb, ← fieldFromRepr_iff.mp hy, List.take_append_drop]
            · simp at h
          · next h4 =>
            split at h
            · next h5 =>
              subst h5
              obtain ⟨x, y, hn, hP, hb, hle⟩ := decompact_iff.mp h
              exact ⟨x, y, hn, hP, .inr (.inr ⟨by rw [compact, hb], hle⟩)⟩
            · next h5 =>
              have htag : tag = 2 ∨ tag = 3 := by
                unfold messageLen at he
                by_contra hne
                rw [if_neg h0, if_neg hne, if_neg h4, if_neg h5] at he
                simp at he
              obtain ⟨x, y, hn, hP, hb, ho⟩ := decompress_iff.mp h
              have ho := ho.resolve_right (y_ne_zero hn)
              refine ⟨x, y, hn, hP, .inl ?_⟩
              rw [compressed, ← hb]
              congr 1
              rcases htag with rfl | rfl
              · have : y.val % 2 = 0 := by
                  simp only [isOdd] at ho
                  rcases Nat.mod_two_eq_zero_or_one y.val with h | h
                  · exact h
                  · rw [h] at ho; simp at ho
                rw [this]; rfl
              · have : y.val % 2 = 1 := by
                  simp only [isOdd] at ho
                  simpa using ho
                rw [this]; rfl
  · rintro ⟨x, y, hn, rfl, h | h | ⟨h, hle⟩⟩
    · have hd : decompress c (i2osp x.val c.fieldLen) (isOdd y) = some (.some x y hn) :=
        decompress_iff.mpr ⟨x, y, hn, rfl, rfl, .inl rfl⟩
      subst h
      rcases Nat.mod_two_eq_zero_or_one y.val with h | h
      · have ho : isOdd y = false := by simp [isOdd, h]
        rw [ho] at hd
        simp [fromSec1Bytes, compressed, h, messageLen, i2osp_length, hd]
        omega
      · have ho : isOdd y = true := by simp [isOdd, h]
        rw [ho] at hd
        simp [fromSec1Bytes, compressed, h, messageLen, i2osp_length, hd]
        omega
    · have hd : decompress c (i2osp x.val c.fieldLen) (isOdd y) = some (.some x y hn) :=
        decompress_iff.mpr ⟨x, y, hn, rfl, rfl, .inl rfl⟩
      have hy : fieldFromRepr c (i2osp y.val c.fieldLen) = some y := fieldFromRepr_iff.mpr rfl
      subst h
      simp [fromSec1Bytes, uncompressed, messageLen, i2osp_length, hy, hd, yCoord]
      omega
    · have hd : decompact c (i2osp x.val c.fieldLen) = some (.some x y hn) :=
        decompact_iff.mpr ⟨x, y, hn, rfl, rfl, hle⟩
      subst h
      simp [fromSec1Bytes, compact, messageLen, i2osp_length, hd]
      omega

/-! ## Scalars -/

theorem scalarFromRepr_iff {b : Bytes} {k : c.Fn} :
    scalarFromRepr c b = some k ↔ b = i2osp k.val c.fieldLen := by
  unfold scalarFromRepr
  rw [i2osp_eq]
  constructor
  · intro h
    split at h
    · next h' =>
      simp only [Option.some.injEq] at h
      rw [← h, ZMod.val_natCast, Nat.mod_eq_of_lt h'.2, ← h'.1, toBeBytes_ofBeBytes]
    · simp at h
  · intro h
    have hv : ofBeBytes b = k.val := by
      rw [h, ofBeBytes_toBeBytes _ _ (lt_trans (ZMod.val_lt k) c.n_lt)]
    rw [if_pos ⟨by rw [h, toBeBytes_length], by rw [hv]; exact ZMod.val_lt k⟩, hv,
      ZMod.natCast_zmod_val]

theorem secretKeyFromBytes_iff {b : Bytes} {k : c.Fn} :
    secretKeyFromBytes c b = some k ↔ b = i2osp k.val c.fieldLen ∧ k ≠ 0 := by
  unfold secretKeyFromBytes
  rw [← scalarFromRepr_iff]
  cases h : scalarFromRepr c b with
  | none => simp
  | some k' =>
      simp only [Option.bind_eq_bind, Option.bind_some, Option.some.injEq]
      constructor
      · intro h
        split at h
        · simp at h
        · next h0 =>
          simp only [Option.some.injEq] at h
          exact ⟨h, h ▸ h0⟩
      · rintro ⟨rfl, h0⟩
        rw [if_neg h0]

/-- Exactly which byte strings `SecretKey::from_slice` accepts. -/
theorem secretKeyFromSlice_iff {b : Bytes} {k : c.Fn} :
    secretKeyFromSlice c b = some k ↔ k ≠ 0 ∧
      (b.length = c.fieldLen ∨ 24 ≤ b.length ∧ b.length < c.fieldLen) ∧
      List.replicate (c.fieldLen - b.length) 0 ++ b = i2osp k.val c.fieldLen := by
  unfold secretKeyFromSlice
  have hm : MIN_SIZE = 24 := rfl
  rw [hm]
  by_cases h1 : b.length = c.fieldLen
  · rw [if_pos h1, secretKeyFromBytes_iff, h1, Nat.sub_self]
    simp [and_comm]
  · rw [if_neg h1]
    by_cases h2 : 24 ≤ b.length ∧ b.length < c.fieldLen
    · rw [if_pos h2, secretKeyFromBytes_iff]
      tauto
    · rw [if_neg h2]
      simp only [reduceCtorEq, false_iff, not_and]
      tauto

/-! ## Randomness -/

/-- One draw of `random_scalar`: accepted when the bytes encode a number strictly between 0 and `n`. -/
def draw (c : Params) {σ : Type} [RngCore σ] (s : σ) : Option c.Fn × σ :=
  ((drawScalar c s).1.bind nonZero, (drawScalar c s).2)

theorem randomScalar_iff {σ : Type} [RngCore σ] (s : σ) (r : c.Fn × σ) :
    randomScalar c s = some r ↔ Run (draw c) s r := nested_iff _ _ _ _

theorem draw_some {σ : Type} [RngCore σ] {s s' : σ} {k : c.Fn} (h : draw c s = (some k, s')) :
    k ≠ 0 ∧ i2osp k.val c.fieldLen = (RngCore.fillBytes s c.fieldLen).1 ∧
      s' = (RngCore.fillBytes s c.fieldLen).2 := by
  simp only [draw, drawScalar, Prod.mk.injEq] at h
  obtain ⟨h, h2⟩ := h
  obtain ⟨k', hk, h⟩ := Option.bind_eq_some_iff.mp h
  unfold nonZero at h
  split at h
  · simp at h
  · next h0 =>
    simp only [Option.some.injEq] at h
    subst h
    exact ⟨h0, (scalarFromRepr_iff.mp hk).symm, h2.symm⟩

theorem run_some {σ : Type} [RngCore σ] {s : σ} {r : c.Fn × σ} (h : Run (draw c) s r) : r.1 ≠ 0 := by
  induction h with
  | stop hd => exact (draw_some hd).1
  | again _ _ ih => exact ih

/-! ## Hashing -/

theorem ell_le (H : HashAlg) (len : Nat) (h : len ≤ 254) :
    (len + H.outputSize - 1) / H.outputSize ≤ 255 := by
  have h0 := H.outputSize_pos
  rw [Nat.div_le_iff_le_mul_add_pred h0]
  omega

theorem expand_some (H : HashAlg) (msg dst : Bytes) (len : Nat) (h0 : 0 < len) (h : len ≤ 254)
    (hd : 1 ≤ dst.length) :
    ∃ u, expandMessageXmd H.digest H.outputSize H.blockSize msg dst len = some u := by
  unfold expandMessageXmd
  have := ell_le H len h
  simp only
  rw [if_neg (by omega)]
  exact ⟨_, rfl⟩

theorem hashToCurve_eq (H : HashAlg) (input dst : List Bytes) :
    hashToCurve c H input dst =
      match expandMessageXmd H.digest H.outputSize H.blockSize input.flatten dst.flatten
        (c.okmLen * 2) with
      | some u => .ok (mapToCurve c (os2ip (u.take c.okmLen) : c.Fp) +
          mapToCurve c (os2ip ((u.drop c.okmLen).take c.okmLen) : c.Fp))
      | none => .error .Input := by
  unfold hashToCurve
  rw [H2C.hashToFieldBytes_eq]
  cases expandMessageXmd H.digest H.outputSize H.blockSize input.flatten dst.flatten (c.okmLen * 2) with
  | none => rfl
  | some u =>
      simp only [Option.map_some, List.range_succ, List.range_zero, List.nil_append,
        List.cons_append, List.map_cons, List.map_nil, Nat.zero_mul, Nat.one_mul, List.drop_zero]
      rfl

theorem hashToScalar_eq (H : HashAlg) (input dst : List Bytes) :
    hashToScalar c H input dst =
      match expandMessageXmd H.digest H.outputSize H.blockSize input.flatten dst.flatten c.okmLen with
      | some u => .ok (os2ip (u.take c.okmLen) : c.Fn)
      | none => .error .Input := by
  unfold hashToScalar
  rw [H2C.hashToFieldBytes_eq, Nat.mul_one]
  cases expandMessageXmd H.digest H.outputSize H.blockSize input.flatten dst.flatten c.okmLen with
  | none => rfl
  | some u =>
      simp only [Option.map_some, List.range_succ, List.range_zero, List.nil_append,
        List.map_cons, List.map_nil, Nat.zero_mul, List.drop_zero]
      rfl

/-! ## The contract -/

theorem deserializeElem_iff {b : Bytes} {P : c.Point} :
    deserializeElem c b = .ok P ↔ fromSec1Bytes c b = some P := by
  unfold deserializeElem
  cases fromSec1Bytes c b <;> simp

theorem deserializeScalar_iff {b : Bytes} {k : c.Fn} :
    deserializeScalar c b = .ok k ↔ secretKeyFromSlice c b = some k := by
  unfold deserializeScalar
  cases secretKeyFromSlice c b <;> simp

theorem deserializeElem_serialize [PO : PrimeOrder c] (P : c.Point) (h : P ≠ 0) :
    deserializeElem c (serializeElem P) = .ok P := by
  rw [deserializeElem_iff, fromSec1_iff]
  cases P with
  | zero => exact absurd rfl h
  | some x y hn => exact ⟨x, y, hn, rfl, .inl (compressed_eq hn)⟩

theorem deserializeElem_ne_zero [PO : PrimeOrder c] (b : Bytes) (P : c.Point)
    (h : deserializeElem c b = .ok P) : P ≠ 0 := by
  rw [deserializeElem_iff, fromSec1_iff] at h
  obtain ⟨x, y, hn, rfl, -⟩ := h
  simp

theorem deserializeElem_zero :
    deserializeElem c (serializeElem (0 : c.Point)) = .error .Deserialization := by
  rw [serialize_zero, List.replicate_succ, deserializeElem]
  simp [fromSec1Bytes, messageLen]

theorem deserializeElem_error (b : Bytes) (e : Error) (h : deserializeElem c b = .error e) :
    e = .Deserialization := by
  unfold deserializeElem at h
  split at h <;> simp at h
  exact h.symm

theorem deserializeScalar_serialize (k : c.Fn) (h : k ≠ 0) :
    deserializeScalar c (serializeScalar k) = .ok k := by
  rw [deserializeScalar_iff, secretKeyFromSlice_iff]
  have : serializeScalar k = i2osp k.val c.fieldLen := by rw [i2osp_eq]; rfl
  rw [this, i2osp_length, Nat.sub_self]
  exact ⟨h, .inl rfl, rfl⟩

theorem deserializeScalar_ne_zero (b : Bytes) (k : c.Fn) (h : deserializeScalar c b = .ok k) :
    k ≠ 0 := by
  rw [deserializeScalar_iff, secretKeyFromSlice_iff] at h
  exact h.1

theorem deserializeScalar_error (b : Bytes) (e : Error) (h : deserializeScalar c b = .error e) :
    e = .Deserialization := by
  unfold deserializeScalar at h
  split at h <;> simp at h
  exact h.symm

theorem deserializeScalar_zero :
    deserializeScalar c (serializeScalar (0 : c.Fn)) = .error .Deserialization := by
  cases h : deserializeScalar c (serializeScalar (0 : c.Fn)) with
  | error e => rw [deserializeScalar_error _ _ h]
  | ok k =>
      exfalso
      rw [deserializeScalar_iff, secretKeyFromSlice_iff] at h
      obtain ⟨h0, -, h⟩ := h
      rw [show serializeScalar (0 : c.Fn) = i2osp (0 : c.Fn).val c.fieldLen by
        rw [i2osp_eq]; rfl] at h
      rw [i2osp_length, Nat.sub_self] at h
      have h1 : scalarFromRepr c (i2osp (0 : c.Fn).val c.fieldLen) = some k :=
        scalarFromRepr_iff.mpr h
      have h2 : scalarFromRepr c (i2osp (0 : c.Fn).val c.fieldLen) = some 0 :=
        scalarFromRepr_iff.mpr rfl
      rw [h1] at h2
      exact h0 (by simpa using h2)

theorem hashToCurve_ok (H : HashAlg) (x d : Bytes) (hd : 1 ≤ d.length) :
    ∃ P, hashToCurve c H [x] [d] = .ok P := by
  obtain ⟨u, hu⟩ := expand_some H x d (c.okmLen * 2) (by have := c.okmLen_pos; omega)
    (by have := c.okmLen_le; omega) hd
  rw [hashToCurve_eq]
  simp only [List.flatten_cons, List.flatten_nil, List.append_nil, hu]
  exact ⟨_, rfl⟩

theorem hashToScalar_ok (H : HashAlg) (x d : Bytes) (hd : 1 ≤ d.length) :
    ∃ k, hashToScalar c H [x] [d] = .ok k := by
  obtain ⟨u, hu⟩ := expand_some H x d c.okmLen c.okmLen_pos (by have := c.okmLen_le; omega) hd
  rw [hashToScalar_eq]
  simp only [List.flatten_cons, List.flatten_nil, List.append_nil, hu]
  exact ⟨_, rfl⟩

instance : Field (group c).Scalar := inferInstanceAs (Field c.Fn)
noncomputable instance : AddCommGroup (group c).Elem := inferInstanceAs (AddCommGroup c.Point)
noncomputable instance [PrimeOrder c] : Module (group c).Scalar (group c).Elem :=
  inferInstanceAs (Module c.Fn c.Point)

theorem generates [PO : PrimeOrder c] (P : c.Point) : ∃ k : c.Fn, P = k • baseElem c := by
  obtain ⟨k, hk⟩ := PO.generates P
  exact ⟨(k : c.Fn), by rw [Nat.cast_smul_eq_nsmul]; exact hk⟩

theorem isZero_iff (k : c.Fn) : decide (k = 0) = true ↔ k = 0 := decide_eq_true_iff

/-- The implementation for a curve of prime order meets the whole contract. -/
noncomputable instance lawful (c : Params) [PO : PrimeOrder c] : (group c).Lawful where
  finite_scalar := inferInstanceAs (Finite c.Fn)
  elemAdd_eq _ _ := rfl
  elemMul_eq P k := val_smul k P
  elemCtEq_iff P Q := by simp [group]
  scalarAdd_eq _ _ := rfl
  scalarMul_eq _ _ := rfl
  scalarSub_eq _ _ := rfl
  scalarCtEq_iff P Q := by simp [group]
  elemZeroize_eq _ := rfl
  scalarZeroize_eq _ := rfl
  identityElem_eq := rfl
  baseElem_ne_zero := baseElem_ne_zero c
  base_generates := generates
  isZeroScalar_iff k := isZero_iff k
  invertScalar_eq k h := if_neg h
  randomScalar_ne_zero s s' k h := run_some ((randomScalar_iff s _).mp h)
  deserializeElem_serialize := deserializeElem_serialize
  deserializeElem_serialize_zero := deserializeElem_zero
  deserializeElem_ne_zero := deserializeElem_ne_zero
  deserializeElem_error := deserializeElem_error
  deserializeScalar_serialize := deserializeScalar_serialize
  deserializeScalar_serialize_zero := deserializeScalar_zero
  deserializeScalar_ne_zero := deserializeScalar_ne_zero
  deserializeScalar_error := deserializeScalar_error
  hashToCurve_flatten H xs ds := by
    show hashToCurve c H xs ds = hashToCurve c H _ _
    rw [hashToCurve_eq, hashToCurve_eq]; simp
  hashToScalar_flatten H xs ds := by
    show hashToScalar c H xs ds = hashToScalar c H _ _
    rw [hashToScalar_eq, hashToScalar_eq]; simp
  hashToCurve_ok H x d _ _ hd := hashToCurve_ok H x d hd
  hashToScalar_ok H x d _ _ hd := hashToScalar_ok H x d hd

theorem totalHash (c : Params) : (group c).TotalHash := ⟨hashToCurve_ok, hashToScalar_ok⟩

end Voprf.Nist
