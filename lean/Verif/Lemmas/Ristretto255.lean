import Verif.Curve.Edwards25519
import Verif.Spec.Rfc9496

/-!
# The ristretto255 encoding, decoding and one-way map (RFC 9496 §4.3) are correct
-/

namespace Voprf.Ristretto.Formula

open Curve Curve.Edwards

/-! ## `SQRT_RATIO_M1` -/

theorem cast_SQRT_M1 : ((SQRT_M1 : Nat) : Fp) = im := rfl
theorem cast_D : ((D : Nat) : Fp) = dd := rfl

seal p in
theorem sqrtRatio_def (u v : Nat) : sqrtRatioM1 u v =
    let v3 := mul (mul v v) v
    let v7 := mul (mul v3 v3) v
    let r := mul (mul u v3) (powMod (mul u v7) ((p - 5) / 8) p)
    let check := mul v (mul r r)
    (check == u % p || check == neg u,
      abs (if check == neg u || check == mul (neg u) SQRT_M1 then mul SQRT_M1 r else r)) := rfl

/-- RFC 9496 §4.2. -/
theorem sqrtRatio_spec (u v : Nat) :
    (sqrtRatioM1 u v).2 < p ∧ ¬ Negative (((sqrtRatioM1 u v).2 : Nat) : Fp) ∧
    ((sqrtRatioM1 u v).1 = true → (v : Fp) * (((sqrtRatioM1 u v).2 : Nat) : Fp) ^ 2 = u) ∧
    ((sqrtRatioM1 u v).1 = false → (u : Fp) ≠ 0 ∧
      ((v : Fp) ≠ 0 → (v : Fp) * (((sqrtRatioM1 u v).2 : Nat) : Fp) ^ 2 = im * u) ∧
      ((v : Fp) = 0 → (((sqrtRatioM1 u v).2 : Nat) : Fp) = 0)) := by
  obtain ⟨e, he⟩ : ∃ e, (p - 5) / 8 = e ∧ 8 * e + 4 = p - 1 :=
    ⟨_, rfl, by have := p_mod_eight; have := p_two; omega⟩
  have hdef := sqrtRatio_def u v
  dsimp only at hdef
  set v3 := mul (mul v v) v with hv3
  set v7 := mul (mul v3 v3) v with hv7
  set r := mul (mul u v3) (powMod (mul u v7) ((p - 5) / 8) p) with hr
  set check := mul v (mul r r) with hcheck
  clear_value check r v7 v3
  have c3 : (v3 : Fp) = v ^ 3 := by rw [hv3, cast_mul, cast_mul]; ring
  have c7 : (v7 : Fp) = v ^ 7 := by rw [hv7, cast_mul, cast_mul, c3]; ring
  have cr : (r : Fp) = u * v ^ 3 * (u * v ^ 7) ^ e := by
    rw [hr, cast_mul, powMod_eq, he.1, cast_mul u v3, cast_mul u v7, c7, c3]
  have cc : (check : Fp) = v * (r : Fp) ^ 2 := by rw [hcheck, cast_mul, cast_mul]; ring
  have hlt : check < p := hcheck ▸ mul_lt _ _
  have h1 : (check == u % p) = true ↔ (v : Fp) * (r : Fp) ^ 2 = u := by
    rw [beq_iff_eq, cast_inj hlt (mod_lt _), ZMod.natCast_mod, cc]
  have h2 : (check == neg u) = true ↔ (v : Fp) * (r : Fp) ^ 2 = -u := by
    rw [beq_iff_eq, cast_inj hlt (neg_lt _), cast_neg, cc]
  have h3 : (check == mul (neg u) SQRT_M1) = true ↔ (v : Fp) * (r : Fp) ^ 2 = -(im * u) := by
    rw [beq_iff_eq, cast_inj hlt (mul_lt _ _), cc, cast_mul, cast_neg, cast_SQRT_M1]
    constructor <;> intro h <;> rw [h] <;> ring
  have roots : (u : Fp) ≠ 0 → (v : Fp) ≠ 0 → (v : Fp) * (r : Fp) ^ 2 = u ∨ (v : Fp) * (r : Fp) ^ 2 = -u ∨
      (v : Fp) * (r : Fp) ^ 2 = -(im * u) ∨ (v : Fp) * (r : Fp) ^ 2 = im * u := by
    intro hu hv
    set chi : Fp := (u * v ^ 7) ^ (2 * e + 1) with hchi
    have c1 : (v : Fp) * (r : Fp) ^ 2 = chi * u := by rw [cr, hchi]; ring
    have c4 : chi ^ 4 = 1 := by
      rw [hchi, ← pow_mul, show (2 * e + 1) * 4 = p - 1 by omega]
      exact ZMod.pow_card_sub_one_eq_one (mul_ne_zero hu (pow_ne_zero _ hv))
    have : (chi - 1) * ((chi + 1) * ((chi + im) * (chi - im))) = 0 := by
      linear_combination c4 - (chi ^ 2 - 1) * im_sq
    rcases mul_eq_zero.mp this with h | h
    · left; rw [c1, sub_eq_zero.mp h, one_mul]
    rcases mul_eq_zero.mp h with h | h
    · right; left; rw [c1]; linear_combination u * h
    rcases mul_eq_zero.mp h with h | h
    · right; right; left; rw [c1]; linear_combination u * h
    · right; right; right; rw [c1]; linear_combination u * h
  rw [hdef]
  refine ⟨(abs_spec _).1, (abs_spec _).2.1, ?_, ?_⟩
  · intro hok
    rw [abs_sq]
    rw [Bool.or_eq_true, h1, h2] at hok
    by_cases hf : (check == neg u || check == mul (neg u) SQRT_M1) = true
    · rw [if_pos hf, cast_mul, cast_SQRT_M1]
      rw [Bool.or_eq_true, h2, h3] at hf
      rcases hf with hf | hf
      · linear_combination v * (r : Fp) ^ 2 * im_sq - hf
      · have : (u : Fp) = 0 := by
          rcases hok with hok | hok
          · have h' : (1 + im) * (u : Fp) = 0 := by linear_combination hf - hok
            rcases mul_eq_zero.mp h' with h' | h'
            · exact absurd (by linear_combination im_sq - (im - 1) * h') two_ne
            · exact h'
          · have h' : (1 - im) * (u : Fp) = 0 := by linear_combination hok - hf
            rcases mul_eq_zero.mp h' with h' | h'
            · exact absurd (by linear_combination im_sq + (im + 1) * h') two_ne
            · exact h'
        rw [this] at hf ⊢
        linear_combination v * (r : Fp) ^ 2 * im_sq - hf
    · rw [if_neg hf]
      rw [Bool.or_eq_true, h2, h3] at hf
      rcases hok with hok | hok
      · exact hok
      · exact absurd (Or.inl hok) hf
  · intro hok
    rw [Bool.or_eq_false_iff, ← Bool.not_eq_true, ← Bool.not_eq_true, h1, h2] at hok
    have hu : (u : Fp) ≠ 0 := by
      intro h
      apply hok.1
      rw [cr, h]
      ring
    refine ⟨hu, fun hv => ?_, fun hv => ?_⟩
    · rw [abs_sq]
      by_cases hf : (check == neg u || check == mul (neg u) SQRT_M1) = true
      · rw [if_pos hf, cast_mul, cast_SQRT_M1]
        rw [Bool.or_eq_true, h2, h3] at hf
        rcases hf with hf | hf
        · exact absurd hf hok.2
        · linear_combination v * (r : Fp) ^ 2 * im_sq - hf
      · rw [if_neg hf]
        rw [Bool.or_eq_true, h2, h3] at hf
        push Not at hf
        rcases roots hu hv with h | h | h | h
        · exact absurd h hok.1
        · exact absurd h hf.1
        · exact absurd h hf.2
        · exact h
    · have hr0 : (r : Fp) = 0 := by rw [cr, hv]; ring
      have : ∀ x : Nat, (x : Fp) = 0 → ((abs x : Nat) : Fp) = 0 := fun x hx => by
        have := abs_sq x
        rw [hx] at this
        exact pow_eq_zero_iff two_ne_zero |>.mp (by rw [this]; ring)
      apply this
      split
      · rw [cast_mul, hr0]; ring
      · exact hr0

/-- If a root exists it is found. -/
theorem sqrtRatio_true {u v : Nat} {w : Fp} (hv : (v : Fp) ≠ 0) (h : (v : Fp) * w ^ 2 = u) :
    (sqrtRatioM1 u v).1 = true := by
  by_contra hc
  rw [Bool.not_eq_true] at hc
  obtain ⟨_, _, _, h4⟩ := sqrtRatio_spec u v
  obtain ⟨hu, h5, _⟩ := h4 hc
  have h5 := h5 hv
  have hw : w ≠ 0 := by rintro rfl; exact hu (by rw [← h]; ring)
  refine im_nonsquare ⟨(((sqrtRatioM1 u v).2 : Nat) : Fp) / w, ?_⟩
  rw [div_mul_div_comm, eq_div_iff (mul_ne_zero hw hw)]
  apply mul_left_cancel₀ hv
  linear_combination im * h - h5

/-! ## Canonical representatives -/

/-- `A` is the point of its coset that `s` encodes. -/
structure Canon (s : Fp) (A : Ed) : Prop where
  s_nonneg : ¬ Negative s
  x_nonneg : ¬ Negative A.x
  t_nonneg : ¬ Negative (A.x * A.y)
  y_ne : A.y ≠ 0
  eq : A.y * (1 + s ^ 2) = 1 - s ^ 2

theorem Canon.y_ne_neg_one {s : Fp} {A : Ed} (h : Canon s A) : 1 + A.y ≠ 0 := fun h' =>
  two_ne (by linear_combination (1 + s ^ 2) * h' - h.eq)

theorem zero_of_signs {a : Fp} (h1 : ¬ Negative a) (h2 : ¬ Negative (-a)) : a = 0 := by
  by_contra h
  exact h2 ((negative_neg h).mpr h1)

theorem Canon.unique {s s' : Fp} {A A' : Ed} (h : Canon s A) (h' : Canon s' A') (hc : A - A' ∈ Pt.four dd) :
    A = A' ∧ s = s' := by
  have hA : A = A' := by
    rcases Pt.coset im_sq hc with ⟨hx, hy⟩ | ⟨hx, hy⟩ | ⟨hx, hy⟩ | ⟨hx, hy⟩
    · exact Pt.ext hx.symm hy.symm
    · exfalso
      have x0 : A.x = 0 := zero_of_signs h.x_nonneg (hx ▸ h'.x_nonneg)
      have e := A.eq
      rw [x0] at e
      have : (1 + A.y) * (1 + A'.y) = 0 := by rw [hy]; linear_combination -e
      rcases mul_eq_zero.mp this with h0 | h0
      · exact h.y_ne_neg_one h0
      · exact h'.y_ne_neg_one h0
    · exfalso
      have t0 : A.x * A.y = 0 := by
        refine zero_of_signs h.t_nonneg ?_
        have := h'.t_nonneg
        rwa [hx, hy, show im * A.y * (im * A.x) = -(A.x * A.y) by linear_combination A.x * A.y * im_sq] at this
      rcases mul_eq_zero.mp t0 with h0 | h0
      · exact h'.y_ne (by rw [hy, h0, mul_zero])
      · exact h.y_ne h0
    · exfalso
      have t0 : A.x * A.y = 0 := by
        refine zero_of_signs h.t_nonneg ?_
        have := h'.t_nonneg
        rwa [hx, hy, show -(im * A.y) * -(im * A.x) = -(A.x * A.y) by linear_combination A.x * A.y * im_sq] at this
      rcases mul_eq_zero.mp t0 with h0 | h0
      · exact h'.y_ne (by rw [hy, h0, mul_zero, neg_zero])
      · exact h.y_ne h0
  subst hA
  exact ⟨rfl, root_unique h.s_nonneg h'.s_nonneg (mul_left_cancel₀ h.y_ne_neg_one (by
    linear_combination h.eq - h'.eq))⟩

/-! ## Decoding -/

seal p in
theorem decode_def (b : Bytes) : decode b =
    let s := ofLeBytes b
    if s ≥ p || isNeg s then none
    else
      let u1 := sub 1 (mul s s)
      let u2 := add 1 (mul s s)
      let v := sub (neg (mul D (mul u1 u1))) (mul u2 u2)
      let r := sqrtRatioM1 1 (mul v (mul u2 u2))
      let denX := mul r.2 u2
      let denY := mul (mul r.2 denX) v
      let x := abs (mul (2 * s) denX)
      let y := mul u1 denY
      if !r.1 || isNeg (mul x y) || y == 0 then none else some ⟨x, y, 1, mul x y⟩ := rfl

/-- The quantities computed by `decode`. -/
theorem decode_core (s : Nat) :
    ∃ (x y v : Nat) (ok : Bool) (R : Fp), ¬ Negative R ∧ x < p ∧ y < p ∧ ¬ Negative (x : Fp) ∧
      (v : Fp) = -(dd * (1 - (s : Fp) ^ 2) ^ 2) - (1 + (s : Fp) ^ 2) ^ 2 ∧
      (x : Fp) ^ 2 = (2 * s * R * (1 + (s : Fp) ^ 2)) ^ 2 ∧
      (y : Fp) = (1 - (s : Fp) ^ 2) * (R ^ 2 * (1 + (s : Fp) ^ 2) * v) ∧
      (ok = true → (v : Fp) * (1 + (s : Fp) ^ 2) ^ 2 * R ^ 2 = 1) ∧
      ((∃ w : Fp, (v : Fp) * (1 + (s : Fp) ^ 2) ^ 2 * w ^ 2 = 1) → ok = true) ∧
      ∀ b : Bytes, ofLeBytes b = s → decode b =
        if s ≥ p || isNeg s then none else
        if !ok || isNeg (mul x y) || y == 0 then none else some ⟨x, y, 1, mul x y⟩ := by
  have hd := fun b => decode_def b
  dsimp only at hd
  set u1 := sub 1 (mul s s) with hu1
  set u2 := add 1 (mul s s) with hu2
  set v := sub (neg (mul D (mul u1 u1))) (mul u2 u2) with hv
  set r := sqrtRatioM1 1 (mul v (mul u2 u2)) with hr
  set denX := mul r.2 u2 with hdx
  set denY := mul (mul r.2 denX) v with hdy
  have c1 : (u1 : Fp) = 1 - (s : Fp) ^ 2 := by rw [hu1, cast_sub, cast_mul]; push_cast; ring
  have c2 : (u2 : Fp) = 1 + (s : Fp) ^ 2 := by rw [hu2, cast_add, cast_mul]; push_cast; ring
  have cv : (v : Fp) = -(dd * (1 - (s : Fp) ^ 2) ^ 2) - (1 + (s : Fp) ^ 2) ^ 2 := by
    rw [hv, cast_sub, cast_neg, cast_mul, cast_mul u1, cast_mul u2, c1, c2, cast_D]; ring
  have cvu : ((mul v (mul u2 u2) : Nat) : Fp) = v * (1 + (s : Fp) ^ 2) ^ 2 := by
    rw [cast_mul, cast_mul, c2]; ring
  have hspec := sqrtRatio_spec 1 (mul v (mul u2 u2))
  rw [← hr, cvu] at hspec
  refine ⟨abs (mul (2 * s) denX), mul u1 denY, v, r.1, (r.2 : Nat), hspec.2.1, (abs_spec _).1, mul_lt _ _,
    (abs_spec _).2.1, cv, ?_, ?_, ?_, ?_, ?_⟩
  · rw [abs_sq, cast_mul, hdx, cast_mul, c2]; push_cast; ring
  · rw [cast_mul, hdy, cast_mul, cast_mul, hdx, cast_mul, c1, c2]; ring
  · intro h; have := hspec.2.2.1 h; push_cast at this; exact this
  · rintro ⟨w, hw⟩
    rw [hr]
    refine sqrtRatio_true (w := w) ?_ ?_
    · rw [cvu]
      intro h0
      rw [h0] at hw
      exact one_ne_zero (α := Fp) (by linear_combination -hw)
    · rw [cvu, hw]; push_cast; rfl
  · rintro b rfl
    exact hd b

theorem decode_some {b : Bytes} {Q : Point} (h : decode b = some Q) :
    ofLeBytes b < p ∧ ∃ A : Ed, A ∈ Pt.even dd one_add_dd_square ∧ Rep Q A ∧ Canon ((ofLeBytes b : Nat) : Fp) A := by
  obtain ⟨x, y, v, ok, R, hR, hxp, hyp, hx, cv, cx, cy, hok, _, hd⟩ := decode_core (ofLeBytes b)
  rw [hd b rfl] at h
  set s : Fp := ((ofLeBytes b : Nat) : Fp) with hs
  split at h
  · simp at h
  · next h1 =>
    split at h
    · simp at h
    · next h2 =>
      injection h with h
      subst h
      simp only [Bool.or_eq_true, decide_eq_true_eq, not_or, isNeg_iff, ge_iff_le, not_le, Bool.not_eq_true',
        Bool.not_eq_false, cast_mul, beq_iff_eq] at h1 h2
      obtain ⟨hlt, hsn⟩ := h1
      obtain ⟨⟨hok', htn⟩, hy0⟩ := h2
      have e := hok hok'
      have hu2 : 1 + s ^ 2 ≠ 0 := by
        intro h0; rw [h0] at e; exact one_ne_zero (α := Fp) (by linear_combination -e)
      have hR0 : R ≠ 0 := by
        intro h0; rw [h0] at e; exact one_ne_zero (α := Fp) (by linear_combination -e)
      have hv0 : (v : Fp) ≠ 0 := by
        intro h0; rw [h0] at e; exact one_ne_zero (α := Fp) (by linear_combination -e)
      have ey : (y : Fp) * (1 + s ^ 2) = 1 - s ^ 2 := by rw [cy]; linear_combination (1 - s ^ 2) * e
      have ex : (x : Fp) ^ 2 * v = 4 * s ^ 2 := by rw [cx]; linear_combination 4 * s ^ 2 * e
      have hcurve : -(x : Fp) ^ 2 + (y : Fp) ^ 2 = 1 + dd * (x : Fp) ^ 2 * (y : Fp) ^ 2 := by
        have hk : (v : Fp) * (1 + s ^ 2) ^ 2 ≠ 0 := mul_ne_zero hv0 (pow_ne_zero _ hu2)
        apply mul_left_cancel₀ hk
        have ey2 : (y : Fp) ^ 2 * (1 + s ^ 2) ^ 2 = (1 - s ^ 2) ^ 2 := by rw [← mul_pow, ey]
        linear_combination (-(1 + s ^ 2) ^ 2 - dd * (y : Fp) ^ 2 * (1 + s ^ 2) ^ 2) * ex +
          (v - 4 * s ^ 2 * dd) * ey2 + (4 * s ^ 2 - (1 + s ^ 2) ^ 2 - 4 * s ^ 2 + (1 - s ^ 2) ^ 2) * cv
      refine ⟨hlt, ⟨x, y, hcurve⟩, ?_, ?_, hsn, hx, htn, ?_, ey⟩
      · rw [Pt.mem_even]
        refine ⟨im / ((1 + s ^ 2) ^ 2 * R), ?_⟩
        rw [div_mul_div_comm, eq_div_iff (by simp [hu2, hR0])]
        have ey2 : (y : Fp) ^ 2 * (1 + s ^ 2) ^ 2 = (1 - s ^ 2) ^ 2 := by rw [← mul_pow, ey]
        linear_combination dd * (1 + s ^ 2) ^ 2 * R ^ 2 * ey2 - e + (1 + s ^ 2) ^ 2 * R ^ 2 * cv - im_sq
      · exact rep_affine rfl rfl
      · intro h0
        change (y : Fp) = 0 at h0
        exact hy0 ((cast_inj hyp (by have := p_two; omega)).mpr (by rw [h0]; simp))

theorem decode_of_canon {b : Bytes} {A : Ed} (hlt : ofLeBytes b < p) (h : Canon ((ofLeBytes b : Nat) : Fp) A) :
    ∃ Q, decode b = some Q ∧ Rep Q A := by
  obtain ⟨x, y, v, ok, R, hR, hxp, hyp, hx, cv, cx, cy, hok, hok2, hd⟩ := decode_core (ofLeBytes b)
  set s : Fp := ((ofLeBytes b : Nat) : Fp) with hs
  have ec := A.eq
  have ey := h.eq
  have hw := Pt.w_ne_zero A
  have hu2 : 1 + s ^ 2 ≠ 0 := fun h0 => two_ne (by linear_combination -ey + (1 + A.y) * h0)
  have ey2 : A.y ^ 2 * (1 + s ^ 2) ^ 2 = (1 - s ^ 2) ^ 2 := by rw [← mul_pow, ey]
  have ev : (v : Fp) = -(1 + dd * A.y ^ 2) * (1 + s ^ 2) ^ 2 := by rw [cv]; linear_combination dd * ey2
  have hv0 : (v : Fp) ≠ 0 := by rw [ev]; exact mul_ne_zero (neg_ne_zero.mpr hw) (pow_ne_zero _ hu2)
  have ex : A.x ^ 2 * v = 4 * s ^ 2 := by
    rw [ev]
    linear_combination (1 + s ^ 2) ^ 2 * ec - ey2
  have ok1 : ok = true := by
    apply hok2
    by_cases h0 : s = 0
    · refine ⟨(INVSQRT_A_MINUS_D : Nat), ?_⟩
      rw [cv, h0]
      linear_combination invsqrt_a_minus_d
    · refine ⟨A.x / (2 * s * (1 + s ^ 2)), ?_⟩
      have hk : 2 * s * (1 + s ^ 2) ≠ 0 := mul_ne_zero (mul_ne_zero two_ne h0) hu2
      rw [div_pow, mul_div_assoc', div_eq_one_iff_eq (pow_ne_zero _ hk)]
      linear_combination (1 + s ^ 2) ^ 2 * ex
  have e := hok ok1
  have hy : (y : Fp) = A.y := by
    apply mul_right_cancel₀ hu2
    rw [ey, cy]
    linear_combination (1 - s ^ 2) * e
  have hx' : (x : Fp) = A.x := by
    apply root_unique hx h.x_nonneg
    apply mul_right_cancel₀ hv0
    rw [ex, cx]
    linear_combination 4 * s ^ 2 * e
  refine ⟨⟨x, y, 1, mul x y⟩, ?_, rep_affine hx'.symm hy.symm⟩
  rw [hd b rfl, if_neg, if_neg]
  · simp only [Bool.or_eq_true, not_or, isNeg_iff, Bool.not_eq_true', Bool.not_eq_false, cast_mul, beq_iff_eq, hx', hy]
    refine ⟨⟨ok1, h.t_nonneg⟩, fun h0 => h.y_ne ?_⟩
    rw [← hy, h0]; simp
  · simp only [Bool.or_eq_true, decide_eq_true_eq, not_or, isNeg_iff, ge_iff_le, not_le]
    exact ⟨hlt, h.s_nonneg⟩

/-! ## Encoding -/

seal p in
theorem encode_def (P : Point) : encode P =
    let u1 := mul (add P.z P.y) (sub P.z P.y)
    let u2 := mul P.x P.y
    let I := (sqrtRatioM1 1 (mul u1 (mul u2 u2))).2
    let den1 := mul I u1
    let den2 := mul I u2
    let zInv := mul (mul den1 den2) P.t
    let rotate := isNeg (mul P.t zInv)
    let x := if rotate then mul P.y SQRT_M1 else P.x
    let y := if rotate then mul P.x SQRT_M1 else P.y
    let denInv := if rotate then mul den1 INVSQRT_A_MINUS_D else den2
    let y := if isNeg (mul x zInv) then neg y else y
    abs (mul denInv (sub P.z y)) := rfl

/-- A point other than those of the small subgroup is encoded by its canonical representative. -/
theorem encode_spec {P : Point} {A : Ed} (hP : Rep P A) (hA : A ∈ Pt.even dd one_add_dd_square) :
    encode P < p ∧ ∃ A' : Ed, A - A' ∈ Pt.four dd ∧ Canon ((encode P : Nat) : Fp) A' := by
  have hd := encode_def P
  dsimp only at hd
  set u1 := mul (add P.z P.y) (sub P.z P.y) with hu1
  set u2 := mul P.x P.y with hu2
  set I := (sqrtRatioM1 1 (mul u1 (mul u2 u2))).2 with hI
  set den1 := mul I u1 with hden1
  set den2 := mul I u2 with hden2
  set zInv := mul (mul den1 den2) P.t with hzInv
  clear_value zInv den2 den1 I u2 u1
  refine ⟨by rw [hd]; exact (abs_spec _).1, ?_⟩
  have ec := A.eq
  have c1 : (u1 : Fp) = (P.z : Fp) ^ 2 * (1 - A.y ^ 2) := by
    rw [hu1, cast_mul, cast_add, cast_sub, hP.y]; ring
  have c2 : (u2 : Fp) = (P.z : Fp) ^ 2 * (A.x * A.y) := by rw [hu2, cast_mul, hP.x, hP.y]; ring
  have cuu : ((mul u1 (mul u2 u2) : Nat) : Fp) = u1 * (u2 : Fp) ^ 2 := by rw [cast_mul, cast_mul]; ring
  have hspec := sqrtRatio_spec 1 (mul u1 (mul u2 u2))
  rw [cuu, ← hI] at hspec
  have ns : ¬ Negative ((encode P : Nat) : Fp) := by rw [hd]; exact (abs_spec _).2.1
  by_cases h4 : A.x * A.y = 0
  · -- the small subgroup is encoded as zero
    have I0 : (I : Fp) = 0 := by
      have hz : (u1 : Fp) * (u2 : Fp) ^ 2 = 0 := by rw [c2, h4]; ring
      cases hb : (sqrtRatioM1 1 (mul u1 (mul u2 u2))).1 with
      | true =>
        have := hspec.2.2.1 hb
        rw [hz] at this
        exact absurd (by linear_combination -this) (one_ne_zero (α := Fp))
      | false => exact (hspec.2.2.2 hb).2.2 hz
    have s0 : ((encode P : Nat) : Fp) = 0 := by
      refine pow_eq_zero_iff two_ne_zero |>.mp ?_
      rw [hd, abs_sq, cast_mul]
      have : ((if isNeg (mul P.t zInv) = true then mul den1 INVSQRT_A_MINUS_D else den2 : Nat) : Fp) = 0 := by
        split
        · rw [cast_mul, hden1, cast_mul, I0]; ring
        · rw [hden2, cast_mul, I0]; ring
      rw [this]
      ring
    refine ⟨0, by rw [sub_zero]; exact h4, ns, ?_, ?_, ?_, ?_⟩
    · exact not_negative_zero
    · simpa using not_negative_zero
    · simp
    · rw [s0]; simp
  · obtain ⟨hx0, hy0⟩ := mul_ne_zero_iff.mp h4
    have hz := hP.z
    have hw := Pt.w_ne_zero A
    have ew : A.x ^ 2 * (1 + dd * A.y ^ 2) = A.y ^ 2 - 1 := by linear_combination -ec
    have hy1 : 1 - A.y ^ 2 ≠ 0 := by
      intro h0
      have : A.x ^ 2 * (1 + dd * A.y ^ 2) = 0 := by rw [ew]; linear_combination -h0
      exact (mul_ne_zero (pow_ne_zero 2 hx0) hw) this
    have n1 : (u1 : Fp) ≠ 0 := by rw [c1]; exact mul_ne_zero (pow_ne_zero _ hz) hy1
    have n2 : (u2 : Fp) ≠ 0 := by rw [c2]; exact mul_ne_zero (pow_ne_zero _ hz) h4
    have e : (u1 : Fp) * (u2 : Fp) ^ 2 * (I : Fp) ^ 2 = 1 := by
      have := hspec.2.2.1 ?_
      · push_cast at this; exact this
      · obtain ⟨a, ha⟩ := Pt.mem_even.mp hA
        have ha0 : a ≠ 0 := by rintro rfl; exact hw (by rw [ha]; ring)
        have hk : im * A.x * a * P.z * u2 ≠ 0 :=
          mul_ne_zero (mul_ne_zero (mul_ne_zero (mul_ne_zero im_ne_zero hx0) ha0) hz) n2
        refine sqrtRatio_true (w := 1 / (im * A.x * a * P.z * u2)) ?_ ?_
        · rw [cuu]; exact mul_ne_zero n1 (pow_ne_zero _ n2)
        · rw [cuu, div_pow, mul_div_assoc', div_eq_iff (pow_ne_zero _ hk), c1]
          push_cast
          rw [ha] at ew
          linear_combination (P.z : Fp) ^ 2 * (u2 : Fp) ^ 2 * (ew - A.x ^ 2 * a ^ 2 * im_sq)
    have cz : (zInv : Fp) * P.z = 1 := by
      rw [hzInv, cast_mul, cast_mul, hden1, hden2, cast_mul, cast_mul, hP.t]
      linear_combination e - (u1 : Fp) * (u2 : Fp) * (I : Fp) ^ 2 * c2
    have ct : ((mul P.t zInv : Nat) : Fp) = A.x * A.y := by
      rw [cast_mul, hP.t]; linear_combination A.x * A.y * cz
    by_cases hrot : isNeg (mul P.t zInv) = true
    · -- rotated
      rw [if_pos hrot, if_pos hrot, if_pos hrot] at hd
      have hneg : Negative (A.x * A.y) := by rw [← ct, ← isNeg_iff]; exact hrot
      have cxz : ((mul (mul P.y SQRT_M1) zInv : Nat) : Fp) = im * A.y := by
        rw [cast_mul, cast_mul, cast_SQRT_M1, hP.y]; linear_combination im * A.y * cz
      obtain ⟨g, hg, hgx, hY⟩ : ∃ g : Fp, g ^ 2 = 1 ∧ ¬ Negative (g * (im * A.y)) ∧
          ((if isNeg (mul (mul P.y SQRT_M1) zInv) = true then neg (mul P.x SQRT_M1) else mul P.x SQRT_M1 : Nat) : Fp) =
            g * (im * A.x) * P.z := by
        by_cases hn : isNeg (mul (mul P.y SQRT_M1) zInv) = true
        · refine ⟨-1, by ring, ?_, ?_⟩
          · rw [isNeg_iff, cxz] at hn
            rw [neg_one_mul, negative_neg (mul_ne_zero im_ne_zero hy0)]
            exact not_not.mpr hn
          · rw [if_pos hn, cast_neg, cast_mul, cast_SQRT_M1, hP.x]; ring
        · refine ⟨1, by ring, ?_, ?_⟩
          · rw [isNeg_iff, cxz] at hn
            rwa [one_mul]
          · rw [if_neg hn, cast_mul, cast_SQRT_M1, hP.x]; ring
      set y' : Fp := g * (im * A.x) with hy'
      have y'sq : y' ^ 2 = -A.x ^ 2 := by
        rw [hy']; linear_combination im ^ 2 * A.x ^ 2 * hg + A.x ^ 2 * im_sq
      have g0 : g ≠ 0 := by rintro rfl; exact one_ne_zero (α := Fp) (by linear_combination -hg)
      have hy'1 : 1 - y' ≠ 0 := by
        intro h0
        have hx2 : A.x ^ 2 = -1 := by linear_combination y'sq + (1 + y') * h0
        have : A.y ^ 2 * (1 + dd) = 0 := by linear_combination ec + (1 + dd * A.y ^ 2) * hx2
        exact (mul_ne_zero (pow_ne_zero 2 hy0) one_add_dd_ne_zero) this
      have hs2 : ((encode P : Nat) : Fp) ^ 2 =
          ((I : Fp) * u1 * (INVSQRT_A_MINUS_D : Nat) * P.z * (1 - y')) ^ 2 := by
        rw [hd, abs_sq, cast_mul, cast_sub, hY, cast_mul, hden1, cast_mul]
        ring
      have key : ((encode P : Nat) : Fp) ^ 2 * (1 + y') = 1 - y' := by
        have hk : (1 - A.y ^ 2) * (1 - y') ≠ 0 := mul_ne_zero hy1 hy'1
        have hk2 : (u2 : Fp) ^ 2 ≠ 0 := pow_ne_zero _ n2
        apply mul_left_cancel₀ hk
        apply mul_left_cancel₀ hk2
        rw [hs2]
        have e2 := invsqrt_a_minus_d
        set J : Fp := ((INVSQRT_A_MINUS_D : Nat) : Fp)
        have e3 : A.x ^ 2 * A.y ^ 2 * (-1 - dd) = (1 - A.y ^ 2) * (1 - y' ^ 2) := by
          rw [y'sq]; linear_combination ec
        have e4 : (P.z : Fp) ^ 2 * u1 * J ^ 2 * (1 - A.y ^ 2) * (1 - y' ^ 2) = (u2 : Fp) ^ 2 * (1 - A.y ^ 2) := by
          rw [c1, c2]
          linear_combination -(P.z : Fp) ^ 4 * (1 - A.y ^ 2) * J ^ 2 * e3 +
            (P.z : Fp) ^ 4 * (1 - A.y ^ 2) * A.x ^ 2 * A.y ^ 2 * e2
        linear_combination (1 - y') ^ 2 * (1 - A.y ^ 2) * u1 * J ^ 2 * (P.z : Fp) ^ 2 * (1 - y' ^ 2) * e +
          (1 - y') ^ 2 * e4
      refine ⟨⟨g * (im * A.y), y', ?_⟩, ?_, ns, hgx, ?_, ?_, ?_⟩
      · rw [y'sq]
        linear_combination ec - (A.y ^ 2 - dd * A.x ^ 2 * A.y ^ 2) * (im ^ 2 * hg + im_sq)
      · rw [Pt.sub_mem_four]
        right
        show A.y * y' = A.x * (g * (im * A.y))
        rw [hy']
        ring
      · show ¬ Negative (g * (im * A.y) * y')
        have : g * (im * A.y) * y' = -(A.x * A.y) := by
          rw [hy']; linear_combination im ^ 2 * A.x * A.y * hg + A.x * A.y * im_sq
        rw [this, negative_neg h4]
        exact not_not.mpr hneg
      · exact mul_ne_zero g0 (mul_ne_zero im_ne_zero hx0)
      · show y' * (1 + _) = _
        linear_combination key
    · -- not rotated
      rw [if_neg hrot, if_neg hrot, if_neg hrot] at hd
      have hneg : ¬ Negative (A.x * A.y) := by rw [← ct, ← isNeg_iff]; exact hrot
      have cxz : ((mul P.x zInv : Nat) : Fp) = A.x := by
        rw [cast_mul, hP.x]; linear_combination A.x * cz
      obtain ⟨g, hg, hgx, hY⟩ : ∃ g : Fp, g ^ 2 = 1 ∧ ¬ Negative (g * A.x) ∧
          ((if isNeg (mul P.x zInv) = true then neg P.y else P.y : Nat) : Fp) = g * A.y * P.z := by
        by_cases hn : isNeg (mul P.x zInv) = true
        · refine ⟨-1, by ring, ?_, ?_⟩
          · rw [isNeg_iff, cxz] at hn
            rw [neg_one_mul, negative_neg hx0]
            exact not_not.mpr hn
          · rw [if_pos hn, cast_neg, hP.y]; ring
        · refine ⟨1, by ring, ?_, ?_⟩
          · rw [isNeg_iff, cxz] at hn
            rwa [one_mul]
          · rw [if_neg hn, hP.y]; ring
      set y' : Fp := g * A.y with hy'
      have y'sq : y' ^ 2 = A.y ^ 2 := by rw [hy']; linear_combination A.y ^ 2 * hg
      have g0 : g ≠ 0 := by rintro rfl; exact one_ne_zero (α := Fp) (by linear_combination -hg)
      have hy'1 : 1 - y' ≠ 0 := fun h0 => hy1 (by rw [← y'sq]; linear_combination (1 + y') * h0)
      have hs2 : ((encode P : Nat) : Fp) ^ 2 = ((I : Fp) * u2 * P.z * (1 - y')) ^ 2 := by
        rw [hd, abs_sq, cast_mul, cast_sub, hY, hden2, cast_mul]
        ring
      have key : ((encode P : Nat) : Fp) ^ 2 * (1 + y') = 1 - y' := by
        apply mul_left_cancel₀ hy'1
        apply mul_left_cancel₀ n1
        rw [hs2]
        rw [← y'sq] at c1
        linear_combination (P.z : Fp) ^ 2 * (1 - y') ^ 2 * (1 - y' ^ 2) * e - (1 - y') ^ 2 * c1
      refine ⟨⟨g * A.x, y', ?_⟩, ?_, ns, hgx, ?_, ?_, ?_⟩
      · rw [y'sq]
        linear_combination ec - (A.x ^ 2 + dd * A.x ^ 2 * A.y ^ 2) * hg
      · rw [Pt.sub_mem_four]
        left
        show A.x * y' = A.y * (g * A.x)
        rw [hy']
        ring
      · show ¬ Negative (g * A.x * y')
        have : g * A.x * y' = A.x * A.y := by rw [hy']; linear_combination A.x * A.y * hg
        rwa [this]
      · exact mul_ne_zero g0 hy0
      · show y' * (1 + _) = _
        linear_combination key

/-! ## The one-way map -/

theorem sqrt_ad_minus_one : ((SQRT_AD_MINUS_ONE : Nat) : Fp) ^ 2 = -dd - 1 := by
  have : ((SQRT_AD_MINUS_ONE * SQRT_AD_MINUS_ONE + (D + 1) : Nat) : Fp) = ((0 : Nat) : Fp) :=
    eq_of_mod (by decide +kernel)
  push_cast at this
  rw [dd]
  linear_combination this

theorem one_minus_d_sq : ((ONE_MINUS_D_SQ : Nat) : Fp) = 1 - dd ^ 2 := by
  have : ((ONE_MINUS_D_SQ + D * D : Nat) : Fp) = ((1 : Nat) : Fp) := eq_of_mod (by decide +kernel)
  push_cast at this
  rw [dd]
  linear_combination this

theorem d_minus_one_sq : ((D_MINUS_ONE_SQ : Nat) : Fp) = (dd - 1) ^ 2 := by
  have : ((D_MINUS_ONE_SQ + 2 * D : Nat) : Fp) = ((D * D + 1 : Nat) : Fp) := eq_of_mod (by decide +kernel)
  push_cast at this
  rw [dd]
  linear_combination this

theorem dd_ne_one : dd - 1 ≠ 0 := fun h =>
  complete.nonsquare ⟨1, by linear_combination h⟩

theorem dd_not_sq {a b : Fp} (h : dd * a ^ 2 = b ^ 2) : a = 0 := by
  by_contra h0
  exact complete.nonsquare ⟨b / a, by
    rw [div_mul_div_comm, eq_div_iff (mul_ne_zero h0 h0)]; linear_combination h⟩

theorem map_core {s v N K : Fp} (hv : v ≠ 0) (hw : 1 + s ^ 2 ≠ 0)
    (hV : v ^ 2 * (-(dd * (1 - s ^ 2) ^ 2) - (1 + s ^ 2) ^ 2) = N ^ 2 * K ^ 2) :
    N * K ≠ 0 ∧ ∃ A : Ed, A ∈ Pt.even dd one_add_dd_square ∧ A.x = 2 * s * v / (N * K) ∧
      A.y = (1 - s ^ 2) / (1 + s ^ 2) := by
  set V : Fp := -(dd * (1 - s ^ 2) ^ 2) - (1 + s ^ 2) ^ 2 with eV
  have V0 : V ≠ 0 := by
    intro h
    have h1 : dd * (1 - s ^ 2) ^ 2 = (im * (1 + s ^ 2)) ^ 2 := by
      linear_combination eV - h - (1 + s ^ 2) ^ 2 * im_sq
    have h2 := dd_not_sq h1
    rw [h2] at eV
    exact hw (pow_eq_zero_iff two_ne_zero |>.mp (by linear_combination eV - h))
  have hNK : N * K ≠ 0 := by
    intro h
    refine mul_ne_zero (pow_ne_zero 2 hv) V0 ?_
    rw [hV, ← mul_pow, h]
    ring
  refine ⟨hNK, ⟨2 * s * v / (N * K), (1 - s ^ 2) / (1 + s ^ 2), ?_⟩, ?_, rfl, rfl⟩
  · set x : Fp := 2 * s * v / (N * K) with ex
    set y : Fp := (1 - s ^ 2) / (1 + s ^ 2) with ey
    have hx : x * (N * K) = 2 * s * v := by rw [ex, div_mul_cancel₀ _ hNK]
    have hy : y * (1 + s ^ 2) = 1 - s ^ 2 := by rw [ey, div_mul_cancel₀ _ hw]
    clear_value x y V
    have hx2 : x ^ 2 * V = 4 * s ^ 2 := by
      apply mul_left_cancel₀ (pow_ne_zero 2 hv)
      linear_combination x ^ 2 * hV + (x * (N * K) + 2 * s * v) * hx
    have hy2 : y ^ 2 * (1 + s ^ 2) ^ 2 = (1 - s ^ 2) ^ 2 := by rw [← mul_pow, hy]
    apply mul_left_cancel₀ (pow_ne_zero 2 hw)
    linear_combination hx2 + (1 - dd * x ^ 2) * hy2 - x ^ 2 * eV
  · rw [Pt.mem_even]
    refine ⟨im * (N * K) / (v * (1 + s ^ 2)), ?_⟩
    show 1 + dd * ((1 - s ^ 2) / (1 + s ^ 2)) ^ 2 = _
    rw [div_mul_div_comm, eq_div_iff (by simp [hv, hw]), div_pow, mul_div_assoc', ← sub_eq_zero]
    have : (1 + dd * (1 - s ^ 2) ^ 2 / (1 + s ^ 2) ^ 2) * (v * (1 + s ^ 2) * (v * (1 + s ^ 2))) =
        v ^ 2 * ((1 + s ^ 2) ^ 2 + dd * (1 - s ^ 2) ^ 2) := by
      field_simp
    rw [this]
    linear_combination -hV + v ^ 2 * eV - (N * K) ^ 2 * im_sq

seal p in
theorem map_def (t : Nat) : map t =
    let r := mul SQRT_M1 (mul t t)
    let u := mul (add r 1) ONE_MINUS_D_SQ
    let v := mul (sub (neg 1) (mul r D)) (add r D)
    let sr := sqrtRatioM1 u v
    let s := if sr.1 then sr.2 else neg (abs (mul sr.2 t))
    let c := if sr.1 then neg 1 else r
    let N := sub (mul (mul c (sub r 1)) D_MINUS_ONE_SQ) v
    let w0 := mul (2 * s) v
    let w1 := mul N SQRT_AD_MINUS_ONE
    let w2 := sub 1 (mul s s)
    let w3 := add 1 (mul s s)
    ⟨mul w0 w3, mul w2 w1, mul w1 w3, mul w0 w2⟩ := rfl

/-- RFC 9496 §4.3.4: `MAP` computes a point of the right kind for every field element. -/
theorem map_spec (t : Nat) : ∃ A : Ed, A ∈ Pt.even dd one_add_dd_square ∧ Rep (map t) A ∧
    Rfc9496.IsMap (¬ Negative ·) dd im (SQRT_AD_MINUS_ONE : Nat) (t : Fp) A.x A.y := by
  have hd := map_def t
  dsimp only at hd
  set r := mul SQRT_M1 (mul t t) with hr
  set u := mul (add r 1) ONE_MINUS_D_SQ with hu
  set v := mul (sub (neg 1) (mul r D)) (add r D) with hv
  set sr := sqrtRatioM1 u v with hsr
  set s := if sr.1 = true then sr.2 else neg (abs (mul sr.2 t)) with hs
  set c := if sr.1 = true then neg 1 else r with hc
  set N := sub (mul (mul c (sub r 1)) D_MINUS_ONE_SQ) v with hN
  clear_value N c s sr v u r
  have cr : (r : Fp) = im * (t : Fp) ^ 2 := by rw [hr, cast_mul, cast_mul, cast_SQRT_M1]; ring
  have cu : (u : Fp) = (r + 1) * (1 - dd ^ 2) := by
    rw [hu, cast_mul, cast_add, one_minus_d_sq]; push_cast; ring
  have cv : (v : Fp) = (-1 - r * dd) * (r + dd) := by
    rw [hv, cast_mul, cast_sub, cast_neg, cast_add, cast_mul, cast_D]; push_cast; ring
  have cN : (N : Fp) = c * (r - 1) * (dd - 1) ^ 2 - v := by
    rw [hN, cast_sub, cast_mul, cast_mul, cast_sub, d_minus_one_sq]; push_cast; ring
  have hspec := sqrtRatio_spec u v
  rw [← hsr] at hspec
  have d1 := dd_ne_one
  obtain ⟨w, hw⟩ := one_add_dd_square
  have hw0 : w ≠ 0 := by rintro rfl; exact one_add_dd_ne_zero (by rw [hw]; ring)
  -- the coordinates of the result
  have fin : ∀ A : Ed, (N : Fp) * (SQRT_AD_MINUS_ONE : Nat) ≠ 0 → 1 + (s : Fp) ^ 2 ≠ 0 →
      A.x = 2 * s * v / (N * (SQRT_AD_MINUS_ONE : Nat)) → A.y = (1 - (s : Fp) ^ 2) / (1 + (s : Fp) ^ 2) →
      Rep (map t) A := by
    intro A h1 h2 hx hy
    have hx' : A.x * (N * (SQRT_AD_MINUS_ONE : Nat)) = 2 * s * v := by rw [hx, div_mul_cancel₀ _ h1]
    have hy' : A.y * (1 + (s : Fp) ^ 2) = 1 - (s : Fp) ^ 2 := by rw [hy, div_mul_cancel₀ _ h2]
    rw [hd]
    refine ⟨?_, ?_, ?_, ?_⟩ <;> simp only [cast_mul, cast_add, cast_sub, Nat.cast_mul, Nat.cast_ofNat, Nat.cast_one]
    · rw [← sq]; exact mul_ne_zero h1 h2
    · linear_combination -(1 + (s : Fp) * s) * hx'
    · linear_combination -(N * ((SQRT_AD_MINUS_ONE : Nat) : Fp)) * hy'
    · linear_combination -(1 - (s : Fp) ^ 2) * hx' - A.x * (N * ((SQRT_AD_MINUS_ONE : Nat) : Fp)) * hy'
  by_cases hv0 : (v : Fp) = 0
  · -- the exceptional inputs go to the identity
    have hok : sr.1 = false := by
      cases h : sr.1 with
      | false => rfl
      | true =>
        exfalso
        have := hspec.2.2.1 h
        rw [hv0, zero_mul, cu] at this
        rcases mul_eq_zero.mp this.symm with h' | h'
        · have hr1 : (r : Fp) = -1 := by linear_combination h'
          rw [cv, hr1] at hv0
          exact d1 (pow_eq_zero_iff two_ne_zero |>.mp (by linear_combination hv0))
        · rcases mul_eq_zero.mp (show (1 + dd) * (dd - 1) = 0 by linear_combination -h') with h' | h'
          · exact one_add_dd_ne_zero h'
          · exact d1 h'
    have s0 : (s : Fp) = 0 := by
      have e := (hspec.2.2.2 hok).2.2 hv0
      have : ((abs (mul sr.2 t) : Nat) : Fp) ^ 2 = 0 := by rw [abs_sq, cast_mul, e]; ring
      rw [hs, hok, if_neg (by simp), cast_neg, pow_eq_zero_iff two_ne_zero |>.mp this, neg_zero]
    rw [hok, if_neg (by simp)] at hc
    have r0 : (r : Fp) ≠ 0 := by
      intro h
      rw [cv, h] at hv0
      exact dd_ne_zero (by linear_combination -hv0)
    have r1 : (r : Fp) - 1 ≠ 0 := by
      intro h
      rw [cv, show (r : Fp) = 1 by linear_combination h] at hv0
      exact one_add_dd_ne_zero (pow_eq_zero_iff two_ne_zero |>.mp (by linear_combination -hv0))
    have hNK : (N : Fp) * (SQRT_AD_MINUS_ONE : Nat) ≠ 0 := by
      rw [cN, hv0, hc, sub_zero]
      refine mul_ne_zero (mul_ne_zero (mul_ne_zero r0 r1) (pow_ne_zero 2 d1)) ?_
      intro h
      have := sqrt_ad_minus_one
      rw [h] at this
      exact one_add_dd_ne_zero (by linear_combination this)
    refine ⟨0, zero_mem _, fin 0 hNK (by rw [s0]; simp) (by rw [hv0]; simp) (by rw [s0]; simp), 0, -1, ?_, ?_, ?_, ?_⟩
    · rw [← cr, ← cu, ← cv, hv0]
      exact fun _ => ⟨not_negative_zero, by simp, rfl⟩
    · rw [← cr, ← cu, ← cv, hv0]
      intro h
      exact absurd (by rw [div_zero]; exact IsSquare.zero) h
    · simp
    · simp
  · cases hok : sr.1 with
    | true =>
      rw [hok, if_pos rfl] at hs hc
      have e : (v : Fp) * (s : Fp) ^ 2 = u := by rw [hs]; exact hspec.2.2.1 hok
      have cc : (c : Fp) = -1 := by rw [hc, cast_neg]; push_cast; rfl
      have h1 : 1 + (s : Fp) ^ 2 ≠ 0 := by
        intro h
        have huv : (u : Fp) + v = 0 := by linear_combination v * h - e
        have : dd * ((dd - 1) * w) ^ 2 = (dd * r + dd ^ 2) ^ 2 := by
          rw [cu, cv] at huv
          linear_combination dd * huv - dd * (dd - 1) ^ 2 * hw
        exact mul_ne_zero d1 hw0 (dd_not_sq this)
      obtain ⟨hNK, A, hA, hx, hy⟩ := map_core (s := s) (v := v) (N := N) (K := (SQRT_AD_MINUS_ONE : Nat)) hv0 h1 (by
        rw [sqrt_ad_minus_one]
        have e1 : (v : Fp) ^ 2 * (-(dd * (1 - (s : Fp) ^ 2) ^ 2) - (1 + (s : Fp) ^ 2) ^ 2) =
            -dd * (v - u) ^ 2 - (v + u) ^ 2 := by rw [← e]; ring
        rw [e1, cN, cc, cu, cv]
        ring)
      refine ⟨A, hA, fin A hNK h1 hx hy, (s : Nat), -1, ?_, ?_, ?_, hy⟩
      · rw [← cr, ← cu, ← cv]
        refine fun _ => ⟨hs ▸ hspec.2.1, ?_, rfl⟩
        rw [eq_div_iff hv0, mul_comm]
        exact e
      · rw [← cr, ← cu, ← cv]
        refine fun h => absurd ⟨(s : Fp), ?_⟩ h
        rw [div_eq_iff hv0]
        linear_combination -e
      · rw [← cr, ← cv, ← cc, ← cN]
        exact hx
    | false =>
      rw [hok, if_neg (by simp)] at hs hc
      have e : (v : Fp) * (s : Fp) ^ 2 = r * u := by
        have h5 := (hspec.2.2.2 hok).2.1 hv0
        rw [hs, cast_neg, neg_sq, abs_sq, cast_mul, cr]
        linear_combination (t : Fp) ^ 2 * h5
      have h1 : 1 + (s : Fp) ^ 2 ≠ 0 := by
        intro h
        have huv : (r : Fp) * u + v = 0 := by linear_combination v * h - e
        have : dd * ((dd - 1) * w * r) ^ 2 = (dd + dd ^ 2 * r) ^ 2 := by
          rw [cu, cv] at huv
          linear_combination dd * huv - dd * (dd - 1) ^ 2 * (r : Fp) ^ 2 * hw
        have r0 := (mul_eq_zero.mp (dd_not_sq this)).resolve_left (mul_ne_zero d1 hw0)
        rw [r0] at this
        exact dd_ne_zero (pow_eq_zero_iff two_ne_zero |>.mp (by linear_combination -this))
      obtain ⟨hNK, A, hA, hx, hy⟩ := map_core (s := s) (v := v) (N := N) (K := (SQRT_AD_MINUS_ONE : Nat)) hv0 h1 (by
        rw [sqrt_ad_minus_one]
        have e1 : (v : Fp) ^ 2 * (-(dd * (1 - (s : Fp) ^ 2) ^ 2) - (1 + (s : Fp) ^ 2) ^ 2) =
            -dd * (v - r * u) ^ 2 - (v + r * u) ^ 2 := by rw [← e]; ring
        rw [e1, cN, hc, cu, cv]
        ring)
      refine ⟨A, hA, fin A hNK h1 hx hy, (s : Nat), (r : Nat), ?_, ?_, ?_, hy⟩
      · rw [← cr, ← cu, ← cv]
        rintro ⟨a, ha⟩
        exfalso
        rw [div_eq_iff hv0] at ha
        have := sqrtRatio_true (u := u) (v := v) (w := a) hv0 (by linear_combination -ha)
        rw [← hsr, hok] at this
        exact absurd this (by decide)
      · rw [← cr, ← cu, ← cv]
        refine fun _ => ⟨?_, ?_, rfl⟩
        · rw [hs, cast_neg, neg_neg]
          exact (abs_spec _).2.1
        · rw [mul_div_assoc', eq_div_iff hv0, mul_comm]
          exact e
      · rw [← cr, ← cv]
        rw [hc] at cN
        rw [← cN]
        exact hx

/-- The two points added by the one-way map. -/
theorem oneWayMap_points (b : Bytes) : ∃ A B : Ed, A ∈ Pt.even dd one_add_dd_square ∧
    B ∈ Pt.even dd one_add_dd_square ∧ Rep (oneWayMap b) (A + B) ∧
    Rfc9496.IsMap (¬ Negative ·) dd im (SQRT_AD_MINUS_ONE : Nat) ((ofLeBytes (b.take 32) % 2 ^ 255 : Nat) : Fp) A.x A.y ∧
    Rfc9496.IsMap (¬ Negative ·) dd im (SQRT_AD_MINUS_ONE : Nat)
      ((ofLeBytes ((b.drop 32).take 32) % 2 ^ 255 : Nat) : Fp) B.x B.y := by
  obtain ⟨A, hA, rA, mA⟩ := map_spec (ofLeBytes (b.take 32) % 2 ^ 255)
  obtain ⟨B, hB, rB, mB⟩ := map_spec (ofLeBytes ((b.drop 32).take 32) % 2 ^ 255)
  exact ⟨A, B, hA, hB, rA.padd rB, mA, mB⟩

theorem oneWayMap_spec (b : Bytes) : ∃ A : Ed, A ∈ Pt.even dd one_add_dd_square ∧ Rep (oneWayMap b) A := by
  obtain ⟨A, B, hA, hB, r, _⟩ := oneWayMap_points b
  exact ⟨A + B, add_mem hA hB, r⟩

end Voprf.Ristretto.Formula
