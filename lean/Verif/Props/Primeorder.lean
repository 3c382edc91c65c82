import Verif.Spec.Projective
import Verif.Lemmas.Primeorder
import Verif.Curve.P256
import Verif.Curve.P384
import Verif.Curve.P521

/-!
# C42: the projective arithmetic behind the NIST suites computes the group law
-/

namespace Voprf.Nist.Primeorder

variable {c : Params}

theorem affine_eq_coords (A : c.Point) : affine A = coords A := by cases A <;> rfl

theorem rep_run [PrimeOrder c] (ha : (c.a : c.Fp) = -3) (windows : Nat) (hw : c.n ≤ 16 ^ windows) :
    ∀ e : Expr c, Rep (e.run windows) e.value
  | .identity => rep_identity
  | .generator => rep_generator
  | .point A => by
      have := rep_ofAffine A
      rw [affine_eq_coords] at this
      exact this
  | .add e f => rep_add ha (rep_run ha windows hw e) (rep_run ha windows hw f)
  | .sub e f => rep_sub ha (rep_run ha windows hw e) (rep_run ha windows hw f)
  | .neg e => rep_neg (rep_run ha windows hw e)
  | .double e => rep_double ha (rep_run ha windows hw e)
  | .mul e k => by
      have := rep_mul ha (rep_run ha windows hw e) windows hw k
      rw [← val_smul] at this
      exact this

/-- C42: for every curve of prime order with `a = -3`, whatever is computed with the projective formulas
(including the exceptional cases: equal, opposite or identity arguments) has the affine coordinates of the
true group element, and two results compare equal exactly when the group elements are equal. -/
theorem C42_projective_arithmetic (c : Params) [PrimeOrder c] (ha : (c.a : c.Fp) = -3) (windows : Nat)
    (hw : c.n ≤ 16 ^ windows) (e f : Expr c) :
    (e.run windows).toAffine = coords e.value ∧
      ((e.run windows).ctEq (f.run windows) = true ↔ e.value = f.value) ∧
      ((e.run windows).isIdentity = true ↔ e.value = 0) :=
  have he := rep_run ha windows hw e
  have hf := rep_run ha windows hw f
  ⟨(toAffine_eq he).trans (affine_eq_coords _), ctEq_iff he hf, isIdentity_iff he⟩

/-- C42: the three NIST curves qualify, with the integer sizes of their crates (`U256`, `U384` and `U576`). -/
theorem C42_nist_projective_arithmetic :
    (∀ e f : Expr Curve.p256, (e.run (256 / 4)).toAffine = coords e.value ∧
      ((e.run (256 / 4)).ctEq (f.run (256 / 4)) = true ↔ e.value = f.value)) ∧
    (∀ e f : Expr Curve.p384, (e.run (384 / 4)).toAffine = coords e.value ∧
      ((e.run (384 / 4)).ctEq (f.run (384 / 4)) = true ↔ e.value = f.value)) ∧
    (∀ e f : Expr Curve.p521, (e.run (576 / 4)).toAffine = coords e.value ∧
      ((e.run (576 / 4)).ctEq (f.run (576 / 4)) = true ↔ e.value = f.value)) := by
  have key : ∀ (c : Params) [PrimeOrder c], c.p ∣ c.a + 3 → ∀ w, c.n ≤ 16 ^ w → ∀ e f : Expr c,
      (e.run w).toAffine = coords e.value ∧ ((e.run w).ctEq (f.run w) = true ↔ e.value = f.value) := by
    intro c _ h w hw e f
    have ha : (c.a : c.Fp) = -3 := by
      have := (ZMod.natCast_eq_zero_iff (c.a + 3) c.p).mpr h
      push_cast at this
      exact eq_neg_of_add_eq_zero_left this
    have := C42_projective_arithmetic c ha w hw e f
    exact ⟨this.1, this.2.1⟩
  refine ⟨key Curve.p256 ?_ _ ?_, key Curve.p384 ?_ _ ?_, key Curve.p521 ?_ _ ?_⟩
  all_goals decide +kernel

/-- The product `k * P` computed by `primeorder` is the element the suites work with. -/
example (A : Curve.p256.Point) (k : Curve.p256.Fn) :
    ((Expr.mul (.point A) k).run 64).toAffine = coords (k • A) := by
  have := (C42_nist_projective_arithmetic.1 (.mul (.point A) k) .identity).1
  rw [← val_smul]
  exact this

/-- An exceptional case: `G - G` is the identity, although the chord formulas do not apply. -/
example : ((Expr.sub .generator .generator : Expr Curve.p256).run 64).isIdentity = true := by
  refine ((C42_projective_arithmetic Curve.p256 ?_ 64 ?_ _ .identity).2.2).mpr ?_
  · have := (ZMod.natCast_eq_zero_iff (Curve.p256.a + 3) Curve.p256.p).mpr (by decide +kernel)
    push_cast at this
    exact eq_neg_of_add_eq_zero_left this
  · decide +kernel
  · exact sub_self _

/-! ## `FromOkm` -/

theorem ofBeBytes_split (xs : Bytes) : ∀ ys : Bytes, ofBeBytes (xs ++ ys) = ofBeBytes xs * 256 ^ ys.length + ofBeBytes ys := by
  intro ys
  induction ys using List.reverseRecOn with
  | nil => simp [ofBeBytes]
  | append_singleton ys y ih =>
    rw [← List.append_assoc, ofBeBytes_append, ih, ofBeBytes_append, List.length_append, List.length_singleton, pow_succ]
    ring

theorem ofBeBytes_lt_pow (xs : Bytes) : ofBeBytes xs < 256 ^ xs.length := ofBeBytes_lt xs

theorem okm_half (c : Params) (m : Nat) (half : Bytes) (hl : half.length ≤ c.fieldLen) (hm : 256 ^ half.length ≤ m) :
    (okmPad c half).length = c.fieldLen ∧ ofBeBytes (okmPad c half) = ofBeBytes half ∧ ofBeBytes half < m := by
  refine ⟨?_, ofBeBytes_replicate_zero _ _, lt_of_lt_of_le (ofBeBytes_lt_pow half) hm⟩
  rw [okmPad, List.length_append, List.length_replicate]
  omega

/-- C42: reducing the hash output half by half, as the curve crates do, never panics and gives the integer the output encodes,
reduced: what the hash functions of the suites use. -/
theorem C42_from_okm (c : Params) (half : Nat) (h : c.okmLen = 2 * half) (hl : half ≤ c.fieldLen) (hp : 256 ^ half ≤ c.p)
    (hn : 256 ^ half ≤ c.n) (data : Bytes) (hd : data.length = c.okmLen) :
    fieldFromOkm c data = some (ofBeBytes data : c.Fp) ∧ scalarFromOkm c data = some (ofBeBytes data : c.Fn) := by
  have hh : c.okmLen / 2 = half := by omega
  have ht : (data.take half).length = half := by rw [List.length_take]; omega
  have hr : (data.drop half).length = half := by rw [List.length_drop]; omega
  have hs : ofBeBytes data = ofBeBytes (data.take half) * 2 ^ (8 * half) + ofBeBytes (data.drop half) := by
    conv_lhs => rw [← List.take_append_drop half data]
    rw [ofBeBytes_split, hr, show (256 : Nat) = 2 ^ 8 by norm_num, ← pow_mul]
  obtain ⟨a1, a2, a3⟩ := okm_half c c.p (data.take half) (by omega) (by rwa [ht])
  obtain ⟨b1, b2, b3⟩ := okm_half c c.p (data.drop half) (by omega) (by rwa [hr])
  obtain ⟨-, -, a4⟩ := okm_half c c.n (data.take half) (by omega) (by rwa [ht])
  obtain ⟨-, -, b4⟩ := okm_half c c.n (data.drop half) (by omega) (by rwa [hr])
  constructor
  · simp only [fieldFromOkm, hh, fieldFromRepr, a1, a2, a3, b1, b2, b3, and_self, if_true, Option.bind_eq_bind,
      Option.bind_some]
    rw [hs]
    push_cast
    rfl
  · simp only [scalarFromOkm, hh, scalarFromRepr, a1, a2, a4, b1, b2, b4, and_self, if_true, Option.bind_eq_bind,
      Option.bind_some]
    rw [hs]
    push_cast
    rfl

/-- The three NIST curves qualify: halves of 24, 36 and 49 bytes. -/
theorem C42_nist_from_okm :
    (∀ data : Bytes, data.length = 48 → fieldFromOkm Curve.p256 data = some (ofBeBytes data : Curve.p256.Fp) ∧
      scalarFromOkm Curve.p256 data = some (ofBeBytes data : Curve.p256.Fn)) ∧
    (∀ data : Bytes, data.length = 72 → fieldFromOkm Curve.p384 data = some (ofBeBytes data : Curve.p384.Fp) ∧
      scalarFromOkm Curve.p384 data = some (ofBeBytes data : Curve.p384.Fn)) ∧
    (∀ data : Bytes, data.length = 98 → fieldFromOkm Curve.p521 data = some (ofBeBytes data : Curve.p521.Fp) ∧
      scalarFromOkm Curve.p521 data = some (ofBeBytes data : Curve.p521.Fn)) :=
  ⟨fun d h => C42_from_okm Curve.p256 24 (by decide +kernel) (by decide +kernel) (by decide +kernel) (by decide +kernel) d h,
    fun d h => C42_from_okm Curve.p384 36 (by decide +kernel) (by decide +kernel) (by decide +kernel) (by decide +kernel) d h,
    fun d h => C42_from_okm Curve.p521 49 (by decide +kernel) (by decide +kernel) (by decide +kernel) (by decide +kernel) d h⟩

end Voprf.Nist.Primeorder
