import Verif.Curve.Order

/-!
# Fast scalar multiplication

`k • P` by double-and-add in Jacobian coordinates (`Verif/Curve/Jacobian.lean`), so that the kernel can evaluate the model on
concrete inputs.  `fastMul_eq` says that it is the multiplication of the model.
-/

namespace Voprf.Nist

open Curve

variable {c : Params}

/-- The affine point with the given coordinates, if they satisfy the equation (checked on natural numbers). -/
def ofNats (c : Params) (x y : Nat) : Option c.Point :=
  if h : y * y % c.p = (x * x * x + c.a * x + c.b) % c.p then
    some (mkPoint (x := (x : c.Fp)) (y := (y : c.Fp)) (by
      have := (ZMod.natCast_eq_natCast_iff' _ _ c.p).mpr h
      push_cast at this
      unfold rhs
      linear_combination this))
  else none

/-- `k • P`; falls back on the definition if the fast computation fails (it does not, for `k` below the order). -/
def fastMul (P : c.Point) (k : Nat) : c.Point :=
  match P with
  | .zero => 0
  | .some x y h =>
      if k = 0 then 0
      else
        match jmul c.p c.a (Nat.log2 k + 2) k (x.val, y.val) with
        | none => k • (.some x y h)
        | some R =>
            let i := powMod R.Z (c.p - 2) c.p
            if R.Z * i % c.p = 1 then
              let ii := i * i % c.p
              match ofNats c (R.X * ii % c.p) (R.Y * (ii * i % c.p) % c.p) with
              | some Q => Q
              | none => k • (.some x y h)
            else k • (.some x y h)

theorem ofNats_some {x y : Nat} {P : c.Point} (h : ofNats c x y = some P) :
    ∃ h, P = .some (x : c.Fp) (y : c.Fp) h := by
  unfold ofNats at h
  split at h
  · simp only [Option.some.injEq] at h
    exact ⟨_, h.symm⟩
  · simp at h

theorem point_congr {x y x' y' : c.Fp} {h : c.curve.Nonsingular x y} {h' : c.curve.Nonsingular x' y'}
    (hx : x = x') (hy : y = y') : (.some x y h : c.Point) = .some x' y' h' := by
  subst hx hy
  rfl

theorem fastMul_eq (P : c.Point) (k : Nat) : fastMul P k = k • P := by
  unfold fastMul
  cases P with
  | zero => exact (nsmul_zero k).symm
  | some x y hn =>
      simp only
      split
      · next h => rw [h, zero_nsmul]
      split
      · rfl
      next R hR =>
      split
      · next hi =>
        split
        · next Q hQ =>
          obtain ⟨_, rfl⟩ := ofNats_some hQ
          have hxy : ∃ h, (.some x y hn : c.Point) = .some ((x.val : Nat) : c.Fp) ((y.val : Nat) : c.Fp) h := by
            exact ⟨by simpa only [ZMod.natCast_zmod_val] using hn,
              point_congr (ZMod.natCast_zmod_val x).symm (ZMod.natCast_zmod_val y).symm⟩
          obtain ⟨hz, _, hk⟩ : (R.Z : c.Fp) ≠ 0 ∧ ∃ h, k • (.some x y hn : c.Point) =
              .some ((R.X : c.Fp) / R.Z ^ 2) ((R.Y : c.Fp) / R.Z ^ 3) h :=
            jmul_rep (r := c.p) (a := c.a) (b := c.b) (P := (x.val, y.val)) dvd_rfl c.p_prime.pos
              (two_ne_zero' c) hxy _ _ _ hR
          rw [hk]
          obtain ⟨_, hinv⟩ := inv_of (r := c.p) dvd_rfl _ _ hi
          refine point_congr ?_ ?_
          · simp only [ZMod.natCast_mod, Nat.cast_mul, hinv]
            field_simp
          · simp only [ZMod.natCast_mod, Nat.cast_mul, hinv]
            field_simp
        · rfl
      · rfl

end Voprf.Nist
