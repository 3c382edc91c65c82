import Verif.Model.Nist

/-!
# Model of `primeorder`: the arithmetic behind the points of `src/group/elliptic_curve.rs`

`src/group/elliptic_curve.rs:36` sets `type Elem = ProjectivePoint<Self>`; adding, subtracting, multiplying and
comparing such elements (`src/common.rs:163-164,223-224,340-348`, `src/oprf.rs:138,207,219`, …) is done by
the crate `primeorder` 0.13.  Its source is not in the sandbox; it is modelled here from the published source
(`primeorder/src/projective.rs`, `primeorder/src/point_arithmetic.rs`, `EquationAIsMinusThree`), which follows
Renes–Costello–Batina, "Complete addition formulas for prime order elliptic curves" (EUROCRYPT 2016),
algorithms 4 and 6.

Field elements are elements of `ZMod p`; the constant-time selections are modelled by `if`.
-/

namespace Voprf.Nist.Primeorder

variable {c : Params}

/-- `ProjectivePoint { x, y, z }` (`src/group/elliptic_curve.rs:32`) -/
structure Proj (c : Params) where
  x : c.Fp
  y : c.Fp
  z : c.Fp
deriving DecidableEq

/-- `AffinePoint { x, y, infinity }` (inside the library, `src/group/elliptic_curve.rs:69,77`) -/
structure Affine (c : Params) where
  x : c.Fp
  y : c.Fp
  infinity : Bool
deriving DecidableEq

/-- `AffinePoint::IDENTITY` (inside the library, `src/group/elliptic_curve.rs:69`) -/
def Affine.IDENTITY : Affine c := ⟨0, 0, true⟩

/-- `ProjectivePoint::IDENTITY` (`src/group/elliptic_curve.rs:65`) -/
def Proj.IDENTITY : Proj c := ⟨0, 1, 0⟩

/-- `ProjectivePoint::GENERATOR` (`src/group/elliptic_curve.rs:61`) -/
def Proj.GENERATOR : Proj c := ⟨c.gx, c.gy, 1⟩

/-- `impl From<AffinePoint<C>> for ProjectivePoint<C>` (`src/group/elliptic_curve.rs:78`) -/
def Proj.ofAffine (p : Affine c) : Proj c := if p.infinity then .IDENTITY else ⟨p.x, p.y, 1⟩

/-- `ProjectivePoint::to_affine`: `self.z.invert().map(..).unwrap_or(AffinePoint::IDENTITY)` (inside the library,
`src/group/elliptic_curve.rs:69`) -/
def Proj.toAffine (p : Proj c) : Affine c :=
  if p.z = 0 then .IDENTITY else ⟨p.x * p.z⁻¹, p.y * p.z⁻¹, false⟩

/-- `ConstantTimeEq for ProjectivePoint<C>`: `self.to_affine().ct_eq(&other.to_affine())`, which compares
`x`, `y` and `infinity`. `src/group/mod.rs:81`. -/
def Proj.ctEq (p q : Proj c) : Bool :=
  decide (p.toAffine.x = q.toAffine.x) && decide (p.toAffine.y = q.toAffine.y) &&
    (p.toAffine.infinity == q.toAffine.infinity)

/-- `Group::is_identity`: `self.ct_eq(&Self::IDENTITY)` (inside the library, `src/group/elliptic_curve.rs:77`) -/
def Proj.isIdentity (p : Proj c) : Bool := p.ctEq .IDENTITY

/-- `ProjectivePoint::neg` (inside the library, `src/common.rs:223`) -/
def Proj.neg (p : Proj c) : Proj c := ⟨p.x, -p.y, p.z⟩

/-- `EquationAIsMinusThree::add`: algorithm 4 of Renes–Costello–Batina. Inside the library, `src/common.rs:223` and every sum
of elements. -/
def Proj.add (lhs rhs : Proj c) : Proj c :=
  let xx := lhs.x * rhs.x
  let yy := lhs.y * rhs.y
  let zz := lhs.z * rhs.z
  let xy_pairs := ((lhs.x + lhs.y) * (rhs.x + rhs.y)) - (xx + yy)
  let yz_pairs := ((lhs.y + lhs.z) * (rhs.y + rhs.z)) - (yy + zz)
  let xz_pairs := ((lhs.x + lhs.z) * (rhs.x + rhs.z)) - (xx + zz)
  let bzz_part := xz_pairs - ((c.b : c.Fp) * zz)
  let bzz3_part := bzz_part + bzz_part + bzz_part
  let yy_m_bzz3 := yy - bzz3_part
  let yy_p_bzz3 := yy + bzz3_part
  let zz3 := zz + zz + zz
  let bxz_part := ((c.b : c.Fp) * xz_pairs) - (zz3 + xx)
  let bxz3_part := bxz_part + bxz_part + bxz_part
  let xx3_m_zz3 := xx + xx + xx - zz3
  ⟨(yy_p_bzz3 * xy_pairs) - (yz_pairs * bxz3_part),
   (yy_p_bzz3 * yy_m_bzz3) + (xx3_m_zz3 * bxz3_part),
   (yy_m_bzz3 * yz_pairs) + (xy_pairs * xx3_m_zz3)⟩

/-- `ProjectivePoint::sub`: `self.add(&other.neg())` (inside the library; the crate does not subtract elements,
`src/group/mod.rs:33-37`) -/
def Proj.sub (lhs rhs : Proj c) : Proj c := lhs.add rhs.neg

/-- `EquationAIsMinusThree::double`: algorithm 6 of Renes–Costello–Batina. Inside the library, `src/common.rs:163` and every
product of an element by a scalar. -/
def Proj.double (point : Proj c) : Proj c :=
  let xx := point.x * point.x
  let yy := point.y * point.y
  let zz := point.z * point.z
  let xy2 := point.x * point.y + point.x * point.y
  let xz2 := point.x * point.z + point.x * point.z
  let bzz_part := ((c.b : c.Fp) * zz) - xz2
  let bzz3_part := bzz_part + bzz_part + bzz_part
  let yy_m_bzz3 := yy - bzz3_part
  let yy_p_bzz3 := yy + bzz3_part
  let y_frag := yy_p_bzz3 * yy_m_bzz3
  let x_frag := yy_m_bzz3 * xy2
  let zz3 := zz + zz + zz
  let bxz2_part := ((c.b : c.Fp) * xz2) - (zz3 + xx)
  let bxz6_part := bxz2_part + bxz2_part + bxz2_part
  let xx3_m_zz3 := xx + xx + xx - zz3
  let y := y_frag + (xx3_m_zz3 * bxz6_part)
  let yz2 := point.y * point.z + point.y * point.z
  let x := x_frag - (bxz6_part * yz2)
  let z := yz2 * yy
  let z := z + z
  ⟨x, y, z + z⟩

/-- The precomputed table of `ProjectivePoint::mul`: `pc[0]` is the identity, `pc[1] = self`, and for
`i in 2..16`, `pc[i]` is `pc[i / 2].double()` for even `i`, else `pc[i - 1].add(self)`. Inside the library,
`src/common.rs:163` and every product of an element by a scalar. -/
def table (p : Proj c) : Nat → Proj c
  | 0 => .IDENTITY
  | 1 => p
  | i + 2 => if (i + 2) % 2 = 0 then (table p ((i + 2) / 2)).double else (table p (i + 1)).add p
termination_by i => i
decreasing_by all_goals omega

/-- The selection loop of `mul`: `t` starts as the identity and is assigned `pc[i]` for the `i in 1..16` equal
to `slot`. Inside the library, `src/common.rs:163` and every product of an element by a scalar. -/
def lookup (p : Proj c) (slot : Nat) : Proj c :=
  (List.range' 1 15).foldl (fun t i => if slot = i then table p i else t) .IDENTITY

/-- The loop of `mul` from window `w` (`pos = 4 * w`) down to 0: `slot` is the four bits of `k` at `pos`; add the
selected multiple, stop at `pos = 0`, else double four times. Inside the library, `src/common.rs:163` and every product of an
element by a scalar. -/
def mulLoop (p : Proj c) (k : Nat) : Nat → Proj c → Proj c
  | 0, q => q.add (lookup p (k % 16))
  | w + 1, q =>
      mulLoop p k w (q.add (lookup p (k / 2 ^ (4 * (w + 1)) % 16))).double.double.double.double

/-- `ProjectivePoint::mul`: from `pos = C::Uint::BITS - 4`, where `windows = C::Uint::BITS / 4`. `src/common.rs:163` and
every product of an element by a scalar. -/
def Proj.mul (windows : Nat) (p : Proj c) (k : c.Fn) : Proj c :=
  mulLoop p k.val (windows - 1) .IDENTITY

/-! ## `FromOkm`, called by `hash_to_field` (`src/group/elliptic_curve.rs:46-47,55-57`)

The curve crates (`p256/src/arithmetic/hash2curve.rs` and its siblings) cut the string in two halves, pad each with zeros to the
size of a field element, decode it with `from_bytes` (`from_repr`), and combine them with a constant `F_2_192` (`F_2_288`,
`F_2_392`), which is `2 ^ (8 * half)`. -/

/-- One half, padded on the left. Inside the library, `src/group/elliptic_curve.rs:30,47,56`. -/
def okmPad (c : Params) (half : Bytes) : Bytes := List.replicate (c.fieldLen - half.length) 0 ++ half

/-- `impl FromOkm for FieldElement`; `none` if an `unwrap` panics. Inside the library, `src/group/elliptic_curve.rs:47`. -/
def fieldFromOkm (c : Params) (data : Bytes) : Option c.Fp := do
  let half := c.okmLen / 2
  let d0 ← fieldFromRepr c (okmPad c (data.take half))
  let d1 ← fieldFromRepr c (okmPad c (data.drop half))
  some (d0 * 2 ^ (8 * half) + d1)

/-- `impl FromOkm for Scalar`; `none` if an `unwrap` panics. Inside the library, `src/group/elliptic_curve.rs:56`. -/
def scalarFromOkm (c : Params) (data : Bytes) : Option c.Fn := do
  let half := c.okmLen / 2
  let d0 ← scalarFromRepr c (okmPad c (data.take half))
  let d1 ← scalarFromRepr c (okmPad c (data.drop half))
  some (d0 * 2 ^ (8 * half) + d1)

end Voprf.Nist.Primeorder
