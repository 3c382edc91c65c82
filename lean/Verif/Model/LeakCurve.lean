import Verif.Model.Primeorder
import Verif.Model.Ristretto255

/-!
# Control flow inside the group operations

The arithmetic of the curve crates (`Verif/Model/Primeorder.lean`, `Verif/Model/Nist.lean`, `Verif/Model/Ristretto255.lean`) again,
instrumented: every operation on field elements, every constant-time selection and comparison, every access to a table (with its
index), every digit taken from a scalar and every branch is recorded. As there, the crates are modelled from their
published source; a field operation is one event.
-/

namespace Voprf.Leak.Curve

/-- What an observer of the arithmetic sees. The arithmetic behind `src/group/elliptic_curve.rs` and
`src/group/ristretto.rs`, e.g. `src/common.rs:163,223`. -/
inductive Op
  | add | sub | neg | mul | square | pow | invert
  /-- `ct_eq`, `is_zero`, `is_negative`, `sgn0`: a comparison whose result is not branched on -/
  | ctEq
  /-- `conditional_select`, `conditional_assign`, `conditional_negate`, or a mask -/
  | select
  /-- entry `i` of a table is read -/
  | load (i : Nat)
  /-- digit `i` of the scalar is taken out of its bytes -/
  | digit (i : Nat)
  /-- a branch -/
  | branch (b : Bool)
  deriving DecidableEq, Repr

/-- A computation with its record. The arithmetic behind `src/group/elliptic_curve.rs` and `src/group/ristretto.rs`, e.g.
`src/common.rs:163,223`. -/
structure W (α : Type) where
  log : List Op
  val : α

/-- The record grows by concatenation (the arithmetic behind `src/group/elliptic_curve.rs` and `src/group/ristretto.rs`, e.g.
`src/common.rs:163,223`) -/
instance : Monad W where
  pure a := ⟨[], a⟩
  bind x f := ⟨x.log ++ (f x.val).log, (f x.val).val⟩

/-- One event. The arithmetic behind `src/group/elliptic_curve.rs` and `src/group/ristretto.rs`, e.g. `src/common.rs:163,223`. -/
abbrev one {α : Type} (o : Op) (a : α) : W α := ⟨[o], a⟩

/-- A constant-time selection. The arithmetic behind `src/group/elliptic_curve.rs` and `src/group/ristretto.rs`, e.g.
`src/common.rs:163,223`. -/
def sel {α : Type} (b : Bool) (x y : α) : W α := one .select (if b then x else y)

/-- Reading a table. Inside the library, `src/common.rs:163` and every product of an element by a scalar. -/
def read {α : Type} (tbl : List α) (i : Nat) (dflt : α) : W α := one (.load i) (tbl[i]?.getD dflt)

/-! ## `primeorder`: the elements of `src/group/elliptic_curve.rs` -/

namespace Nist
open Voprf.Nist Voprf.Nist.Primeorder

variable {c : Params}

/-- `Add` of the field (the field behind `src/group/elliptic_curve.rs:32`) -/
abbrev fadd (x y : c.Fp) : W c.Fp := one .add (x + y)
/-- `Sub` of the field (the field behind `src/group/elliptic_curve.rs:32`) -/
abbrev fsub (x y : c.Fp) : W c.Fp := one .sub (x - y)
/-- `Neg` of the field (the field behind `src/group/elliptic_curve.rs:32`) -/
abbrev fneg (x : c.Fp) : W c.Fp := one .neg (-x)
/-- `Mul` of the field (the field behind `src/group/elliptic_curve.rs:32`) -/
abbrev fmul (x y : c.Fp) : W c.Fp := one .mul (x * y)
/-- `square` of the field (the field behind `src/group/elliptic_curve.rs:32`) -/
abbrev fsq (x : c.Fp) : W c.Fp := one .square (x * x)
/-- the same, written as a power (the field behind `src/group/elliptic_curve.rs:32`) -/
abbrev fsq' (x : c.Fp) : W c.Fp := one .square (x ^ 2)
/-- `ct_eq` of the field (the field behind `src/group/elliptic_curve.rs:32`) -/
abbrev feq (x y : c.Fp) : W Bool := one .ctEq (decide (x = y))
/-- `x.double() + x` (the field behind `src/group/elliptic_curve.rs:32`) -/
def ftriple (x : c.Fp) : W c.Fp := do fadd (← fadd x x) x

/-- `EquationAIsMinusThree::add`: the element additions of `src/common.rs:223-224,340-343`. -/
def add (lhs rhs : Proj c) : W (Proj c) := do
  let xx ← fmul lhs.x rhs.x
  let yy ← fmul lhs.y rhs.y
  let zz ← fmul lhs.z rhs.z
  let xy_pairs ← fsub (← fmul (← fadd lhs.x lhs.y) (← fadd rhs.x rhs.y)) (← fadd xx yy)
  let yz_pairs ← fsub (← fmul (← fadd lhs.y lhs.z) (← fadd rhs.y rhs.z)) (← fadd yy zz)
  let xz_pairs ← fsub (← fmul (← fadd lhs.x lhs.z) (← fadd rhs.x rhs.z)) (← fadd xx zz)
  let bzz_part ← fsub xz_pairs (← fmul c.b zz)
  let bzz3_part ← ftriple bzz_part
  let yy_m_bzz3 ← fsub yy bzz3_part
  let yy_p_bzz3 ← fadd yy bzz3_part
  let zz3 ← ftriple zz
  let bxz_part ← fsub (← fmul c.b xz_pairs) (← fadd zz3 xx)
  let bxz3_part ← ftriple bxz_part
  let xx3_m_zz3 ← fsub (← ftriple xx) zz3
  let x ← fsub (← fmul yy_p_bzz3 xy_pairs) (← fmul yz_pairs bxz3_part)
  let y ← fadd (← fmul yy_p_bzz3 yy_m_bzz3) (← fmul xx3_m_zz3 bxz3_part)
  let z ← fadd (← fmul yy_m_bzz3 yz_pairs) (← fmul xy_pairs xx3_m_zz3)
  pure ⟨x, y, z⟩

/-- `ProjectivePoint::neg` (inside the library, `src/common.rs:223` and every sum of elements) -/
def neg (p : Proj c) : W (Proj c) := do pure ⟨p.x, ← fneg p.y, p.z⟩

/-- `ProjectivePoint::sub` (inside the library; the crate does not subtract elements, `src/group/mod.rs:33-37`) -/
def sub (lhs rhs : Proj c) : W (Proj c) := do add lhs (← neg rhs)

/-- `EquationAIsMinusThree::double` (inside the library, `src/common.rs:163` and every product of an element by a scalar) -/
def double (point : Proj c) : W (Proj c) := do
  let xx ← fsq point.x
  let yy ← fsq point.y
  let zz ← fsq point.z
  let xy ← fmul point.x point.y
  let xy2 ← fadd xy xy
  let xz ← fmul point.x point.z
  let xz2 ← fadd xz xz
  let bzz_part ← fsub (← fmul c.b zz) xz2
  let bzz3_part ← ftriple bzz_part
  let yy_m_bzz3 ← fsub yy bzz3_part
  let yy_p_bzz3 ← fadd yy bzz3_part
  let y_frag ← fmul yy_p_bzz3 yy_m_bzz3
  let x_frag ← fmul yy_m_bzz3 xy2
  let zz3 ← ftriple zz
  let bxz2_part ← fsub (← fmul c.b xz2) (← fadd zz3 xx)
  let bxz6_part ← ftriple bxz2_part
  let xx3_m_zz3 ← fsub (← ftriple xx) zz3
  let y ← fadd y_frag (← fmul xx3_m_zz3 bxz6_part)
  let yz ← fmul point.y point.z
  let yz2 ← fadd yz yz
  let x ← fsub x_frag (← fmul bxz6_part yz2)
  let z ← fmul yz2 yy
  let z ← fadd z z
  let z ← fadd z z
  pure ⟨x, y, z⟩

/-- One entry of the precomputed table of `mul`; the parity of the counter is branched on. Inside the library,
`src/common.rs:163` and every product of an element by a scalar. -/
def tableStep (p : Proj c) (pc : List (Proj c)) (i : Nat) : W (List (Proj c)) := do
  if ← one (.branch (i % 2 = 0)) (decide (i % 2 = 0)) then
    pure (pc ++ [← double (← read pc (i / 2) .IDENTITY)])
  else
    pure (pc ++ [← add (← read pc (i - 1) .IDENTITY) p])

/-- The precomputed table of `mul`: `for i in 2..16`. Inside the library, `src/common.rs:163` and every product of an element
by a scalar. -/
def table (p : Proj c) : W (List (Proj c)) := (List.range' 2 14).foldlM (tableStep p) [.IDENTITY, p]

/-- One step of the selection loop: `t.conditional_assign(&pc[i], slot == i)`. Inside the library, `src/common.rs:163` and
every product of an element by a scalar. -/
def lookupStep (pc : List (Proj c)) (slot : Nat) (t : Proj c) (i : Nat) : W (Proj c) := do
  let e ← read pc i .IDENTITY
  sel (← one .ctEq (decide (slot = i))) e t

/-- The selection loop of `mul`: `for i in 1..16`. Inside the library, `src/common.rs:163` and every product of an element by
a scalar. -/
def lookup (pc : List (Proj c)) (slot : Nat) : W (Proj c) := (List.range' 1 15).foldlM (lookupStep pc slot) .IDENTITY

/-- The loop of `mul`, from window `w` down to 0. Inside the library, `src/common.rs:163` and every product of an element by
a scalar. -/
def mulLoop (pc : List (Proj c)) (k : Nat) : Nat → Proj c → W (Proj c)
  | 0, q => do
      let slot ← one (.digit 0) (k % 16)
      let q ← add q (← lookup pc slot)
      one (.branch true) q
  | w + 1, q => do
      let slot ← one (.digit (w + 1)) (k / 2 ^ (4 * (w + 1)) % 16)
      let q ← add q (← lookup pc slot)
      let q ← one (.branch false) q
      mulLoop pc k w (← double (← double (← double (← double q))))

/-- `ProjectivePoint::mul`: the products of `src/common.rs:163-164`, `src/oprf.rs:138,207,219` and the others. -/
def mul (windows : Nat) (p : Proj c) (k : c.Fn) : W (Proj c) := do mulLoop (← table p) k.val (windows - 1) .IDENTITY

/-- `ProjectivePoint::to_affine`, on `CtOption`: both values are computed and one is selected. Inside the library,
`src/group/elliptic_curve.rs:69`. -/
def toAffine (p : Proj c) : W (Affine c) := do
  let zinv ← one .invert p.z⁻¹
  let isSome ← one .ctEq (decide (p.z ≠ 0))
  let zinv ← sel isSome zinv 0
  let a : Affine c := ⟨← fmul p.x zinv, ← fmul p.y zinv, false⟩
  sel isSome a .IDENTITY

/-- `ConstantTimeEq for ProjectivePoint<C>`: `src/group/mod.rs:80-82` (`is_identity_elem`), `src/poprf.rs:626`. -/
def ctEq (p q : Proj c) : W Bool := do
  let a ← toAffine p
  let b ← toAffine q
  let x ← feq a.x b.x
  let y ← feq a.y b.y
  let i ← one .ctEq (a.infinity == b.infinity)
  pure (x && y && i)

/-- `OsswuMap::osswu`, applied by `hash_to_curve` (`src/group/elliptic_curve.rs:42-48`) to the field elements hashed from
the client's input. -/
def osswu (c : Params) (u : c.Fp) : W (c.Fp × c.Fp) := do
  let A : c.Fp := c.a
  let B : c.Fp := c.b
  let Z : c.Fp := c.z
  let tv1 ← fsq' u
  let tv3 ← fmul Z tv1
  let tv2 ← fsq' tv3
  let xd ← fadd tv2 tv3
  let x1n ← fmul B (← fadd xd 1)
  let xd ← fmul xd (-A)
  let e ← feq xd 0
  let xd ← sel e (Z * A) xd
  let tv2 ← fsq' xd
  let gxd ← fmul tv2 xd
  let tv2 ← fmul A tv2
  let gx1 ← fmul x1n (← fadd tv2 (← fsq' x1n))
  let tv2 ← fmul gxd B
  let gx1 ← fadd gx1 tv2
  let tv4 ← fsq' gxd
  let tv2 ← fmul gx1 gxd
  let tv4 ← fmul tv4 tv2
  let y1 ← one .pow (tv4 ^ ((c.p - 3) / 4))
  let y1 ← fmul y1 tv2
  let x2n ← fmul tv3 x1n
  let y2 ← fmul y1 c.c2
  let y2 ← fmul y2 tv1
  let y2 ← fmul y2 u
  let tv2 ← fsq' y1
  let tv2 ← fmul tv2 gxd
  let e2 ← feq tv2 gx1
  let x ← sel e2 x1n x2n
  let y ← sel e2 y1 y2
  let xdinv ← one .invert xd⁻¹
  let xdinv ← one (.branch (xd ≠ 0)) xdinv
  let x ← fmul x xdinv
  let s0 ← one .ctEq (sgn0 u)
  let s1 ← one .ctEq (sgn0 y)
  let y' ← fneg y
  let y ← sel (s0 == s1) y y'
  pure (x, y)

end Nist

/-! ## `curve25519-dalek`: the elements of `src/group/ristretto.rs` -/

namespace Ristretto
open Voprf.Ristretto Voprf.Ristretto.Formula Voprf.Curve

/-- `Add` of the field (the field behind `src/group/ristretto.rs:58,86,92`) -/
abbrev fadd (x y : Nat) : W Nat := one .add (Formula.add x y)
/-- `Sub` of the field (the field behind `src/group/ristretto.rs:58,86,92`) -/
abbrev fsub (x y : Nat) : W Nat := one .sub (Formula.sub x y)
/-- `Neg` of the field (the field behind `src/group/ristretto.rs:58,86,92`) -/
abbrev fneg (x : Nat) : W Nat := one .neg (Formula.neg x)
/-- `Mul` of the field (the field behind `src/group/ristretto.rs:58,86,92`) -/
abbrev fmul (x y : Nat) : W Nat := one .mul (Formula.mul x y)
/-- `square` of the field (the field behind `src/group/ristretto.rs:58,86,92`) -/
abbrev fsq (x : Nat) : W Nat := one .square (Formula.mul x x)
/-- `ct_eq` of the field (the field behind `src/group/ristretto.rs:58,86,92`) -/
abbrev feq (x y : Nat) : W Bool := one .ctEq (x == y)
/-- `is_negative` (the field behind `src/group/ristretto.rs:58,86,92`) -/
abbrev fisNeg (x : Nat) : W Bool := one .ctEq (isNeg x)
/-- `conditional_negate` by `is_negative` (the field behind `src/group/ristretto.rs:58,86,92`) -/
def fabs (x : Nat) : W Nat := do
  let b ← fisNeg x
  let n ← fneg x
  sel b n (x % p)

/-- `EdwardsPoint::as_projective_niels` (inside the library, `src/common.rs:163` and every product of an element by a scalar) -/
def niels (P : Point) : W Niels := do pure ⟨← fadd P.y P.x, ← fsub P.y P.x, P.z, ← fmul P.t D2⟩

/-- `CompletedPoint::as_extended` (inside the library, `src/common.rs:163` and every product of an element by a scalar) -/
def extended (C : Completed) : W Point := do pure ⟨← fmul C.x C.t, ← fmul C.y C.z, ← fmul C.z C.t, ← fmul C.x C.y⟩

/-- `CompletedPoint::as_projective` (inside the library, `src/common.rs:163` and every product of an element by a scalar) -/
def projective (C : Completed) : W Projective := do pure ⟨← fmul C.x C.t, ← fmul C.y C.z, ← fmul C.z C.t⟩

/-- `&EdwardsPoint + &ProjectiveNielsPoint` (inside the library, `src/common.rs:163,223`) -/
def addNiels (P : Point) (N : Niels) : W Completed := do
  let yPlusX ← fadd P.y P.x
  let yMinusX ← fsub P.y P.x
  let pp ← fmul yPlusX N.yPlusX
  let mm ← fmul yMinusX N.yMinusX
  let tt2d ← fmul P.t N.t2d
  let zz ← fmul P.z N.z
  let zz2 ← fadd zz zz
  pure ⟨← fsub pp mm, ← fadd pp mm, ← fadd zz2 tt2d, ← fsub zz2 tt2d⟩

/-- `ProjectivePoint::double` (inside the library, `src/common.rs:163` and every product of an element by a scalar) -/
def double (P : Projective) : W Completed := do
  let xx ← fsq P.x
  let yy ← fsq P.y
  let zz ← fsq P.z
  let zz2 ← fadd zz zz
  let xPlusY ← fadd P.x P.y
  let xPlusYSq ← fsq xPlusY
  let yyPlusXX ← fadd yy xx
  let yyMinusXX ← fsub yy xx
  pure ⟨← fsub xPlusYSq yyPlusXX, yyPlusXX, yyMinusXX, ← fsub zz2 yyMinusXX⟩

/-- `&EdwardsPoint + &EdwardsPoint`: the element additions of `src/common.rs:223-224,340-343`. -/
def add (P Q : Point) : W Point := do extended (← addNiels P (← niels Q))

/-- `LookupTable::from`: `n` more entries after `N`. Inside the library, `src/common.rs:163` and every product of an element
by a scalar. -/
def tableFrom (P : Point) : Nat → Niels → W (List Niels)
  | 0, N => pure [N]
  | n + 1, N => do
      let next ← niels (← extended (← addNiels P N))
      pure (N :: (← tableFrom P n next))

/-- The eight entries: `for j in 0..7`. Inside the library, `src/common.rs:163` and every product of an element by a scalar. -/
def table (P : Point) : W (List Niels) := do tableFrom P 7 (← niels P)

/-- One step of `LookupTable::select`: `t.conditional_assign(&self.0[j - 1], xabs == j)`. Inside the library,
`src/common.rs:163` and every product of an element by a scalar. -/
def selectStep (tbl : List Niels) (x : Nat) (t : Niels) (j : Nat) : W Niels := do
  let e ← read tbl (j - 1) Niels.zero
  sel (← one .ctEq (decide (x = j))) e t

/-- `LookupTable::select`: `for j in 1..9`, then `conditional_negate`. Inside the library, `src/common.rs:163` and every
product of an element by a scalar. -/
def select (tbl : List Niels) (x : Int) : W Niels := do
  let t ← (List.range' 1 8).foldlM (selectStep tbl x.natAbs) Niels.zero
  let t2d ← fneg t.t2d
  sel (decide (x < 0)) ⟨t.yMinusX, t.yPlusX, t.z, t2d⟩ t

/-- `Scalar::as_radix_16`; digit `i` of `n` more. Inside the library, `src/common.rs:163` and every product of an element by
a scalar. -/
def radix16 : (i n k carry : Nat) → W (List Int)
  | i, 0, k, carry => one (.digit i) [((k % 16 + carry : Nat) : Int)]
  | i, n + 1, k, carry => do
      let d ← one (.digit i) (k % 16 + carry)
      let carry' := (d + 8) / 16
      pure (((d : Int) - (carry' * 16 : Nat)) :: (← radix16 (i + 1) n (k / 16) carry'))

/-- `mul_by_pow_2(4)` (inside the library, `src/common.rs:163` and every product of an element by a scalar) -/
def timesSixteen (c0 : Completed) : W Point := do
  let c1 ← double (← projective c0)
  let c2 ← double (← projective c1)
  let c3 ← double (← projective c2)
  let c4 ← double (← projective c3)
  extended c4

/-- The loop of `variable_base::mul`. Inside the library, `src/common.rs:163` and every product of an element by a scalar. -/
def mulDigits (tbl : List Niels) : List Int → W Completed
  | [] => addNiels zero Niels.zero
  | [d] => do addNiels zero (← select tbl d)
  | d :: e :: ds => do
      let q ← timesSixteen (← mulDigits tbl (e :: ds))
      addNiels q (← select tbl d)

/-- `variable_base::mul`: every product of an element by a scalar. `src/common.rs:163`. -/
def mul (k : Nat) (P : Point) : W Point := do
  let tbl ← table P
  let ds ← radix16 0 63 k 0
  extended (← mulDigits tbl ds)

/-- `ct_eq` on `RistrettoPoint`: `src/group/ristretto.rs:93`, `src/group/mod.rs:80-82`. -/
def eq (P Q : Point) : W Bool := do
  let xy ← fmul P.x Q.y
  let yx ← fmul P.y Q.x
  let yy ← fmul P.y Q.y
  let xx ← fmul P.x Q.x
  pure ((← feq xy yx) || (← feq yy xx))

/-- `FieldElement::sqrt_ratio_i` (inside the library, `src/group/ristretto.rs:58,86,92`) -/
def sqrtRatio (u v : Nat) : W (Bool × Nat) := do
  let v3 ← fmul (← fsq v) v
  let v7 ← fmul (← fsq v3) v
  let uv7 ← fmul u v7
  let w ← one .pow (powMod uv7 ((p - 5) / 8) p)
  let r ← fmul (← fmul u v3) w
  let check ← fmul v (← fsq r)
  let correctSign ← feq check (u % p)
  let nu ← fneg u
  let flipped ← feq check nu
  let flippedI ← feq check (← fmul nu SQRT_M1)
  let r' ← fmul SQRT_M1 r
  let r ← sel (flipped || flippedI) r' r
  pure (correctSign || flipped, ← fabs r)

/-- `RistrettoPoint::compress`: `serialize_elem`, `src/group/ristretto.rs:86`. -/
def encode (P : Point) : W Nat := do
  let u1 ← fmul (← fadd P.z P.y) (← fsub P.z P.y)
  let u2 ← fmul P.x P.y
  let r ← sqrtRatio 1 (← fmul u1 (← fsq u2))
  let den1 ← fmul r.2 u1
  let den2 ← fmul r.2 u2
  let zInv ← fmul (← fmul den1 den2) P.t
  let rotate ← fisNeg (← fmul P.t zInv)
  let ix ← fmul P.x SQRT_M1
  let iy ← fmul P.y SQRT_M1
  let enchanted ← fmul den1 INVSQRT_A_MINUS_D
  let x ← sel rotate iy P.x
  let y ← sel rotate ix P.y
  let denInv ← sel rotate enchanted den2
  let b ← fisNeg (← fmul x zInv)
  let ny ← fneg y
  let y ← sel b ny y
  fabs (← fmul denInv (← fsub P.z y))

/-- RFC 9496 §4.3.4 `MAP`, `RistrettoPoint::elligator_ristretto_flavor`: applied to the hash of the client's input. Inside
the library, `src/group/ristretto.rs:58`. -/
def map (t : Nat) : W Point := do
  let r ← fmul SQRT_M1 (← fsq t)
  let u ← fmul (← fadd r 1) ONE_MINUS_D_SQ
  let v ← fmul (← fsub (Formula.neg 1) (← fmul r D)) (← fadd r D)
  let sr ← sqrtRatio u v
  let s' ← fneg (← fabs (← fmul sr.2 t))
  let s ← sel sr.1 sr.2 s'
  let c ← sel sr.1 (Formula.neg 1) r
  let N ← fsub (← fmul (← fmul c (← fsub r 1)) D_MINUS_ONE_SQ) v
  let w0 ← fmul (2 * s) v
  let w1 ← fmul N SQRT_AD_MINUS_ONE
  let ss ← fsq s
  let w2 ← fsub 1 ss
  let w3 ← fadd 1 ss
  pure ⟨← fmul w0 w3, ← fmul w2 w1, ← fmul w1 w3, ← fmul w0 w2⟩

/-- `RistrettoPoint::from_uniform_bytes`, `src/group/ristretto.rs:58`. -/
def oneWayMap (b : Bytes) : W Point := do
  let P ← map (ofLeBytes (b.take 32) % 2 ^ 255)
  let Q ← map (ofLeBytes ((b.drop 32).take 32) % 2 ^ 255)
  add P Q

end Ristretto

end Voprf.Leak.Curve
