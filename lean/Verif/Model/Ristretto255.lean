import Verif.Model.Loops
import Verif.Curve.Pocklington

/-!
# ristretto255: the formulas of RFC 9496 §4

`src/group/ristretto.rs` uses the ristretto255 group of `curve25519-dalek` 4.  Its source is not in the sandbox; these
are the formulas of RFC 9496 §4, which it implements, on natural numbers modulo `2^255 - 19`, together with the point
addition and the variable-base scalar multiplication of its serial backend, from the published source
(`backend/serial/curve_models/mod.rs`, `backend/serial/scalar_mul/variable_base.rs`, `window.rs`,
`scalar.rs`).  The point library they form is `ristretto255` (`Lemmas/RistrettoPoint.lean`, where the contract `Dalek.Lawful` is proved of it).
-/

namespace Voprf.Ristretto

open Curve

namespace Formula

/-- `2^255 - 19` (the field behind `src/group/ristretto.rs:58,86,92`) -/
def p : Nat := 57896044618658097711785492504343953926634992332820282019728792003956564819949

/-- Subtraction modulo `p`; the point formulas behind `src/group/ristretto.rs:58,86,92` use these four operations. -/
def sub (x y : Nat) : Nat := (x + (p - y % p)) % p
/-- Multiplication modulo `p`. The field behind `src/group/ristretto.rs:58,86,92`. -/
def mul (x y : Nat) : Nat := x * y % p
/-- Addition modulo `p`. The field behind `src/group/ristretto.rs:58,86,92`. -/
def add (x y : Nat) : Nat := (x + y) % p
/-- Negation modulo `p`. The field behind `src/group/ristretto.rs:58,86,92`. -/
def neg (x : Nat) : Nat := (p - x % p) % p

/-- RFC 9496 §4.1: the constants. The field behind `src/group/ristretto.rs:58,86,92`. -/
def D : Nat := 37095705934669439343138083508754565189542113879843219016388785533085940283555
/-- A constant of RFC 9496 §4.1 (the field behind `src/group/ristretto.rs:58,86,92`) -/
def SQRT_M1 : Nat := 19681161376707505956807079304988542015446066515923890162744021073123829784752
/-- A constant of RFC 9496 §4.1 (the field behind `src/group/ristretto.rs:58,86,92`) -/
def SQRT_AD_MINUS_ONE : Nat := 25063068953384623474111414158702152701244531502492656460079210482610430750235
/-- A constant of RFC 9496 §4.1 (the field behind `src/group/ristretto.rs:58,86,92`) -/
def INVSQRT_A_MINUS_D : Nat := 54469307008909316920995813868745141605393597292927456921205312896311721017578
/-- A constant of RFC 9496 §4.1 (the field behind `src/group/ristretto.rs:58,86,92`) -/
def ONE_MINUS_D_SQ : Nat := 1159843021668779879193775521855586647937357759715417654439879720876111806838
/-- A constant of RFC 9496 §4.1 (the field behind `src/group/ristretto.rs:58,86,92`) -/
def D_MINUS_ONE_SQ : Nat := 40440834346308536858101042469323190826248399146238708352240133220865137265952

/-- RFC 9496 §3.1: negative means odd. The field behind `src/group/ristretto.rs:58,86,92`. -/
def isNeg (x : Nat) : Bool := x % p % 2 == 1
/-- RFC 9496 §3.1: the non-negative one of `x` and `-x`. The field behind `src/group/ristretto.rs:58,86,92`. -/
def abs (x : Nat) : Nat := if isNeg x then neg x else x % p

/-- RFC 9496 §4.2 `SQRT_RATIO_M1(u, v)` (inside the library, `src/group/ristretto.rs:58,86,92`) -/
def sqrtRatioM1 (u v : Nat) : Bool × Nat :=
  let v3 := mul (mul v v) v
  let v7 := mul (mul v3 v3) v
  let r := mul (mul u v3) (powMod (mul u v7) ((p - 5) / 8) p)
  let check := mul v (mul r r)
  let correctSign := check == u % p
  let flipped := check == neg u
  let flippedI := check == mul (neg u) SQRT_M1
  let r := if flipped || flippedI then mul SQRT_M1 r else r
  (correctSign || flipped, abs r)

/-- Extended twisted Edwards coordinates. `src/group/ristretto.rs:38`. -/
structure Point where
  x : Nat
  y : Nat
  z : Nat
  t : Nat

/-- `RistrettoPoint::identity()`, `src/group/ristretto.rs:81`. -/
def zero : Point := ⟨0, 1, 1, 0⟩

/-- `constants::EDWARDS_D2`, twice the curve constant (inside the library, `src/common.rs:163` and every product of an
element by a scalar) -/
def D2 : Nat := 16295367250680780974490674513165176452449235426866156013048779062215315747161

/-- `ProjectivePoint`: `(X : Y : Z)`; the intermediate points of `a * &r` (`src/common.rs:163`). -/
structure Projective where
  x : Nat
  y : Nat
  z : Nat

/-- `CompletedPoint`: `((X : Z), (Y : T))`, the result of an addition (`src/common.rs:223`). -/
structure Completed where
  x : Nat
  y : Nat
  z : Nat
  t : Nat

/-- `ProjectiveNielsPoint`: a point prepared for being added. Inside the library, `src/common.rs:163` and every product of an
element by a scalar. -/
structure Niels where
  yPlusX : Nat
  yMinusX : Nat
  z : Nat
  t2d : Nat

/-- `EdwardsPoint::as_projective_niels` (inside the library, `src/common.rs:163` and every product of an element by a scalar) -/
def Point.niels (P : Point) : Niels := ⟨add P.y P.x, sub P.y P.x, P.z, mul P.t D2⟩

/-- `ProjectiveNielsPoint::identity` (inside the library, `src/common.rs:163` and every product of an element by a scalar) -/
def Niels.zero : Niels := ⟨1, 1, 1, 0⟩

/-- `ProjectiveNielsPoint::neg` (inside the library, `src/common.rs:163` and every product of an element by a scalar) -/
def Niels.neg (N : Niels) : Niels := ⟨N.yMinusX, N.yPlusX, N.z, Formula.neg N.t2d⟩

/-- `CompletedPoint::as_extended` (inside the library, `src/common.rs:163` and every product of an element by a scalar) -/
def Completed.extended (C : Completed) : Point := ⟨mul C.x C.t, mul C.y C.z, mul C.z C.t, mul C.x C.y⟩

/-- `CompletedPoint::as_projective` (inside the library, `src/common.rs:163` and every product of an element by a scalar) -/
def Completed.projective (C : Completed) : Projective := ⟨mul C.x C.t, mul C.y C.z, mul C.z C.t⟩

/-- `&EdwardsPoint + &ProjectiveNielsPoint` (inside the library, `src/common.rs:163,223`) -/
def addNiels (P : Point) (N : Niels) : Completed :=
  let yPlusX := add P.y P.x
  let yMinusX := sub P.y P.x
  let pp := mul yPlusX N.yPlusX
  let mm := mul yMinusX N.yMinusX
  let tt2d := mul P.t N.t2d
  let zz := mul P.z N.z
  let zz2 := add zz zz
  ⟨sub pp mm, add pp mm, add zz2 tt2d, sub zz2 tt2d⟩

/-- `ProjectivePoint::double` (inside the library, `src/common.rs:163` and every product of an element by a scalar) -/
def Projective.double (P : Projective) : Completed :=
  let xx := mul P.x P.x
  let yy := mul P.y P.y
  let zz := mul P.z P.z
  let zz2 := add zz zz
  let xPlusY := add P.x P.y
  let xPlusYSq := mul xPlusY xPlusY
  let yyPlusXX := add yy xx
  let yyMinusXX := sub yy xx
  ⟨sub xPlusYSq yyPlusXX, yyPlusXX, yyMinusXX, sub zz2 yyMinusXX⟩

/-- `&EdwardsPoint + &EdwardsPoint`: `(self + &other.as_projective_niels()).as_extended()`; the additions of
`src/common.rs:223-224,340-343` and `src/poprf.rs:623`. -/
def padd (P Q : Point) : Point := (addNiels P Q.niels).extended

/-- `LookupTable::from(&EdwardsPoint)`: `n` entries `P, 2P, …`, each `(P + &points[j])`. Inside the library,
`src/common.rs:163` and every product of an element by a scalar. -/
def tableFrom (P : Point) : Nat → Niels → List Niels
  | 0, _ => []
  | n + 1, N => N :: tableFrom P n (addNiels P N).extended.niels

/-- `LookupTable` has eight entries, the first of them the point itself. Inside the library, `src/common.rs:163` and every
product of an element by a scalar. -/
def table (P : Point) : List Niels := tableFrom P 8 P.niels

/-- `LookupTable::select`: the multiple `|x|`, found by comparing `|x|` with `1..9` (the identity if there is none),
negated if `x` is negative. Inside the library, `src/common.rs:163` and every product of an element by a scalar. -/
def select (tbl : List Niels) (x : Int) : Niels :=
  let t := if x.natAbs = 0 then Niels.zero else (tbl[x.natAbs - 1]?).getD Niels.zero
  if x < 0 then t.neg else t

/-- `Scalar::as_radix_16`: the nibbles recentred into `-8..8` with a carry into the next; the last (the 64th for
`n = 63`) keeps its carry.  (One pass instead of one to split into nibbles and one to recentre.) (inside the library,
`src/common.rs:163` and every product of an element by a scalar) -/
def radix16 : (n k carry : Nat) → List Int
  | 0, k, carry => [((k % 16 + carry : Nat) : Int)]
  | n + 1, k, carry =>
      let d := k % 16 + carry
      let carry' := (d + 8) / 16
      ((d : Int) - (carry' * 16 : Nat)) :: radix16 n (k / 16) carry'

/-- The loop of `variable_base::mul` over the digits (least significant first in the list): from the most significant
digit down, multiply by 16 with four doublings and add the selected multiple. Inside the library, `src/common.rs:163` and
every product of an element by a scalar. -/
def mulDigits (tbl : List Niels) : List Int → Completed
  | [] => addNiels zero Niels.zero
  | [d] => addNiels zero (select tbl d)
  | d :: e :: ds =>
      let c1 := (mulDigits tbl (e :: ds)).projective.double
      let c2 := c1.projective.double
      let c3 := c2.projective.double
      let c4 := c3.projective.double
      addNiels c4.extended (select tbl d)

/-- `variable_base::mul`: `&RistrettoPoint * &Scalar`, `src/common.rs:163` and every other product of an element by a scalar. -/
def pmul (k : Nat) (P : Point) : Point := (mulDigits (table P) (radix16 63 k 0)).extended

/-- RFC 9496 §4.3.3, `point != &identity` in `src/group/ristretto.rs:93`. -/
def peq (P Q : Point) : Bool :=
  (mul P.x Q.y == mul P.y Q.x) || (mul P.y Q.y == mul P.x Q.x)

/-- RFC 9496 §4.3.2, `compress` in `src/group/ristretto.rs:86`. -/
def encode (P : Point) : Nat :=
  let u1 := mul (add P.z P.y) (sub P.z P.y)
  let u2 := mul P.x P.y
  let invsqrt := (sqrtRatioM1 1 (mul u1 (mul u2 u2))).2
  let den1 := mul invsqrt u1
  let den2 := mul invsqrt u2
  let zInv := mul (mul den1 den2) P.t
  let rotate := isNeg (mul P.t zInv)
  let x := if rotate then mul P.y SQRT_M1 else P.x
  let y := if rotate then mul P.x SQRT_M1 else P.y
  let denInv := if rotate then mul den1 INVSQRT_A_MINUS_D else den2
  let y := if isNeg (mul x zInv) then neg y else y
  abs (mul denInv (sub P.z y))

/-- RFC 9496 §4.3.1, `decompress` in `src/group/ristretto.rs:92`. -/
def decode (b : Bytes) : Option Point :=
  let s := ofLeBytes b
  if s ≥ p || isNeg s then none
  else
    let ss := mul s s
    let u1 := sub 1 ss
    let u2 := add 1 ss
    let u2s := mul u2 u2
    let v := sub (neg (mul D (mul u1 u1))) u2s
    let r := sqrtRatioM1 1 (mul v u2s)
    let denX := mul r.2 u2
    let denY := mul (mul r.2 denX) v
    let x := abs (mul (2 * s) denX)
    let y := mul u1 denY
    let t := mul x y
    if !r.1 || isNeg t || y == 0 then none else some ⟨x, y, 1, t⟩

/-- RFC 9496 §4.3.4 `MAP` (inside the library, `src/group/ristretto.rs:58`) -/
def map (t : Nat) : Point :=
  let r := mul SQRT_M1 (mul t t)
  let u := mul (add r 1) ONE_MINUS_D_SQ
  let v := mul (sub (neg 1) (mul r D)) (add r D)
  let sr := sqrtRatioM1 u v
  let s' := neg (abs (mul sr.2 t))
  let s := if sr.1 then sr.2 else s'
  let c := if sr.1 then neg 1 else r
  let N := sub (mul (mul c (sub r 1)) D_MINUS_ONE_SQ) v
  let w0 := mul (2 * s) v
  let w1 := mul N SQRT_AD_MINUS_ONE
  let w2 := sub 1 (mul s s)
  let w3 := add 1 (mul s s)
  ⟨mul w0 w3, mul w2 w1, mul w1 w3, mul w0 w2⟩

/-- RFC 9496 §4.3.4: the one-way map on 64 bytes, `from_uniform_bytes` in `src/group/ristretto.rs:58`. -/
def oneWayMap (b : Bytes) : Point :=
  padd (map (ofLeBytes (b.take 32) % 2 ^ 255)) (map (ofLeBytes ((b.drop 32).take 32) % 2 ^ 255))

/-- `RISTRETTO_BASEPOINT_POINT`, `src/group/ristretto.rs:77`. -/
def base : Point :=
  let x := 15112221349535400772501151409588531511454012693041857206046113283949847762202
  let y := 46316835694926478169428394003475163141307993866256225615783033603165251855960
  ⟨x, y, 1, mul x y⟩

end Formula

end Voprf.Ristretto
