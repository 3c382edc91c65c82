import Verif.Model.Expand
import Verif.Model.Loops
import Mathlib.AlgebraicGeometry.EllipticCurve.Affine.Point
import Mathlib.Algebra.Field.ZMod
import Mathlib.NumberTheory.LegendreSymbol.Basic

/-!
# Model of `src/group/elliptic_curve.rs`: the `Group` implementation for RustCrypto curves

The Rust `impl<C> Group for C where C: GroupDigest, ..` delegates to the crates `elliptic-curve` 0.13, `sec1`,
`primeorder` and the curve crate.  Their behaviour is modelled from their published source (not in the
sandbox), for prime-order short Weierstrass curves over `ZMod p` with `p ≡ 3 (mod 4)` hashed to with the
simplified SWU map: `NistP256`, `NistP384` and `NistP521`, the curves the crate is tested with.

A projective point is modelled by the affine point it represents: Mathlib's `WeierstrassCurve.Affine.Point`,
whose addition is the chord-and-tangent law.
-/

namespace Voprf.Nist

/-- The constants of a curve crate. The type parameter of `src/group/elliptic_curve.rs:24-31`. -/
structure Params where
  /-- field modulus -/
  p : Nat
  /-- group order -/
  n : Nat
  /-- `y² = x³ + a x + b` -/
  a : Nat
  b : Nat
  /-- generator -/
  gx : Nat
  gy : Nat
  /-- `FieldBytesSize` -/
  fieldLen : Nat
  /-- `FromOkm::Length` of field elements and scalars -/
  okmLen : Nat
  /-- `OsswuMapParams`: `z`, and `c2 = sqrt(-z³)` -/
  z : Nat
  c2 : Nat
  p_prime : p.Prime
  n_prime : n.Prime
  two_lt_n : 2 < n
  p_mod_four : p % 4 = 3
  p_lt : p < 256 ^ fieldLen
  n_lt : n < 256 ^ fieldLen
  okmLen_pos : 0 < okmLen
  okmLen_le : okmLen ≤ 127
  a_ne_zero : (a : ZMod p) ≠ 0
  b_ne_zero : (b : ZMod p) ≠ 0
  discriminant : (4 * a ^ 3 + 27 * b ^ 2 : ZMod p) ≠ 0
  generator : (gy ^ 2 : ZMod p) = gx ^ 3 + a * gx + b
  c2_sq : (c2 ^ 2 : ZMod p) = - z ^ 3
  z_nonsquare : ¬ IsSquare (z : ZMod p)
  /-- RFC 9380 §6.6.2: `g(B / (Z * A))` is square (denominators cleared) -/
  z_exceptional : ∃ w : ZMod p, w ^ 2 * (z * a) ^ 3 = b ^ 3 + a * b * (z * a) ^ 2 + b * (z * a) ^ 3

variable (c : Params)

/-- The field modulus is prime (for `src/group/elliptic_curve.rs:24-31`) -/
instance : Fact c.p.Prime := ⟨c.p_prime⟩
/-- The group order is prime (for `src/group/elliptic_curve.rs:24-31`) -/
instance : Fact c.n.Prime := ⟨c.n_prime⟩

/-- `C::FieldElement` (inside the library, `src/group/elliptic_curve.rs:32`) -/
abbrev Params.Fp := ZMod c.p
/-- `Scalar<C>` (`src/group/elliptic_curve.rs:36`) -/
abbrev Params.Fn := ZMod c.n

/-- The curve equation. Behind `src/group/elliptic_curve.rs:32`. -/
def Params.curve : WeierstrassCurve.Affine c.Fp := ⟨0, 0, 0, c.a, c.b⟩

/-- `ProjectivePoint<C>`, up to the choice of projective coordinates. `src/group/elliptic_curve.rs:32`. -/
abbrev Params.Point := c.curve.Point

variable {c}

/-- `x³ + a x + b` (inside the library, `src/group/elliptic_curve.rs:77`) -/
def rhs (c : Params) (x : c.Fp) : c.Fp := x ^ 3 + c.a * x + c.b

theorem delta_ne_zero (c : Params) : c.curve.Δ ≠ 0 := by
  have h : c.curve.Δ = -16 * (4 * c.a ^ 3 + 27 * c.b ^ 2) := by
    simp only [Params.curve, WeierstrassCurve.Δ, WeierstrassCurve.b₂, WeierstrassCurve.b₄,
      WeierstrassCurve.b₆, WeierstrassCurve.b₈]
    ring
  rw [h]
  have h2 : (2 : c.Fp) ≠ 0 := by
    have : ((2 : ℕ) : c.Fp) ≠ 0 := by
      rw [Ne, ZMod.natCast_eq_zero_iff]
      intro hd
      have := (Nat.prime_dvd_prime_iff_eq c.p_prime Nat.prime_two).mp hd
      have := c.p_mod_four
      omega
    simpa using this
  have h16 : (-16 : c.Fp) ≠ 0 := by
    have : (-16 : c.Fp) = -(2 ^ 4) := by norm_num
    rw [this]
    exact neg_ne_zero.mpr (pow_ne_zero _ h2)
  exact mul_ne_zero h16 c.discriminant

theorem nonsingular_of_eq {x y : c.Fp} (h : y ^ 2 = rhs c x) : c.curve.Nonsingular x y := by
  rw [← WeierstrassCurve.Affine.equation_iff_nonsingular_of_Δ_ne_zero (hΔ := delta_ne_zero c),
    WeierstrassCurve.Affine.equation_iff]
  simpa [Params.curve, rhs] using h

/-- An affine point from coordinates satisfying the curve equation. Inside the library, `src/group/elliptic_curve.rs:47,77`. -/
def mkPoint {x y : c.Fp} (h : y ^ 2 = rhs c x) : c.Point := .some x y (nonsingular_of_eq h)

/-! ## Field and scalar encodings -/

/-- `FieldElement::from_repr`: canonical big-endian bytes. Inside the library, `src/group/elliptic_curve.rs:77`. -/
def fieldFromRepr (c : Params) (bytes : Bytes) : Option c.Fp :=
  if bytes.length = c.fieldLen ∧ ofBeBytes bytes < c.p then some (ofBeBytes bytes : c.Fp) else none

/-- `Field::is_odd` (inside the library, `src/group/elliptic_curve.rs:77`) -/
def isOdd (y : c.Fp) : Bool := y.val % 2 == 1

/-- `FieldElement::sqrt` for `p ≡ 3 (mod 4)`: `alpha^((p+1)/4)` if that squares to `alpha`. Inside the library,
`src/group/elliptic_curve.rs:77`. -/
def sqrt (alpha : c.Fp) : Option c.Fp :=
  let beta := alpha ^ ((c.p + 1) / 4)
  if beta ^ 2 = alpha then some beta else none

theorem sqrt_sq {alpha beta : c.Fp} (h : sqrt alpha = some beta) : beta ^ 2 = alpha := by
  unfold sqrt at h
  simp only at h
  split at h
  · next h' => injection h with h; rw [← h]; exact h'
  · simp at h

/-- `primeorder`: `DecompressPoint::decompress`; the selected root has the requested parity. Inside the library,
`src/group/elliptic_curve.rs:77`. -/
def decompress (c : Params) (xBytes : Bytes) (yIsOdd : Bool) : Option c.Point := do
  let x ← fieldFromRepr c xBytes
  match h : sqrt (rhs c x) with
  | none => none
  | some beta =>
      if isOdd beta = yIsOdd then some (mkPoint (sqrt_sq h))
      else some (mkPoint (y := -beta) (by rw [neg_sq]; exact sqrt_sq h))

/-- The `y` coordinate; the point at infinity has `y = 0` in `AffinePoint::IDENTITY`. Inside the library,
`src/group/elliptic_curve.rs:69`. -/
def yCoord : c.Point → c.Fp
  | .zero => 0
  | .some _ y _ => y

/-- `primeorder`: `DecompactPoint::decompact`, the root with the smaller integer value. Inside the library,
`src/group/elliptic_curve.rs:77`. -/
def decompact (c : Params) (xBytes : Bytes) : Option c.Point := do
  let P ← decompress c xBytes false
  if (yCoord P).val > (yCoord (-P)).val then some (-P) else some P

/-- `sec1::Tag::message_len`; `none` for an unknown tag. Inside the library, `src/group/elliptic_curve.rs:77`. -/
def messageLen (fieldLen : Nat) (tag : UInt8) : Option Nat :=
  if tag = 0 then some 1
  else if tag = 2 ∨ tag = 3 then some (1 + fieldLen)
  else if tag = 4 then some (1 + 2 * fieldLen)
  else if tag = 5 then some (1 + fieldLen)
  else none

/-- `PublicKey::from_sec1_bytes`: `EncodedPoint::from_bytes` (tag and length), then
`AffinePoint::from_encoded_point`, then refusal of the identity. `src/group/elliptic_curve.rs:77`. -/
def fromSec1Bytes (c : Params) (bytes : Bytes) : Option c.Point :=
  match bytes with
  | [] => none
  | tag :: body => do
      let expected ← messageLen c.fieldLen tag
      if bytes.length ≠ expected then none
      else if tag = 0 then none
      else if tag = 4 then do
        let x := body.take c.fieldLen
        let y ← fieldFromRepr c (body.drop c.fieldLen)
        let P ← decompress c x (isOdd y)
        if yCoord P = y then some P else none
      else if tag = 5 then decompact c body
      else decompress c body (tag == 3)

/-- `ToEncodedPoint::to_encoded_point(true)` (`src/group/elliptic_curve.rs:69`) -/
def toEncodedPoint : c.Point → Bytes
  | .zero => [0]
  | .some x y _ => (if isOdd y then 3 else 2) :: toBeBytes c.fieldLen x.val

/-- `src/group/elliptic_curve.rs:68-74` (`serialize_elem`): copied into a zeroed array. -/
def serializeElem (P : c.Point) : Bytes :=
  let bytes := toEncodedPoint P
  bytes ++ List.replicate (c.fieldLen + 1 - bytes.length) 0

/-- `src/group/elliptic_curve.rs:76-80` (`deserialize_elem`). -/
def deserializeElem (c : Params) (bytes : Bytes) : Except Error c.Point :=
  match fromSec1Bytes c bytes with
  | some P => .ok P
  | none => .error .Deserialization

/-- `Scalar::from_repr` / `ScalarPrimitive::from_bytes`: canonical big-endian bytes. Inside the library,
`src/group/elliptic_curve.rs:83,104`. -/
def scalarFromRepr (c : Params) (bytes : Bytes) : Option c.Fn :=
  if bytes.length = c.fieldLen ∧ ofBeBytes bytes < c.n then some (ofBeBytes bytes : c.Fn) else none

/-- `SecretKey::from_bytes` (inside the library, `src/group/elliptic_curve.rs:104`) -/
def secretKeyFromBytes (c : Params) (bytes : Bytes) : Option c.Fn := do
  let s ← scalarFromRepr c bytes
  if s = 0 then none else some s

/-- `SecretKey::MIN_SIZE` (inside the library, `src/group/elliptic_curve.rs:104`) -/
def MIN_SIZE : Nat := 24

/-- `SecretKey::from_slice`: a slice of 24 or more bytes but shorter than a field element is padded with
zeros on the left. `src/group/elliptic_curve.rs:104`. -/
def secretKeyFromSlice (c : Params) (slice : Bytes) : Option c.Fn :=
  if slice.length = c.fieldLen then secretKeyFromBytes c slice
  else if MIN_SIZE ≤ slice.length ∧ slice.length < c.fieldLen then
    secretKeyFromBytes c (List.replicate (c.fieldLen - slice.length) 0 ++ slice)
  else none

/-- `src/group/elliptic_curve.rs:103-107` (`deserialize_scalar`). -/
def deserializeScalar (c : Params) (bytes : Bytes) : Except Error c.Fn :=
  match secretKeyFromSlice c bytes with
  | some s => .ok s
  | none => .error .Deserialization

/-- `src/group/elliptic_curve.rs:99-101` (`serialize_scalar`). -/
def serializeScalar (s : c.Fn) : Bytes := toBeBytes c.fieldLen s.val

/-! ## Randomness -/

/-- One iteration of `Field::random` for scalars: `fill_bytes` of a `FieldBytes`, then `from_repr`. Inside the library,
`src/group/elliptic_curve.rs:83`. -/
def drawScalar (c : Params) {σ : Type} [RngCore σ] (s : σ) : Option c.Fn × σ :=
  let r := RngCore.fillBytes s c.fieldLen
  (scalarFromRepr c r.1, r.2)

/-- `Field::random` for scalars (rejection sampling). Inside the library, `src/group/elliptic_curve.rs:83`. -/
noncomputable def fieldRandom (c : Params) {σ : Type} [RngCore σ] (s : σ) : Option (c.Fn × σ) :=
  sampleLoop (drawScalar c) s

/-- `NonZeroScalar::new` (inside the library, `src/group/elliptic_curve.rs:83,105`) -/
def nonZero (k : c.Fn) : Option c.Fn := if k = 0 then none else some k

/-- `src/group/elliptic_curve.rs:82-84` (`random_scalar`): `SecretKey::random`, i.e.
`NonZeroScalar::random`, which rejects zero. -/
noncomputable def randomScalar (c : Params) {σ : Type} [RngCore σ] (s : σ) : Option (c.Fn × σ) :=
  sampleLoop' (fun s => (fieldRandom c s).map fun r => (nonZero r.1, r.2)) s

/-! ## Hashing to the curve -/

/-- `sgn0` for a prime field. Inside the library, `src/group/elliptic_curve.rs:47`. -/
def sgn0 (x : c.Fp) : Bool := isOdd x

/-- `elliptic_curve::hash2curve::OsswuMap::osswu` (the straight-line program for `p ≡ 3 (mod 4)`). Inside the library,
`src/group/elliptic_curve.rs:47`. -/
def osswu (c : Params) (u : c.Fp) : c.Fp × c.Fp :=
  let A : c.Fp := c.a
  let B : c.Fp := c.b
  let Z : c.Fp := c.z
  let tv1 := u ^ 2
  let tv3 := Z * tv1
  let tv2 := tv3 ^ 2
  let xd := tv2 + tv3
  let x1n := B * (xd + 1)
  let xd := xd * -A
  let xd := if xd = 0 then Z * A else xd
  let tv2 := xd ^ 2
  let gxd := tv2 * xd
  let tv2 := A * tv2
  let gx1 := x1n * (tv2 + x1n ^ 2)
  let tv2 := gxd * B
  let gx1 := gx1 + tv2
  let tv4 := gxd ^ 2
  let tv2 := gx1 * gxd
  let tv4 := tv4 * tv2
  let y1 := tv4 ^ ((c.p - 3) / 4)
  let y1 := y1 * tv2
  let x2n := tv3 * x1n
  let y2 := y1 * c.c2
  let y2 := y2 * tv1
  let y2 := y2 * u
  let tv2 := y1 ^ 2
  let tv2 := tv2 * gxd
  let e2 := tv2 = gx1
  let x := if e2 then x1n else x2n
  let y := if e2 then y1 else y2
  let x := x * xd⁻¹
  let y := if sgn0 u = sgn0 y then y else -y
  (x, y)

/-- `MapToCurve::map_to_curve`: the Rust code builds the affine point without a check. That the
coordinates always satisfy the equation is `osswu_on_curve` (`Lemmas/Sswu.lean`); here a failing check
would give the identity. Inside the library, `src/group/elliptic_curve.rs:47`. -/
def mapToCurve (c : Params) (u : c.Fp) : c.Point :=
  if h : (osswu c u).2 ^ 2 = rhs c (osswu c u).1 then mkPoint h else 0

/-- `src/group/elliptic_curve.rs:42-48` (`hash_to_curve`): `GroupDigest::hash_from_bytes`, that is
`hash_to_field` with two outputs, `map_to_curve` on each, and addition (`clear_cofactor` is the identity on
prime-order curves). -/
def hashToCurve (c : Params) (H : HashAlg) (input dst : List Bytes) : Except InternalError c.Point :=
  match H2C.hashToFieldBytes H input dst c.okmLen 2 with
  | some [u0, u1] => .ok (mapToCurve c (ofBeBytes u0 : c.Fp) + mapToCurve c (ofBeBytes u1 : c.Fp))
  | _ => .error .Input

/-- `src/group/elliptic_curve.rs:51-58` (`hash_to_scalar`): `hash_to_field` with one output. -/
def hashToScalar (c : Params) (H : HashAlg) (input dst : List Bytes) : Except InternalError c.Fn :=
  match H2C.hashToFieldBytes H input dst c.okmLen 1 with
  | some [u] => .ok (ofBeBytes u : c.Fn)
  | _ => .error .Input

/-- `src/group/elliptic_curve.rs:86-88` (`invert_scalar`): `unwrap` panics on zero. -/
def invertScalar (k : c.Fn) : Option c.Fn := if k = 0 then none else some k⁻¹

/-- `src/group/elliptic_curve.rs:60-62` (`base_elem`). -/
def baseElem (c : Params) : c.Point := mkPoint (x := c.gx) (y := c.gy) c.generator

theorem toBeBytes_length : ∀ len n, (toBeBytes len n).length = len
  | 0, _ => rfl
  | len + 1, n => by simp [toBeBytes, toBeBytes_length len]

theorem serializeElem_length (P : c.Point) : (serializeElem P).length = c.fieldLen + 1 := by
  unfold serializeElem
  have : (toEncodedPoint P).length ≤ c.fieldLen + 1 := by
    cases P <;> simp [toEncodedPoint, toBeBytes_length]
  simp
  omega

/-- `src/group/elliptic_curve.rs:24-108`: the whole implementation.  Zeroizing a point leaves the identity
(`DefaultIsZeroes` with `Default = IDENTITY`), zeroizing a scalar leaves zero. -/
noncomputable def group (c : Params) : VGroup where
  Elem := c.Point
  elemLen := c.fieldLen + 1
  Scalar := c.Fn
  scalarLen := c.fieldLen
  elemAdd P Q := P + Q
  elemMul P k := k.val • P
  elemCtEq P Q := decide (P = Q)
  scalarAdd := (· + ·)
  scalarMul := (· * ·)
  scalarSub := (· - ·)
  scalarCtEq a b := decide (a = b)
  elemZeroize _ := 0
  scalarZeroize _ := 0
  hashToCurve := hashToCurve c
  hashToScalar := hashToScalar c
  baseElem := baseElem c
  identityElem := 0
  serializeElem := serializeElem
  serializeElem_length := serializeElem_length
  deserializeElem := deserializeElem c
  randomScalar := randomScalar c
  invertScalar := invertScalar
  isZeroScalar k := decide (k = 0)
  serializeScalar := serializeScalar
  serializeScalar_length _ := toBeBytes_length _ _
  deserializeScalar := deserializeScalar c

end Voprf.Nist
