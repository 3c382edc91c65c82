import Verif.Model.Expand
import Verif.Model.Loops
import Verif.Curve.Primes

/-!
# Model of `src/group/ristretto.rs`: the `Group` implementation for Ristretto255

Scalars are modelled concretely (integers modulo the prime ℓ, 32 little-endian bytes).  Points come from
`curve25519-dalek` 4; the operations the crate calls are the record `Dalek`, whose contract is `Dalek.Lawful`
(`Spec/Dalek.lean`).  The formulas of RFC 9496 (`Model/Ristretto255.lean`) are an instance, `ristretto255`, of which
the contract is proved (`Lemmas/RistrettoPoint.lean`).
-/

namespace Voprf.Ristretto

/-- `curve25519_dalek::constants::BASEPOINT_ORDER`: ℓ = 2^252 + 27742317777372353535851937790883648493. The order behind
`src/group/ristretto.rs:73,128`. -/
def ell : Nat := 7237005577332262213973186563042994240857116359379907606001950938285454250989

/-- ℓ is prime (the order behind `src/group/ristretto.rs:73,128`) -/
instance : Fact ell.Prime := ⟨Curve.l25519_prime⟩

theorem ell_val :
    ell = 7237005577332262213973186563042994240857116359379907606001950938285454250989 := rfl

attribute [irreducible] ell

/-- `curve25519_dalek::scalar::Scalar`, always reduced in dalek 4. `src/group/ristretto.rs:42`. -/
abbrev Scalar := ZMod ell

/-- What the crate uses of `curve25519_dalek::ristretto`. `src/group/ristretto.rs:58,77,81,86,90-93`. -/
structure Dalek where
  /-- `RistrettoPoint` -/
  Point : Type
  /-- `RistrettoPoint::identity()` -/
  identity : Point
  /-- `RISTRETTO_BASEPOINT_POINT` -/
  basepoint : Point
  /-- `&RistrettoPoint + &RistrettoPoint` -/
  add : Point → Point → Point
  /-- `&RistrettoPoint * &Scalar` -/
  mul : Point → Scalar → Point
  /-- `RistrettoPoint::ct_eq`, which also implements `==` -/
  ctEq : Point → Point → Bool
  /-- `RistrettoPoint::zeroize` -/
  zeroize : Point → Point
  /-- `RistrettoPoint::compress().to_bytes()` -/
  compress : Point → Bytes
  /-- the type is `[u8; 32]` -/
  compress_length : ∀ P, (compress P).length = 32
  /-- `CompressedRistretto::decompress`, called on 32 bytes only -/
  decompress : Bytes → Option Point
  /-- `RistrettoPoint::from_uniform_bytes`, called on 64 bytes only -/
  fromUniformBytes : Bytes → Point

variable (D : Dalek)

/-- `src/group/ristretto.rs:48-59` (`hash_to_curve`). -/
def hashToCurve (H : HashAlg) (input dst : List Bytes) : Except InternalError D.Point :=
  match H2C.expandMessage H input dst 64 with
  | none => .error .Input
  | some e => .ok (D.fromUniformBytes (e.fillBytes H 64).1)

/-- `Scalar::from_bytes_mod_order_wide` on 64 bytes. `src/group/ristretto.rs:73`. -/
def fromBytesModOrderWide (bytes : Bytes) : Scalar := (ofLeBytes bytes : Scalar)

/-- `src/group/ristretto.rs:62-75` (`hash_to_scalar`). -/
def hashToScalar (H : HashAlg) (input dst : List Bytes) : Except InternalError Scalar :=
  match H2C.expandMessage H input dst 64 with
  | none => .error .Input
  | some e => .ok (fromBytesModOrderWide (e.fillBytes H 64).1)

/-- `src/group/ristretto.rs:89-95` (`deserialize_elem`): `CompressedRistretto::from_slice` refuses any
length but 32. -/
def deserializeElem (bytes : Bytes) : Except Error D.Point :=
  if bytes.length ≠ 32 then .error .Deserialization
  else
    match (D.decompress bytes).filter (fun point => !D.ctEq point D.identity) with
    | some P => .ok P
    | none => .error .Deserialization

/-- One iteration of the loop of `random_scalar`: `Scalar::random` reduces 64 bytes; zero is rejected.
`src/group/ristretto.rs:98-104`. -/
def drawScalar {σ : Type} [RngCore σ] (s : σ) : Option Scalar × σ :=
  let r := RngCore.fillBytes s 64
  let scalar := fromBytesModOrderWide r.1
  (if scalar ≠ 0 then some scalar else none, r.2)

/-- `src/group/ristretto.rs:97-105` (`random_scalar`). -/
noncomputable def randomScalar {σ : Type} [RngCore σ] (s : σ) : Option (Scalar × σ) :=
  sampleLoop drawScalar s

/-- `src/group/ristretto.rs:107-109` (`invert_scalar`): `x^(ℓ-2)`, so the "inverse" of zero is zero. -/
def invertScalar (k : Scalar) : Option Scalar := some (k ^ (ell - 2))

/-- `src/group/ristretto.rs:111-113` (`is_zero_scalar`). -/
def isZeroScalar (k : Scalar) : Bool := decide (k = 0)

/-- `src/group/ristretto.rs:120-122` (`serialize_scalar`). -/
def serializeScalar (k : Scalar) : Bytes := toLeBytes 32 k.val

/-- `Scalar::from_canonical_bytes`: refuses a value not below ℓ. `src/group/ristretto.rs:128`. -/
def fromCanonicalBytes (bytes : Bytes) : Option Scalar :=
  if ofLeBytes bytes < ell then some (ofLeBytes bytes : Scalar) else none

/-- `src/group/ristretto.rs:124-131` (`deserialize_scalar`): `try_into` refuses any length but 32. -/
def deserializeScalar (bytes : Bytes) : Except Error Scalar :=
  if bytes.length ≠ 32 then .error .Deserialization
  else
    match (fromCanonicalBytes bytes).filter (fun scalar => decide (scalar ≠ 0)) with
    | some k => .ok k
    | none => .error .Deserialization

theorem serializeScalar_length (k : Scalar) : (serializeScalar k).length = 32 := by
  have : ∀ len n, (toLeBytes len n).length = len := by
    intro len
    induction len with
    | zero => intro _; rfl
    | succ len ih => intro n; simp [toLeBytes, ih]
  exact this 32 _

/-- `src/group/ristretto.rs:37-132`: the whole implementation. -/
noncomputable def group : VGroup where
  Elem := D.Point
  elemLen := 32
  Scalar := Scalar
  scalarLen := 32
  elemAdd := D.add
  elemMul := D.mul
  elemCtEq := D.ctEq
  scalarAdd := (· + ·)
  scalarMul := (· * ·)
  scalarSub := (· - ·)
  scalarCtEq a b := decide (a = b)
  elemZeroize := D.zeroize
  scalarZeroize _ := 0
  hashToCurve := hashToCurve D
  hashToScalar := hashToScalar
  baseElem := D.basepoint
  identityElem := D.identity
  serializeElem := D.compress
  serializeElem_length := D.compress_length
  deserializeElem := deserializeElem D
  randomScalar := randomScalar
  invertScalar := invertScalar
  isZeroScalar := isZeroScalar
  serializeScalar := serializeScalar
  serializeScalar_length := serializeScalar_length
  deserializeScalar := deserializeScalar

end Voprf.Ristretto
