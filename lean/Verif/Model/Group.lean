import Verif.Base

/-!
# The traits the crate is generic over

`HashAlg` (digest traits), `VGroup` (`src/group/mod.rs`, trait `Group`), `CipherSuite`
(`src/ciphersuite.rs`).  These records contain operations only; the facts they carry are those the
Rust *types* enforce (lengths of `GenericArray`s, the `IsLess` bounds).  The behavioural contract is
`Verif/Spec/Contract.lean`.
-/

namespace Voprf

/-- A hash function `H: BlockSizeUser + Default + FixedOutput + HashMarker` with the type-level bounds
of `src/ciphersuite.rs:20-21`.  The incremental digest is modelled by `Digest` below.
Simplification: hashes with a message-length limit (2^64 bits for SHA-256) are total. -/
structure HashAlg where
  outputSize : Nat
  blockSize : Nat
  digest : Bytes → Bytes
  /-- `Output<H> = GenericArray<u8, OutputSize>` -/
  digest_length : ∀ b, (digest b).length = outputSize
  /-- `OutputSize: IsLess<U256>` -/
  outputSize_lt : outputSize < 256
  /-- `OutputSize: IsLessOrEqual<BlockSize>` -/
  outputSize_le : outputSize ≤ blockSize
  /-- Not enforced by the Rust types: digests with no output at all are left out of the model
  (`expand_message` would divide by zero). -/
  outputSize_pos : 0 < outputSize

/-- State of an incremental hasher: the bytes absorbed so far (`digest::Digest`). `src/common.rs:16`. -/
structure Digest where
  absorbed : Bytes

/-- `Digest::new()` (`src/common.rs:306,486`) -/
def Digest.new : Digest := ⟨[]⟩
/-- `Digest::chain_update(data)` (`src/common.rs:307-309,487-497`) -/
def Digest.chainUpdate (d : Digest) (data : Bytes) : Digest := ⟨d.absorbed ++ data⟩
/-- `src/common.rs:548-559` (`DigestExt::chain_update_multi`): updates with every slice in order. -/
def Digest.chainUpdateMulti (d : Digest) (datas : List Bytes) : Digest :=
  datas.foldl Digest.chainUpdate d
/-- `Digest::finalize()` (`src/common.rs:311,498`) -/
def Digest.finalize (H : HashAlg) (d : Digest) : Bytes := H.digest d.absorbed

/-- Models the trait `Group`, `src/group/mod.rs:31-118`.  `hash_to_curve`/`hash_to_scalar` are generic
in the hash `H`, here an explicit argument. `randomScalar` returns `none` if the sampling loop never
ends; `invertScalar` returns `none` if the call panics (`src/group/elliptic_curve.rs:86-88`). -/
structure VGroup where
  /-- `type Elem`, `src/group/mod.rs:33` -/
  Elem : Type
  /-- `type ElemLen`, `src/group/mod.rs:40` -/
  elemLen : Nat
  /-- `type Scalar`, `src/group/mod.rs:43` -/
  Scalar : Type
  /-- `type ScalarLen`, `src/group/mod.rs:51` -/
  scalarLen : Nat
  /-- `Elem: Add<&Elem>`, `src/group/mod.rs:36` -/
  elemAdd : Elem → Elem → Elem
  /-- `Elem: Mul<&Scalar>`, `src/group/mod.rs:37` -/
  elemMul : Elem → Scalar → Elem
  /-- `Elem: ConstantTimeEq`, `src/group/mod.rs:33` -/
  elemCtEq : Elem → Elem → Bool
  /-- `Scalar: Add<&Scalar>`, `src/group/mod.rs:46` -/
  scalarAdd : Scalar → Scalar → Scalar
  /-- `Scalar: Mul<&Scalar>`, `src/group/mod.rs:47` -/
  scalarMul : Scalar → Scalar → Scalar
  /-- `Scalar: Sub<&Scalar>`, `src/group/mod.rs:48` -/
  scalarSub : Scalar → Scalar → Scalar
  /-- `Scalar: ConstantTimeEq`, `src/group/mod.rs:43` -/
  scalarCtEq : Scalar → Scalar → Bool
  /-- `Elem: Zeroize`, `src/group/mod.rs:35`: the value left behind -/
  elemZeroize : Elem → Elem
  /-- `Scalar: Zeroize`, `src/group/mod.rs:45`: the value left behind -/
  scalarZeroize : Scalar → Scalar
  /-- `fn hash_to_curve`, `src/group/mod.rs:58-61` -/
  hashToCurve : HashAlg → List Bytes → List Bytes → Except InternalError Elem
  /-- `fn hash_to_scalar`, `src/group/mod.rs:68-71` -/
  hashToScalar : HashAlg → List Bytes → List Bytes → Except InternalError Scalar
  /-- `fn base_elem`, `src/group/mod.rs:74` -/
  baseElem : Elem
  /-- `fn identity_elem`, `src/group/mod.rs:77` -/
  identityElem : Elem
  /-- `fn serialize_elem`, `src/group/mod.rs:85` -/
  serializeElem : Elem → Bytes
  /-- the return type is `GenericArray<u8, ElemLen>` -/
  serializeElem_length : ∀ e, (serializeElem e).length = elemLen
  /-- `fn deserialize_elem`, `src/group/mod.rs:93` -/
  deserializeElem : Bytes → Except Error Elem
  /-- `fn random_scalar`, `src/group/mod.rs:96` -/
  randomScalar : {σ : Type} → [RngCore σ] → σ → Option (Scalar × σ)
  /-- `fn invert_scalar`, `src/group/mod.rs:99` -/
  invertScalar : Scalar → Option Scalar
  /-- `fn is_zero_scalar`, `src/group/mod.rs:102` -/
  isZeroScalar : Scalar → Bool
  /-- `fn serialize_scalar`, `src/group/mod.rs:109` -/
  serializeScalar : Scalar → Bytes
  /-- the return type is `GenericArray<u8, ScalarLen>` -/
  serializeScalar_length : ∀ s, (serializeScalar s).length = scalarLen
  /-- `fn deserialize_scalar`, `src/group/mod.rs:117` -/
  deserializeScalar : Bytes → Except Error Scalar

/-- The provided method `is_identity_elem`, `src/group/mod.rs:80-82`; no implementation overrides it. -/
def VGroup.isIdentityElem (G : VGroup) (e : G.Elem) : Bool := G.elemCtEq G.identityElem e

/-- Models the trait `CipherSuite`, `src/ciphersuite.rs:19-35`. `ID: &'static str` is represented by
its UTF-8 bytes (`as_bytes`, and `len` counts bytes). -/
structure CipherSuite where
  ID : Bytes
  group : VGroup
  hash : HashAlg

/-- `CS::Group::Elem` (`src/group/mod.rs:33`, `src/ciphersuite.rs:30`) -/
abbrev CipherSuite.Elem (CS : CipherSuite) := CS.group.Elem
/-- `CS::Group::Scalar` (`src/group/mod.rs:43`, `src/ciphersuite.rs:30`) -/
abbrev CipherSuite.Scalar (CS : CipherSuite) := CS.group.Scalar

/-- Models `src/common.rs:45-52` (`pub enum Mode`). -/
inductive Mode
  | Oprf
  | Voprf
  | Poprf
  deriving DecidableEq, Repr

/-- Models `src/common.rs:56-62` (`Mode::to_u8`). -/
def Mode.toU8 : Mode → UInt8
  | .Oprf => 0
  | .Voprf => 1
  | .Poprf => 2

end Voprf
