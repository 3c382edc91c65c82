import Verif.Model.Group
import Mathlib.Algebra.Module.Defs
import Mathlib.Algebra.Field.Defs
import Mathlib.Algebra.Module.Torsion.Field
import Mathlib.Data.Finite.Defs

/-!
# The contract of the `Group` trait

`VGroup.Lawful` is what the documentation of `src/group/mod.rs:29-118` promises about an implementation:
a prime-order group written additively (a one-dimensional vector space over its finite scalar field),
equality tests that decide equality, fixed-length codecs that round-trip and refuse the identity and
zero, non-zero random scalars, and hashes that accept every input of 1 to 65535 bytes.
`TotalHash` says that hashing accepts every input (true of both implementations shipped with the crate,
see `Props/Groups.lean`).
-/

namespace Voprf

/-- The behavioural contract of `Group` (`src/group/mod.rs:29-118`). -/
class VGroup.Lawful (G : VGroup) where
  [field : Field G.Scalar]
  [addCommGroup : AddCommGroup G.Elem]
  [module : Module G.Scalar G.Elem]
  /-- the scalar field is finite -/
  finite_scalar : Finite G.Scalar
  elemAdd_eq : ∀ P Q, G.elemAdd P Q = P + Q
  elemMul_eq : ∀ P k, G.elemMul P k = k • P
  elemCtEq_iff : ∀ P Q, G.elemCtEq P Q = true ↔ P = Q
  scalarAdd_eq : ∀ a b, G.scalarAdd a b = a + b
  scalarMul_eq : ∀ a b, G.scalarMul a b = a * b
  scalarSub_eq : ∀ a b, G.scalarSub a b = a - b
  scalarCtEq_iff : ∀ a b, G.scalarCtEq a b = true ↔ a = b
  elemZeroize_eq : ∀ P, G.elemZeroize P = 0
  scalarZeroize_eq : ∀ a, G.scalarZeroize a = 0
  identityElem_eq : G.identityElem = 0
  baseElem_ne_zero : G.baseElem ≠ 0
  /-- the base element generates the group (prime order) -/
  base_generates : ∀ P : G.Elem, ∃ k : G.Scalar, P = k • G.baseElem
  isZeroScalar_iff : ∀ a, G.isZeroScalar a = true ↔ a = 0
  invertScalar_eq : ∀ a, a ≠ 0 → G.invertScalar a = some a⁻¹
  /-- a random scalar is never zero -/
  randomScalar_ne_zero : ∀ {σ : Type} [RngCore σ] (s s' : σ) (k : G.Scalar),
    G.randomScalar s = some (k, s') → k ≠ 0
  deserializeElem_serialize : ∀ P, P ≠ 0 → G.deserializeElem (G.serializeElem P) = .ok P
  deserializeElem_serialize_zero :
    G.deserializeElem (G.serializeElem 0) = .error .Deserialization
  deserializeElem_ne_zero : ∀ b P, G.deserializeElem b = .ok P → P ≠ 0
  deserializeElem_error : ∀ b e, G.deserializeElem b = .error e → e = .Deserialization
  deserializeScalar_serialize : ∀ a, a ≠ 0 → G.deserializeScalar (G.serializeScalar a) = .ok a
  deserializeScalar_serialize_zero :
    G.deserializeScalar (G.serializeScalar 0) = .error .Deserialization
  deserializeScalar_ne_zero : ∀ b a, G.deserializeScalar b = .ok a → a ≠ 0
  deserializeScalar_error : ∀ b e, G.deserializeScalar b = .error e → e = .Deserialization
  /-- the slices of a message and of a domain-separation tag are simply concatenated -/
  hashToCurve_flatten : ∀ H xs ds, G.hashToCurve H xs ds = G.hashToCurve H [xs.flatten] [ds.flatten]
  hashToScalar_flatten : ∀ H xs ds,
    G.hashToScalar H xs ds = G.hashToScalar H [xs.flatten] [ds.flatten]
  /-- hashing fails only on an empty or an over-long input (`src/group/mod.rs:55-57`), or for an
  empty domain-separation tag -/
  hashToCurve_ok : ∀ H x d, 1 ≤ x.length → x.length ≤ 65535 → 1 ≤ d.length →
    ∃ P, G.hashToCurve H [x] [d] = .ok P
  hashToScalar_ok : ∀ H x d, 1 ≤ x.length → x.length ≤ 65535 → 1 ≤ d.length →
    ∃ k, G.hashToScalar H [x] [d] = .ok k

attribute [reducible, instance] VGroup.Lawful.field VGroup.Lawful.addCommGroup
  VGroup.Lawful.module

/-- Hashing accepts every message (under a non-empty tag). -/
structure VGroup.TotalHash (G : VGroup) : Prop where
  hashToCurve_ok : ∀ H x d, 1 ≤ d.length → ∃ P, G.hashToCurve H [x] [d] = .ok P
  hashToScalar_ok : ∀ H x d, 1 ≤ d.length → ∃ k, G.hashToScalar H [x] [d] = .ok k

/-- Decoding is canonical: only the encoding of a value decodes to that value. -/
structure VGroup.Canonical (G : VGroup) : Prop where
  elem : ∀ b P, G.deserializeElem b = .ok P → b = G.serializeElem P
  scalar : ∀ b a, G.deserializeScalar b = .ok a → b = G.serializeScalar a

/-- Size conditions on a ciphersuite: the domain-separation tags fit (`assert!` at
`src/common.rs:521-528`), and the proof transcripts stay within the hash's 65535-byte limit. All RFC 9497
suites satisfy it by three orders of magnitude. -/
structure CipherSuite.WF (CS : CipherSuite) : Prop where
  id_length : CS.ID.length + 22 ≤ 65535
  elem_length : 5 * (CS.group.elemLen + 2) + 9 ≤ 65535

end Voprf
