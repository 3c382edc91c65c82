import Verif.Model.Ristretto
import Mathlib.Algebra.Module.Defs
import Mathlib.Algebra.Module.ZMod

/-!
# What the crate needs of `curve25519-dalek`

RFC 9496 §4: ristretto255 is a group of prime order ℓ with a canonical 32-byte encoding of every element.  Proved of the
formulas of the RFC in `Lemmas/RistrettoPoint.lean`.
-/

namespace Voprf.Ristretto

/-- RFC 9496 §4: an abelian group with scalar multiplication, generated by the base point, whose encoding is
total, injective and canonical (a string decodes only if it is the encoding of the result). -/
class Dalek.Lawful (D : Dalek) where
  [addCommGroup : AddCommGroup D.Point]
  [module : Module Scalar D.Point]
  identity_eq : D.identity = 0
  add_eq : ∀ P Q, D.add P Q = P + Q
  mul_eq : ∀ P k, D.mul P k = k • P
  ctEq_iff : ∀ P Q, D.ctEq P Q = true ↔ P = Q
  zeroize_eq : ∀ P, D.zeroize P = 0
  basepoint_ne_zero : D.basepoint ≠ 0
  generates : ∀ P : D.Point, ∃ k : Scalar, P = k • D.basepoint
  decompress_compress : ∀ P, D.decompress (D.compress P) = some P
  decompress_canonical : ∀ b P, D.decompress b = some P → b = D.compress P

attribute [reducible, instance] Dalek.Lawful.addCommGroup Dalek.Lawful.module

end Voprf.Ristretto
