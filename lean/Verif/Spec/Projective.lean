import Verif.Model.Primeorder
import Verif.Lemmas.Nist

/-!
# What a computation on projective points should mean

An expression over points is evaluated twice: with the formulas of `primeorder` on projective coordinates, and
in the group of the curve (Mathlib's chord-and-tangent law).
-/

namespace Voprf.Nist.Primeorder

variable {c : Params}

/-- The affine coordinates of a point; `AffinePoint::IDENTITY` is `(0, 0)` with the flag `infinity`. -/
def coords : c.Point → Affine c
  | .zero => ⟨0, 0, true⟩
  | .some x y _ => ⟨x, y, false⟩

/-- Everything the API of `ProjectivePoint` lets one compute from decoded or hashed points. -/
inductive Expr (c : Params) where
  | identity
  | generator
  | point (A : c.Point)
  | add (e f : Expr c)
  | sub (e f : Expr c)
  | neg (e : Expr c)
  | double (e : Expr c)
  | mul (e : Expr c) (k : c.Fn)

/-- The value computed by `primeorder`, for scalars held in integers of `windows` hexadecimal digits. -/
def Expr.run (windows : Nat) : Expr c → Proj c
  | .identity => .IDENTITY
  | .generator => .GENERATOR
  | .point A => .ofAffine (coords A)
  | .add e f => (e.run windows).add (f.run windows)
  | .sub e f => (e.run windows).sub (f.run windows)
  | .neg e => (e.run windows).neg
  | .double e => (e.run windows).double
  | .mul e k => (e.run windows).mul windows k

/-- The value in the group of the curve; a scalar multiple is repeated addition. -/
noncomputable def Expr.value : Expr c → c.Point
  | .identity => 0
  | .generator => baseElem c
  | .point A => A
  | .add e f => e.value + f.value
  | .sub e f => e.value - f.value
  | .neg e => -e.value
  | .double e => e.value + e.value
  | .mul e k => k.val • e.value

end Voprf.Nist.Primeorder
