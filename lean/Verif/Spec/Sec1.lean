import Verif.Spec.Rfc9380

/-!
# SEC 1 point encodings, transcribed

SEC 1 v2.0 §2.3.3, for a field whose elements are given as integers below `p` and encoded in `len` bytes;
independent of the model.  The compact form is draft-jivsov-ecc-compact-05 §4.1 (`tag 05`): only the
`x` coordinate of a point whose `y` is the smaller of `y` and `p - y`.
-/

namespace Sec1

open Voprf (Bytes)
open Rfc9380 (i2osp)

/-- `02 || X` or `03 || X` -/
def compressed (len x y : Nat) : Bytes := UInt8.ofNat (2 + y % 2) :: i2osp x len

/-- `04 || X || Y` -/
def uncompressed (len x y : Nat) : Bytes := 4 :: (i2osp x len ++ i2osp y len)

/-- `05 || X` -/
def compact (len x : Nat) : Bytes := 5 :: i2osp x len

end Sec1
