import Verif.Base

/-!
# RFC 9380 pseudo-code, transcribed: message expansion

Independent of the model.  `H` is the hash function, `b` its output size and `s` its block size in bytes.
Numbers are encoded by `i2osp`, decoded by `os2ip`.
-/

namespace Rfc9380

open Voprf (Bytes)

/-- RFC 8017 §4.1 `I2OSP(x, len)`: big-endian, `len` bytes (the value is reduced modulo `256^len`). -/
def i2osp (x : Nat) : (len : Nat) → Bytes
  | 0 => []
  | len + 1 => i2osp (x / 256) len ++ [UInt8.ofNat (x % 256)]

/-- RFC 8017 §4.2 `OS2IP(bytes)`: big-endian. -/
def os2ip (bytes : Bytes) : Nat := bytes.foldl (fun acc c => acc * 256 + c.toNat) 0

/-- RFC 9380 §4 `strxor`. -/
def strxor (x y : Bytes) : Bytes := List.zipWith (· ^^^ ·) x y

/-- RFC 9380 §5.3.3: an over-long tag is replaced by its hash. -/
def shortDst (H : Bytes → Bytes) (DST : Bytes) : Bytes :=
  if DST.length > 255 then H ("H2C-OVERSIZE-DST-".toList.map (fun c => UInt8.ofNat c.toNat) ++ DST)
  else DST

/-- RFC 9380 §5.3.1, step 3: `DST_prime = DST || I2OSP(len(DST), 1)`. -/
def dstPrime (DST : Bytes) : Bytes := DST ++ i2osp DST.length 1

/-- RFC 9380 §5.3.1, steps 4-7: `b_0`. -/
def b0 (H : Bytes → Bytes) (s : Nat) (msg DST : Bytes) (lenInBytes : Nat) : Bytes :=
  let Z_pad := i2osp 0 s
  let l_i_b_str := i2osp lenInBytes 2
  let msg_prime := Z_pad ++ msg ++ l_i_b_str ++ i2osp 0 1 ++ dstPrime DST
  H msg_prime

/-- RFC 9380 §5.3.1, steps 8-10: `b_i` for `i ≥ 1`. -/
def block (H : Bytes → Bytes) (b_0 DST : Bytes) : Nat → Bytes
  | 0 => b_0
  | 1 => H (b_0 ++ i2osp 1 1 ++ dstPrime DST)
  | i + 2 => H (strxor b_0 (block H b_0 DST (i + 1)) ++ i2osp (i + 2) 1 ++ dstPrime DST)

/-- RFC 9380 §5.3.1 `expand_message_xmd(msg, DST, len_in_bytes)`; `none` is ABORT. The RFC leaves an empty
tag to the caller (§3.1: "MUST be nonempty"); it aborts here. -/
def expandMessageXmd (H : Bytes → Bytes) (b s : Nat) (msg DST : Bytes) (lenInBytes : Nat) :
    Option Bytes :=
  let ell := (lenInBytes + b - 1) / b
  if ell > 255 ∨ lenInBytes > 65535 ∨ lenInBytes = 0 ∨ DST.length = 0 then none
  else
    let DST := shortDst H DST
    let b_0 := b0 H s msg DST lenInBytes
    let uniform_bytes := (List.range ell).flatMap fun i => block H b_0 DST (i + 1)
    some (uniform_bytes.take lenInBytes)

end Rfc9380
