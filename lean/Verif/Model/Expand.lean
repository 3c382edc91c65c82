import Verif.Model.Group

/-!
# Model of the message expander the group implementations use

`src/group/ristretto.rs:54-57,71-74` call `ExpandMsgXmd::<H>::expand_message(..)` and `fill_bytes`;
`src/group/elliptic_curve.rs:47,56-57` reach the same code through `GroupDigest`.  The code lives in the
dependency `elliptic-curve` 0.13, `src/hash2curve/hash2field{.rs,/expand_msg.rs,/expand_msg/xmd.rs}`; it is
modelled from its published source (not present in the sandbox).  `HashT::update` sequences become
concatenations (see `Digest` in `Model/Group.lean`).
-/

namespace Voprf.H2C

/-- The salt `b"H2C-OVERSIZE-DST-"` (`expand_msg.rs`, `OVERSIZE_DST_SALT`). Called from `src/group/ristretto.rs:54-56,69-71`
and, through `hash_to_field`, `src/group/elliptic_curve.rs:47,56`. -/
def OVERSIZE_DST_SALT : Bytes :=
  [72, 50, 67, 45, 79, 86, 69, 82, 83, 73, 90, 69, 45, 68, 83, 84, 45]

/-- `expand_msg.rs`, `enum Domain`. Called from `src/group/ristretto.rs:54-56,69-71` and, through `hash_to_field`,
`src/group/elliptic_curve.rs:47,56`. -/
inductive Domain
  | hashed (data : Bytes)
  | array (dsts : List Bytes)

/-- `expand_msg.rs`, `Domain::xmd`: refuses an empty tag, hashes one longer than 255 bytes. Called from
`src/group/ristretto.rs:54-56,69-71` and, through `hash_to_field`, `src/group/elliptic_curve.rs:47,56`. -/
def Domain.xmd (H : HashAlg) (dsts : List Bytes) : Option Domain :=
  let len := (dsts.map List.length).sum
  if len = 0 then none
  else if len > 255 then
    some (.hashed (Digest.new.chainUpdate OVERSIZE_DST_SALT |>.chainUpdateMulti dsts |>.finalize H))
  else some (.array dsts)

/-- `expand_msg.rs`, `Domain::update_hash`. Called from `src/group/ristretto.rs:54-56,69-71` and, through `hash_to_field`,
`src/group/elliptic_curve.rs:47,56`. -/
def Domain.updateHash (d : Domain) (hash : Digest) : Digest :=
  match d with
  | .hashed data => hash.chainUpdate data
  | .array dsts => hash.chainUpdateMulti dsts

/-- `expand_msg.rs`, `Domain::len`: a `u8`. Called from `src/group/ristretto.rs:54-56,69-71` and, through `hash_to_field`,
`src/group/elliptic_curve.rs:47,56`. -/
def Domain.len : Domain → UInt8
  | .hashed data => UInt8.ofNat data.length
  | .array dsts => UInt8.ofNat (dsts.map List.length).sum

/-- `xmd.rs`, `struct ExpanderXmd`. Called from `src/group/ristretto.rs:54-56,69-71` and, through `hash_to_field`,
`src/group/elliptic_curve.rs:47,56`. -/
structure ExpanderXmd where
  b0 : Bytes
  bVals : Bytes
  domain : Domain
  index : Nat
  offset : Nat
  ell : Nat

/-- `xmd.rs`, `ExpandMsgXmd::expand_message`. Called from `src/group/ristretto.rs:54-56,69-71` and, through `hash_to_field`,
`src/group/elliptic_curve.rs:47,56`. -/
def expandMessage (H : HashAlg) (msgs dsts : List Bytes) (lenInBytes : Nat) : Option ExpanderXmd := do
  if lenInBytes = 0 then none
  let lenU16 ← u16TryFrom lenInBytes
  let bInBytes := H.outputSize
  let ell := (lenInBytes + bInBytes - 1) / bInBytes
  if ell > 255 then none
  let domain ← Domain.xmd H dsts
  let h := Digest.new.chainUpdate (List.replicate H.blockSize 0)
  let h := h.chainUpdateMulti msgs
  let h := h.chainUpdate (u16ToBeBytes lenU16)
  let h := h.chainUpdate [0]
  let h := domain.updateHash h
  let h := h.chainUpdate [domain.len]
  let b0 := h.finalize H
  let h := Digest.new.chainUpdate b0
  let h := h.chainUpdate [1]
  let h := domain.updateHash h
  let h := h.chainUpdate [domain.len]
  let bVals := h.finalize H
  some { b0 := b0, bVals := bVals, domain := domain, index := 1, offset := 0, ell := ell }

/-- `xmd.rs`, `ExpanderXmd::next`; `none` when it returns `false`. Called from `src/group/ristretto.rs:54-56,69-71` and,
through `hash_to_field`, `src/group/elliptic_curve.rs:47,56`. -/
def ExpanderXmd.next (H : HashAlg) (e : ExpanderXmd) : Option ExpanderXmd :=
  if e.index < e.ell then
    let index := e.index + 1
    let tmp := List.zipWith (· ^^^ ·) e.b0 e.bVals
    let h := Digest.new.chainUpdate tmp
    let h := h.chainUpdate [UInt8.ofNat index]
    let h := e.domain.updateHash h
    let h := h.chainUpdate [e.domain.len]
    some { e with bVals := h.finalize H, index := index, offset := 0 }
  else none

/-- `xmd.rs`, `Expander::fill_bytes` on a zeroed buffer of the given length: one byte per iteration,
stopping early (leaving zeros) when the expander is exhausted. Called from `src/group/ristretto.rs:54-56,69-71` and, through
`hash_to_field`, `src/group/elliptic_curve.rs:47,56`. -/
def ExpanderXmd.fillBytes (H : HashAlg) : (n : Nat) → ExpanderXmd → Bytes × ExpanderXmd
  | 0, e => ([], e)
  | n + 1, e =>
      match (if e.offset = e.bVals.length then e.next H else some e) with
      | none => (List.replicate (n + 1) 0, e)
      | some e =>
          let r := fillBytes H n { e with offset := e.offset + 1 }
          (e.bVals.getD e.offset 0 :: r.1, r.2)

/-- `hash2field.rs`, `hash_to_field` with `count` outputs of `L` bytes each, before `from_okm`. Called from
`src/group/elliptic_curve.rs:47,56`. -/
def fillMany (H : HashAlg) (L : Nat) : (count : Nat) → ExpanderXmd → List Bytes
  | 0, _ => []
  | count + 1, e =>
      let r := e.fillBytes H L
      r.1 :: fillMany H L count r.2

/-- `hash2field.rs`, `hash_to_field`; the `checked_mul`/`u16` conversions cannot fail for the lengths used. Called from
`src/group/elliptic_curve.rs:47,56`. -/
def hashToFieldBytes (H : HashAlg) (msgs dsts : List Bytes) (L count : Nat) : Option (List Bytes) := do
  let e ← expandMessage H msgs dsts (L * count)
  some (fillMany H L count e)

end Voprf.H2C
