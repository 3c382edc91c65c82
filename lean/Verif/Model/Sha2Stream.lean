import Verif.Spec.Sha2

/-!
# Model of the incremental hashers `sha2::{Sha256, Sha384, Sha512}`

Every hash input of the crate is fed to a hasher piece by piece (`src/common.rs:306-311,486-498,551-558`,
`src/oprf.rs:276-282`, `src/voprf.rs:569-575`, `src/poprf.rs:765-773`).  The hashers are the crates `sha2` 0.10 (compression,
length counter), `block-buffer` 0.10 (the buffer for an incomplete block) and `digest` 0.10 (the wrapper); modelled from
their published source, which is not in the sandbox.  The compression function itself is that of `Spec/Sha2.lean`.

The buffer is modelled by its used prefix; `pos` is its length.  The counters are not bounded: the length written at the
end is reduced to the width of the length field, as the wrapping counters would be.
-/

namespace Sha2.Stream

open Voprf (Bytes)

/-- `sha2::core_api::{Sha256VarCore, Sha512VarCore}` inside `CoreWrapper`, which adds the buffer. The hash of
`src/ciphersuite.rs:34`, `src/group/ristretto.rs:34`. -/
structure Hasher where
  state : State
  blockLen : Nat
  buffer : Bytes

/-- The block size in bytes: 64 or 128. The hash of `src/ciphersuite.rs:34`, `src/group/ristretto.rs:34`. -/
def blockSize (v : Variant) : Nat := 16 * (v.w / 8)

/-- `compress256` / `compress512` on a list of blocks (the hash of `src/ciphersuite.rs:34`, `src/group/ristretto.rs:34`) -/
def compressBlocks (v : Variant) (s : State) (blocks : List Bytes) : State :=
  blocks.foldl (fun H b => compress v H ((chunks (v.w / 8) 16 b).map word)) s

/-- `Digest::new` (`src/common.rs:306,486`) -/
def Hasher.new (iv : State) : Hasher := ⟨iv, 0, []⟩

/-- `UpdateCore::update_blocks` (the hash of `src/ciphersuite.rs:34`, `src/group/ristretto.rs:34`) -/
def Hasher.updateBlocks (v : Variant) (h : Hasher) (blocks : List Bytes) : Hasher :=
  { h with blockLen := h.blockLen + blocks.length, state := compressBlocks v h.state blocks }

/-- `Update::update`, i.e. `BlockBuffer::digest_blocks`: short data is buffered; else the buffered block is completed and
compressed, then the complete blocks of the rest, and the leftover is buffered. `src/common.rs:307-310,487-497,554`. -/
def Hasher.update (v : Variant) (h : Hasher) (input : Bytes) : Hasher :=
  let pos := h.buffer.length
  let rem := blockSize v - pos
  if input.length < rem then { h with buffer := h.buffer ++ input }
  else
    let (h, input) :=
      if pos ≠ 0 then (h.updateBlocks v [h.buffer ++ input.take rem], input.drop rem) else (h, input)
    let nBlocks := input.length / blockSize v
    let h := if nBlocks ≠ 0 then h.updateBlocks v (chunks (blockSize v) nBlocks input) else h
    { h with buffer := input.drop (nBlocks * blockSize v) }

/-- `BlockBuffer::digest_pad` with the delimiter `0x80`, called by `len64_padding_be` and `len128_padding_be`; returns the
final state. Inside `finalize`, `src/common.rs:311,498`. -/
def digestPad (v : Variant) (s : State) (buffer suffix : Bytes) : State :=
  let size := blockSize v
  let pos := buffer.length
  let buffer := buffer ++ [0x80] ++ List.replicate (size - (pos + 1)) 0
  let n := size - suffix.length
  if size - pos - 1 < suffix.length then
    compressBlocks v (compressBlocks v s [buffer]) [List.replicate n 0 ++ suffix]
  else compressBlocks v s [buffer.take n ++ suffix]

/-- `VariableOutputCore::finalize_variable_core`: the bit length in two words, then the state as big-endian words.
`src/common.rs:311,498`. -/
def Hasher.finalize (v : Variant) (h : Hasher) : Bytes :=
  let bitLen := 8 * (h.buffer.length + blockSize v * h.blockLen)
  let wb := v.w / 8
  let s := digestPad v h.state h.buffer (bytesOf (2 * wb) bitLen)
  bytesOf wb s.a ++ bytesOf wb s.b ++ bytesOf wb s.c ++ bytesOf wb s.d ++
  bytesOf wb s.e ++ bytesOf wb s.f ++ bytesOf wb s.g ++ bytesOf wb s.h

/-- `Digest::new().chain_update(..)….finalize()` for `Sha256` (`src/common.rs:306-311,486-498`) -/
def sha256 (parts : List Bytes) : Bytes :=
  (parts.foldl (Hasher.update sha256v) (.new iv256)).finalize sha256v

/-- `Sha512` (`src/common.rs:306-311,486-498`, `src/group/ristretto.rs:34`) -/
def sha512 (parts : List Bytes) : Bytes :=
  (parts.foldl (Hasher.update sha512v) (.new iv512)).finalize sha512v

/-- `Sha384`: the output is truncated by `CtVariableCoreWrapper` (`src/common.rs:306-311,486-498`) -/
def sha384 (parts : List Bytes) : Bytes :=
  ((parts.foldl (Hasher.update sha512v) (.new iv384)).finalize sha512v).take 48

end Sha2.Stream
