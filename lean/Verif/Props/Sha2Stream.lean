import Verif.Lemmas.Sha2Stream
import Verif.Spec.Sha2

/-!
# C59: hashing piece by piece is hashing the concatenation
-/

namespace Sha2

open Voprf (Bytes Digest HashAlg)

/-- `piecewise` is an incremental implementation of the hash `H`: fed the pieces one after the other, it returns `H` of
their concatenation. -/
def Streams (piecewise : List Bytes → Bytes) (H : Bytes → Bytes) : Prop :=
  ∀ parts : List Bytes, piecewise parts = H parts.flatten

/-- C59: the buffering hashers of `sha2` compute FIPS 180-4 of the concatenated pieces, whatever their number and their
lengths: empty, shorter than a block, ending on a block boundary or spanning several blocks. -/
theorem C59_streams :
    Streams Stream.sha256 sha256 ∧ Streams Stream.sha384 sha384 ∧ Streams Stream.sha512 sha512 := by
  refine ⟨fun parts => ?_, fun parts => ?_, fun parts => ?_⟩
  · exact Stream.stream_eq (by decide) iv256 parts
  · exact congrArg (List.take 48) (Stream.stream_eq (by decide) iv384 parts)
  · exact Stream.stream_eq (by decide) iv512 parts

/-- C59: so the output depends on the bytes only, not on how they were cut into pieces. -/
theorem C59_cut_irrelevant {parts parts' : List Bytes} (h : parts.flatten = parts'.flatten) :
    Stream.sha256 parts = Stream.sha256 parts' ∧ Stream.sha384 parts = Stream.sha384 parts' ∧
    Stream.sha512 parts = Stream.sha512 parts' := by
  obtain ⟨h1, h2, h3⟩ := C59_streams
  refine ⟨?_, ?_, ?_⟩
  · rw [h1, h1, h]
  · rw [h2, h2, h]
  · rw [h3, h3, h]

/-- The pieces are absorbed in order. -/
theorem absorbed_chainUpdateMulti : ∀ (parts : List Bytes) (d : Digest),
    (d.chainUpdateMulti parts).absorbed = d.absorbed ++ parts.flatten
  | [], d => by simp [Digest.chainUpdateMulti]
  | p :: ps, d => by
      have := absorbed_chainUpdateMulti ps (d.chainUpdate p)
      rw [Digest.chainUpdateMulti] at this ⊢
      rw [List.foldl_cons, this]
      simp [Digest.chainUpdate]

/-- C59: hence the hasher that the model of the crate uses, which collects the bytes and hashes them at the end, returns
what `sha2` returns after the same updates. -/
theorem C59_digest (parts : List Bytes) :
    (Digest.new.chainUpdateMulti parts).finalize Sha256 = Stream.sha256 parts ∧
    (Digest.new.chainUpdateMulti parts).finalize Sha384 = Stream.sha384 parts ∧
    (Digest.new.chainUpdateMulti parts).finalize Sha512 = Stream.sha512 parts := by
  obtain ⟨h1, h2, h3⟩ := C59_streams
  rw [h1, h2, h3]
  simp only [Digest.finalize, absorbed_chainUpdateMulti, Digest.new, List.nil_append]
  exact ⟨rfl, rfl, rfl⟩

/-- C59: cutting one update in two changes nothing. -/
theorem C59_split (before after : List Bytes) (a b : Bytes) :
    Stream.sha256 (before ++ (a ++ b) :: after) = Stream.sha256 (before ++ a :: b :: after) ∧
    Stream.sha384 (before ++ (a ++ b) :: after) = Stream.sha384 (before ++ a :: b :: after) ∧
    Stream.sha512 (before ++ (a ++ b) :: after) = Stream.sha512 (before ++ a :: b :: after) :=
  C59_cut_irrelevant (by simp)

/-- A concrete case: `"abc"` in three pieces, one of them empty, against the digest published by NIST. -/
example : Stream.sha256 [[0x61], [], [0x62, 0x63]] =
    [0xba, 0x78, 0x16, 0xbf, 0x8f, 0x01, 0xcf, 0xea, 0x41, 0x41, 0x40, 0xde, 0x5d, 0xae, 0x22, 0x23,
     0xb0, 0x03, 0x61, 0xa3, 0x96, 0x17, 0x7a, 0x9c, 0xb4, 0x10, 0xff, 0x61, 0xf2, 0x00, 0x15, 0xad] := by
  decide +kernel

/-- Another one: a piece that fills the buffer exactly, one that spans two blocks, and a rest. -/
example : Stream.sha256 [List.replicate 60 1, List.replicate 4 2, List.replicate 130 3, [4]] =
    sha256 (List.replicate 60 1 ++ List.replicate 4 2 ++ List.replicate 130 3 ++ [4]) := by
  decide +kernel

end Sha2
