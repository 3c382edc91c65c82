import Verif.Model.Group

/-!
# SHA-256, SHA-384 and SHA-512 (FIPS 180-4)

The hash functions of the ciphersuites of RFC 9497, transcribed from FIPS 180-4 (the crate takes them from the
dependency `sha2`).  Words are natural numbers below `2 ^ w`.
-/

namespace Sha2

open Voprf (Bytes)

/-- The parameters that distinguish the two compression functions. -/
structure Variant where
  /-- word size in bits -/
  w : Nat
  /-- `Σ₀`, `Σ₁`: rotation amounts; `σ₀`, `σ₁`: two rotations and a shift -/
  S0 : Nat × Nat × Nat
  S1 : Nat × Nat × Nat
  s0 : Nat × Nat × Nat
  s1 : Nat × Nat × Nat
  /-- round constants -/
  K : List Nat

/-- §3.2 `ROTR^n(x)` -/
def rotr (w n x : Nat) : Nat := (x >>> n) ||| ((x <<< (w - n)) % 2 ^ w)

/-- §4.1 `Σ` -/
def bigSigma (w : Nat) (r : Nat × Nat × Nat) (x : Nat) : Nat :=
  rotr w r.1 x ^^^ rotr w r.2.1 x ^^^ rotr w r.2.2 x

/-- §4.1 `σ` -/
def smallSigma (w : Nat) (r : Nat × Nat × Nat) (x : Nat) : Nat :=
  rotr w r.1 x ^^^ rotr w r.2.1 x ^^^ (x >>> r.2.2)

/-- §4.1 `Ch(x, y, z) = (x ∧ y) ⊕ (¬x ∧ z)` -/
def ch (w x y z : Nat) : Nat := (x &&& y) ^^^ ((2 ^ w - 1 - x) &&& z)

/-- §4.1 `Maj` -/
def maj (x y z : Nat) : Nat := (x &&& y) ^^^ (x &&& z) ^^^ (y &&& z)

/-- The working variables `a … h`, also the chaining value. -/
structure State where
  a : Nat
  b : Nat
  c : Nat
  d : Nat
  e : Nat
  f : Nat
  g : Nat
  h : Nat

/-- §6.2.2 step 1: the message schedule, extended word by word; the argument holds the words so far,
latest first. -/
def schedule (v : Variant) : (n : Nat) → (rev : List Nat) → List Nat
  | 0, rev => rev.reverse
  | n + 1, rev =>
      let wt := (smallSigma v.w v.s1 (rev.getD 1 0) + rev.getD 6 0 + smallSigma v.w v.s0 (rev.getD 14 0) +
        rev.getD 15 0) % 2 ^ v.w
      schedule v n (wt :: rev)

/-- §6.2.2 step 3: one round. -/
def round (v : Variant) (s : State) (kw : Nat × Nat) : State :=
  let t1 := s.h + bigSigma v.w v.S1 s.e + ch v.w s.e s.f s.g + kw.1 + kw.2
  let t2 := bigSigma v.w v.S0 s.a + maj s.a s.b s.c
  ⟨(t1 + t2) % 2 ^ v.w, s.a, s.b, s.c, (s.d + t1) % 2 ^ v.w, s.e, s.f, s.g⟩

/-- §6.2.2: compression of one block of 16 words. -/
def compress (v : Variant) (H : State) (block : List Nat) : State :=
  let W := schedule v (v.K.length - 16) block.reverse
  let s := (v.K.zip W).foldl (round v) H
  let m := 2 ^ v.w
  ⟨(H.a + s.a) % m, (H.b + s.b) % m, (H.c + s.c) % m, (H.d + s.d) % m,
   (H.e + s.e) % m, (H.f + s.f) % m, (H.g + s.g) % m, (H.h + s.h) % m⟩

/-- Big-endian number of a byte string. -/
def word (b : Bytes) : Nat := b.foldl (fun acc c => acc * 256 + c.toNat) 0

/-- Big-endian bytes. -/
def bytesOf : (len : Nat) → Nat → Bytes
  | 0, _ => []
  | len + 1, x => bytesOf len (x / 256) ++ [UInt8.ofNat (x % 256)]

/-- Consecutive chunks of `n` bytes. -/
def chunks (n : Nat) : (count : Nat) → Bytes → List Bytes
  | 0, _ => []
  | count + 1, b => b.take n :: chunks n count (b.drop n)

/-- §5.1: padding to a multiple of the block size (`16` words), with the length in bits in the last two words. -/
def pad (v : Variant) (msg : Bytes) : Bytes :=
  let wb := v.w / 8
  let block := 16 * wb
  let zeros := (block - (msg.length + 1 + 2 * wb) % block) % block
  msg ++ [0x80] ++ List.replicate zeros 0 ++ bytesOf (2 * wb) (8 * msg.length)

/-- §6.2: the hash computation, as the list of the eight words. -/
def hash (v : Variant) (iv : State) (msg : Bytes) : Bytes :=
  let wb := v.w / 8
  let block := 16 * wb
  let p := pad v msg
  let s := (chunks block (p.length / block) p).foldl
    (fun H b => compress v H ((chunks wb 16 b).map word)) iv
  bytesOf wb s.a ++ bytesOf wb s.b ++ bytesOf wb s.c ++ bytesOf wb s.d ++
  bytesOf wb s.e ++ bytesOf wb s.f ++ bytesOf wb s.g ++ bytesOf wb s.h

/-- §4.1.2, §4.2.2 -/
def sha256v : Variant where
  w := 32
  S0 := (2, 13, 22)
  S1 := (6, 11, 25)
  s0 := (7, 18, 3)
  s1 := (17, 19, 10)
  K :=
    [0x428a2f98, 0x71374491, 0xb5c0fbcf, 0xe9b5dba5, 0x3956c25b, 0x59f111f1, 0x923f82a4, 0xab1c5ed5,
     0xd807aa98, 0x12835b01, 0x243185be, 0x550c7dc3, 0x72be5d74, 0x80deb1fe, 0x9bdc06a7, 0xc19bf174,
     0xe49b69c1, 0xefbe4786, 0x0fc19dc6, 0x240ca1cc, 0x2de92c6f, 0x4a7484aa, 0x5cb0a9dc, 0x76f988da,
     0x983e5152, 0xa831c66d, 0xb00327c8, 0xbf597fc7, 0xc6e00bf3, 0xd5a79147, 0x06ca6351, 0x14292967,
     0x27b70a85, 0x2e1b2138, 0x4d2c6dfc, 0x53380d13, 0x650a7354, 0x766a0abb, 0x81c2c92e, 0x92722c85,
     0xa2bfe8a1, 0xa81a664b, 0xc24b8b70, 0xc76c51a3, 0xd192e819, 0xd6990624, 0xf40e3585, 0x106aa070,
     0x19a4c116, 0x1e376c08, 0x2748774c, 0x34b0bcb5, 0x391c0cb3, 0x4ed8aa4a, 0x5b9cca4f, 0x682e6ff3,
     0x748f82ee, 0x78a5636f, 0x84c87814, 0x8cc70208, 0x90befffa, 0xa4506ceb, 0xbef9a3f7, 0xc67178f2]

/-- §4.1.3, §4.2.3 -/
def sha512v : Variant where
  w := 64
  S0 := (28, 34, 39)
  S1 := (14, 18, 41)
  s0 := (1, 8, 7)
  s1 := (19, 61, 6)
  K :=
    [0x428a2f98d728ae22, 0x7137449123ef65cd, 0xb5c0fbcfec4d3b2f, 0xe9b5dba58189dbbc,
     0x3956c25bf348b538, 0x59f111f1b605d019, 0x923f82a4af194f9b, 0xab1c5ed5da6d8118,
     0xd807aa98a3030242, 0x12835b0145706fbe, 0x243185be4ee4b28c, 0x550c7dc3d5ffb4e2,
     0x72be5d74f27b896f, 0x80deb1fe3b1696b1, 0x9bdc06a725c71235, 0xc19bf174cf692694,
     0xe49b69c19ef14ad2, 0xefbe4786384f25e3, 0x0fc19dc68b8cd5b5, 0x240ca1cc77ac9c65,
     0x2de92c6f592b0275, 0x4a7484aa6ea6e483, 0x5cb0a9dcbd41fbd4, 0x76f988da831153b5,
     0x983e5152ee66dfab, 0xa831c66d2db43210, 0xb00327c898fb213f, 0xbf597fc7beef0ee4,
     0xc6e00bf33da88fc2, 0xd5a79147930aa725, 0x06ca6351e003826f, 0x142929670a0e6e70,
     0x27b70a8546d22ffc, 0x2e1b21385c26c926, 0x4d2c6dfc5ac42aed, 0x53380d139d95b3df,
     0x650a73548baf63de, 0x766a0abb3c77b2a8, 0x81c2c92e47edaee6, 0x92722c851482353b,
     0xa2bfe8a14cf10364, 0xa81a664bbc423001, 0xc24b8b70d0f89791, 0xc76c51a30654be30,
     0xd192e819d6ef5218, 0xd69906245565a910, 0xf40e35855771202a, 0x106aa07032bbd1b8,
     0x19a4c116b8d2d0c8, 0x1e376c085141ab53, 0x2748774cdf8eeb99, 0x34b0bcb5e19b48a8,
     0x391c0cb3c5c95a63, 0x4ed8aa4ae3418acb, 0x5b9cca4f7763e373, 0x682e6ff3d6b2b8a3,
     0x748f82ee5defb2fc, 0x78a5636f43172f60, 0x84c87814a1f0ab72, 0x8cc702081a6439ec,
     0x90befffa23631e28, 0xa4506cebde82bde9, 0xbef9a3f7b2c67915, 0xc67178f2e372532b,
     0xca273eceea26619c, 0xd186b8c721c0c207, 0xeada7dd6cde0eb1e, 0xf57d4f7fee6ed178,
     0x06f067aa72176fba, 0x0a637dc5a2c898a6, 0x113f9804bef90dae, 0x1b710b35131c471b,
     0x28db77f523047d84, 0x32caab7b40c72493, 0x3c9ebe0a15c9bebc, 0x431d67c49c100d4c,
     0x4cc5d4becb3e42b6, 0x597f299cfc657e2a, 0x5fcb6fab3ad6faec, 0x6c44198c4a475817]

/-- §5.3.3 -/
def iv256 : State :=
  ⟨0x6a09e667, 0xbb67ae85, 0x3c6ef372, 0xa54ff53a,
   0x510e527f, 0x9b05688c, 0x1f83d9ab, 0x5be0cd19⟩

/-- §5.3.4 -/
def iv384 : State :=
  ⟨0xcbbb9d5dc1059ed8, 0x629a292a367cd507, 0x9159015a3070dd17, 0x152fecd8f70e5939,
   0x67332667ffc00b31, 0x8eb44a8768581511, 0xdb0c2e0d64f98fa7, 0x47b5481dbefa4fa4⟩

/-- §5.3.5 -/
def iv512 : State :=
  ⟨0x6a09e667f3bcc908, 0xbb67ae8584caa73b, 0x3c6ef372fe94f82b, 0xa54ff53a5f1d36f1,
   0x510e527fade682d1, 0x9b05688c2b3e6c1f, 0x1f83d9abfb41bd6b, 0x5be0cd19137e2179⟩

/-- §6.2 -/
def sha256 (msg : Bytes) : Bytes := hash sha256v iv256 msg

/-- §6.4 -/
def sha512 (msg : Bytes) : Bytes := hash sha512v iv512 msg

/-- §6.5: truncated to the first six words -/
def sha384 (msg : Bytes) : Bytes := (hash sha512v iv384 msg).take 48

theorem bytesOf_length : ∀ len x, (bytesOf len x).length = len
  | 0, _ => rfl
  | len + 1, x => by simp [bytesOf, bytesOf_length len]

theorem hash_length (v : Variant) (iv : State) (msg : Bytes) :
    (hash v iv msg).length = 8 * (v.w / 8) := by
  simp only [hash, List.length_append, bytesOf_length]
  omega

/-- `sha2::Sha256` -/
def Sha256 : Voprf.HashAlg where
  outputSize := 32
  blockSize := 64
  digest := sha256
  digest_length b := hash_length _ _ b
  outputSize_lt := by decide
  outputSize_le := by decide
  outputSize_pos := by decide

/-- `sha2::Sha384` -/
def Sha384 : Voprf.HashAlg where
  outputSize := 48
  blockSize := 128
  digest := sha384
  digest_length b := by
    show ((hash _ _ b).take 48).length = 48
    rw [List.length_take, hash_length]
    rfl
  outputSize_lt := by decide
  outputSize_le := by decide
  outputSize_pos := by decide

/-- `sha2::Sha512` -/
def Sha512 : Voprf.HashAlg where
  outputSize := 64
  blockSize := 128
  digest := sha512
  digest_length b := hash_length _ _ b
  outputSize_lt := by decide
  outputSize_le := by decide
  outputSize_pos := by decide

end Sha2
