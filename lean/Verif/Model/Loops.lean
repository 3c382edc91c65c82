import Verif.Base

/-!
# Numbers as bytes, and sampling loops

Shared by the models of the two group implementations.
-/

namespace Voprf

/-- Big-endian bytes of `n`, exactly `len` of them (`to_be_bytes` of a fixed-size integer). `src/common.rs:177,329,540,568`;
inside the libraries, `src/group/elliptic_curve.rs:69,100`. -/
def toBeBytes : (len n : Nat) → Bytes
  | 0, _ => []
  | len + 1, n => toBeBytes len (n / 256) ++ [UInt8.ofNat (n % 256)]

/-- The number with these big-endian bytes (`from_be_bytes`). Inside the libraries, `src/group/elliptic_curve.rs:77,104`. -/
def ofBeBytes (bytes : Bytes) : Nat := bytes.foldl (fun acc c => acc * 256 + c.toNat) 0

/-- Little-endian bytes of `n`, exactly `len` of them. Inside the library, `src/group/ristretto.rs:86,121`. -/
def toLeBytes : (len n : Nat) → Bytes
  | 0, _ => []
  | len + 1, n => UInt8.ofNat (n % 256) :: toLeBytes len (n / 256)

/-- The number with these little-endian bytes. Inside the library, `src/group/ristretto.rs:73,128`. -/
def ofLeBytes : Bytes → Nat
  | [] => 0
  | c :: cs => c.toNat + 256 * ofLeBytes cs

/-- `loop { if let Some(x) = draw(rng) { break x } }`: the value and the advanced RNG, `none` if the loop
never ends. `src/group/ristretto.rs:98-104`. -/
def sampleLoop {σ α : Type} (draw : σ → Option α × σ) (s : σ) : Option (α × σ) :=
  match draw s with
  | (some a, s') => some (a, s')
  | (none, s') => sampleLoop draw s'
partial_fixpoint

/-- `loop { if let Some(x) = draw(rng) { break x } }` where `draw` may itself run forever. `src/group/elliptic_curve.rs:83`. -/
def sampleLoop' {σ α : Type} (draw : σ → Option (Option α × σ)) (s : σ) : Option (α × σ) := do
  match ← draw s with
  | (some a, s') => some (a, s')
  | (none, s') => sampleLoop' draw s'
partial_fixpoint

end Voprf
