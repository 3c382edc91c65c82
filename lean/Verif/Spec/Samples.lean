import Verif.Base

/-!
# The samples an RNG supplies
-/

namespace Voprf.Spec


/-- The `i`-th `len`-byte sample drawn from a generator (counting from 0), with the state it leaves. -/
def sample {σ : Type} [RngCore σ] (s : σ) (len : Nat) : Nat → Bytes × σ
  | 0 => RngCore.fillBytes s len
  | i + 1 => RngCore.fillBytes (sample s len i).2 len

/-- The little-endian number of a byte string. -/
def leNat : Bytes → Nat
  | [] => 0
  | c :: cs => c.toNat + 256 * leNat cs

end Voprf.Spec
