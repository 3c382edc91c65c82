import Verif.Spec.Contract
import Verif.Spec.Transcript
import Verif.Model.Common

/-!
# The statement a batch proof is about

A proof is checked against a public key `B`, two lists of elements and the composites
`M = Σ w_i C_i`, `Z = Σ w_i D_i`.  It is *accepted* if its challenge is the hash of the transcript with
the commitments recomputed from the proof; the *statement* is that `Z` is to `M` as `B` is to the base.
-/

namespace Voprf.Spec

section
variable (CS : CipherSuite) [CS.group.Lawful]

/-- `proof = (c, s)` is accepted for composites `M`, `Z` under public key `B`:
`c = HashToScalar(⟨B⟩⟨M⟩⟨Z⟩⟨s·G + c·B⟩⟨s·M + c·Z⟩"Challenge")`. -/
def AcceptedFor (mode : Mode) (B M Z : CS.Elem) (c s : CS.Scalar) : Prop :=
  challenge CS mode B M Z (s • CS.group.baseElem + c • B) (s • M + c • Z) = .ok c

/-- `proof` is accepted for the batch of pairs `(C_i, D_i)` under public key `B`. -/
def Accepted (mode : Mode) (B : CS.Elem) (Cs Ds : List CS.Elem) (c s : CS.Scalar) : Prop :=
  ∃ ws, weights CS mode B Cs Ds = .ok ws ∧
    AcceptedFor CS mode B (lincomb ws Cs) (lincomb ws Ds) c s

/-- `D` is the same multiple of `C` as the public key `B` is of the base element. -/
def SameKey (B C D : CS.Elem) : Prop :=
  ∃ k : CS.Scalar, B = k • CS.group.baseElem ∧ D = k • C

/-- The challenge `c` can be answered for the commitments `T2`, `T3`: some response fits. -/
def Answerable (B M Z T2 T3 : CS.Elem) (c : CS.Scalar) : Prop :=
  ∃ s : CS.Scalar, T2 = s • CS.group.baseElem + c • B ∧ T3 = s • M + c • Z

/-- The proof `c`, `s` commits to `T2 = s·G + c·B` and `T3 = s·M + c·Z`, the transcript with these commitments hashes to
`c`, and no challenge but `c` could have been answered for them. -/
def LuckyHash (mode : Mode) (B M Z : CS.Elem) (c s : CS.Scalar) : Prop :=
  challenge CS mode B M Z (s • CS.group.baseElem + c • B) (s • M + c • Z) = .ok c ∧
  ∀ c', Answerable CS B M Z (s • CS.group.baseElem + c • B) (s • M + c • Z) c' → c' = c

/-- What the `i`-th pair of a batch contributes to the verdict under the private key `k`: its weight times
the difference between `D` and the correct answer `k·C`.  It depends on the key, the position and this
pair only. -/
def itemError (mode : Mode) (k : CS.Scalar) (i : Nat) (C D : CS.Elem) : CS.Elem :=
  match weight CS mode (k • CS.group.baseElem) i C D with
  | .ok w => w • (D - k • C)
  | .error _ => 0

/-- The sum of the contributions of a batch. -/
def batchError (mode : Mode) (k : CS.Scalar) (Cs Ds : List CS.Elem) : CS.Elem :=
  ((Cs.zip Ds).zipIdx.map fun t => itemError CS mode k t.2 t.1.1 t.1.2).sum

end

end Voprf.Spec
