import Verif.Props.Uniform
import Verif.Props.Suites
import Verif.Props.Ristretto255
import Verif.Exec.Vectors.P256

/-!
# C61 for the shipped suites
-/

namespace Voprf

open Spec

noncomputable section
instance : P256Sha256.group.Lawful := Nist.lawful Curve.p256
instance : P384Sha384.group.Lawful := Nist.lawful Curve.p384
instance : P521Sha512.group.Lawful := Nist.lawful Curve.p521
instance : (Ristretto255Sha512 Ristretto.ristretto255).group.Lawful := Ristretto.lawful Ristretto.ristretto255
end

/-- C61: in every shipped suite consecutive random scalars are independent; with a NIST curve they are exactly uniform on the
non-zero scalars, with Ristretto255 up to a factor of `1 + 2⁻²⁵⁹` each. -/
theorem C61_suites :
    NearlyUniform P256Sha256.group 32 1 1 ∧ NearlyUniform P384Sha384.group 48 1 1 ∧
    NearlyUniform P521Sha512.group 66 1 1 ∧
    NearlyUniform (Ristretto255Sha512 Ristretto.ristretto255).group 64 (2 ^ 259) (2 ^ 259 + 1) :=
  ⟨C61_nist_scalars Curve.p256, C61_nist_scalars Curve.p384, C61_nist_scalars Curve.p521,
    C61_ristretto_scalars Ristretto.ristretto255⟩

/-- A check that the kernel can evaluate. -/
def hashesOk (CS : CipherSuite) (mode : Mode) (input : Bytes) : Bool :=
  match Spec.hashToGroup CS mode input with
  | .ok P => !CS.group.elemCtEq P CS.group.identityElem
  | _ => false

theorem hashable_of_check {CS : CipherSuite} [L : CS.group.Lawful] {mode : Mode} {inputs : List Bytes}
    (h : inputs.all (hashesOk CS mode) = true) : Hashable CS mode inputs := by
  intro i hi
  have := List.all_eq_true.mp h i hi
  unfold hashesOk at this
  split at this
  · next P hP =>
    refine ⟨P, hP, fun h0 => ?_⟩
    subst h0
    rw [L.identityElem_eq, (L.elemCtEq_iff _ _).mpr rfl] at this
    simp at this
  · simp at this

set_option maxHeartbeats 4000000 in
-- The kernel computation alone may exceed the default.
theorem p256_hashable (m : Mode) : Hashable P256Sha256 m [[0], [1, 2, 3]] := by
  refine hashable_of_check ?_
  rw [Exec.P256.suite_eq]
  cases m <;> decide +kernel

/-- On P-256 the input `[0]` is sent as the generator exactly as often as the input `[1, 2, 3]` as the generator's negative. -/
example (n : Nat) :
    (tapes (n * 32) (Returning (oprfBlinds P256Sha256 [[0]]) (fun r => r.message.value)
      [P256Sha256.group.baseElem])).ncard =
    (tapes (n * 32) (Returning (oprfBlinds P256Sha256 [[1, 2, 3]]) (fun r => r.message.value)
      [-P256Sha256.group.baseElem])).ncard := by
  have h0 : Hashable P256Sha256 .Oprf [[0]] := fun i hi => p256_hashable .Oprf i (by simp at hi; simp [hi])
  have h1 : Hashable P256Sha256 .Oprf [[1, 2, 3]] := fun i hi => p256_hashable .Oprf i (by simp at hi; simp [hi])
  have key := fun a b Q Q' (hQ : ∀ P ∈ Q, P ≠ 0) (hQ' : ∀ P ∈ Q', P ≠ 0) hl hl' he =>
    (C61_blind (C48_contract .p256).2.2 C61_suites.1 n a b Q Q' hQ hQ' hl hl' he).1
  refine Nat.le_antisymm ?_ ?_
  · simpa using key [[0]] [[1, 2, 3]] [P256Sha256.group.baseElem] [-P256Sha256.group.baseElem]
      (by simp) (by simp) rfl rfl rfl h0 h1
  · simpa using key [[1, 2, 3]] [[0]] [-P256Sha256.group.baseElem] [P256Sha256.group.baseElem]
      (by simp) (by simp) rfl rfl rfl h1 h0

/-- An event on P-256: the first scalar is 1 and the second is 1 or -1. -/
example : ({[1, 1], [1, -1]} : Set (List P256Sha256.Scalar)) ⊆ sequences P256Sha256.group 2 := by
  rintro xs (rfl | rfl) <;> exact ⟨rfl, by simp⟩

end Voprf
