import Verif.Props.Collision
import Verif.Props.FreshSuites

/-!
# C73 for the shipped suites
-/

namespace Voprf

open Spec

theorem birthday_shipped {CS : CipherSuite} [CS.group.Lawful] (hs : Shipped CS) (N : Nat) :
    (N.choose 2 : ℚ) / (256 : ℚ) ^ CS.hash.outputSize ≤ (N : ℚ) ^ 2 / 2 ^ 257 := by
  have h3 : 2 ^ 256 ≤ 256 ^ CS.hash.outputSize := by
    cases hs
    · exact show 2 ^ 256 ≤ 256 ^ 32 by decide +kernel
    · exact show 2 ^ 256 ≤ 256 ^ 48 by decide +kernel
    · exact show 2 ^ 256 ≤ 256 ^ 64 by decide +kernel
    · exact show 2 ^ 256 ≤ 256 ^ 64 by decide +kernel
  have h1 : (N.choose 2 : ℚ) ≤ (N : ℚ) ^ 2 / 2 := by
    rw [Nat.cast_choose_two]
    have : (0 : ℚ) ≤ N := Nat.cast_nonneg N
    nlinarith
  have h2 : (2 : ℚ) ^ 256 ≤ (256 : ℚ) ^ CS.hash.outputSize := by
    exact_mod_cast h3
  calc (N.choose 2 : ℚ) / (256 : ℚ) ^ CS.hash.outputSize ≤ (N : ℚ) ^ 2 / 2 / 2 ^ 256 :=
        div_le_div₀ (by positivity) h1 (by positivity) h2
    _ = (N : ℚ) ^ 2 / 2 ^ 257 := by rw [div_div, ← pow_succ']

/-- C73: with every shipped suite, two of the entries named by a party that asks `n` digests and names `m` entries have
the same output with probability at most `(n+m)² / 2²⁵⁷`. -/
theorem C73_suites {CS : CipherSuite} [CS.group.Lawful] (hs : Shipped CS) (n m : Nat) :
    (∀ S : Strategy DigestQuestion (DigestValue CS) (List (CS.Scalar × Bytes)), S.Within n →
      (∀ D, (S.run D).length ≤ m) →
      chance (fun D : Digests CS => ∃ a ∈ S.run D, ∃ b ∈ S.run D, a ≠ b ∧ ∃ y,
        OprfServer.evaluate (CS := digestSuite CS D) ⟨a.1⟩ a.2 = .ok y ∧
        OprfServer.evaluate (CS := digestSuite CS D) ⟨b.1⟩ b.2 = .ok y) ≤ ((n + m : Nat) : ℚ) ^ 2 / 2 ^ 257) ∧
    (∀ S : Strategy DigestQuestion (DigestValue CS) (List ((CS.Scalar × Bytes) × CS.Elem)), S.Within n →
      (∀ D, (S.run D).length ≤ m) →
      chance (fun D : Digests CS => ∃ a ∈ S.run D, ∃ b ∈ S.run D, a.1 ≠ b.1 ∧ ∃ y,
        VoprfServer.evaluate (CS := digestSuite CS D) ⟨a.1.1, a.2⟩ a.1.2 = .ok y ∧
        VoprfServer.evaluate (CS := digestSuite CS D) ⟨b.1.1, b.2⟩ b.1.2 = .ok y) ≤
        ((n + m : Nat) : ℚ) ^ 2 / 2 ^ 257) ∧
    (∀ S : Strategy DigestQuestion (DigestValue CS) (List ((CS.Scalar × Bytes × Option Bytes) × CS.Elem)), S.Within n →
      (∀ D, (S.run D).length ≤ m) →
      chance (fun D : Digests CS => ∃ a ∈ S.run D, ∃ b ∈ S.run D, a.1 ≠ b.1 ∧ ∃ y,
        PoprfServer.evaluate (CS := digestSuite CS D) ⟨a.1.1, a.2⟩ a.1.2.1 a.1.2.2 = .ok y ∧
        PoprfServer.evaluate (CS := digestSuite CS D) ⟨b.1.1, b.2⟩ b.1.2.1 b.1.2.2 = .ok y) ≤
        ((n + m : Nat) : ℚ) ^ 2 / 2 ^ 257) := by
  have wf := (C48_contract hs).2.2
  have hb := birthday_shipped hs (n + m)
  exact ⟨fun S h h' => (C73_oprf wf S n m h h').trans hb, fun S h h' => (C73_voprf wf S n m h h').trans hb,
    fun S h h' => (C73_poprf wf S n m h h').trans hb⟩

end Voprf
