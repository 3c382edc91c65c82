import Verif.Props.DerivedKeys
import Verif.Props.UniformSuites

/-!
# C62 for the shipped suites
-/

namespace Voprf

open Spec

theorem newKey_bound {CS : CipherSuite} [CS.group.Lawful] (wf : CS.WF) {l o : Nat} (hl : CS.group.scalarLen = l)
    (ho : Nat.card CS.Elem = o) (h256 : 256 ≤ o) (hl' : l ≤ 256) (mode : Mode) (n : Nat) (J : KeyJudge CS)
    (hJ : ∀ k, (J k).Within n) : |J.real mode - J.ideal| ≤ ((n : ℚ) + 1) / 256 ^ l := by
  subst hl
  refine le_trans (C62_new wf (by omega) mode n J hJ) ?_
  rw [add_div]
  refine add_le_add_right ?_ _
  have hc : Nat.card CS.Scalar = o := by rw [← ho]; exact (card_elem CS.group).symm
  rw [hc, one_div_pow]
  have h2 : (256 : ℚ) ^ CS.group.scalarLen ≤ (256 : ℚ) ^ 256 := pow_le_pow_right₀ (by norm_num) hl'
  have h3 : (256 : ℚ) ^ 256 ≤ (o : ℚ) ^ 256 := pow_le_pow_left₀ (by norm_num) (by exact_mod_cast h256) _
  exact one_div_le_one_div_of_le (by positivity) (h2.trans h3)

/-- C62: for the shipped suites: a server made by `new` from uniform bytes cannot be told from one with a uniform non-zero key
with an advantage of more than `(n + 1) / 256^ScalarLen` by asking `n` questions: `(n + 1) / 2²⁵⁶` for P-256 and Ristretto255,
`(n + 1) / 2³⁸⁴` for P-384, `(n + 1) / 2⁵²⁸` for P-521. -/
theorem C62_suites (mode : Mode) (n : Nat) :
    (∀ J : KeyJudge P256Sha256, (∀ k, (J k).Within n) → |J.real mode - J.ideal| ≤ ((n : ℚ) + 1) / 256 ^ 32) ∧
    (∀ J : KeyJudge P384Sha384, (∀ k, (J k).Within n) → |J.real mode - J.ideal| ≤ ((n : ℚ) + 1) / 256 ^ 48) ∧
    (∀ J : KeyJudge P521Sha512, (∀ k, (J k).Within n) → |J.real mode - J.ideal| ≤ ((n : ℚ) + 1) / 256 ^ 66) ∧
    (∀ J : KeyJudge (Ristretto255Sha512 Ristretto.ristretto255), (∀ k, (J k).Within n) →
      |J.real mode - J.ideal| ≤ ((n : ℚ) + 1) / 256 ^ 32) := by
  obtain ⟨o1, o2, o3, o4⟩ := C48_order Ristretto.ristretto255
  obtain ⟨⟨-, s4, -⟩, ⟨-, s1, -⟩, ⟨-, s2, -⟩, ⟨-, s3, -⟩⟩ := C48_sizes Ristretto.ristretto255
  refine ⟨fun J hJ => newKey_bound (C48_contract .p256).2.2 s1 o1 (by decide +kernel) (by decide) mode n J hJ,
    fun J hJ => newKey_bound (C48_contract .p384).2.2 s2 o2 (by decide +kernel) (by decide) mode n J hJ,
    fun J hJ => newKey_bound (C48_contract .p521).2.2 s3 o3 (by decide +kernel) (by decide) mode n J hJ,
    fun J hJ => newKey_bound (C48_contract (.ristretto255 _ inferInstance)).2.2 s4 o4 (by decide +kernel) (by decide) mode n J hJ⟩

/-- Such a party, asking two questions. -/
example : ∃ J : KeyJudge P256Sha256, (∀ k, (J k).Within 2) ∧ ¬ ∀ k, (J k).Within 1 := by
  refine ⟨fun _ => .ask ⟨([], []), by decide⟩ fun _ => .ask ⟨([], [1]), by decide⟩ fun _ => .done true,
    fun _ _ _ => trivial, fun h => ?_⟩
  exact h 0 0

end Voprf
