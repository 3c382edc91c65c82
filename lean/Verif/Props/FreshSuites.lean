import Verif.Props.Fresh
import Verif.Props.UniformSuites

/-!
# C64 for the shipped suites
-/

namespace Voprf

open Spec

theorem shipped_large {CS : CipherSuite} [L : CS.group.Lawful] (hs : Shipped CS) :
    2 ^ 252 + 1 ≤ Nat.card CS.Scalar ∧ 2 ^ 252 ≤ 256 ^ CS.group.scalarLen ∧ CS.group.scalarLen ≤ 65533 := by
  have e : Nat.card CS.Scalar = Nat.card CS.Elem := (card_elem CS.group).symm
  cases hs with
  | p256 =>
    have := (C48_order Ristretto.ristretto255).1
    rw [e, this]
    exact ⟨by decide +kernel, show 2 ^ 252 ≤ 256 ^ 32 by decide +kernel, show 32 ≤ 65533 by decide⟩
  | p384 =>
    have := (C48_order Ristretto.ristretto255).2.1
    rw [e, this]
    exact ⟨by decide +kernel, show 2 ^ 252 ≤ 256 ^ 48 by decide +kernel, show 48 ≤ 65533 by decide⟩
  | p521 =>
    have := (C48_order Ristretto.ristretto255).2.2.1
    rw [e, this]
    exact ⟨by decide +kernel, show 2 ^ 252 ≤ 256 ^ 66 by decide +kernel, show 66 ≤ 65533 by decide⟩
  | ristretto255 D LD =>
    have := (C48_order D).2.2.2
    rw [e, this]
    exact ⟨by decide +kernel, show 2 ^ 252 ≤ 256 ^ 32 by decide +kernel, show 32 ≤ 65533 by decide⟩

theorem fresh_numbers {q l a b : ℚ} (hq : 2 ^ 252 + 1 ≤ q) (hl : 2 ^ 252 ≤ l) (ha : 0 ≤ a) (hb : 0 ≤ b) :
    a / (q - 1) + (b / l + (1 / q) ^ 256) ≤ (a + b + 1) / 2 ^ 252 := by
  have h0 : (0 : ℚ) < 2 ^ 252 := by positivity
  have h1 : a / (q - 1) ≤ a / 2 ^ 252 := div_le_div_of_nonneg_left ha h0 (by linarith)
  have h2 : b / l ≤ b / 2 ^ 252 := div_le_div_of_nonneg_left hb h0 hl
  have hq1 : (0 : ℚ) ≤ 1 / q := one_div_nonneg.mpr (by linarith)
  have hq2 : 1 / q ≤ 1 / 2 ^ 252 := one_div_le_one_div_of_le h0 (by linarith)
  have hq3 : (1 : ℚ) / 2 ^ 252 ≤ 1 := by rw [div_le_one h0]; exact one_le_pow₀ (by norm_num)
  have h3 : (1 / q) ^ 256 ≤ 1 / 2 ^ 252 :=
    (pow_le_of_le_one hq1 (hq2.trans hq3) (by norm_num)).trans hq2
  calc _ ≤ a / 2 ^ 252 + (b / 2 ^ 252 + 1 / 2 ^ 252) := add_le_add h1 (add_le_add h2 h3)
    _ = _ := by ring

/-- C64: for every shipped suite, a party that asks for `d` digests, `h` values of `hash_to_scalar` and `m` outputs tells a server
made by `new` from a random function with an advantage of at most `(d + h + 1) / 2²⁵²`, in POPRF `(d + h + 2m + 1) / 2²⁵²`. -/
theorem C64_suites {CS : CipherSuite} [CS.group.Lawful] (hs : Shipped CS) (d h m : Nat) :
    (∀ T : OutputJudge CS Bytes, T.Within d h m →
      |chance (fun w : Seed CS × Table CS × Digests CS => oprfFresh T w.1 w.2.1 w.2.2) -
        chance (fun w : Table CS × Digests CS × Outputs CS => T.Accepts w.1 w.2.1 (w.2.2.answer .Oprf))| ≤
        (d + h + 1) / 2 ^ 252) ∧
    (∀ T : OutputJudge CS Bytes, T.Within d h m →
      |chance (fun w : Seed CS × Table CS × Digests CS => voprfFresh T w.1 w.2.1 w.2.2) -
        chance (fun w : Table CS × Digests CS × Outputs CS => T.Accepts w.1 w.2.1 (w.2.2.answer .Voprf))| ≤
        (d + h + 1) / 2 ^ 252) ∧
    (∀ T : OutputJudge CS (Bytes × Option Bytes), T.Within d h m →
      |chance (fun w : Seed CS × Table CS × Digests CS => poprfFresh T w.1 w.2.1 w.2.2) -
        chance (fun w : Table CS × Digests CS × InfoOutputs CS => T.Accepts w.1 w.2.1 w.2.2.respond)| ≤
        (d + h + 2 * m + 1) / 2 ^ 252) := by
  obtain ⟨h1, h2, h3⟩ := shipped_large hs
  have wf := (C48_contract hs).2.2
  have h1' : (2 : ℚ) ^ 252 + 1 ≤ (Nat.card CS.Scalar : ℚ) := by exact_mod_cast h1
  have h2' : (2 : ℚ) ^ 252 ≤ 256 ^ CS.group.scalarLen := by exact_mod_cast h2
  refine ⟨fun T hT => (C64_oprf wf h3 T d h m hT).trans ?_, fun T hT => (C64_voprf wf h3 T d h m hT).trans ?_,
    fun T hT => (C64_poprf wf h3 T d h m hT).trans ?_⟩
  · exact fresh_numbers h1' h2' (Nat.cast_nonneg _) (Nat.cast_nonneg _)
  · exact fresh_numbers h1' h2' (Nat.cast_nonneg _) (Nat.cast_nonneg _)
  · refine (fresh_numbers h1' h2' (Nat.cast_nonneg _) (Nat.cast_nonneg _)).trans (le_of_eq ?_)
    push_cast
    ring

end Voprf
