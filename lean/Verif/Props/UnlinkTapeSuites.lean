import Verif.Props.UnlinkTape
import Verif.Props.UnlinkSuites
import Verif.Props.ZeroKnowledgeTapeSuites

/-!
# C70 for the shipped suites, with blinds drawn from uniform bytes
-/

namespace Voprf

open Spec

theorem unlinkable_of {CS : CipherSuite} [L : CS.group.Lawful] (hs : Shipped CS) {block p q : Nat} (hp : 0 < p) (hpq : p ≤ q)
    (hu : NearlyUniform CS.group block p q) {len : Nat}
    (hd : ∀ xs : List CS.group.Scalar, (∀ x ∈ xs, x ≠ 0) → xs.length ≤ 1 → (tapes len (Drawing CS.group xs)).Nonempty)
    (N n Q D : Nat) {d e : ℚ} (h1 : ((q : ℚ) / p) ^ n - 1 ≤ d) (h2 : tapeChance (N * block) (RunsDry CS.group n) ≤ e) :
    Unlinkable CS (N * block) n Q D ((Q + 3 * D) / 2 ^ 252 + 2 * (d + e)) := by
  obtain ⟨draw, hdr⟩ := exists_draws hd
  have wf := (C48_contract hs).2.2
  have hc : (2 : ℚ) ^ 252 ≤ (Nat.card CS.Scalar : ℚ) := by exact_mod_cast le_trans (Nat.le_succ _) (shipped_large hs).1
  have hq : ((Q + 3 * D : ℚ)) / Nat.card CS.Scalar ≤ (Q + 3 * D) / 2 ^ 252 :=
    div_le_div_of_nonneg_left (by positivity) (by positivity) hc
  have hq' : ((Q + 2 * D : ℚ)) / Nat.card CS.Scalar ≤ (Q + 3 * D) / 2 ^ 252 := by
    refine le_trans (div_le_div_of_nonneg_right ?_ (by positivity)) hq
    have : (0 : ℚ) ≤ D := by positivity
    linarith
  have h0 : (0 : ℚ) ≤ (Q + 3 * D) / 2 ^ 252 := by positivity
  intro x π π'
  exact ⟨fun h key E => (C70_oprf_tape wf hp hpq hu draw hdr N x h π π' key E).trans (by linarith),
    fun pk S hS => ⟨fun h => (C70_voprf_tape wf hp hpq hu draw hdr N x h π π' pk Q D S hS).trans (by linarith),
      fun h info => (C70_poprf_tape wf hp hpq hu draw hdr N x h π π' pk info Q D S hS).trans (by linarith)⟩⟩

/-- C70: for every shipped suite, when the clients' generator yields uniform bytes, `j` blocks for each of `n` clients, a linking
server with `q` questions and `d` deliveries has an advantage of at most `(q + 3d) / 2²⁵²` and twice: the deviation of `random_scalar`
from uniform (nothing for the NIST curves, `n / 2²⁵⁸` for Ristretto255) and the probability that the bytes do not suffice. -/
theorem C70_tape_suites (n q d j : Nat) :
    Unlinkable P256Sha256 (n * j * 32) n q d ((q + 3 * d) / 2 ^ 252 + 2 * (0 + n * (1 / 2 ^ 32) ^ j)) ∧
    Unlinkable P384Sha384 (n * j * 48) n q d ((q + 3 * d) / 2 ^ 252 + 2 * (0 + n * (1 / 2 ^ 194) ^ j)) ∧
    Unlinkable P521Sha512 (n * j * 66) n q d ((q + 3 * d) / 2 ^ 252 + 2 * (0 + n * (255 / 256) ^ j)) ∧
    (n ≤ 2 ^ 258 → Unlinkable (Ristretto255Sha512 Ristretto.ristretto255) (n * j * 64) n q d
      ((q + 3 * d) / 2 ^ 252 + 2 * (n / 2 ^ 258 + n * (1 / 2 ^ 252) ^ j))) := by
  refine ⟨?_, ?_, ?_, fun hm => ?_⟩
  · exact unlinkable_of .p256 one_pos le_rfl C61_suites.1 (C61_nist_supply Curve.p256 1).1 _ n q d (by simp) (p256_dry j n)
  · exact unlinkable_of .p384 one_pos le_rfl C61_suites.2.1 (C61_nist_supply Curve.p384 1).1 _ n q d (by simp) (p384_dry j n)
  · exact unlinkable_of .p521 one_pos le_rfl C61_suites.2.2.1 (C61_nist_supply Curve.p521 1).1 _ n q d (by simp) (p521_dry j n)
  · exact unlinkable_of (.ristretto255 _ inferInstance) (by positivity) (Nat.le_succ _) C61_suites.2.2.2
      (C61_ristretto_supply Ristretto.ristretto255 1).1 _ n q d (ristretto_power hm) (ristretto_dry j n)

set_option exponentiation.threshold 600 in
/-- Two clients of Ristretto255 with 128 bytes each, a server with a million questions and two deliveries: its advantage is below
`2⁻²³¹`. -/
example : ∃ e : ℚ, Unlinkable (Ristretto255Sha512 Ristretto.ristretto255) 256 2 1000000 2 e ∧ e ≤ 1 / 2 ^ 231 := by
  refine ⟨_, (C70_tape_suites 2 1000000 2 2).2.2.2 ?_, ?_⟩
  · exact le_trans (by norm_num) (Nat.pow_le_pow_right two_pos (show 1 ≤ 258 by decide))
  · norm_num

end Voprf
