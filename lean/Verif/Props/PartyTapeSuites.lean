import Verif.Props.PartyTape
import Verif.Props.ZeroKnowledgeTapeSuites

/-!
# C68 for the shipped suites
-/

namespace Voprf

open Spec

theorem shipped_digest {CS : CipherSuite} [CS.group.Lawful] (hs : Shipped CS) : 32 ≤ CS.hash.outputSize := by
  cases hs with
  | p256 => decide
  | p384 => decide
  | p521 => decide
  | ristretto255 _ _ => exact (by decide : 32 ≤ 64)

theorem outputs_of {CS : CipherSuite} [L : CS.group.Lawful] (hs : Shipped CS) {block p q : Nat} (hp : 0 < p) (hpq : p ≤ q)
    (hu : NearlyUniform CS.group block p q) {len : Nat}
    (hd : ∀ xs : List CS.group.Scalar, (∀ x ∈ xs, x ≠ 0) → xs.length ≤ 1 → (tapes len (Drawing CS.group xs)).Nonempty)
    (N n d m M : Nat) {a e : ℚ} (h1 : ((q : ℚ) / p) ^ m - 1 ≤ a) (h2 : tapeChance (N * block) (RunsDry CS.group m) ≤ e) :
    NoMoreOutputs CS (N * block) n d m M (M / 2 ^ 256 + (m * (n + 2 * d + m) : ℚ) / 2 ^ 252 + a + e) := by
  obtain ⟨draw, hdr⟩ := exists_draws hd
  have wf := (C48_contract hs).2.2
  have hl := (shipped_large hs).1
  have hc : (2 : ℚ) ^ 252 ≤ (Nat.card (Nonce CS) : ℚ) := by
    rw [card_scalar_eq] at hl
    exact_mod_cast Nat.le_of_add_le_add_right hl
  have hq : (m * (n + 2 * d + m) : ℚ) / Nat.card (Nonce CS) ≤ (m * (n + 2 * d + m) : ℚ) / 2 ^ 252 :=
    div_le_div_of_nonneg_left (by positivity) (by positivity) hc
  have hq' : (m * (n + m) : ℚ) / Nat.card (Nonce CS) ≤ (m * (n + 2 * d + m) : ℚ) / Nat.card (Nonce CS) := by
    refine div_le_div_of_nonneg_right (mul_le_mul_of_nonneg_left ?_ (by positivity)) (by positivity)
    have : (0 : ℚ) ≤ d := by positivity
    linarith
  have hM : (M : ℚ) / 256 ^ CS.hash.outputSize ≤ M / 2 ^ 256 := by
    refine div_le_div_of_nonneg_left (by positivity) (by positivity) ?_
    calc (2 : ℚ) ^ 256 = 256 ^ 32 := by norm_num
      _ ≤ 256 ^ CS.hash.outputSize := pow_le_pow_right₀ (by norm_num) (shipped_digest hs)
  intro k
  exact ⟨fun hk T hT => (C68_voprf wf hp hpq hu k hk draw hdr T n d m M hT N).trans (by linarith),
    fun T hT => (C68_poprf wf hp hpq hu k draw hdr T n d m M hT N).trans (by linarith)⟩

/-- C68: for every shipped suite, when the server's generator yields uniform bytes, `j` blocks for each of `m` requests, a client
is right for more inputs than it had elements evaluated hardly more often than its digest questions show that many evaluations
when it only has an evaluation oracle. -/
theorem C68_suites (n d m M j : Nat) :
    NoMoreOutputs P256Sha256 (m * j * 32) n d m M
      (M / 2 ^ 256 + (m * (n + 2 * d + m) : ℚ) / 2 ^ 252 + 0 + m * (1 / 2 ^ 32) ^ j) ∧
    NoMoreOutputs P384Sha384 (m * j * 48) n d m M
      (M / 2 ^ 256 + (m * (n + 2 * d + m) : ℚ) / 2 ^ 252 + 0 + m * (1 / 2 ^ 194) ^ j) ∧
    NoMoreOutputs P521Sha512 (m * j * 66) n d m M
      (M / 2 ^ 256 + (m * (n + 2 * d + m) : ℚ) / 2 ^ 252 + 0 + m * (255 / 256) ^ j) ∧
    (m ≤ 2 ^ 258 → NoMoreOutputs (Ristretto255Sha512 Ristretto.ristretto255) (m * j * 64) n d m M
      (M / 2 ^ 256 + (m * (n + 2 * d + m) : ℚ) / 2 ^ 252 + m / 2 ^ 258 + m * (1 / 2 ^ 252) ^ j)) := by
  refine ⟨?_, ?_, ?_, fun hm => ?_⟩
  · exact outputs_of .p256 one_pos le_rfl C61_suites.1 (C61_nist_supply Curve.p256 1).1 _ n d m M (by simp) (p256_dry j m)
  · exact outputs_of .p384 one_pos le_rfl C61_suites.2.1 (C61_nist_supply Curve.p384 1).1 _ n d m M (by simp) (p384_dry j m)
  · exact outputs_of .p521 one_pos le_rfl C61_suites.2.2.1 (C61_nist_supply Curve.p521 1).1 _ n d m M (by simp) (p521_dry j m)
  · exact outputs_of (.ristretto255 _ inferInstance) (by positivity) (Nat.le_succ _) C61_suites.2.2.2
      (C61_ristretto_supply Ristretto.ristretto255 1).1 _ n d m M (ristretto_power hm) (ristretto_dry j m)

/-- A client that has one element evaluated and then claims outputs for two inputs. -/
noncomputable def greedy : Party P256Sha256 (EvalRequest P256Sha256) (List (Bytes × Bytes)) :=
  .evaluate (.one P256Sha256.group.baseElem) fun _ => .digest ⟨[7], by decide⟩ fun y => .done [([1], y.1), ([2], y.1)]

/-- With 8 blocks of bytes it is right twice hardly more often than it finds two evaluations. -/
example (k : P256Sha256.Scalar) (hk : k ≠ 0) :
    (average fun f : Table P256Sha256 => average fun D : Digests P256Sha256 => tapeChance 256 fun t =>
      ∃ x, greedy.run f D (voprfRespondWith k (k • P256Sha256.group.baseElem) f D) (fun r => r.elems.length) t 0 [] = some x ∧
        VoprfClaimsMore k (k • P256Sha256.group.baseElem) f D x.1 x.2.2) ≤
    (average fun f : Table P256Sha256 => average fun D : Digests P256Sha256 =>
      greedy.ideal D (fun _ _ => SimCoins (k • P256Sha256.group.baseElem))
        (voprfSimulate (fun P => k • P) (k • P256Sha256.group.baseElem) D) (fun r => r.elems.length)
        (fun _ spent asked _ => VoprfFindsMore k spent asked) f 0 []) + 1 / 2 ^ 250 := by
  have h := (((C68_suites 0 1 1 2 8).1 k).1 hk greedy (fun _ _ => le_rfl))
  refine h.trans ?_
  norm_num

end Voprf
