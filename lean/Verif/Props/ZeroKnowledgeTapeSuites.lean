import Verif.Props.ZeroKnowledgeTape
import Verif.Props.FreshSuites
import Verif.Props.BlindnessTapeSuites

/-!
# C61 and C67 for the shipped suites
-/

namespace Voprf

open Spec

/-! ## How many bytes suffice -/

theorem rejected_ratio {G : VGroup} {len : Nat} {acc : Bytes → Option G.Scalar} (hs : BlockSampler G len acc) {a b : Nat}
    (hb : 0 < b) (h : (blocks len acc none).ncard * b ≤ a * 256 ^ len) (j m : Nat) :
    tapeChance (m * j * len) (RunsDry G m) ≤ m * ((a : ℚ) / b) ^ j := by
  refine (C61_enough hs j m).trans (mul_le_mul_of_nonneg_left ?_ (by positivity))
  rw [tapeChance, ncard_none hs, mul_comm j len, pow_mul]
  push_cast
  rw [← div_pow]
  refine pow_le_pow_left₀ (by positivity) ?_ j
  have hb' : (0 : ℚ) < b := by exact_mod_cast hb
  rw [div_le_div_iff₀ (by positivity) hb']
  exact_mod_cast h

theorem p256_dry (j m : Nat) : tapeChance (m * j * 32) (RunsDry P256Sha256.group m) ≤ m * (1 / 2 ^ 32 : ℚ) ^ j := by
  have := rejected_ratio (nist_sampler Curve.p256) (a := 1) (b := 2 ^ 32) (by positivity)
    (by rw [nist_rejected]; decide +kernel) j m
  refine le_trans this (le_of_eq ?_)
  push_cast
  rfl

theorem p384_dry (j m : Nat) : tapeChance (m * j * 48) (RunsDry P384Sha384.group m) ≤ m * (1 / 2 ^ 194 : ℚ) ^ j := by
  have := rejected_ratio (nist_sampler Curve.p384) (a := 1) (b := 2 ^ 194) (by positivity)
    (by rw [nist_rejected]; decide +kernel) j m
  refine le_trans this (le_of_eq ?_)
  push_cast
  rfl

theorem p521_dry (j m : Nat) : tapeChance (m * j * 66) (RunsDry P521Sha512.group m) ≤ m * (255 / 256 : ℚ) ^ j := by
  have := rejected_ratio (nist_sampler Curve.p521) (a := 255) (b := 256) (by positivity)
    (by rw [nist_rejected]; decide +kernel) j m
  refine le_trans this (le_of_eq ?_)
  push_cast
  rfl

theorem ristretto_dry (j m : Nat) :
    tapeChance (m * j * 64) (RunsDry (Ristretto255Sha512 Ristretto.ristretto255).group m) ≤ m * (1 / 2 ^ 252 : ℚ) ^ j := by
  refine (C61_enough (ristretto_sampler Ristretto.ristretto255) j m).trans (mul_le_mul_of_nonneg_left ?_ (by positivity))
  have h := (C61_ristretto_supply Ristretto.ristretto255 j).2
  rw [tapeChance, one_div_pow, div_le_div_iff₀ (by positivity) (by positivity), one_mul, ← pow_mul]
  exact_mod_cast h

/-- C61: with `j` blocks of bytes for each of `m` scalars, the probability that they do not suffice. -/
theorem C61_enough_suites (j m : Nat) :
    tapeChance (m * j * 32) (RunsDry P256Sha256.group m) ≤ m * (1 / 2 ^ 32 : ℚ) ^ j ∧
    tapeChance (m * j * 48) (RunsDry P384Sha384.group m) ≤ m * (1 / 2 ^ 194 : ℚ) ^ j ∧
    tapeChance (m * j * 66) (RunsDry P521Sha512.group m) ≤ m * (255 / 256 : ℚ) ^ j ∧
    tapeChance (m * j * 64) (RunsDry (Ristretto255Sha512 Ristretto.ristretto255).group m) ≤ m * (1 / 2 ^ 252 : ℚ) ^ j :=
  ⟨p256_dry j m, p384_dry j m, p521_dry j m, ristretto_dry j m⟩

/-! ## Zero knowledge -/

/-- A tape for each nonce. -/
theorem exists_draws {CS : CipherSuite} [L : CS.group.Lawful] {len : Nat}
    (h : ∀ xs : List CS.group.Scalar, (∀ x ∈ xs, x ≠ 0) → xs.length ≤ 1 → (tapes len (Drawing CS.group xs)).Nonempty) :
    ∃ draw : Nonce CS → Tape, Draws draw := by
  have : ∀ ρ : Nonce CS, ∃ t : Tape, ∃ g : Tape, CS.group.randomScalar t = some (ρ.1, g) := by
    intro ρ
    obtain ⟨t, -, rest, next, hn, -⟩ := h [ρ.1] (by simpa using ρ.2) le_rfl
    exact ⟨⟨t⟩, next, hn⟩
  choose draw hd using this
  exact ⟨draw, hd⟩

theorem zk_of {CS : CipherSuite} [L : CS.group.Lawful] (hs : Shipped CS) {block p q : Nat} (hp : 0 < p) (hpq : p ≤ q)
    (hu : NearlyUniform CS.group block p q) {len : Nat}
    (hd : ∀ xs : List CS.group.Scalar, (∀ x ∈ xs, x ≠ 0) → xs.length ≤ 1 → (tapes len (Drawing CS.group xs)).Nonempty)
    (N n m : Nat) {d e : ℚ} (h1 : ((q : ℚ) / p) ^ m - 1 ≤ d) (h2 : tapeChance (N * block) (RunsDry CS.group m) ≤ e) :
    ZeroKnowledge CS (N * block) n m ((m * (n + m) : ℚ) / 2 ^ 252 + d + e) := by
  obtain ⟨draw, hdr⟩ := exists_draws hd
  have wf := (C48_contract hs).2.2
  have hl := (shipped_large hs).1
  have hc : (2 : ℚ) ^ 252 ≤ (Nat.card (Nonce CS) : ℚ) := by
    rw [card_scalar_eq] at hl
    exact_mod_cast Nat.le_of_add_le_add_right hl
  have hq : (m * (n + m) : ℚ) / Nat.card (Nonce CS) ≤ (m * (n + m) : ℚ) / 2 ^ 252 :=
    div_le_div_of_nonneg_left (by positivity) (by positivity) hc
  intro k
  exact ⟨fun S hS => (C67_voprf wf hp hpq hu k draw hdr S n m hS N).trans (by linarith),
    fun S hS => (C67_poprf wf hp hpq hu k draw hdr S n m hS N).trans (by linarith)⟩

theorem ristretto_power {m : Nat} (hm : m ≤ 2 ^ 258) : (((2 ^ 259 + 1 : Nat) : ℚ) / (2 ^ 259 : Nat)) ^ m - 1 ≤ m / 2 ^ 258 := by
  have h2 : 2 * m ≤ 2 ^ 259 := by rw [pow_succ]; omega
  have h := pow_succ_le (2 ^ 259) m h2
  have hq : (((2 ^ 259 + 1) ^ m * 2 ^ 259 : Nat) : ℚ) ≤ (((2 ^ 259) ^ m * (2 ^ 259 + 2 * m) : Nat) : ℚ) := by exact_mod_cast h
  set P : ℚ := 2 ^ 259 with hP
  have hP0 : 0 < P := by positivity
  have e : (m : ℚ) / 2 ^ 258 = 2 * m / P := by
    rw [hP, pow_succ (2 : ℚ) 258, mul_comm (2 : ℚ) m, mul_div_mul_right _ _ (by norm_num : (2 : ℚ) ≠ 0)]
  rw [e, div_pow, sub_le_iff_le_add, div_add_one hP0.ne']
  push_cast at hq ⊢
  rw [div_le_div_iff₀ (by positivity) hP0]
  linarith

/-- C67: for every shipped suite, when the server's generator yields uniform bytes, `j` blocks for each of `m` requests, a party
asking `n` questions of the oracle learns nothing but the evaluations, up to an advantage of `m (n + m) / 2²⁵²`, the deviation of
`random_scalar` from uniform (nothing for the NIST curves, `m / 2²⁵⁸` for Ristretto255) and the probability that the bytes do
not suffice. -/
theorem C67_suites (n m j : Nat) :
    ZeroKnowledge P256Sha256 (m * j * 32) n m ((m * (n + m) : ℚ) / 2 ^ 252 + 0 + m * (1 / 2 ^ 32) ^ j) ∧
    ZeroKnowledge P384Sha384 (m * j * 48) n m ((m * (n + m) : ℚ) / 2 ^ 252 + 0 + m * (1 / 2 ^ 194) ^ j) ∧
    ZeroKnowledge P521Sha512 (m * j * 66) n m ((m * (n + m) : ℚ) / 2 ^ 252 + 0 + m * (255 / 256) ^ j) ∧
    (m ≤ 2 ^ 258 → ZeroKnowledge (Ristretto255Sha512 Ristretto.ristretto255) (m * j * 64) n m
      ((m * (n + m) : ℚ) / 2 ^ 252 + m / 2 ^ 258 + m * (1 / 2 ^ 252) ^ j)) := by
  refine ⟨?_, ?_, ?_, fun hm => ?_⟩
  · exact zk_of .p256 one_pos le_rfl C61_suites.1 (C61_nist_supply Curve.p256 1).1 _ n m (by simp) (p256_dry j m)
  · exact zk_of .p384 one_pos le_rfl C61_suites.2.1 (C61_nist_supply Curve.p384 1).1 _ n m (by simp) (p384_dry j m)
  · exact zk_of .p521 one_pos le_rfl C61_suites.2.2.1 (C61_nist_supply Curve.p521 1).1 _ n m (by simp) (p521_dry j m)
  · exact zk_of (.ristretto255 _ inferInstance) (by positivity) (Nat.le_succ _) C61_suites.2.2.2
      (C61_ristretto_supply Ristretto.ristretto255 1).1 _ n m (ristretto_power hm) (ristretto_dry j m)

/-- A party that sends two requests to the server, asks the oracle, and guesses. -/
noncomputable def curious : Distinguisher Question P256Sha256.Scalar (EvalRequest P256Sha256) (EvalResponse P256Sha256) :=
  .request (.one P256Sha256.group.baseElem) fun v => .request (.batch [P256Sha256.group.baseElem, 0] (by decide)) fun v' =>
    .ask ⟨([1], [2]), by decide⟩ fun c => .done (match v, v' with
      | .ok (_, x, _), .ok (_, y, _) => @decide (x = y ∨ x = c) (Classical.dec _)
      | _, _ => false)

/-- With 8 blocks per request its advantage is below `2⁻²⁴⁹`. -/
example (k : P256Sha256.Scalar) : |(average fun f : Table P256Sha256 =>
      tapeChance 512 fun t => curious.run f (fun r => voprfServeWith k (k • P256Sha256.group.baseElem) r f) t = some true) -
    (average fun f : Table P256Sha256 => curious.ideal (fun _ _ => SimCoins (k • P256Sha256.group.baseElem))
      (voprfSimulator (fun P => k • P) (k • P256Sha256.group.baseElem)) f)| ≤ 1 / 2 ^ 249 := by
  have h := (((C67_suites 1 2 8).1 k).1 curious (fun _ _ _ => trivial))
  refine h.trans ?_
  norm_num

end Voprf
