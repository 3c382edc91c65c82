import Verif.Props.BlindnessTape
import Verif.Props.UniformSuites

/-!
# C66 for the shipped suites
-/

namespace Voprf

open Spec

/-- C66: with uniform bytes from the generator, a server using a NIST suite makes each of its guesses on exactly as many tapes
whatever the inputs of the clients; with Ristretto255 the probabilities for two choices of the inputs differ by at most
`m / 2²⁵⁸`, where `m` is the number of clients started. -/
theorem C66_suites (n m : Nat) :
    Blindness P256Sha256 (n * 32) m (· = ·) ∧ Blindness P384Sha384 (n * 48) m (· = ·) ∧
    Blindness P521Sha512 (n * 66) m (· = ·) ∧
    (m ≤ 2 ^ 258 → Blindness (Ristretto255Sha512 Ristretto.ristretto255) (n * 64) m
      fun a b => |(a / 256 ^ (n * 64) - b / 256 ^ (n * 64) : ℚ)| ≤ m / 2 ^ 258) := by
  have eq : ∀ {CS : CipherSuite} [CS.group.Lawful] {len : Nat},
      Blindness CS len m (fun a b => a * 1 ^ m ≤ b * 1 ^ m) → Blindness CS len m (· = ·) := by
    intro CS _ len h
    refine blindness_mono h fun a b _ _ h h' => ?_
    simp only [one_pow, mul_one] at h h'
    exact Nat.le_antisymm h h'
  refine ⟨eq (C66_ratio (C48_contract .p256).2.2 C61_suites.1 le_rfl n m),
    eq (C66_ratio (C48_contract .p384).2.2 C61_suites.2.1 le_rfl n m),
    eq (C66_ratio (C48_contract .p521).2.2 C61_suites.2.2.1 le_rfl n m), fun hm => ?_⟩
  refine blindness_mono (C66_ratio (C48_contract (.ristretto255 _ inferInstance)).2.2 C61_suites.2.2.2
    (Nat.le_succ _) n m) fun a b ha hb h h' => ?_
  have h2 : 2 * m ≤ 2 ^ 259 := by rw [pow_succ]; omega
  have h3 := prob_of_ratio (P := 2 ^ 259) (m := m) (T := 256 ^ (n * 64)) (by positivity) h2 (by positivity) ha hb h h'
  refine le_trans (le_of_eq ?_) (h3.trans (le_of_eq ?_))
  · push_cast
    rfl
  · push_cast
    rw [pow_succ, mul_comm (2 : ℚ) m, mul_div_mul_right _ _ (by norm_num : (2 : ℚ) ≠ 0)]

/-- Inputs hidable with P-256 in every mode. -/
theorem p256_hidable (m : Mode) : Hidable P256Sha256 m [0] ∧ Hidable P256Sha256 m [1, 2, 3] :=
  ⟨⟨by decide, p256_hashable m [0] (by simp)⟩, ⟨by decide, p256_hashable m [1, 2, 3] (by simp)⟩⟩

/-- A server that starts two clients, delivers the elements exchanged to both with a made-up proof, starts a third
if this is refused, and guesses whether the messages are alike. -/
noncomputable def nosy : Spy P256Sha256.Elem (Delivery P256Sha256) (Option (Res (List (Res Unit)))) :=
  .start fun e => .start fun e' =>
    .deliver ⟨.inr [0, 1], [e', e], 1, 2, P256Sha256.group.baseElem, none⟩ fun v =>
      match v with
      | some (.ok _) => .done true
      | _ => .start fun e'' => .done (@decide (e = e'') (Classical.dec _))

theorem nosy_starts : nosy.StartsAtMost 3 := by
  intro e e' v
  rcases v with _ | (_ | _ | _ | _)
  all_goals first | exact trivial | exact fun _ => trivial

/-- It cannot tell clients with equal inputs from clients with different ones. -/
example (n : Nat) (g : Bool) :
    voprfGuesses P256Sha256 (n * 32) (fun _ => [0]) nosy g =
    voprfGuesses P256Sha256 (n * 32) (fun i => if i = 1 then [1, 2, 3] else [0]) nosy g :=
  ((C66_suites n 3).1 _ _ g).2.1 (fun _ => (p256_hidable .Voprf).1)
    (fun i => by by_cases h : i = 1 <;> simp only [h, if_true, if_false, (p256_hidable .Voprf).1, (p256_hidable .Voprf).2])
    nosy nosy_starts

end Voprf
