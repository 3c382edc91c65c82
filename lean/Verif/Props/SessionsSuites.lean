import Verif.Props.Sessions
import Verif.Props.FreshSuites

/-!
# C65 for the shipped suites
-/

namespace Voprf

open Spec

/-- C65: for every shipped suite, a malicious server that asks `q` questions and has clients finalize `m` answers gets a wrong one
accepted with probability at most `(q + 2m) / 2²⁵²` in VOPRF and `(q + 3m) / 2²⁵²` in POPRF. -/
theorem C65_suites {CS : CipherSuite} [CS.group.Lawful] (hs : Shipped CS) {O : Type} (q m : Nat) :
    (∀ T : Player Question CS.Scalar (VoprfAttempt CS) (Res Bytes) O, T.Within q m →
      chance (fun f : Table CS => ∃ a : VoprfAttempt CS, T.Sends f (fun a => a.finalize f) a ∧ (∃ out, a.finalize f = .ok out) ∧
        ¬ SameKey CS a.pk a.blindedElement a.message) ≤ (q + 2 * m) / 2 ^ 252) ∧
    (∀ T : Player Question CS.Scalar (PoprfAttempt CS) (Res Bytes) O, T.Within q m →
      chance (fun f : Table CS => ∃ (a : PoprfAttempt CS) (t : CS.Scalar), T.Sends f (fun a => a.finalize f) a ∧
        (∃ out, a.finalize f = .ok out) ∧
        Spec.hashToScalar (oracleSuite CS f) .Poprf (infoInput (a.info.getD [])) = .ok t ∧
        ¬ SameKey CS (t • CS.group.baseElem + a.pk) a.message a.blindedElement) ≤ (q + 3 * m) / 2 ^ 252) := by
  obtain ⟨h1, -, -⟩ := shipped_large hs
  have wf := (C48_contract hs).2.2
  have h1' : (2 : ℚ) ^ 252 ≤ (Nat.card CS.Scalar : ℚ) := by exact_mod_cast Nat.le_of_succ_le h1
  exact ⟨fun T hT => (C65_voprf wf q m T hT).trans (div_le_div_of_nonneg_left (by positivity) (by positivity) h1'),
    fun T hT => (C65_poprf wf q m T hT).trans (div_le_div_of_nonneg_left (by positivity) (by positivity) h1')⟩

end Voprf
