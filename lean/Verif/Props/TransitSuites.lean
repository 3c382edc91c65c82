import Verif.Props.Transit
import Verif.Props.FreshSuites

/-!
# C72 for the shipped suites
-/

namespace Voprf

open Spec

/-- C72: with every shipped suite, an altered request or response is accepted with probability at most `3 / 2²⁵²`. -/
theorem C72_suites {CS : CipherSuite} [CS.group.Lawful] (hs : Shipped CS) {σ : Type} [RngCore σ] (rng : σ) (k : CS.Scalar)
    (inputs : List Bytes) (clients : List (CS.Scalar × CS.Elem)) (info : Option Bytes) (r : EvalRequest CS)
    (hr : r.elems = clients.map Prod.snd) (ch : Channel CS) (hv : ch.Valid) :
    chance (fun f : Table CS => ∃ v, voprfAnswer k (k • CS.group.baseElem) (ch.request r) f rng = .ok v ∧ ch.Altered r v ∧
      ∃ outs, BatchAttempt.voprfFinalize f (k • CS.group.baseElem)
        ⟨inputs, clients, (ch.response v).1, (ch.response v).2.1, (ch.response v).2.2⟩ = .ok outs) ≤ 3 / 2 ^ 252 ∧
    chance (fun f : Table CS => ∃ v, poprfAnswer k (k • CS.group.baseElem) (ch.request r, info) f rng = .ok v ∧
      ch.Altered r v ∧ ∃ outs, BatchAttempt.poprfFinalize f (k • CS.group.baseElem) info
        ⟨inputs, clients, (ch.response v).1, (ch.response v).2.1, (ch.response v).2.2⟩ = .ok outs) ≤ 3 / 2 ^ 252 := by
  obtain ⟨h1, -, -⟩ := shipped_large hs
  have wf := (C48_contract hs).2.2
  have h1' : (2 : ℚ) ^ 252 ≤ (Nat.card CS.Scalar : ℚ) := by exact_mod_cast Nat.le_of_succ_le h1
  have hb := div_le_div_of_nonneg_left (a := (3 : ℚ)) (by norm_num) (by positivity) h1'
  exact ⟨(C72_voprf wf rng k inputs clients r hr ch hv).trans hb, (C72_poprf wf rng k inputs clients info r hr ch hv).trans hb⟩

end Voprf
