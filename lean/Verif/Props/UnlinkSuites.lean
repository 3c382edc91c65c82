import Verif.Props.Unlink
import Verif.Props.FreshSuites

/-!
# C70 for the shipped suites
-/

namespace Voprf

open Spec

/-- C70: for every shipped suite, the advantage of a linking server with `q` questions and `d` deliveries is at most
`(q + 2d) / 2²⁵²` in VOPRF and `(q + 3d) / 2²⁵²` in POPRF. -/
theorem C70_suites {CS : CipherSuite} [CS.group.Lawful] (hs : Shipped CS) {σ : Type} [RngCore σ] (draw : Nonce CS → σ)
    (hd : Draws draw) {n : Nat} (x : Fin n → Bytes) (π π' : Equiv.Perm (Fin n)) (pk : CS.Elem) (info : Option Bytes) (q d : Nat)
    (S : (Fin n → CS.Elem) → Linker CS n (Answer CS n) (Res Unit)) (hS : ∀ es, (S es).Within (fun _ => True) q d) :
    ((∀ j, Hidable CS .Voprf (x j)) → |voprfLink draw pk x π S - voprfLink draw pk x π' S| ≤ (q + 2 * d) / 2 ^ 252) ∧
    ((∀ j, Hidable CS .Poprf (x j)) → |poprfLink draw pk info x π S - poprfLink draw pk info x π' S| ≤ (q + 3 * d) / 2 ^ 252) := by
  obtain ⟨h1, -, -⟩ := shipped_large hs
  have wf := (C48_contract hs).2.2
  have h1' : (2 : ℚ) ^ 252 ≤ (Nat.card CS.Scalar : ℚ) := by exact_mod_cast Nat.le_of_succ_le h1
  exact ⟨fun h => (C70_voprf wf draw hd x h π π' pk q d S hS).trans
      (div_le_div_of_nonneg_left (by positivity) (by positivity) h1'),
    fun h => (C70_poprf wf draw hd x h π π' pk info q d S hS).trans
      (div_le_div_of_nonneg_left (by positivity) (by positivity) h1')⟩

end Voprf
