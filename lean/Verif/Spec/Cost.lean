import Verif.Model.Leak

/-!
# Counting the work of a call

The record of an instrumented call (`Model/Leak.lean`) contains every group operation and every hash.  A *cost* says
how many of each.
-/

namespace Voprf.Spec

open Leak (T Op Event)

/-- How often the operation `o` occurs in a record. -/
def opCount (o : Op) (t : List Event) : Nat :=
  (t.filter fun e => match e with
    | .op o' _ => o' == o
    | _ => false).length

/-- A number for each operation. -/
abbrev Cost : Type := Op → Nat

/-- Whatever happens, the call performs each operation at most as often as the cost says; if it succeeds, exactly
as often. -/
def Costs {α : Type} (x : T α) (c : Cost) : Prop :=
  ∀ o, opCount o x.trace ≤ c o ∧ ∀ a, x.val = .ok a → opCount o x.trace = c o

/-- The call performs each operation at most as often as the cost says. -/
def CostsAtMost {α : Type} (x : T α) (c : Cost) : Prop := ∀ o, opCount o x.trace ≤ c o

/-- A batch of lazy items: `c` before the first item is asked for; if this succeeds there are `n` items, and each of them
costs `d` when it is asked for. -/
def BatchCosts {α : Type} (x : T (List (T α))) (c d : Cost) (n : Nat) : Prop :=
  Costs x c ∧ ∀ items, x.val = .ok items → items.length = n ∧ ∀ i ∈ items, Costs i d

/-- `blind`, in every mode. -/
def blindCost : Cost
  | .randomScalar => 1 | .hashToCurve => 1 | .elemMul => 1
  | _ => 0

/-- `OprfServer::blind_evaluate`: one multiplication. -/
def oprfServerCost : Cost
  | .elemMul => 1
  | _ => 0

/-- `OprfClient::finalize`, and one item of `batch_finalize`. -/
def itemCost : Cost
  | .invertScalar => 1 | .elemMul => 1 | .serializeElem => 1 | .digest => 1
  | _ => 0

/-- `evaluate`. -/
def evaluateCost : Cost
  | .hashToCurve => 1 | .isIdentityElem => 1 | .elemMul => 1 | .serializeElem => 1 | .digest => 1
  | _ => 0

/-- `PoprfServer::evaluate`. -/
def poprfEvaluateCost : Cost
  | .hashToCurve => 1 | .isIdentityElem => 1 | .hashToScalar => 1 | .scalarAdd => 1 | .isZeroScalar => 1
  | .invertScalar => 1 | .elemMul => 1 | .serializeElem => 1 | .digest => 1
  | _ => 0

/-- `VoprfServer::batch_blind_evaluate_finish` of `n` elements: the proof. -/
def voprfFinishCost (n : Nat) : Cost
  | .elemMul => n + 3 | .elemAdd => n | .serializeElem => 2 * n + 6 | .hashToScalar => n + 1 | .digest => 1
  | .randomScalar => 1 | .scalarMul => 1 | .scalarSub => 1
  | _ => 0

/-- `PoprfServer::batch_blind_evaluate_finish` of `n` prepared elements. -/
def poprfFinishCost (n : Nat) : Cost
  | .elemMul => n + 4 | .elemAdd => n | .serializeElem => 2 * n + 6 | .hashToScalar => n + 1 | .digest => 1
  | .randomScalar => 1 | .scalarMul => 1 | .scalarSub => 1
  | _ => 0

/-- One item of `PoprfServer::batch_blind_evaluate_prepare`. -/
def poprfPrepareCost : Cost
  | .invertScalar => 1 | .elemMul => 1
  | _ => 0

/-- `new_from_seed`, at most. -/
def deriveCost : Cost
  | .hashToScalar => 256 | .isZeroScalar => 256 | .elemMul => 1
  | _ => 0

/-- `new`, at most. -/
def newCost : Cost
  | .fillBytes => 1 | .hashToScalar => 256 | .isZeroScalar => 256 | .elemMul => 1
  | _ => 0

/-- `VoprfServer::batch_blind_evaluate` of `n` elements. -/
def voprfServerCost (n : Nat) : Cost
  | .elemMul => 2 * n + 3 | .elemAdd => n | .serializeElem => 2 * n + 6 | .hashToScalar => n + 1 | .digest => 1
  | .randomScalar => 1 | .scalarMul => 1 | .scalarSub => 1
  | _ => 0

/-- `PoprfServer::batch_blind_evaluate` of `n` elements. -/
def poprfServerCost (n : Nat) : Cost
  | .elemMul => 2 * n + 4 | .elemAdd => n | .serializeElem => 2 * n + 6 | .hashToScalar => n + 2 | .digest => 1
  | .randomScalar => 1 | .scalarMul => 1 | .scalarSub => 1
  | .scalarAdd => 1 | .isZeroScalar => 1 | .invertScalar => n
  | _ => 0

/-- `VoprfClient::batch_finalize` with `n` messages, before the first item. -/
def voprfVerifyCost (n : Nat) : Cost
  | .elemMul => 2 * n + 4 | .elemAdd => 2 * n + 2 | .serializeElem => 2 * n + 6 | .hashToScalar => n + 1 | .digest => 1
  | .scalarCtEq => 1
  | _ => 0

/-- `PoprfClient::batch_finalize` with `n` messages, before the first item. -/
def poprfVerifyCost (n : Nat) : Cost
  | .elemMul => 2 * n + 5 | .elemAdd => 2 * n + 3 | .serializeElem => 2 * n + 6 | .hashToScalar => n + 2 | .digest => 1
  | .scalarCtEq => 1 | .isIdentityElem => 1
  | _ => 0

end Voprf.Spec
