import Verif.Model.Oprf
import Verif.Model.Voprf
import Verif.Model.Poprf

/-!
# How calls use the random generator
-/

namespace Voprf.Spec

/-- A call taking any generator and giving it back advanced. -/
abbrev Randomized (R : Type) : Type 1 := ∀ (σ : Type) [RngCore σ], σ → Res (R × σ)

/-- The call either fails in one and the same way whatever the generator, or draws exactly one
`random_scalar`: the result is a function of the drawn scalar alone, and the generator handed back is the one
this draw left. -/
def OneScalar (G : VGroup) {R : Type} (call : Randomized R) : Prop :=
  (∃ e : Res Empty, ∀ (σ : Type) [RngCore σ] (rng : σ), call σ rng = (fun x => nomatch x) <$> e) ∨
  ∃ result : G.Scalar → Res R, ∀ (σ : Type) [RngCore σ] (rng : σ), call σ rng =
    match G.randomScalar rng with
    | none => .diverge
    | some (ρ, rng') => (fun x => (x, rng')) <$> result ρ

/-- The call draws exactly `n` bytes: the result is a function of these bytes alone, and the generator handed
back is the one this draw left. -/
def SomeBytes (n : Nat) {R : Type} (call : Randomized R) : Prop :=
  ∃ result : Bytes → Res R, ∀ (σ : Type) [RngCore σ] (rng : σ), call σ rng =
    (fun x => (x, (RngCore.fillBytes rng n).2)) <$> result (RngCore.fillBytes rng n).1

/-- Calls made one after the other on one generator. -/
def runAll {R σ : Type} [RngCore σ] : List (Randomized R) → σ → Res (List R × σ)
  | [], rng => .ok ([], rng)
  | call :: calls, rng => do
      let (x, rng) ← call σ rng
      let (xs, rng) ← runAll calls rng
      .ok (x :: xs, rng)

/-- The scalars are consecutive draws, the first from the first generator; the second generator is what they
leave. -/
def Consecutive (G : VGroup) {σ : Type} [RngCore σ] : σ → List G.Scalar → σ → Prop
  | rng, [], rng' => rng = rng'
  | rng, ρ :: ρs, rng' => ∃ next, G.randomScalar rng = some (ρ, next) ∧ Consecutive G next ρs rng'

end Voprf.Spec
