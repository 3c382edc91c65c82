import Verif.Model.Iter

/-!
# What it means that a lazy result can be consumed at any time
-/

namespace Voprf.Lazy

/-- What the `n`-th call of `next` (counted from 0) returns. -/
def nth {σ α : Type} [Iter σ α] : Nat → σ → Option (Res α)
  | 0, s => (Iter.next s).1
  | n + 1, s => nth n (Iter.next s).2

/-- The iterator returns the items of `l` in order, each once, and then `None` for ever. -/
def Yields {σ α : Type} [Iter σ α] (s : σ) (l : List (Res α)) : Prop := ∀ n, nth n s = l[n]?

/-- A lazy result held by the caller, of whatever concrete type. -/
structure Live (α : Type) where
  {σ : Type}
  [inst : Iter σ α]
  state : σ

attribute [instance] Live.inst

/-- Asking it for an item. -/
def Live.next {α : Type} (x : Live α) : Option (Res α) × Live α :=
  ((Iter.next x.state).1, ⟨(Iter.next x.state).2⟩)

/-- The caller holds any number of lazy results, with items of any types `τ j`, and asks them for items in any order: the
schedule lists which one is asked.  The answers, in order. -/
def run {ι : Type} [DecidableEq ι] {τ : ι → Type} : ((j : ι) → Live (τ j)) → List ι → List ((j : ι) × Option (Res (τ j)))
  | _, [] => []
  | world, j :: schedule =>
      ⟨j, (world j).next.1⟩ ::
        run (fun i => if h : j = i then h ▸ (world j).next.2 else world i) schedule

/-- The answers if every result had been collected beforehand: the call answers with the item whose number is the number of
earlier calls to the same result. -/
def collected {ι : Type} [DecidableEq ι] {τ : ι → Type} (items : (j : ι) → List (Res (τ j))) (schedule : List ι) :
    List ((j : ι) × Option (Res (τ j))) :=
  schedule.zipIdx.map fun (j, t) => ⟨j, (items j)[(schedule.take t).count j]?⟩

/-- A call that returns a lazy result, against the same call returning the list: same outcome, and on success the result
yields the list. -/
def Returns {σ α : Type} [Iter σ α] (lazy : Res σ) (eager : Res (List (Res α))) : Prop :=
  match lazy, eager with
  | .ok s, .ok l => Yields s l
  | .err e, .err e' => e = e'
  | .panic, .panic => True
  | .diverge, .diverge => True
  | _, _ => False

end Voprf.Lazy
