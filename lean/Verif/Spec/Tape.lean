import Verif.Spec.Randomness
import Verif.Spec.Contract
import Mathlib.Data.Set.Card

/-!
# A generator reading a tape of bytes

A source of uniform bytes is described by the tapes of a given length, each as likely as any other: the probability of an
event is the number of tapes on which it happens, divided by the number of tapes.
-/

namespace Voprf.Spec

/-- A generator that hands out the bytes of a tape one after the other, then zeros for ever. -/
structure Tape where
  bytes : Bytes

instance : RngCore Tape where
  fillBytes t n := ((t.bytes ++ List.replicate n 0).take n, ⟨t.bytes.drop n⟩)
  fillBytes_length t n := by simp

/-- The tapes of `len` bytes on which something happens. -/
def tapes (len : Nat) (event : Tape → Prop) : Set Bytes := {t | t.length = len ∧ event ⟨t⟩}

/-- Drawing scalars one after the other from the tape gives these. -/
def Drawing (G : VGroup) (xs : List G.Scalar) (t : Tape) : Prop := ∃ rest, Consecutive G t xs rest

/-- The calls, made one after the other with randomness from the tape, succeed with these results. -/
def Returning {R S : Type} (calls : List (Randomized R)) (view : R → S) (results : List S) (t : Tape) : Prop :=
  ∃ rs rest, runAll calls t = .ok (rs, rest) ∧ rs.map view = results

/-- Scalars drawn one after the other from uniform bytes, read `block` bytes at a time, are independent and nearly uniform on
the non-zero scalars: no sequence of `k` non-zero scalars is more than `(q / p) ^ k` times as likely as another.  With
`p = q = 1` all sequences of the same length are equally likely. -/
def NearlyUniform (G : VGroup) [G.Lawful] (block p q : Nat) : Prop :=
  ∀ (n : Nat) (xs ys : List G.Scalar), (∀ x ∈ xs, x ≠ 0) → (∀ y ∈ ys, y ≠ 0) → xs.length = ys.length →
    (tapes (n * block) (Drawing G xs)).ncard * p ^ xs.length ≤ (tapes (n * block) (Drawing G ys)).ncard * q ^ xs.length

end Voprf.Spec
