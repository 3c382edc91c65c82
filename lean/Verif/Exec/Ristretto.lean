import Verif.Exec.Nist
import Verif.Lemmas.Ristretto
import Verif.Lemmas.RistrettoPoint

/-!
# ristretto255, executable

`random_scalar` and the inversion of scalars in a form the kernel can evaluate, equal to the model: used to run the
RFC 9497 test vectors on `Ristretto.group ristretto255`.
-/

namespace Voprf.Ristretto

open Curve

/-- `random_scalar` with the first draws unrolled. -/
noncomputable def fastRandomScalar {σ : Type} [RngCore σ] (s : σ) : Option (Scalar × σ) :=
  match Nist.fewDraws drawScalar 4 s with
  | some r => some r
  | none => randomScalar s

def fastInvert (k : Scalar) : Option Scalar := some ((powMod k.val (ell - 2) ell : Nat) : Scalar)

/-- The group with fast exponentiation and sampling. -/
noncomputable def fast (D : Dalek) : VGroup :=
  { group D with
    invertScalar := fastInvert
    randomScalar := fastRandomScalar }

theorem fast_eq (D : Dalek) : fast D = group D := by
  have h1 : fastInvert = invertScalar := by
    funext k
    rw [fastInvert, powMod_eq, ZMod.natCast_zmod_val]
    rfl
  have h3 : (@fastRandomScalar : {σ : Type} → [RngCore σ] → σ → Option (Scalar × σ)) = @randomScalar := by
    funext σ _ s
    unfold fastRandomScalar
    split
    · next r h => exact ((sampleLoop_iff drawScalar s r).mpr (Nist.fewDraws_run _ _ _ h)).symm
    · rfl
  unfold fast
  rw [h1]
  show ({ group D with randomScalar := @fastRandomScalar } : VGroup) = _
  rw [h3]
  rfl

end Voprf.Ristretto
