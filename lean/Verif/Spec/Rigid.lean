import Verif.Spec.Dleq

/-!
# The string a verifier hashes

A proof `(c, s)` is checked by hashing one string and comparing the result with `c`.  This file writes that
string down, so that "two accepted proofs, or a collision of the hash" can name the two colliding strings.
-/

namespace Voprf.Spec

variable (CS : CipherSuite) [CS.group.Lawful]

/-- The string whose hash is compared with the challenge when the proof `(c, s)` for the pairs `(Cs, Ds)`
under the public key `B` is checked: `⟨B⟩⟨M⟩⟨Z⟩⟨s·G + c·B⟩⟨s·M + c·Z⟩"Challenge"` where `M = Σ wᵢ·Cᵢ` and
`Z = Σ wᵢ·Dᵢ`. -/
def verifierString (B : CS.Elem) (Cs Ds : List CS.Elem) (ws : List CS.Scalar) (c s : CS.Scalar) : Bytes :=
  challengeInput (CS.group.serializeElem B) (CS.group.serializeElem (lincomb ws Cs))
    (CS.group.serializeElem (lincomb ws Ds))
    (CS.group.serializeElem (s • CS.group.baseElem + c • B))
    (CS.group.serializeElem (s • lincomb ws Cs + c • lincomb ws Ds))

/-- The strings hashed to check `(c, s)` under `B` and `(c, s')` under `B'`, for the same pairs, are different and
both hash to `c`. -/
def ChallengeCollision (mode : Mode) (B B' : CS.Elem) (Cs Ds : List CS.Elem) (c s s' : CS.Scalar) : Prop :=
  ∃ ws ws', weights CS mode B Cs Ds = .ok ws ∧ weights CS mode B' Cs Ds = .ok ws' ∧
    verifierString CS B Cs Ds ws c s ≠ verifierString CS B' Cs Ds ws' c s' ∧
    hashToScalar CS mode (verifierString CS B Cs Ds ws c s) = .ok c ∧
    hashToScalar CS mode (verifierString CS B' Cs Ds ws' c s') = .ok c

end Voprf.Spec
