import Verif.Model.Group
import Mathlib.Algebra.BigOperators.Group.List.Basic
import Mathlib.Algebra.Module.Defs

/-!
# Specification vocabulary

A small self-contained description of the byte strings of RFC 9497, used in theorem statements instead
of the model's helpers.  `⟨x⟩` below means `x` preceded by its two-byte big-endian length.
-/

namespace Voprf.Spec

/-- The bytes of an ASCII string. -/
def ascii (s : String) : Bytes := s.toList.map fun c => UInt8.ofNat c.toNat

/-- `I2OSP(n, 2)` for `n < 65536`. -/
def be16 (n : Nat) : Bytes := [UInt8.ofNat (n / 256), UInt8.ofNat (n % 256)]

/-- `x` preceded by its length. -/
def framed (x : Bytes) : Bytes := be16 x.length ++ x

/-- RFC 9497 §3.1: mode identifiers. -/
def modeByte : Mode → UInt8
  | .Oprf => 0x00
  | .Voprf => 0x01
  | .Poprf => 0x02

section
variable (CS : CipherSuite)

/-- RFC 9497 §3.1: `contextString = "OPRFV1-" || I2OSP(mode, 1) || "-" || identifier`. -/
def contextString (mode : Mode) : Bytes :=
  ascii "OPRFV1-" ++ [modeByte mode] ++ ascii "-" ++ CS.ID

/-- RFC 9497 §4: `HashToGroup(x)`, domain `"HashToGroup-" || contextString`. -/
def hashToGroup (mode : Mode) (x : Bytes) : Except InternalError CS.Elem :=
  CS.group.hashToCurve CS.hash [x] [ascii "HashToGroup-" ++ contextString CS mode]

/-- RFC 9497 §4: `HashToScalar(x)`, domain `"HashToScalar-" || contextString`. -/
def hashToScalar (mode : Mode) (x : Bytes) : Except InternalError CS.Scalar :=
  CS.group.hashToScalar CS.hash [x] [ascii "HashToScalar-" ++ contextString CS mode]

/-- RFC 9497 §3.2.1 `DeriveKeyPair`: the candidate for one counter value, domain
`"DeriveKeyPair" || contextString`. -/
def keyCandidate (mode : Mode) (seed info : Bytes) (counter : Nat) :
    Except InternalError CS.Scalar :=
  CS.group.hashToScalar CS.hash [seed ++ framed info ++ [UInt8.ofNat counter]]
    [ascii "DeriveKeyPair" ++ contextString CS mode]

/-- The string hashed by `Finalize` in OPRF and VOPRF mode: `⟨input⟩ ⟨element⟩ "Finalize"`. -/
def finalizeInput (input element : Bytes) : Bytes :=
  framed input ++ framed element ++ ascii "Finalize"

/-- The string hashed by `Finalize` in POPRF mode: `⟨input⟩ ⟨info⟩ ⟨element⟩ "Finalize"`. -/
def finalizeInputInfo (input info element : Bytes) : Bytes :=
  framed input ++ framed info ++ framed element ++ ascii "Finalize"

/-- `Hash(⟨input⟩ ⟨P⟩ "Finalize")` -/
def output (input : Bytes) (P : CS.Elem) : Bytes :=
  CS.hash.digest (finalizeInput input (CS.group.serializeElem P))

/-- `Hash(⟨input⟩ ⟨info⟩ ⟨P⟩ "Finalize")` -/
def outputInfo (input info : Bytes) (P : CS.Elem) : Bytes :=
  CS.hash.digest (finalizeInputInfo input info (CS.group.serializeElem P))

/-- `framedInfo = "Info" ⟨info⟩` of RFC 9497 §3.3.3. -/
def infoInput (info : Bytes) : Bytes := ascii "Info" ++ framed info

/-- The composite seed `Hash(⟨B⟩ ⟨"Seed-" contextString⟩)` of RFC 9497 §2.2.1. -/
def seed (mode : Mode) (B : CS.Elem) : Bytes :=
  CS.hash.digest (framed (CS.group.serializeElem B) ++
    framed (ascii "Seed-" ++ contextString CS mode))

/-- The transcript `⟨seed⟩ I2OSP(i,2) ⟨C⟩ ⟨D⟩ "Composite"`. -/
def compositeInput (sd : Bytes) (i : Nat) (C D : Bytes) : Bytes :=
  framed sd ++ be16 i ++ framed C ++ framed D ++ ascii "Composite"

/-- The weight `d_i` of the `i`-th pair of a batch. -/
def weight (mode : Mode) (B : CS.Elem) (i : Nat) (C D : CS.Elem) : Except InternalError CS.Scalar :=
  hashToScalar CS mode (compositeInput (seed CS mode B) i (CS.group.serializeElem C)
    (CS.group.serializeElem D))

/-- The weights of a batch, counted from `i`. -/
def weightsFrom (mode : Mode) (B : CS.Elem) : Nat → List (CS.Elem × CS.Elem) →
    Except InternalError (List CS.Scalar)
  | _, [] => .ok []
  | i, (C, D) :: rest => do
      let w ← weight CS mode B i C D
      let ws ← weightsFrom mode B (i + 1) rest
      return w :: ws

/-- The weights `d_0 … d_{n-1}` of a batch of pairs `(C_i, D_i)` under public key `B`. -/
def weights (mode : Mode) (B : CS.Elem) (Cs Ds : List CS.Elem) :
    Except InternalError (List CS.Scalar) :=
  weightsFrom CS mode B 0 (Cs.zip Ds)

/-- The challenge transcript `⟨B⟩ ⟨M⟩ ⟨Z⟩ ⟨t2⟩ ⟨t3⟩ "Challenge"`. -/
def challengeInput (B M Z t2 t3 : Bytes) : Bytes :=
  framed B ++ framed M ++ framed Z ++ framed t2 ++ framed t3 ++ ascii "Challenge"

/-- The challenge scalar. -/
def challenge (mode : Mode) (B M Z t2 t3 : CS.Elem) : Except InternalError CS.Scalar :=
  hashToScalar CS mode (challengeInput (CS.group.serializeElem B) (CS.group.serializeElem M)
    (CS.group.serializeElem Z) (CS.group.serializeElem t2) (CS.group.serializeElem t3))

end

/-- `Σ w_i • P_i` -/
def lincomb {F E : Type} [Semiring F] [AddCommMonoid E] [Module F E] (ws : List F) (Ps : List E) : E :=
  (List.zipWith (fun w P => w • P) ws Ps).sum

end Voprf.Spec
