import Mathlib.Algebra.Field.Defs
import Mathlib.Algebra.Module.Defs
import Verif.Base

/-!
# RFC 9497 pseudo-code, transcribed

Independent of the model of the crate: it knows only bytes, a field of scalars `F` acting on a group `E`,
and the functions RFC 9497 §2.1 assumes.  `RandomScalar()` results are arguments.  Application inputs are
assumed to be within the RFC's 16-bit length limits, so `I2OSP(len, 2)` does not fail.
-/

namespace Rfc9497

open Voprf (Bytes)

/-- The failures RFC 9497 names. -/
inductive Failure
  | VerifyError
  | InvalidInputError
  | InverseError
  | DeriveKeyPairError
  deriving DecidableEq, Repr

/-- ASCII bytes. -/
def str (s : String) : Bytes := s.toList.map fun c => UInt8.ofNat c.toNat

/-- §1.2 `I2OSP(n, 2)`. -/
def I2OSP2 (n : Nat) : Bytes := [UInt8.ofNat (n / 256), UInt8.ofNat (n % 256)]
/-- §1.2 `I2OSP(n, 1)`. -/
def I2OSP1 (n : Nat) : Bytes := [UInt8.ofNat n]

/-- A ciphersuite (§2.1, §4): the functions of the prime-order group and the hash. -/
structure Suite (F E : Type) where
  identifier : Bytes
  Hash : Bytes → Bytes
  /-- `HashToGroup(x)` with an explicit domain-separation tag -/
  HashToGroupDST : (DST x : Bytes) → E
  /-- `HashToScalar(x)` with an explicit domain-separation tag -/
  HashToScalarDST : (DST x : Bytes) → F
  /-- `Generator()` -/
  Generator : E
  SerializeElement : E → Bytes

/-- §3.1: `modeOPRF`, `modeVOPRF`, `modePOPRF`. -/
def modeOPRF : UInt8 := 0x00
def modeVOPRF : UInt8 := 0x01
def modePOPRF : UInt8 := 0x02

variable {F E : Type} [Field F] [AddCommGroup E] [Module F E] [DecidableEq F] [DecidableEq E]
variable (S : Suite F E) (mode : UInt8)

/-- §3.1 `CreateContextString(mode, identifier)`. -/
def contextString : Bytes := str "OPRFV1-" ++ [mode] ++ str "-" ++ S.identifier

/-- §4.x `HashToGroup()`: DST = "HashToGroup-" || contextString. -/
def HashToGroup (x : Bytes) : E := S.HashToGroupDST (str "HashToGroup-" ++ contextString S mode) x

/-- §4.x `HashToScalar()`: DST = "HashToScalar-" || contextString. -/
def HashToScalar (x : Bytes) : F := S.HashToScalarDST (str "HashToScalar-" ++ contextString S mode) x

/-! ## §2.2 Discrete logarithm equivalence proofs -/

/-- §2.2.1/§2.2.2: the seed of the composites. -/
def seed (B : E) : Bytes :=
  let Bm := S.SerializeElement B
  let seedDST := str "Seed-" ++ contextString S mode
  let seedTranscript := I2OSP2 Bm.length ++ Bm ++ I2OSP2 seedDST.length ++ seedDST
  S.Hash seedTranscript

/-- The scalar `di` of one loop iteration. -/
def di (sd : Bytes) (i : Nat) (C D : E) : F :=
  let Ci := S.SerializeElement C
  let Di := S.SerializeElement D
  let compositeTranscript :=
    I2OSP2 sd.length ++ sd ++ I2OSP2 i ++
    I2OSP2 Ci.length ++ Ci ++
    I2OSP2 Di.length ++ Di ++
    str "Composite"
  HashToScalar S mode compositeTranscript

/-- The loop of `ComputeCompositesFast`: `M = di * C[i] + M`. -/
def compositesFastLoop (sd : Bytes) : Nat → List E → List E → E → E
  | i, C :: Cs, D :: Ds, M => compositesFastLoop sd (i + 1) Cs Ds (di S mode sd i C D • C + M)
  | _, _, _, M => M

/-- §2.2.1 `ComputeCompositesFast(k, B, C, D)`. -/
def ComputeCompositesFast (k : F) (B : E) (C D : List E) : E × E :=
  let sd := seed S mode B
  let M := compositesFastLoop S mode sd 0 C D 0
  let Z := k • M
  (M, Z)

/-- The loop of `ComputeComposites`: `M = di * C[i] + M`, `Z = di * D[i] + Z`. -/
def compositesLoop (sd : Bytes) : Nat → List E → List E → E × E → E × E
  | i, C :: Cs, D :: Ds, (M, Z) =>
      let d := di S mode sd i C D
      compositesLoop sd (i + 1) Cs Ds (d • C + M, d • D + Z)
  | _, _, _, MZ => MZ

/-- §2.2.2 `ComputeComposites(B, C, D)`. -/
def ComputeComposites (B : E) (C D : List E) : E × E :=
  compositesLoop S mode (seed S mode B) 0 C D (0, 0)

/-- The challenge transcript, hashed. -/
def challenge (B M Z t2 t3 : E) : F :=
  let Bm := S.SerializeElement B
  let a0 := S.SerializeElement M
  let a1 := S.SerializeElement Z
  let a2 := S.SerializeElement t2
  let a3 := S.SerializeElement t3
  let challengeTranscript :=
    I2OSP2 Bm.length ++ Bm ++
    I2OSP2 a0.length ++ a0 ++
    I2OSP2 a1.length ++ a1 ++
    I2OSP2 a2.length ++ a2 ++
    I2OSP2 a3.length ++ a3 ++
    str "Challenge"
  HashToScalar S mode challengeTranscript

/-- §2.2.1 `GenerateProof(k, A, B, C, D)` with `r = RandomScalar()`. -/
def GenerateProof (r : F) (k : F) (A B : E) (C D : List E) : F × F :=
  let (M, Z) := ComputeCompositesFast S mode k B C D
  let t2 := r • A
  let t3 := r • M
  let c := challenge S mode B M Z t2 t3
  let s := r - c * k
  (c, s)

/-- §2.2.2 `VerifyProof(A, B, C, D, proof)`. -/
def VerifyProof (A B : E) (C D : List E) (proof : F × F) : Bool :=
  let (M, Z) := ComputeComposites S mode B C D
  let (c, s) := proof
  let t2 := s • A + c • B
  let t3 := s • M + c • Z
  let expectedC := challenge S mode B M Z t2 t3
  decide (expectedC = c)

/-! ## §3.2 Key generation -/

/-- The `while skS == 0` loop, `fuel = 256 - counter`. -/
def deriveLoop (deriveInput : Bytes) : (fuel counter : Nat) → Except Failure F
  | 0, _ => .error .DeriveKeyPairError
  | fuel + 1, counter =>
      let skS := S.HashToScalarDST (str "DeriveKeyPair" ++ contextString S mode)
        (deriveInput ++ I2OSP1 counter)
      if skS = 0 then deriveLoop deriveInput fuel (counter + 1) else .ok skS

/-- §3.2.1 `DeriveKeyPair(seed, info)`. -/
def DeriveKeyPair (seed info : Bytes) : Except Failure (F × E) := do
  let deriveInput := seed ++ I2OSP2 info.length ++ info
  let skS ← deriveLoop S mode deriveInput 256 0
  let pkS := skS • S.Generator
  return (skS, pkS)

/-! ## §3.3.1 OPRF protocol -/

/-- §3.3.1 `Blind(input)` with `blind = RandomScalar()`; also used by §3.3.2. -/
def Blind (blind : F) (input : Bytes) : Except Failure (F × E) :=
  let inputElement := HashToGroup S mode input
  if inputElement = 0 then .error .InvalidInputError
  else
    let blindedElement := blind • inputElement
    .ok (blind, blindedElement)

/-- §3.3.1 `BlindEvaluate(skS, blindedElement)`. -/
def BlindEvaluate (skS : F) (blindedElement : E) : E := skS • blindedElement

/-- §3.3.1 `Finalize(input, blind, evaluatedElement)`. -/
def Finalize (input : Bytes) (blind : F) (evaluatedElement : E) : Bytes :=
  let N := blind⁻¹ • evaluatedElement
  let unblindedElement := S.SerializeElement N
  let hashInput := I2OSP2 input.length ++ input ++
    I2OSP2 unblindedElement.length ++ unblindedElement ++ str "Finalize"
  S.Hash hashInput

/-- §3.3.1 `Evaluate(skS, input)`; also used by §3.3.2. -/
def Evaluate (skS : F) (input : Bytes) : Except Failure Bytes :=
  let inputElement := HashToGroup S mode input
  if inputElement = 0 then .error .InvalidInputError
  else
    let evaluatedElement := skS • inputElement
    let issuedElement := S.SerializeElement evaluatedElement
    let hashInput := I2OSP2 input.length ++ input ++
      I2OSP2 issuedElement.length ++ issuedElement ++ str "Finalize"
    .ok (S.Hash hashInput)

/-! ## §3.3.2 VOPRF protocol -/

/-- §3.3.2 `BlindEvaluate(skS, pkS, blindedElement)` with the proof's `r`. -/
def VerifiableBlindEvaluate (r : F) (skS : F) (pkS : E) (blindedElement : E) : E × (F × F) :=
  let evaluatedElement := skS • blindedElement
  let proof := GenerateProof S modeVOPRF r skS S.Generator pkS [blindedElement] [evaluatedElement]
  (evaluatedElement, proof)

/-- §3.3.2 `Finalize(input, blind, evaluatedElement, blindedElement, pkS, proof)`. -/
def VerifiableFinalize (input : Bytes) (blind : F) (evaluatedElement blindedElement : E) (pkS : E)
    (proof : F × F) : Except Failure Bytes :=
  if VerifyProof S modeVOPRF S.Generator pkS [blindedElement] [evaluatedElement] proof = false then
    .error .VerifyError
  else .ok (Finalize S input blind evaluatedElement)

/-! ## §3.3.3 POPRF protocol -/

/-- `m = HashToScalar("Info" || I2OSP(len(info), 2) || info)`. -/
def infoScalar (info : Bytes) : F :=
  let framedInfo := str "Info" ++ I2OSP2 info.length ++ info
  HashToScalar S modePOPRF framedInfo

/-- §3.3.3 `Blind(input, info, pkS)`: the computation of `tweakedKey`. -/
def TweakedKey (info : Bytes) (pkS : E) : Except Failure E :=
  let m : F := infoScalar S info
  let T := m • S.Generator
  let tweakedKey := T + pkS
  if tweakedKey = 0 then .error .InvalidInputError else .ok tweakedKey

/-- §3.3.3 `BlindEvaluate(skS, blindedElement, info)`. -/
def PartialBlindEvaluate (r : F) (skS : F) (blindedElement : E) (info : Bytes) :
    Except Failure (E × (F × F)) :=
  let m := infoScalar S info
  let t := skS + m
  if t = 0 then .error .InverseError
  else
    let evaluatedElement := t⁻¹ • blindedElement
    let tweakedKey := t • S.Generator
    let proof := GenerateProof S modePOPRF r t S.Generator tweakedKey [evaluatedElement] [blindedElement]
    .ok (evaluatedElement, proof)

/-- §3.3.3 `Finalize(input, blind, evaluatedElement, blindedElement, proof, info, tweakedKey)`. -/
def PartialFinalize (input : Bytes) (blind : F) (evaluatedElement blindedElement : E) (proof : F × F)
    (info : Bytes) (tweakedKey : E) : Except Failure Bytes :=
  if VerifyProof S modePOPRF S.Generator tweakedKey [evaluatedElement] [blindedElement] proof = false then
    .error .VerifyError
  else
    let N := blind⁻¹ • evaluatedElement
    let unblindedElement := S.SerializeElement N
    let hashInput := I2OSP2 input.length ++ input ++ I2OSP2 info.length ++ info ++
      I2OSP2 unblindedElement.length ++ unblindedElement ++ str "Finalize"
    .ok (S.Hash hashInput)

/-- §3.3.3 `Evaluate(skS, input, info)`. -/
def PartialEvaluate (skS : F) (input info : Bytes) : Except Failure Bytes :=
  let inputElement := HashToGroup S modePOPRF input
  if inputElement = 0 then .error .InvalidInputError
  else
    let m := infoScalar S info
    let t := skS + m
    if t = 0 then .error .InverseError
    else
      let evaluatedElement := t⁻¹ • inputElement
      let issuedElement := S.SerializeElement evaluatedElement
      let hashInput := I2OSP2 input.length ++ input ++ I2OSP2 info.length ++ info ++
        I2OSP2 issuedElement.length ++ issuedElement ++ str "Finalize"
      .ok (S.Hash hashInput)

end Rfc9497
