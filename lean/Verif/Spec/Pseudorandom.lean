import Verif.Spec.Predict

/-!
# Telling outputs from random strings

The digest is a table of uniformly chosen values (`digestSuite`, `Spec/Predict.lean`).  A party asks for digests, sends requests,
and may ask the server directly for outputs of `evaluate`.  In the *real* world it gets them; in the *ideal* world the outputs come
from a random function of the input (and info) that has nothing to do with the digest or the key.
-/

namespace Voprf.Spec

namespace Player
variable {Q A R V O : Type}

/-- The player sends the request `r₀`. -/
def Sends (f : Q → A) (answer : R → V) (r₀ : R) : Player Q A R V O → Prop
  | done _ => False
  | ask q next => Sends f answer r₀ (next (f q))
  | request r next => r = r₀ ∨ Sends f answer r₀ (next (answer r))

/-- How many questions the player asks. -/
def questions (f : Q → A) (answer : R → V) : Player Q A R V O → Nat
  | done _ => 0
  | ask q next => questions f answer (next (f q)) + 1
  | request r next => questions f answer (next (answer r))

end Player

/-- A string of at most 65535 bytes. -/
abbrev Short : Type := {x : Bytes // x.length ≤ 65535}

/-- A string of at most 65535 bytes, or its absence. -/
abbrev ShortInfo : Type := {i : Option Bytes // (i.getD []).length ≤ 65535}

/-- A function from inputs to strings of the length of an output. -/
abbrev Outputs (CS : CipherSuite) : Type := Short → DigestValue CS

/-- A function from inputs and infos to strings of the length of an output. -/
abbrev InfoOutputs (CS : CipherSuite) : Type := Short × ShortInfo → DigestValue CS

/-- The value of a call, if it succeeds. -/
def success {α : Type} : Res α → Option α
  | .ok a => some a
  | _ => none

section
variable {CS : CipherSuite} [CS.group.Lawful]

/-- The input is hashed to an element other than the identity. -/
def Mapped (CS : CipherSuite) [CS.group.Lawful] (mode : Mode) (x : Bytes) : Prop :=
  ∃ P : CS.Elem, hashToGroup CS mode x = .ok P ∧ P ≠ 0

open Classical in
/-- The output for `x` is that of the function, for an input of at most 65535 bytes that is not hashed to the identity. -/
noncomputable def Outputs.answer (F : Outputs CS) (mode : Mode) (x : Bytes) : Option Bytes :=
  if h : x.length ≤ 65535 ∧ Mapped CS mode x then some (F ⟨x, h.1⟩).1 else none

/-- The info is hashed to the scalar `t`. -/
def TweaksBy (CS : CipherSuite) (info : Option Bytes) (t : CS.Scalar) : Prop :=
  hashToScalar CS .Poprf (infoInput (info.getD [])) = .ok t

open Classical in
/-- The output for `x` and `info` is that of the function, for an input and an info of at most 65535 bytes, the input not hashed to
the identity and the info hashed to a scalar. -/
noncomputable def InfoOutputs.answer (F : InfoOutputs CS) (x : Bytes × Option Bytes) : Option Bytes :=
  if h : x.1.length ≤ 65535 ∧ (x.2.getD []).length ≤ 65535 ∧ Mapped CS .Poprf x.1 ∧ ∃ t, TweaksBy CS x.2 t then
    some (F (⟨x.1, h.1⟩, ⟨x.2, h.2.1⟩)).1
  else none

/-- Evaluated element of an input, OPRF and VOPRF: the key times the hashed input. -/
def Evaluates (CS : CipherSuite) [CS.group.Lawful] (mode : Mode) (k : CS.Scalar) (x : Bytes) (E : CS.Elem) : Prop :=
  ∃ P : CS.Elem, hashToGroup CS mode x = .ok P ∧ E = k • P

/-- Evaluated element of an input and info, POPRF: the hashed input over the sum of the key and the hashed info. -/
def EvaluatesInfo (CS : CipherSuite) [CS.group.Lawful] (k : CS.Scalar) (x : Bytes × Option Bytes) (E : CS.Elem) : Prop :=
  ∃ (P : CS.Elem) (t : CS.Scalar), hashToGroup CS .Poprf x.1 = .ok P ∧ TweaksBy CS x.2 t ∧ E = (k + t)⁻¹ • P

/-! ## Outputs only: `evaluate` as a keyed function -/

/-- Outputs of the `OprfServer` with key `k`. -/
def oprfOutput (k : CS.Scalar) (D : Digests CS) (x : Bytes) : Option Bytes :=
  success (OprfServer.evaluate (CS := digestSuite CS D) ⟨k⟩ x)

/-- Outputs of the `VoprfServer` with key pair `k`, `pk`. -/
def voprfOutput (k : CS.Scalar) (pk : CS.Elem) (D : Digests CS) (x : Bytes) : Option Bytes :=
  success (VoprfServer.evaluate (CS := digestSuite CS D) ⟨k, pk⟩ x)

/-- Outputs of the `PoprfServer` with key pair `k`, `pk`. -/
def poprfOutput (k : CS.Scalar) (pk : CS.Elem) (D : Digests CS) (x : Bytes × Option Bytes) : Option Bytes :=
  success (PoprfServer.evaluate (CS := digestSuite CS D) ⟨k, pk⟩ x.1 x.2)

/-! ## Outputs besides the protocol -/

/-- The answers of a server to requests `R` (by `serve`) and to requests for outputs (by `output`). -/
def withOutputs {R V X : Type} (serve : R → V) (output : X → Option Bytes) : R ⊕ X → V ⊕ Option Bytes
  | .inl r => .inl (serve r)
  | .inr x => .inr (output x)

/-- The `OprfServer` with key `k`. -/
def oprfReal (k : CS.Scalar) (D : Digests CS) : CS.Elem ⊕ Bytes → CS.Elem ⊕ Option Bytes :=
  withOutputs (oprfServe k D) (oprfOutput k D)

/-- The same, the outputs being those of a random function. -/
noncomputable def oprfIdeal (k : CS.Scalar) (D : Digests CS) (F : Outputs CS) : CS.Elem ⊕ Bytes → CS.Elem ⊕ Option Bytes :=
  withOutputs (oprfServe k D) (F.answer .Oprf)

/-- The `VoprfServer` with key pair `k`, `pk`. -/
def voprfReal {σ : Type} [RngCore σ] (k : CS.Scalar) (pk : CS.Elem) (D : Digests CS) :
    (EvalRequest CS × σ) ⊕ Bytes → EvalResponse CS ⊕ Option Bytes :=
  withOutputs (voprfServe k pk D) (voprfOutput k pk D)

/-- The same, the outputs being those of a random function. -/
noncomputable def voprfIdeal {σ : Type} [RngCore σ] (k : CS.Scalar) (pk : CS.Elem) (D : Digests CS) (F : Outputs CS) :
    (EvalRequest CS × σ) ⊕ Bytes → EvalResponse CS ⊕ Option Bytes :=
  withOutputs (voprfServe k pk D) (F.answer .Voprf)

/-- The `PoprfServer` with key pair `k`, `pk`. -/
def poprfReal {σ : Type} [RngCore σ] (k : CS.Scalar) (pk : CS.Elem) (D : Digests CS) :
    (EvalRequest CS × Option Bytes × σ) ⊕ (Bytes × Option Bytes) → EvalResponse CS ⊕ Option Bytes :=
  withOutputs (poprfServe k pk D) (poprfOutput k pk D)

/-- The same, the outputs being those of a random function. -/
noncomputable def poprfIdeal {σ : Type} [RngCore σ] (k : CS.Scalar) (pk : CS.Elem) (D : Digests CS) (F : InfoOutputs CS) :
    (EvalRequest CS × Option Bytes × σ) ⊕ (Bytes × Option Bytes) → EvalResponse CS ⊕ Option Bytes :=
  withOutputs (poprfServe k pk D) F.answer

end

end Voprf.Spec
