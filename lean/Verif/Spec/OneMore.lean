import Verif.Spec.Predict
import Mathlib.Data.Set.Card

/-!
# More outputs than evaluations

The game of C55: a party with `n` evaluations from the server claims outputs for more than `n` inputs.  The
*solver* made from the party runs it, sends exactly its requests, never looks at the private key, and reads
candidate evaluated elements off the digest questions the party asks.
-/

namespace Voprf.Spec

namespace Player
variable {Q A R V O X : Type}

/-- How many elements the player has evaluated, a request `r` counting `size r`. -/
def spent (size : R → Nat) (f : Q → A) (answer : R → V) : Player Q A R V O → Nat
  | done _ => 0
  | ask q next => spent size f answer (next (f q))
  | request r next => spent size f answer (next (answer r)) + size r

/-- The player that behaves like the given one and ends with everything that `read` finds in its questions. -/
def readOff (read : Q → List X) (found : List X) : Player Q A R V O → Player Q A R V (List X)
  | done _ => done found
  | ask q next => ask q fun a => readOff read (found ++ read q) (next a)
  | request r next => request r fun v => readOff read found (next v)

end Player

/-- Splits off a leading length-prefixed string. -/
def unframe : Bytes → Option (Bytes × Bytes)
  | a :: b :: rest =>
    let n := a.toNat * 256 + b.toNat
    if n ≤ rest.length then some (rest.take n, rest.drop n) else none
  | _ => none

/-- Reads a string `⟨e⟩ "Finalize"` with a valid encoding `e`. -/
def readFinal (CS : CipherSuite) (s : Bytes) : Option CS.Elem := do
  let (e, rest) ← unframe s
  if rest = ascii "Finalize" then (CS.group.deserializeElem e).toOption else none

/-- The input and element of a string `⟨input⟩ ⟨e⟩ "Finalize"`. -/
def readPair (CS : CipherSuite) (q : DigestQuestion) : List (Bytes × CS.Elem) :=
  ((do
    let (x, s) ← unframe q.1
    let E ← readFinal CS s
    pure (x, E)) : Option (Bytes × CS.Elem)).toList

/-- The input, info and element of a string `⟨input⟩ ⟨info⟩ ⟨e⟩ "Finalize"`; and of a string
`⟨input⟩ ⟨e⟩ "Finalize"`, with empty info. -/
def readTriple (CS : CipherSuite) (q : DigestQuestion) : List (Bytes × Bytes × CS.Elem) :=
  ((do
    let (x, s) ← unframe q.1
    let (i, s) ← unframe s
    let E ← readFinal CS s
    pure (x, i, E)) : Option (Bytes × Bytes × CS.Elem)).toList ++
  (readPair CS q).map fun p => (p.1, [], p.2)

/-- The solver made from a party for OPRF or VOPRF. -/
def solver {CS : CipherSuite} {R V O : Type} (T : Player DigestQuestion (DigestValue CS) R V O) :
    Player DigestQuestion (DigestValue CS) R V (List (Bytes × CS.Elem)) :=
  T.readOff (readPair CS) []

/-- The solver made from a party for POPRF. -/
def solverInfo {CS : CipherSuite} {R V O : Type} (T : Player DigestQuestion (DigestValue CS) R V O) :
    Player DigestQuestion (DigestValue CS) R V (List (Bytes × Bytes × CS.Elem)) :=
  T.readOff (readTriple CS) []

/-- The number of different keys `x` with a right entry `(x, y)` in a list. -/
noncomputable def rightCount {X Y : Type} (right : X → Y → Prop) (entries : List (X × Y)) : Nat :=
  Set.ncard {x | ∃ y, (x, y) ∈ entries ∧ right x y}

end Voprf.Spec
