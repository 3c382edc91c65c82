import Verif.Spec.Spy
import Verif.Spec.Tape

/-!
# A malicious server watching clients that share one byte source

The game of `Verif/Spec/Spy.lean`, played with the generator the clients really use: all of them draw their blinds, one after
the other, from one source of bytes.
-/

namespace Voprf.Spec

/-- The guess of the server when the clients take their randomness from the generator; none if a client fails to blind. -/
def Spy.run {CS : CipherSuite} {σ A W : Type} (blind : Bytes → σ → Res ((CS.Scalar × CS.Elem × CS.Elem) × σ))
    (verdict : List (Waiting CS) → A → W) (inputs : Nat → Bytes) :
    Spy CS.Elem A W → σ → List (Waiting CS) → Option Bool
  | .done g, _, _ => some g
  | .start next, rng, st =>
      match blind (inputs st.length) rng with
      | .ok ((r, e, message), rng') =>
        (next message).run blind verdict inputs rng' (st ++ [⟨inputs st.length, r, e⟩])
      | _ => none
  | .deliver a next, rng, st => (next (verdict st a)).run blind verdict inputs rng st

/-- The server starts at most `m` clients. -/
def Spy.StartsAtMost {E A W : Type} : Nat → Spy E A W → Prop
  | _, .done _ => True
  | 0, .start _ => False
  | m + 1, .start next => ∀ e, (next e).StartsAtMost m
  | m, .deliver _ next => ∀ w, (next w).StartsAtMost m

section
variable (CS : CipherSuite) [CS.group.Lawful] {σ : Type} [RngCore σ]

/-- `OprfClient::blind`: the blind, the element sent (twice, the client keeps none), and the generator left. -/
def oprfBlindWith (input : Bytes) (rng : σ) : Res ((CS.Scalar × CS.Elem × CS.Elem) × σ) :=
  (fun p => ((p.1.state.blind, p.1.message.value, p.1.message.value), p.2)) <$> OprfClient.blindInput CS input rng

/-- `VoprfClient::blind`: the blind, the element kept, the element sent, and the generator left. -/
def voprfBlindWith (input : Bytes) (rng : σ) : Res ((CS.Scalar × CS.Elem × CS.Elem) × σ) :=
  (fun p => ((p.1.state.blind, p.1.state.blindedElement, p.1.message.value), p.2)) <$> VoprfClient.blindInput CS input rng

/-- `PoprfClient::blind`: the same. -/
def poprfBlindWith (input : Bytes) (rng : σ) : Res ((CS.Scalar × CS.Elem × CS.Elem) × σ) :=
  (fun p => ((p.1.state.blind, p.1.state.blindedElement, p.1.message.value), p.2)) <$> PoprfClient.blindInput CS input rng

end

/-- On how many tapes of `len` bytes the server guesses `g`, in each mode. -/
noncomputable def oprfGuesses (CS : CipherSuite) [CS.group.Lawful] (len : Nat) (inputs : Nat → Bytes)
    (S : Spy CS.Elem (Nat × CS.Elem) (Option (Res Unit))) (g : Bool) : Nat :=
  (tapes len fun t => S.run (oprfBlindWith CS) oprfVerdict inputs t [] = some g).ncard
noncomputable def voprfGuesses (CS : CipherSuite) [CS.group.Lawful] (len : Nat) (inputs : Nat → Bytes)
    (S : Spy CS.Elem (Delivery CS) (Option (Res (List (Res Unit))))) (g : Bool) : Nat :=
  (tapes len fun t => S.run (voprfBlindWith CS) voprfVerdict inputs t [] = some g).ncard
noncomputable def poprfGuesses (CS : CipherSuite) [CS.group.Lawful] (len : Nat) (inputs : Nat → Bytes)
    (S : Spy CS.Elem (Delivery CS) (Option (Res (List (Res Unit))))) (g : Bool) : Nat :=
  (tapes len fun t => S.run (poprfBlindWith CS) poprfVerdict inputs t [] = some g).ncard

/-- In every mode, whatever the inputs of the clients, whatever the strategy of a server that starts at most `m` of them, and
whatever the guess: the numbers of tapes leading to this guess for two choices of the inputs are related so. -/
def Blindness (CS : CipherSuite) [CS.group.Lawful] (len m : Nat) (related : Nat → Nat → Prop) : Prop :=
  ∀ (inputs inputs' : Nat → Bytes) (g : Bool),
    ((∀ i, Hidable CS .Oprf (inputs i)) → (∀ i, Hidable CS .Oprf (inputs' i)) →
      ∀ S, S.StartsAtMost m → related (oprfGuesses CS len inputs S g) (oprfGuesses CS len inputs' S g)) ∧
    ((∀ i, Hidable CS .Voprf (inputs i)) → (∀ i, Hidable CS .Voprf (inputs' i)) →
      ∀ S, S.StartsAtMost m → related (voprfGuesses CS len inputs S g) (voprfGuesses CS len inputs' S g)) ∧
    ((∀ i, Hidable CS .Poprf (inputs i)) → (∀ i, Hidable CS .Poprf (inputs' i)) →
      ∀ S, S.StartsAtMost m → related (poprfGuesses CS len inputs S g) (poprfGuesses CS len inputs' S g))

end Voprf.Spec
