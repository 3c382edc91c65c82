import Verif.Model.Serialization

/-!
# Values obtainable through the public API

Plain predicates saying how a value was obtained; used as hypotheses of the property theorems.
-/

namespace Voprf

variable {CS : CipherSuite}

/-- `b` is a result of `OprfClient::blind(input, rng)` for some generator. -/
def OprfClient.Blinded (input : Bytes) (b : OprfClientBlindResult CS) : Prop :=
  ∃ (σ : Type) (_ : RngCore σ) (rng rng' : σ), OprfClient.blindInput CS input rng = .ok (b, rng')

/-- `b` is a result of `VoprfClient::blind(input, rng)` for some generator. -/
def VoprfClient.Blinded (input : Bytes) (b : VoprfClientBlindResult CS) : Prop :=
  ∃ (σ : Type) (_ : RngCore σ) (rng rng' : σ), VoprfClient.blindInput CS input rng = .ok (b, rng')

/-- `b` is a result of `PoprfClient::blind(input, rng)` for some generator. -/
def PoprfClient.Blinded (input : Bytes) (b : PoprfClientBlindResult CS) : Prop :=
  ∃ (σ : Type) (_ : RngCore σ) (rng rng' : σ), PoprfClient.blindInput CS input rng = .ok (b, rng')

/-- The server was made by one of the constructors `new`, `new_with_key`, `new_from_seed`. -/
inductive OprfServer.Made : OprfServer CS → Prop
  | new {σ : Type} [RngCore σ] (rng rng' : σ) (s) : OprfServer.new CS rng = .ok (s, rng') → Made s
  | newWithKey (key : Bytes) (s) : OprfServer.newWithKey CS key = .ok s → Made s
  | newFromSeed (seed info : Bytes) (s) : OprfServer.newFromSeed CS seed info = .ok s → Made s

/-- The server was made by one of the constructors `new`, `new_with_key`, `new_from_seed`. -/
inductive VoprfServer.Made : VoprfServer CS → Prop
  | new {σ : Type} [RngCore σ] (rng rng' : σ) (s) : VoprfServer.new CS rng = .ok (s, rng') → Made s
  | newWithKey (key : Bytes) (s) : VoprfServer.newWithKey CS key = .ok s → Made s
  | newFromSeed (seed info : Bytes) (s) : VoprfServer.newFromSeed CS seed info = .ok s → Made s

/-- The server was made by one of the constructors `new`, `new_with_key`, `new_from_seed`. -/
inductive PoprfServer.Made : PoprfServer CS → Prop
  | new {σ : Type} [RngCore σ] (rng rng' : σ) (s) : PoprfServer.new CS rng = .ok (s, rng') → Made s
  | newWithKey (key : Bytes) (s) : PoprfServer.newWithKey CS key = .ok s → Made s
  | newFromSeed (seed info : Bytes) (s) : PoprfServer.newFromSeed CS seed info = .ok s → Made s

/-- A client state obtained through the safe API: returned by `blind` or by `deserialize`. -/
def OprfClient.Obtained (c : OprfClient CS) : Prop :=
  (∃ input b, OprfClient.Blinded input b ∧ b.state = c) ∨
    ∃ bytes, OprfClient.deserialize CS bytes = .ok c
/-- A client state obtained through the safe API: returned by `blind` or by `deserialize`. -/
def VoprfClient.Obtained (c : VoprfClient CS) : Prop :=
  (∃ input b, VoprfClient.Blinded input b ∧ b.state = c) ∨
    ∃ bytes, VoprfClient.deserialize CS bytes = .ok c
/-- A client state obtained through the safe API: returned by `blind` or by `deserialize`. -/
def PoprfClient.Obtained (c : PoprfClient CS) : Prop :=
  (∃ input b, PoprfClient.Blinded input b ∧ b.state = c) ∨
    ∃ bytes, PoprfClient.deserialize CS bytes = .ok c

/-- The call returned a value. -/
def Res.isOk {α : Type u} : Res α → Bool
  | .ok _ => true
  | _ => false

theorem Res.exists_of_isOk {α : Type u} {x : Res α} (h : x.isOk = true) : ∃ a, x = .ok a := by
  cases x with
  | ok a => exact ⟨a, rfl⟩
  | _ => simp [Res.isOk] at h

theorem Res.isOk_iff {α : Type u} {x : Res α} : x.isOk = true ↔ ∃ a, x = .ok a := by
  cases x <;> simp [Res.isOk]

/-- The error returned by a call, if it returned one. -/
def Res.err? {α : Type u} : Res α → Option Error
  | .err e => some e
  | _ => none

theorem Res.err?_eq {α : Type u} {x : Res α} {e : Error} : x.err? = some e ↔ x = .err e := by
  cases x <;> simp [Res.err?]

end Voprf
