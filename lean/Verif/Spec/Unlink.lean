import Verif.Spec.Spy
import Verif.Spec.Oracle

/-!
# A malicious server trying to link outputs to sessions

`n` clients hold the inputs `x 0, …, x (n-1)` in an unknown order: client `i` holds `x (π i)`.  The server sees the blinded elements
of all clients, asks `hash_to_scalar`, and delivers answers of its own making to the clients, one at a time or as batches, as often as
it likes and in any order, seeing how each `finalize` or `batch_finalize` ends.  A client keeps the first output it obtains.  The server may have
the outputs redeemed: once every client has an output, it is shown them with their inputs, that is in the order `x 0, …, x (n-1)`.
In the end it makes a guess.
-/

namespace Voprf.Spec

/-- A server strategy against `n` clients: it delivers answers in `A` and sees verdicts in `W`. -/
inductive Linker (CS : CipherSuite) (n : Nat) (A W : Type)
  | guess (b : Bool)
  | ask (q : Question) (next : CS.Scalar → Linker CS n A W)
  | deliver (a : A) (next : W → Linker CS n A W)
  | redeem (next : Option (Fin n → Bytes) → Linker CS n A W)

namespace Linker

variable {CS : CipherSuite} {n : Nat} {A W : Type}

/-- The strategy asks at most `q` questions and makes at most `d` deliveries, all satisfying `ok`. -/
inductive Within (ok : A → Prop) : (q d : Nat) → Linker CS n A W → Prop
  | guess {q d} (b : Bool) : Within ok q d (.guess b)
  | ask {q d} (r : Question) (next : CS.Scalar → Linker CS n A W) : (∀ a, Within ok q d (next a)) → Within ok (q + 1) d (.ask r next)
  | deliver {q d} (a : A) (next : W → Linker CS n A W) : ok a → (∀ v, Within ok q d (next v)) → Within ok q (d + 1) (.deliver a next)
  | redeem {q d} (next : Option (Fin n → Bytes) → Linker CS n A W) : (∀ v, Within ok q d (next v)) → Within ok q d (.redeem next)

/-- The outputs the clients have after getting `new` ones: each keeps its first. -/
def keep (outs new : Fin n → Option Bytes) : Fin n → Option Bytes := fun i => (outs i).or (new i)

/-- The outputs in the order of the inputs (client `i` holds input number `π i`), once every client has one. -/
def redeemed (π : Equiv.Perm (Fin n)) (outs : Fin n → Option Bytes) : Option (Fin n → Bytes) :=
  if h : ∀ i, (outs i).isSome then some fun j => (outs (π.symm j)).get (h _) else none

/-- The guess, when `hash_to_scalar` is answered from `f`, and `call a` is the verdict and the new outputs of the clients when `a` is
delivered. -/
def run (f : Table CS) (call : A → W × (Fin n → Option Bytes)) (π : Equiv.Perm (Fin n)) :
    Linker CS n A W → (outs : Fin n → Option Bytes) → Bool
  | .guess b, _ => b
  | .ask q next, outs => (next (f q)).run f call π outs
  | .deliver a next, outs => (next (call a).1).run f call π (keep outs (call a).2)
  | .redeem next, outs => (next (redeemed π outs)).run f call π outs

end Linker

/-- An answer for one client: an evaluation element and a proof. -/
structure Answer (CS : CipherSuite) (n : Nat) where
  client : Fin n
  message : CS.Elem
  c : CS.Scalar
  s : CS.Scalar

/-- An answer for a batch of clients: evaluation elements and a proof. -/
structure BatchAnswer (CS : CipherSuite) (n : Nat) where
  clients : List (Fin n)
  messages : List CS.Elem
  c : CS.Scalar
  s : CS.Scalar

/-- The output of a call, if there is one. -/
def output? : Res Bytes → Option Bytes
  | .ok o => some o
  | _ => none

/-- What client `i` gets from a call of `finalize` that was for `client`. -/
def gets {n : Nat} (client : Fin n) (r : Res Bytes) (i : Fin n) : Option Bytes := if client = i then output? r else none

/-- What client `i` gets from a call of `batch_finalize` for `clients`: the first output in its places. -/
def batchGets {n : Nat} (clients : List (Fin n)) (r : Res (List (Res Bytes))) (i : Fin n) : Option Bytes :=
  match r with
  | .ok l => (clients.zip l).findSome? fun p => gets p.1 p.2 i
  | _ => none

section
variable {CS : CipherSuite} [CS.group.Lawful] {σ : Type} [RngCore σ] {n : Nat}

/-- The server's guess in VOPRF with the public key `pk`, once client `i`, holding `x (π i)`, has blinded with the result `b i`, and
`hash_to_scalar` is answered from `f`. The server delivers to one client at a time. -/
def voprfGuess (pk : CS.Elem) (x : Fin n → Bytes) (π : Equiv.Perm (Fin n))
    (S : (Fin n → CS.Elem) → Linker CS n (Answer CS n) (Res Unit)) (f : Table CS) (b : Fin n → VoprfClientBlindResult CS) : Bool :=
  (S fun i => (b i).message.value).run f (fun a =>
    let r := VoprfAttempt.finalize f ⟨(b a.client).state.blind, (b a.client).state.blindedElement, x (π a.client),
      a.message, a.c, a.s, pk⟩
    (outcome r, gets a.client r)) π (fun _ => none)

/-- The same in POPRF, with the public key `pk` and the public info `info`. -/
def poprfGuess (pk : CS.Elem) (info : Option Bytes) (x : Fin n → Bytes) (π : Equiv.Perm (Fin n))
    (S : (Fin n → CS.Elem) → Linker CS n (Answer CS n) (Res Unit)) (f : Table CS) (b : Fin n → PoprfClientBlindResult CS) : Bool :=
  (S fun i => (b i).message.value).run f (fun a =>
    let r := PoprfAttempt.finalize f ⟨(b a.client).state.blind, (b a.client).state.blindedElement, x (π a.client),
      a.message, a.c, a.s, pk, info⟩
    (outcome r, gets a.client r)) π (fun _ => none)

/-- VOPRF with a server that delivers to batches of clients. -/
def voprfBatchGuess (pk : CS.Elem) (x : Fin n → Bytes) (π : Equiv.Perm (Fin n))
    (S : (Fin n → CS.Elem) → Linker CS n (BatchAnswer CS n) (Res (List (Res Unit)))) (f : Table CS)
    (b : Fin n → VoprfClientBlindResult CS) : Bool :=
  (S fun i => (b i).message.value).run f (fun a =>
    let r := BatchAttempt.voprfFinalize f pk ⟨a.clients.map fun i => x (π i),
      a.clients.map fun i => ((b i).state.blind, (b i).state.blindedElement), a.messages, a.c, a.s⟩
    (batchOutcome r, batchGets a.clients r)) π (fun _ => none)

/-- POPRF with a server that delivers to batches of clients. -/
def poprfBatchGuess (pk : CS.Elem) (info : Option Bytes) (x : Fin n → Bytes) (π : Equiv.Perm (Fin n))
    (S : (Fin n → CS.Elem) → Linker CS n (BatchAnswer CS n) (Res (List (Res Unit)))) (f : Table CS)
    (b : Fin n → PoprfClientBlindResult CS) : Bool :=
  (S fun i => (b i).message.value).run f (fun a =>
    let r := BatchAttempt.poprfFinalize f pk info ⟨a.clients.map fun i => x (π i),
      a.clients.map fun i => ((b i).state.blind, (b i).state.blindedElement), a.messages, a.c, a.s⟩
    (batchOutcome r, batchGets a.clients r)) π (fun _ => none)

/-- In OPRF with a server that answers client `i` with the key `keys i` (an honest one uses one key): the guess `D` makes from the
blinded elements and the outputs, which it is shown in the order of the inputs, is `true`. -/
def oprfGuess (keys : Fin n → OprfServer CS) (x : Fin n → Bytes) (π : Equiv.Perm (Fin n))
    (D : (Fin n → CS.Elem) → (Fin n → Bytes) → Bool) (b : Fin n → OprfClientBlindResult CS) : Prop :=
  ∃ out : Fin n → Bytes, (∀ i, (b i).state.finalize (x (π i)) ((keys i).blindEvaluate (b i).message) = .ok (out (π i))) ∧
    D (fun i => (b i).message.value) out = true

/-- The probability that the server guesses `true` when client `i` holds `x (π i)`, in VOPRF with the public key `pk`: over the
answers of `hash_to_scalar` and the blinds. -/
noncomputable def voprfLink (draw : Nonce CS → σ) (pk : CS.Elem) (x : Fin n → Bytes) (π : Equiv.Perm (Fin n))
    (S : (Fin n → CS.Elem) → Linker CS n (Answer CS n) (Res Unit)) : ℚ :=
  average fun f : Table CS => chance fun ρ : Fin n → Nonce CS =>
    ∃ b : Fin n → VoprfClientBlindResult CS × σ, (∀ i, VoprfClient.blindInput CS (x (π i)) (draw (ρ i)) = .ok (b i)) ∧
      voprfGuess pk x π S f (fun i => (b i).1) = true

/-- The same in POPRF, with the public key `pk` and the public info `info`. -/
noncomputable def poprfLink (draw : Nonce CS → σ) (pk : CS.Elem) (info : Option Bytes) (x : Fin n → Bytes) (π : Equiv.Perm (Fin n))
    (S : (Fin n → CS.Elem) → Linker CS n (Answer CS n) (Res Unit)) : ℚ :=
  average fun f : Table CS => chance fun ρ : Fin n → Nonce CS =>
    ∃ b : Fin n → PoprfClientBlindResult CS × σ, (∀ i, PoprfClient.blindInput CS (x (π i)) (draw (ρ i)) = .ok (b i)) ∧
      poprfGuess pk info x π S f (fun i => (b i).1) = true

/-- VOPRF with a server that delivers to batches of clients. -/
noncomputable def voprfBatchLink (draw : Nonce CS → σ) (pk : CS.Elem) (x : Fin n → Bytes) (π : Equiv.Perm (Fin n))
    (S : (Fin n → CS.Elem) → Linker CS n (BatchAnswer CS n) (Res (List (Res Unit)))) : ℚ :=
  average fun f : Table CS => chance fun ρ : Fin n → Nonce CS =>
    ∃ b : Fin n → VoprfClientBlindResult CS × σ, (∀ i, VoprfClient.blindInput CS (x (π i)) (draw (ρ i)) = .ok (b i)) ∧
      voprfBatchGuess pk x π S f (fun i => (b i).1) = true

/-- POPRF with a server that delivers to batches of clients. -/
noncomputable def poprfBatchLink (draw : Nonce CS → σ) (pk : CS.Elem) (info : Option Bytes) (x : Fin n → Bytes)
    (π : Equiv.Perm (Fin n)) (S : (Fin n → CS.Elem) → Linker CS n (BatchAnswer CS n) (Res (List (Res Unit)))) : ℚ :=
  average fun f : Table CS => chance fun ρ : Fin n → Nonce CS =>
    ∃ b : Fin n → PoprfClientBlindResult CS × σ, (∀ i, PoprfClient.blindInput CS (x (π i)) (draw (ρ i)) = .ok (b i)) ∧
      poprfBatchGuess pk info x π S f (fun i => (b i).1) = true

/-- The same in OPRF, where there is nothing to deliver: the server answers client `i` with the key `keys i`. -/
noncomputable def oprfLink (draw : Nonce CS → σ) (keys : Fin n → OprfServer CS) (x : Fin n → Bytes) (π : Equiv.Perm (Fin n))
    (D : (Fin n → CS.Elem) → (Fin n → Bytes) → Bool) : ℚ :=
  chance fun ρ : Fin n → Nonce CS =>
    ∃ b : Fin n → OprfClientBlindResult CS × σ, (∀ i, OprfClient.blindInput CS (x (π i)) (draw (ρ i)) = .ok (b i)) ∧
      oprfGuess keys x π D (fun i => (b i).1)

end

end Voprf.Spec
