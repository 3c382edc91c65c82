import Verif.Spec.Unlink
import Verif.Spec.Drawer

/-!
# Linking when the clients' blinds come from uniform bytes

As in `Verif.Spec.Unlink`, but the clients blind one after the other with a generator that yields uniform bytes.
-/

namespace Voprf.Spec

/-- `n` calls one after the other on one generator, first in the state `t`: call `i` returns `b i`. -/
def InTurn {B σ : Type} {n : Nat} (call : Fin n → σ → Res (B × σ)) (t : σ) (b : Fin n → B) : Prop :=
  ∃ g : Nat → σ, g 0 = t ∧ ∀ i : Fin n, call i (g i) = .ok (b i, g (i + 1))

section
variable {CS : CipherSuite} [CS.group.Lawful] {n : Nat}

/-- The probability that the server guesses `true` when client `i` holds `x (π i)`, in VOPRF with the public key `pk`: over the
answers of `hash_to_scalar` and the `len` bytes of the generator. -/
noncomputable def voprfTapeLink (len : Nat) (pk : CS.Elem) (x : Fin n → Bytes) (π : Equiv.Perm (Fin n))
    (S : (Fin n → CS.Elem) → Linker CS n (Answer CS n) (Res Unit)) : ℚ :=
  average fun f : Table CS => tapeChance len fun t =>
    ∃ b, InTurn (fun i => VoprfClient.blindInput CS (x (π i))) t b ∧ voprfGuess pk x π S f b = true

/-- The same in POPRF, with the public key `pk` and the public info `info`. -/
noncomputable def poprfTapeLink (len : Nat) (pk : CS.Elem) (info : Option Bytes) (x : Fin n → Bytes) (π : Equiv.Perm (Fin n))
    (S : (Fin n → CS.Elem) → Linker CS n (Answer CS n) (Res Unit)) : ℚ :=
  average fun f : Table CS => tapeChance len fun t =>
    ∃ b, InTurn (fun i => PoprfClient.blindInput CS (x (π i))) t b ∧ poprfGuess pk info x π S f b = true

/-- VOPRF with a server that delivers to batches of clients. -/
noncomputable def voprfBatchTapeLink (len : Nat) (pk : CS.Elem) (x : Fin n → Bytes) (π : Equiv.Perm (Fin n))
    (S : (Fin n → CS.Elem) → Linker CS n (BatchAnswer CS n) (Res (List (Res Unit)))) : ℚ :=
  average fun f : Table CS => tapeChance len fun t =>
    ∃ b, InTurn (fun i => VoprfClient.blindInput CS (x (π i))) t b ∧ voprfBatchGuess pk x π S f b = true

/-- POPRF with a server that delivers to batches of clients. -/
noncomputable def poprfBatchTapeLink (len : Nat) (pk : CS.Elem) (info : Option Bytes) (x : Fin n → Bytes)
    (π : Equiv.Perm (Fin n)) (S : (Fin n → CS.Elem) → Linker CS n (BatchAnswer CS n) (Res (List (Res Unit)))) : ℚ :=
  average fun f : Table CS => tapeChance len fun t =>
    ∃ b, InTurn (fun i => PoprfClient.blindInput CS (x (π i))) t b ∧ poprfBatchGuess pk info x π S f b = true

/-- The same in OPRF, where the server answers client `i` with the key `keys i`. -/
noncomputable def oprfTapeLink (len : Nat) (keys : Fin n → OprfServer CS) (x : Fin n → Bytes) (π : Equiv.Perm (Fin n))
    (D : (Fin n → CS.Elem) → (Fin n → Bytes) → Bool) : ℚ :=
  tapeChance len fun t => ∃ b, InTurn (fun i => OprfClient.blindInput CS (x (π i))) t b ∧ oprfGuess keys x π D b

/-- With `len` uniform bytes for the blinds of `n` clients, no server with `q` questions and `d` deliveries to single clients tells two
orders of the inputs apart with an advantage above `e`, in any mode. -/
def Unlinkable (CS : CipherSuite) [CS.group.Lawful] (len n q d : Nat) (e : ℚ) : Prop :=
  ∀ (x : Fin n → Bytes) (π π' : Equiv.Perm (Fin n)),
    ((∀ j, Hidable CS .Oprf (x j)) → ∀ (key : OprfServer CS) (D : (Fin n → CS.Elem) → (Fin n → Bytes) → Bool),
      |oprfTapeLink len (fun _ => key) x π D - oprfTapeLink len (fun _ => key) x π' D| ≤ e) ∧
    ∀ (pk : CS.Elem) (S : (Fin n → CS.Elem) → Linker CS n (Answer CS n) (Res Unit)), (∀ es, (S es).Within (fun _ => True) q d) →
      ((∀ j, Hidable CS .Voprf (x j)) → |voprfTapeLink len pk x π S - voprfTapeLink len pk x π' S| ≤ e) ∧
      ((∀ j, Hidable CS .Poprf (x j)) → ∀ info : Option Bytes,
        |poprfTapeLink len pk info x π S - poprfTapeLink len pk info x π' S| ≤ e)

end

end Voprf.Spec
