import Verif.Model.Debug

/-!
# What a reader of debug output learns
-/

namespace Voprf.Spec

variable {CS : CipherSuite}

/-- The formatted value ends where it ends: text that follows cannot be taken for a part of it. -/
def SelfDelimiting {α : Type} (show' : α → String) : Prop :=
  ∀ (k k' : α) (rest rest' : String), show' k ++ rest = show' k' ++ rest' → k = k'

/-- One reader, who knows how scalars are formatted but not how elements are, reads the secret of every value off the
value's debug output. -/
def Shows (scalar : CS.Scalar → String) {α : Type} (debug : Fmt CS → α → String) (secret : α → CS.Scalar) : Prop :=
  ∃ read : String → Option CS.Scalar, ∀ (elem : CS.Elem → String) (x : α), read (debug ⟨scalar, elem⟩ x) = some (secret x)

/-- The debug output can be written by someone who has only seen what is sent. -/
def ShowsOnly {α β : Type} (debug : α → String) (sent : α → β) : Prop :=
  ∃ write : β → String, ∀ x, debug x = write (sent x)

/-- The form of `p256::Scalar` with the derived `Debug` (`Scalar(Uint(0x…))`): all digits of the encoding in hexadecimal. -/
def hexDigits (b : Bytes) : String :=
  String.ofList (b.flatMap fun x => [Nat.digitChar (x.toNat / 16), Nat.digitChar (x.toNat % 16)])

@[inherit_doc hexDigits]
def hexScalar (CS : CipherSuite) (k : CS.Scalar) : String :=
  "Scalar(Uint(0x" ++ hexDigits (CS.group.serializeScalar k) ++ "))"

end Voprf.Spec
