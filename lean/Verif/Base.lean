/-!
# Base types of the model: bytes, errors, results with explicit panics, RNGs

Simplifications that hold for the whole model:
* `usize` lengths are `Nat` (Rust slices are at most `isize::MAX` bytes long);
* iterators are lists: `ExactSizeIterator::len` is the list length, and an iterator whose items are
  computed lazily by a fallible or panicking closure is a list of `Res` values;
* a `&mut` argument becomes an extra returned value.
-/

namespace Voprf

/-- A byte slice `&[u8]` / `GenericArray<u8, _>`. As in `src/common.rs:362-363`. -/
abbrev Bytes := List UInt8

/-- Models `src/error.rs:18-33` (`pub enum Error`). -/
inductive Error
  | Info
  | Input
  | DeriveKeyPair
  | Deserialization
  | Batch
  | ProofVerification
  | Protocol
  deriving DecidableEq, Repr

/-- Models `src/error.rs:37-42` (`pub enum InternalError`). -/
inductive InternalError
  | Input
  | I2osp
  deriving DecidableEq, Repr

/-- Outcome of calling a Rust function returning `Result<T, Error>` (`src/error.rs:14`), extended
with the two outcomes Rust types do not show: a panic, and an RNG loop that never ends. -/
inductive Res (α : Type u) : Type u
  | ok (a : α)
  | err (e : Error)
  | panic
  | diverge
  deriving DecidableEq, Repr

namespace Res

/-- Sequencing with the `?` operator; a panic or divergence aborts too. As in `src/common.rs:160`. -/
@[inline] protected def bind {α : Type u} {β : Type v} (x : Res α) (f : α → Res β) : Res β :=
  match x with
  | ok a => f a
  | err e => err e
  | panic => panic
  | diverge => diverge

/-- Sequencing of statements (`?`, as in `src/common.rs:160`) -/
instance : Monad Res where
  pure := ok
  bind := Res.bind

@[simp] theorem pure_eq {α : Type u} (a : α) : (pure a : Res α) = ok a := rfl
@[simp] theorem ok_bind {α β : Type u} (a : α) (f : α → Res β) : (ok a >>= f) = f a := rfl
@[simp] theorem err_bind {α β : Type u} (e : Error) (f : α → Res β) :
    ((err e : Res α) >>= f) = err e := rfl
@[simp] theorem panic_bind {α β : Type u} (f : α → Res β) : ((panic : Res α) >>= f) = panic := rfl
@[simp] theorem diverge_bind {α β : Type u} (f : α → Res β) :
    ((diverge : Res α) >>= f) = diverge := rfl

/-- Nested sequencing can be flattened (for the `?` of `src/common.rs:160`) -/
instance : LawfulMonad Res := LawfulMonad.mk'
  (id_map := by intro α x; cases x <;> rfl)
  (pure_bind := by intros; rfl)
  (bind_assoc := by intro α β γ x f g; cases x <;> rfl)

@[simp] theorem ok_map {α β : Type u} (a : α) (f : α → β) : f <$> (ok a : Res α) = ok (f a) := rfl

/-- `result.map_err(|_| e)?` on a `Result<_, InternalError>`. `src/common.rs:372,382,460`. -/
def mapErr {ε : Type v} {α : Type u} (e : Error) : Except ε α → Res α
  | .ok a => ok a
  | .error _ => err e

/-- A plain `Result<_, Error>` with `?`. `src/serialization.rs:306`. -/
def ofExcept {α : Type u} : Except Error α → Res α
  | .ok a => ok a
  | .error e => err e

/-- `result.unwrap()` where the result is computed without panicking. `src/common.rs:201,339`. -/
def unwrapExcept {ε : Type v} {α : Type u} : Except ε α → Res α
  | .ok a => ok a
  | .error _ => panic

/-- `option.unwrap()`. `src/group/elliptic_curve.rs:87`, `src/voprf.rs:151,265`. -/
def unwrapOption {α : Type u} : Option α → Res α
  | some a => ok a
  | none => panic

/-- `result.unwrap()` on a call that may itself panic. `src/voprf.rs:277`. -/
def unwrap {α : Type u} : Res α → Res α
  | ok a => ok a
  | err _ => panic
  | panic => panic
  | diverge => diverge

/-- `option.ok_or(e)?`. `src/serialization.rs:305`, `src/group/ristretto.rs:94,130`. -/
def okOr {α : Type u} (e : Error) : Option α → Res α
  | some a => ok a
  | none => err e

/-- Result of a loop that either returns a value or runs forever (`none`). `src/group/ristretto.rs:98-104`. -/
def ofLoop {α : Type u} : Option α → Res α
  | some a => ok a
  | none => diverge

@[simp] theorem mapErr_ok {ε : Type v} {α : Type u} (e : Error) (a : α) :
    mapErr e (.ok a : Except ε α) = ok a := rfl
@[simp] theorem mapErr_error {ε : Type v} {α : Type u} (e : Error) (x : ε) :
    mapErr e (.error x : Except ε α) = err e := rfl
@[simp] theorem ofExcept_ok {α : Type u} (a : α) : ofExcept (.ok a) = ok a := rfl
@[simp] theorem ofExcept_error {α : Type u} (e : Error) :
    ofExcept (.error e : Except Error α) = err e := rfl
@[simp] theorem unwrapExcept_ok {ε : Type v} {α : Type u} (a : α) :
    unwrapExcept (.ok a : Except ε α) = ok a := rfl
@[simp] theorem unwrapExcept_error {ε : Type v} {α : Type u} (x : ε) :
    unwrapExcept (.error x : Except ε α) = panic := rfl
@[simp] theorem unwrapOption_some {α : Type u} (a : α) : unwrapOption (some a) = ok a := rfl
@[simp] theorem unwrapOption_none {α : Type u} : unwrapOption (none : Option α) = panic := rfl
@[simp] theorem unwrap_ok {α : Type u} (a : α) : unwrap (ok a) = ok a := rfl
@[simp] theorem unwrap_err {α : Type u} (e : Error) : unwrap (err e : Res α) = panic := rfl
@[simp] theorem unwrap_panic {α : Type u} : unwrap (panic : Res α) = panic := rfl
@[simp] theorem unwrap_diverge {α : Type u} : unwrap (diverge : Res α) = diverge := rfl
@[simp] theorem okOr_some {α : Type u} (e : Error) (a : α) : okOr e (some a) = ok a := rfl
@[simp] theorem okOr_none {α : Type u} (e : Error) : okOr e (none : Option α) = err e := rfl
@[simp] theorem ofLoop_some {α : Type u} (a : α) : ofLoop (some a) = ok a := rfl
@[simp] theorem ofLoop_none {α : Type u} : ofLoop (none : Option α) = diverge := rfl

/-- `iter.collect::<Vec<_>>()` on a lazily computed iterator: items are evaluated in order. `src/voprf.rs:303,310`. -/
def collect {α : Type u} : List (Res α) → Res (List α)
  | [] => ok []
  | x :: xs => do
      let a ← x
      let as ← collect xs
      pure (a :: as)

end Res

/-- `RngCore::fill_bytes` on a zero-initialised buffer of `n` bytes; the crate draws randomness in no
other way (`src/oprf.rs:167-168`, `src/group/ristretto.rs:99`, `src/group/elliptic_curve.rs:83`).
The returned length is the buffer length because the buffer is a fixed-size slice. -/
class RngCore (σ : Type) where
  fillBytes : σ → Nat → Bytes × σ
  fillBytes_length : ∀ s n, (fillBytes s n).1.length = n

/-- `u16::to_be_bytes` for the `u16` with value `n` (callers pass `n < 65536`; larger values wrap as a
`u16` cast would). `src/common.rs:177,329,540,568`. -/
def u16ToBeBytes (n : Nat) : Bytes :=
  [UInt8.ofNat (n % 65536 / 256), UInt8.ofNat (n % 256)]

/-- `u16::try_from(n)` for a `usize`. `src/common.rs:298,538,567`. -/
def u16TryFrom (n : Nat) : Option Nat := if n ≤ 65535 then some n else none

end Voprf
