import Verif.Model.Voprf
import Verif.Model.Poprf

/-!
# The lazy iterators the crate returns

`batch_blind_evaluate_prepare`, `batch_blind_evaluate_finish` and `batch_finalize` return `core::iter` adapters, whose items
are computed when the caller asks for them.  `Model/Voprf.lean` and `Model/Poprf.lean` describe such a result by the list of
its items; here are the adapters themselves (`core::iter::{Map, Zip, Repeat}`, modelled from the documentation of the
standard library), with the state each one carries from one call of `next` to another.
-/

namespace Voprf.Lazy

/-- `core::iter::Iterator`: `next` returns the item, if any, and the iterator after the call.  An item whose computation
panics is `.panic`; the iterator state is then what unwinding leaves. For the iterators of
`src/voprf.rs:327-330,367-371,539-541,562-576` and `src/poprf.rs:341-346,392-396,722-724,756-777`. -/
class Iter (σ : Type) (α : outParam Type) where
  next : σ → Option (Res α) × σ

/-- `core::iter::ExactSizeIterator` (as required of the iterators passed to `src/common.rs:150-151`) -/
class ExactSize (σ : Type) where
  len : σ → Nat

/-- `core::slice::Iter` and the iterator of `core::iter::once`: the items not yet returned. For the iterators of
`src/voprf.rs:327-330,367-371,539-541,562-576` and `src/poprf.rs:341-346,392-396,722-724,756-777`. -/
instance (α : Type) : Iter (List α) α where
  next
    | [] => (none, [])
    | x :: xs => (some (.ok x), xs)

/-- The items left (as required by `src/common.rs:150-151`) -/
instance (α : Type) : ExactSize (List α) := ⟨List.length⟩

/-- `core::iter::Repeat` (for `src/voprf.rs:327-330` and `src/poprf.rs:341-346`) -/
structure Repeat (α : Type) where
  element : α

/-- `Iterator for Repeat`: never exhausted (for `src/voprf.rs:327-330` and `src/poprf.rs:341-346`) -/
instance (α : Type) : Iter (Repeat α) α where
  next r := (some (.ok r.element), r)

/-- `core::iter::Zip` (for the iterators of `src/voprf.rs:327-330,367-371,539-541,562-576` and
`src/poprf.rs:341-346,392-396,722-724,756-777`) -/
structure Zip (σ τ : Type) where
  a : σ
  b : τ

/-- `let x = self.a.next()?; let y = self.b.next()?; Some((x, y))`: when `a` is exhausted or panics, `b` is not advanced. For
the iterators of `src/voprf.rs:327-330,367-371,539-541,562-576` and `src/poprf.rs:341-346,392-396,722-724,756-777`. -/
instance {σ τ α β : Type} [Iter σ α] [Iter τ β] : Iter (Zip σ τ) (α × β) where
  next z :=
    match Iter.next z.a with
    | (none, a) => (none, ⟨a, z.b⟩)
    | (some (.ok x), a) =>
        match Iter.next z.b with
        | (none, b) => (none, ⟨a, b⟩)
        | (some y, b) => (some (y >>= fun y => .ok (x, y)), ⟨a, b⟩)
    | (some (.err e), a) => (some (.err e), ⟨a, z.b⟩)
    | (some .panic, a) => (some .panic, ⟨a, z.b⟩)
    | (some .diverge, a) => (some .diverge, ⟨a, z.b⟩)

/-- `ExactSizeIterator for Zip`: the shorter one (as required by `src/common.rs:150-151`) -/
instance {σ τ : Type} [ExactSize σ] [ExactSize τ] : ExactSize (Zip σ τ) :=
  ⟨fun z => min (ExactSize.len z.a) (ExactSize.len z.b)⟩

/-- `core::iter::Map` with a function that may panic or return an `Err`. For the iterators of
`src/voprf.rs:327-330,367-371,539-541,562-576` and `src/poprf.rs:341-346,392-396,722-724,756-777`. -/
structure Map (σ α β : Type) where
  iter : σ
  f : α → Res β

/-- `Iterator for Map`: the function is applied when the item is asked for (for the iterators of
`src/voprf.rs:327-330,367-371,539-541,562-576` and `src/poprf.rs:341-346,392-396,722-724,756-777`) -/
instance {σ α β : Type} [Iter σ α] : Iter (Map σ α β) β where
  next m :=
    match Iter.next m.iter with
    | (none, s) => (none, ⟨s, m.f⟩)
    | (some x, s) => (some (x >>= m.f), ⟨s, m.f⟩)

/-- `ExactSizeIterator for Map` (as required by `src/common.rs:150-151`) -/
instance {σ α β : Type} [ExactSize σ] : ExactSize (Map σ α β) := ⟨fun m => ExactSize.len m.iter⟩

variable {CS : CipherSuite}

/-! ## `src/voprf.rs` -/

/-- `src/voprf.rs:453-461` (`VoprfServerBatchEvaluatePreparedEvaluationElements`) -/
abbrev VoprfPrepared (CS : CipherSuite) (I : Type) : Type :=
  Map (Zip I (Repeat CS.Scalar)) (BlindedElement CS × CS.Scalar) (PreparedEvaluationElement CS)

/-- `src/voprf.rs:319-331` (`VoprfServer::batch_blind_evaluate_prepare`): nothing is computed yet; the iterator owns a copy
of the private key. -/
def voprfPrepare {I : Type} (self : VoprfServer CS) (blindedElements : I) : VoprfPrepared CS I :=
  ⟨⟨blindedElements, ⟨self.sk⟩⟩, fun (blindedElement, sk) => .ok ⟨⟨CS.group.elemMul blindedElement.value sk⟩⟩⟩

/-- `src/voprf.rs:465-468` (`VoprfServerBatchEvaluateFinishedMessages`) -/
abbrev FinishedMessages (CS : CipherSuite) : Type :=
  Map (List (PreparedEvaluationElement CS)) (PreparedEvaluationElement CS) (EvaluationElement CS)

/-- The iterator of `src/voprf.rs:367-371` and `src/poprf.rs:392-396`: a second pass over the prepared elements. -/
def finishedMessages (evaluationElements : List (PreparedEvaluationElement CS)) : FinishedMessages CS :=
  ⟨evaluationElements, fun element => .ok ⟨element.inner.value⟩⟩

/-- `src/voprf.rs:339-374` (`VoprfServer::batch_blind_evaluate_finish`): the proof is made at once. -/
def voprfFinish {σ : Type} [RngCore σ] (self : VoprfServer CS) (rng : σ)
    (blindedElements : List (BlindedElement CS)) (evaluationElements : List (PreparedEvaluationElement CS)) :
    Res ((FinishedMessages CS × Proof CS) × σ) := do
  let g := CS.group.baseElem
  let (proof, rng) ← generateProof CS rng self.sk g self.pk
    (blindedElements.map fun element => element.value)
    (evaluationElements.map fun element => element.inner.value)
    .Voprf
  pure ((finishedMessages evaluationElements, proof), rng)

/-- The unblinding iterator of `src/voprf.rs:490-504,539-541`: borrows the clients and the messages. -/
abbrev VoprfUnblind (CS : CipherSuite) : Type :=
  Map (Zip (Map (List (VoprfClient CS)) (VoprfClient CS) CS.Scalar) (List (EvaluationElement CS)))
    (CS.Scalar × EvaluationElement CS) CS.Elem

/-- The closure of `src/voprf.rs:541` and `src/poprf.rs:724`. -/
def unblind (p : CS.Scalar × EvaluationElement CS) : Res CS.Elem := do
  let inv ← Res.unwrapOption (CS.group.invertScalar p.1)
  pure (CS.group.elemMul p.2.value inv)

/-- `src/voprf.rs:507-542` (`verifiable_unblind`): the proof is verified at once. -/
def voprfUnblind (clients : List (VoprfClient CS)) (messages : List (EvaluationElement CS)) (pk : CS.Elem)
    (proof : Proof CS) : Res (VoprfUnblind CS) := do
  let g := CS.group.baseElem
  let evaluationElements := messages.map (fun element => element.value)
  let blindedElements := clients.map (fun client => client.blindedElement)
  verifyProof CS g pk blindedElements evaluationElements proof .Voprf
  pure ⟨⟨⟨clients, fun x => .ok x.blind⟩, messages⟩, unblind⟩

/-- `src/voprf.rs:417-422` (`VoprfClientBatchFinalizeResult`) -/
abbrev VoprfOutputs (CS : CipherSuite) : Type := Map (Zip (List Bytes) (VoprfUnblind CS)) (Bytes × CS.Elem) Bytes

/-- `src/voprf.rs:164-186,550-577` (`VoprfClient::batch_finalize`). -/
def voprfBatchFinalize (inputs : List Bytes) (clients : List (VoprfClient CS))
    (messages : List (EvaluationElement CS)) (proof : Proof CS) (pk : CS.Elem) : Res (VoprfOutputs CS) := do
  let unblindedElements ← voprfUnblind clients messages pk proof
  pure ⟨⟨inputs, unblindedElements⟩, fun (input, element) => Verifiable.finalizeItem CS (input, .ok element)⟩

/-! ## `src/poprf.rs` -/

/-- `src/poprf.rs:527-535` (`PoprfServerBatchEvaluatePreparedEvaluationElements`) -/
abbrev PoprfPrepared (CS : CipherSuite) (I : Type) : Type :=
  Map (Zip I (Repeat CS.Scalar)) (BlindedElement CS × CS.Scalar) (PreparedEvaluationElement CS)

/-- `src/poprf.rs:330-350` (`PoprfServer::batch_blind_evaluate_prepare`): the tweak is computed at once and copied into the
iterator, which inverts it for each item. -/
def poprfPrepare {I : Type} (self : PoprfServer CS) (blindedElements : I) (info : Option Bytes) :
    Res (PoprfPrepared CS I × PoprfPreparedTweak CS) := do
  let tweak ← Poprf.computeTweak CS self.sk info
  pure (⟨⟨blindedElements, ⟨tweak⟩⟩, fun (blindedElement, tweak) => do
    let inv ← Res.unwrapOption (CS.group.invertScalar tweak)
    pure ⟨⟨CS.group.elemMul blindedElement.value inv⟩⟩⟩, ⟨tweak⟩)

/-- `src/poprf.rs:359-399` (`PoprfServer::batch_blind_evaluate_finish`) -/
def poprfFinish {σ : Type} [RngCore σ] (rng : σ) (blindedElements : List (BlindedElement CS))
    (preparedEvaluationElements : List (PreparedEvaluationElement CS)) (preparedTweak : PoprfPreparedTweak CS) :
    Res ((FinishedMessages CS × Proof CS) × σ) := do
  let g := CS.group.baseElem
  let tweak := preparedTweak.value
  let tweakedKey := CS.group.elemMul g tweak
  let (proof, rng) ← generateProof CS rng tweak g tweakedKey
    (preparedEvaluationElements.map fun element => element.inner.value)
    (blindedElements.map fun element => element.value)
    .Poprf
  pure ((finishedMessages preparedEvaluationElements, proof), rng)

/-- `src/poprf.rs:668-681,722-724` -/
abbrev PoprfUnblind (CS : CipherSuite) : Type :=
  Map (Zip (Map (List (PoprfClient CS)) (PoprfClient CS) CS.Scalar) (List (EvaluationElement CS)))
    (CS.Scalar × EvaluationElement CS) CS.Elem

/-- `src/poprf.rs:686-725` (`poprf_unblind`) -/
def poprfUnblind (clients : List (PoprfClient CS)) (messages : List (EvaluationElement CS)) (pk : CS.Elem)
    (proof : Proof CS) (info : Option Bytes) : Res (PoprfUnblind CS) := do
  let info := info.getD []
  let tweakedKey ← Poprf.computeTweakedKey CS pk (some info)
  let g := CS.group.baseElem
  let evaluationElements := messages.map (fun element => element.value)
  let blindedElements := clients.map (fun client => client.blindedElement)
  verifyProof CS g tweakedKey evaluationElements blindedElements proof .Poprf
  pure ⟨⟨⟨clients, fun x => .ok x.blind⟩, messages⟩, unblind⟩

/-- `src/poprf.rs:727-732` -/
abbrev PoprfOutputs (CS : CipherSuite) : Type :=
  Map (Zip (Zip (PoprfUnblind CS) (List Bytes)) (Repeat Bytes)) ((CS.Elem × Bytes) × Bytes) Bytes

/-- `src/poprf.rs:736-778` (`finalize_after_unblind`): the lengths are compared without computing any item. -/
def poprfFinalizeAfterUnblind (unblindedElements : PoprfUnblind CS) (inputs : List Bytes) (info : Option Bytes) :
    Res (PoprfOutputs CS) :=
  if ExactSize.len unblindedElements ≠ ExactSize.len inputs then
    .err .Batch
  else
    let info := info.getD []
    .ok ⟨⟨⟨unblindedElements, inputs⟩, ⟨info⟩⟩, fun ((element, input), info) =>
      Poprf.finalizeItem CS ((.ok element, input), info)⟩

/-- `src/poprf.rs:169-187` (`PoprfClient::batch_finalize`). -/
def poprfBatchFinalize (inputs : List Bytes) (clients : List (PoprfClient CS))
    (messages : List (EvaluationElement CS)) (proof : Proof CS) (pk : CS.Elem) (info : Option Bytes) :
    Res (PoprfOutputs CS) := do
  let unblindedElements ← poprfUnblind clients messages pk proof info
  poprfFinalizeAfterUnblind unblindedElements inputs info

end Voprf.Lazy
