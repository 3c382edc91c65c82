import Verif.Model.Zeroize
import Verif.Spec.Wire
import Verif.Toy
import Verif.Props.Correctness

/-!
# C39: what is left in memory after `drop`

`_partial`: the model sees the value left in the storage of the dropped struct, not copies made by moves,
registers or the allocator.
-/

namespace Voprf

open Spec

variable {CS : CipherSuite} [L : CS.group.Lawful]

/-- C39 (clients and servers): every field of a dropped value is the zero scalar or the identity, whatever
the value was. -/
theorem C39_states_partial :
    (∀ c : OprfClient CS, c.dropped.blind = 0) ∧
    (∀ s : OprfServer CS, s.dropped.sk = 0) ∧
    (∀ c : VoprfClient CS, c.dropped.blind = 0 ∧ c.dropped.blindedElement = 0) ∧
    (∀ s : VoprfServer CS, s.dropped.sk = 0 ∧ s.dropped.pk = 0) ∧
    (∀ c : PoprfClient CS, c.dropped.blind = 0 ∧ c.dropped.blindedElement = 0) ∧
    (∀ s : PoprfServer CS, s.dropped.sk = 0 ∧ s.dropped.pk = 0) := by
  simp [OprfClient.dropped, OprfServer.dropped, VoprfClient.dropped, VoprfServer.dropped,
    PoprfClient.dropped, PoprfServer.dropped, VGroup.Lawful.scalarZeroize_eq,
    VGroup.Lawful.elemZeroize_eq]

/-- C39 (messages, proofs, prepared values). -/
theorem C39_messages_partial :
    (∀ m : BlindedElement CS, m.dropped.value = 0) ∧
    (∀ m : EvaluationElement CS, m.dropped.value = 0) ∧
    (∀ m : PreparedEvaluationElement CS, m.dropped.inner.value = 0) ∧
    (∀ p : Proof CS, p.dropped.cScalar = 0 ∧ p.dropped.sScalar = 0) ∧
    (∀ t : PoprfPreparedTweak CS, t.dropped.value = 0) := by
  simp [BlindedElement.dropped, EvaluationElement.dropped, PreparedEvaluationElement.dropped,
    Proof.dropped, PoprfPreparedTweak.dropped, VGroup.Lawful.scalarZeroize_eq,
    VGroup.Lawful.elemZeroize_eq]

/-- C39: for groups that encode zero and the identity as zero bytes (both shipped implementations do, see
`Props/Groups.lean`), serializing the storage of a dropped value would give only zero bytes, so nothing
about the erased secret. -/
theorem C39_bytes_partial
    (hs : CS.group.serializeScalar 0 = List.replicate CS.group.scalarLen 0)
    (he : CS.group.serializeElem 0 = List.replicate CS.group.elemLen 0) :
    (∀ c : OprfClient CS, c.dropped.serialize = List.replicate (OprfClientLen CS) 0) ∧
    (∀ s : OprfServer CS, s.dropped.serialize = List.replicate (OprfServerLen CS) 0) ∧
    (∀ c : VoprfClient CS, c.dropped.serialize = List.replicate (VoprfClientLen CS) 0) ∧
    (∀ s : VoprfServer CS, s.dropped.serialize = List.replicate (VoprfServerLen CS) 0) ∧
    (∀ c : PoprfClient CS, c.dropped.serialize = List.replicate (PoprfClientLen CS) 0) ∧
    (∀ s : PoprfServer CS, s.dropped.serialize = List.replicate (PoprfServerLen CS) 0) ∧
    (∀ m : BlindedElement CS, m.dropped.serialize = List.replicate (BlindedElementLen CS) 0) ∧
    (∀ m : EvaluationElement CS, m.dropped.serialize = List.replicate (EvaluationElementLen CS) 0) ∧
    (∀ p : Proof CS, p.dropped.serialize = List.replicate (ProofLen CS) 0) := by
  obtain ⟨h1, h2, h3, h4, h5, h6⟩ := C39_states_partial (CS := CS)
  obtain ⟨h7, h8, _, h10, _⟩ := C39_messages_partial (CS := CS)
  refine ⟨fun c => ?_, fun c => ?_, fun c => ?_, fun c => ?_, fun c => ?_, fun c => ?_, fun c => ?_,
    fun c => ?_, fun c => ?_⟩
  · rw [OprfClient.serialize, h1, hs]; rfl
  · rw [OprfServer.serialize, h2, hs]; rfl
  · rw [VoprfClient.serialize, (h3 c).1, (h3 c).2, hs, he, List.replicate_append_replicate]; rfl
  · rw [VoprfServer.serialize, (h4 c).1, (h4 c).2, hs, he, List.replicate_append_replicate]; rfl
  · rw [PoprfClient.serialize, (h5 c).1, (h5 c).2, hs, he, List.replicate_append_replicate]; rfl
  · rw [PoprfServer.serialize, (h6 c).1, (h6 c).2, hs, he, List.replicate_append_replicate]; rfl
  · rw [BlindedElement.serialize, h7, he]; rfl
  · rw [EvaluationElement.serialize, h8, he]; rfl
  · rw [Proof.serialize, (h10 c).1, (h10 c).2, hs, List.replicate_append_replicate]; rfl

/-- The iterator after `n` calls of `next`. -/
def advance {σ α : Type} [Lazy.Iter σ α] : Nat → σ → σ
  | 0, s => s
  | n + 1, s => advance n (Lazy.Iter.next s).2

theorem next_map_iter {σ α β : Type} [Lazy.Iter σ α] (m : Lazy.Map σ α β) :
    (Lazy.Iter.next m).2.iter = (Lazy.Iter.next m.iter).2 := by
  show (match Lazy.Iter.next m.iter with
    | (none, s) => _ | (some x, s) => _ : Option (Res β) × Lazy.Map σ α β).2.iter = _
  rcases Lazy.Iter.next m.iter with ⟨_ | _, _⟩ <;> rfl

theorem next_zip_repeat {σ α β : Type} [Lazy.Iter σ α] (z : Lazy.Zip σ (Lazy.Repeat β)) :
    (Lazy.Iter.next z).2.b = z.b := by
  show (match Lazy.Iter.next z.a with
    | (none, a) => _ | (some (.ok x), a) => _ | (some (.err e), a) => _ | (some .panic, a) => _
    | (some .diverge, a) => _ : Option (Res (α × β)) × Lazy.Zip σ (Lazy.Repeat β)).2.b = _
  rcases Lazy.Iter.next z.a with ⟨_ | (_ | _ | _ | _), _⟩ <;> rfl

theorem advance_repeat {I α β γ : Type} [Lazy.Iter I α] :
    ∀ n (m : Lazy.Map (Lazy.Zip I (Lazy.Repeat β)) (α × β) γ), (advance n m).iter.b = m.iter.b
  | 0, _ => rfl
  | n + 1, m => by rw [advance, advance_repeat n, next_map_iter, next_zip_repeat]

/-- C39 does not extend to the lazy results of `batch_blind_evaluate_prepare`: after the server and the iterator (used up
to any point) have both been dropped, the server's storage holds zeros but the iterator's still holds the private key
(VOPRF), respectively the tweak (POPRF), from which the private key follows by subtracting a public value. -/
theorem C39_prepared_iterator_keeps_key :
    (∀ (s : VoprfServer CS) {I : Type} [Lazy.Iter I (BlindedElement CS)] (blindedElements : I) (n : Nat),
      s.dropped.sk = 0 ∧
      (VoprfPrepared.dropped (advance n (Lazy.voprfPrepare s blindedElements))).iter.b.element = s.sk) ∧
    (CS.WF → ∀ (s : PoprfServer CS) {I : Type} [Lazy.Iter I (BlindedElement CS)] (blindedElements : I)
      (info : Option Bytes) (it : Lazy.PoprfPrepared CS I) (t : PoprfPreparedTweak CS) (n : Nat),
      Lazy.poprfPrepare s blindedElements info = .ok (it, t) →
      s.dropped.sk = 0 ∧ t.dropped.value = 0 ∧
      ∃ m, Spec.hashToScalar CS .Poprf (infoInput (info.getD [])) = .ok m ∧
        (PoprfPrepared.dropped (advance n it)).iter.b.element - m = s.sk) := by
  obtain ⟨-, -, -, hv, -, hp⟩ := C39_states_partial (CS := CS)
  obtain ⟨-, -, -, -, ht⟩ := C39_messages_partial (CS := CS)
  refine ⟨fun s I _ bs n => ⟨(hv s).1, ?_⟩, fun wf s I _ bs info it t n h => ⟨(hp s).1, ht t, ?_⟩⟩
  · rw [VoprfPrepared.dropped, advance_repeat]
    rfl
  · rw [Lazy.poprfPrepare, Res.bind_eq_ok] at h
    obtain ⟨tw, htw, h⟩ := h
    obtain ⟨m, -, hm, rfl, -⟩ := computeTweak_ok wf htw
    cases h
    refine ⟨m, hm, ?_⟩
    rw [PoprfPrepared.dropped, advance_repeat]
    exact add_sub_cancel_right _ _

/-- both kinds of iterators exist: a server with key 7 and one blinded element -/
example : (Lazy.voprfPrepare (⟨7, 7⟩ : VoprfServer Toy.suite) ([⟨(3 : Toy.F)⟩] : List (BlindedElement Toy.suite))).iter.b.element
      = (7 : Toy.F) ∧
    (Lazy.poprfPrepare (⟨7, 7⟩ : PoprfServer Toy.suite) ([⟨(3 : Toy.F)⟩] : List (BlindedElement Toy.suite))
      (some [42])).isOk = true := ⟨rfl, by decide +kernel⟩

/-- the two encoding hypotheses hold of the small suite, where a server with key 7 loses it -/
example : Toy.suite.group.serializeScalar 0 = List.replicate Toy.suite.group.scalarLen 0 ∧
    Toy.suite.group.serializeElem 0 = List.replicate Toy.suite.group.elemLen 0 ∧
    (⟨7, 7⟩ : VoprfServer Toy.suite).serialize = [7, 7] ∧
    (⟨7, 7⟩ : VoprfServer Toy.suite).dropped.serialize = [0, 0] := ⟨rfl, rfl, rfl, rfl⟩

end Voprf
