import Verif.Lemmas.LeakRel
import Verif.Toy
import Verif.Props.Correctness

/-!
# C47: the control flow does not depend on secrets

`Leak.T` (`Verif/Model/Leak.lean`) is a computation together with the record of every group operation,
hash, conditional branch and early return it makes, with the lengths of the byte strings involved. The
theorems compare two arbitrary runs of the same API function: different keys, blinds, random generators,
inputs of the same length, messages, proofs. If both runs succeed, their records are equal: no branch,
no number of operations and no length depends on anything but the public lengths and the outcome.

Instructions within one group operation (the curve libraries, `subtle`'s `ct_eq`) are not modelled.
-/

namespace Voprf

open Leak (T Event)

variable {CS : CipherSuite}

/-- Both runs succeed only with equal records. -/
def SameRecord {α β : Type} (x : T α) (y : T β) : Prop :=
  ∀ a b, x.val = .ok a → y.val = .ok b → x.trace = y.trace

theorem Leak.Rel.same {α β : Type} {R : α → β → Prop} {x : T α} {y : T β} (h : Leak.Rel R x y) :
    SameRecord x y := fun a b ha hb => (h a b ha hb).1

open Leak in
/-- C47, the instrumented functions are the functions of the model: forgetting the record gives exactly
the model's result, in every case. -/
theorem C47_instrumentation_faithful (CS : CipherSuite) {σ : Type} [RngCore σ] :
    (∀ (i : Bytes) (g : σ), (Leak.OprfClient.blindInput CS i g).val = Voprf.OprfClient.blindInput CS i g) ∧
    (∀ (i : Bytes) (g : σ), (Leak.VoprfClient.blindInput CS i g).val = Voprf.VoprfClient.blindInput CS i g) ∧
    (∀ (i : Bytes) (g : σ), (Leak.PoprfClient.blindInput CS i g).val = Voprf.PoprfClient.blindInput CS i g) ∧
    (∀ (c : Voprf.OprfClient CS) i e, (Leak.OprfClient.finalize c i e).val = c.finalize i e) ∧
    (∀ (c : Voprf.VoprfClient CS) i e p pk, (Leak.VoprfClient.finalize c i e p pk).val = c.finalize i e p pk) ∧
    (∀ (c : Voprf.PoprfClient CS) i e p pk info,
      (Leak.PoprfClient.finalize c i e p pk info).val = c.finalize i e p pk info) ∧
    (∀ is (cs : List (Voprf.VoprfClient CS)) es p pk,
      List.map T.val <$> (Leak.VoprfClient.batchFinalize is cs es p pk).val
        = Voprf.VoprfClient.batchFinalize is cs es p pk) ∧
    (∀ is (cs : List (Voprf.PoprfClient CS)) es p pk info,
      List.map T.val <$> (Leak.PoprfClient.batchFinalize is cs es p pk info).val
        = Voprf.PoprfClient.batchFinalize is cs es p pk info) ∧
    (∀ (s : Voprf.OprfServer CS) b, (Leak.OprfServer.blindEvaluate s b).val = .ok (s.blindEvaluate b)) ∧
    (∀ (s : Voprf.VoprfServer CS) (g : σ) b, (Leak.VoprfServer.blindEvaluate s g b).val = s.blindEvaluate g b) ∧
    (∀ (s : Voprf.PoprfServer CS) (g : σ) b info,
      (Leak.PoprfServer.blindEvaluate s g b info).val = s.blindEvaluate g b info) ∧
    (∀ (s : Voprf.VoprfServer CS) bs, (bs.map (Leak.VoprfServer.prepareItem s)).map T.val
        = (s.batchBlindEvaluatePrepare bs).map Res.ok) ∧
    (∀ (s : Voprf.VoprfServer CS) (g : σ) bs ps,
      (Leak.VoprfServer.batchBlindEvaluateFinish s g bs ps).val = s.batchBlindEvaluateFinish g bs ps) ∧
    (∀ (g : σ) bs ps (t : CS.Scalar), (Leak.PoprfServer.batchBlindEvaluateFinish g bs ps t).val
        = Voprf.PoprfServer.batchBlindEvaluateFinish g bs ps ⟨t⟩) ∧
    (∀ (s : Voprf.VoprfServer CS) (g : σ) bs,
      (Leak.VoprfServer.batchBlindEvaluate s g bs).val = s.batchBlindEvaluate g bs) ∧
    (∀ (s : Voprf.PoprfServer CS) (g : σ) bs info,
      (Leak.PoprfServer.batchBlindEvaluate s g bs info).val = s.batchBlindEvaluate g bs info) ∧
    (∀ (s : Voprf.OprfServer CS) i, (Leak.OprfServer.evaluate s i).val = s.evaluate i) ∧
    (∀ (s : Voprf.VoprfServer CS) i, (Leak.VoprfServer.evaluate s i).val = s.evaluate i) ∧
    (∀ (s : Voprf.PoprfServer CS) i info, (Leak.PoprfServer.evaluate s i info).val = s.evaluate i info) ∧
    (∀ seed info, (Leak.OprfServer.newFromSeed CS seed info).val = Voprf.OprfServer.newFromSeed CS seed info) ∧
    (∀ seed info, (Leak.VoprfServer.newFromSeed CS seed info).val = Voprf.VoprfServer.newFromSeed CS seed info) ∧
    (∀ seed info, (Leak.PoprfServer.newFromSeed CS seed info).val = Voprf.PoprfServer.newFromSeed CS seed info) ∧
    (∀ g : σ, (Leak.OprfServer.new CS g).val = Voprf.OprfServer.new CS g) ∧
    (∀ g : σ, (Leak.VoprfServer.new CS g).val = Voprf.VoprfServer.new CS g) ∧
    (∀ g : σ, (Leak.PoprfServer.new CS g).val = Voprf.PoprfServer.new CS g) ∧
    (∀ k, (Leak.OprfServer.newWithKey CS k).val = Voprf.OprfServer.newWithKey CS k) ∧
    (∀ k, (Leak.VoprfServer.newWithKey CS k).val = Voprf.VoprfServer.newWithKey CS k) ∧
    (∀ k, (Leak.PoprfServer.newWithKey CS k).val = Voprf.PoprfServer.newWithKey CS k) :=
  ⟨erase_oprf_blind, erase_voprf_blind, erase_poprf_blind, erase_oprf_finalize, erase_voprf_finalize,
   erase_poprf_finalize,
   fun is cs es p pk => by
     rw [← erase_voprf_batchFinalize]; cases (Leak.VoprfClient.batchFinalize is cs es p pk).val <;> rfl,
   fun is cs es p pk info => by
     rw [← erase_poprf_batchFinalize]; cases (Leak.PoprfClient.batchFinalize is cs es p pk info).val <;> rfl,
   erase_oprf_blindEvaluate, erase_voprf_blindEvaluate, erase_poprf_blindEvaluate, erase_voprf_prepare,
   erase_voprf_finish, erase_poprf_finish, erase_voprf_batchBlindEvaluate, erase_poprf_batchBlindEvaluate,
   erase_oprf_evaluate, erase_voprf_evaluate, erase_poprf_evaluate, erase_newFromSeed_oprf,
   erase_newFromSeed_voprf, erase_newFromSeed_poprf, erase_new_oprf, erase_new_voprf, erase_new_poprf,
   erase_newWithKey_oprf, erase_newWithKey_voprf, erase_newWithKey_poprf⟩

section client
open Leak

variable {σ σ' : Type} [RngCore σ] [RngCore σ']

/-- C47, `blind`: the record shows nothing of the input but its length, and nothing of the blind. -/
theorem C47_oprf_blind (input input' : Bytes) (h : input.length = input'.length) (g : σ) (g' : σ') :
    SameRecord (Leak.OprfClient.blindInput CS input g) (Leak.OprfClient.blindInput CS input' g') :=
  (Rel.bind (R := Any) (Rel.callRes _ rfl fun _ _ _ _ => trivial) fun _ _ _ =>
    (rel_blind h _ _ _).bind fun _ _ _ => Rel.pure (R := Any) trivial).same

theorem C47_voprf_blind (input input' : Bytes) (h : input.length = input'.length) (g : σ) (g' : σ') :
    SameRecord (Leak.VoprfClient.blindInput CS input g) (Leak.VoprfClient.blindInput CS input' g') :=
  (Rel.bind (R := Any) (Rel.callRes _ rfl fun _ _ _ _ => trivial) fun _ _ _ =>
    (rel_blind h _ _ _).bind fun _ _ _ => Rel.pure (R := Any) trivial).same

theorem C47_poprf_blind (input input' : Bytes) (h : input.length = input'.length) (g : σ) (g' : σ') :
    SameRecord (Leak.PoprfClient.blindInput CS input g) (Leak.PoprfClient.blindInput CS input' g') :=
  (Rel.bind (R := Any) (Rel.callRes _ rfl fun _ _ _ _ => trivial) fun _ _ _ =>
    (rel_blind h _ _ _).bind fun _ _ _ => Rel.pure (R := Any) trivial).same

/-- C47, OPRF `finalize`: whatever the client's blind, the input of the given length and the message. -/
theorem C47_oprf_finalize (c c' : Voprf.OprfClient CS) (input input' : Bytes)
    (h : input.length = input'.length) (e e' : EvaluationElement CS) :
    SameRecord (Leak.OprfClient.finalize c input e) (Leak.OprfClient.finalize c' input' e') :=
  (rel_finalizeItem h (rel_unblind _ _ _ _)).same

/-- The record of a batch, and of each lazily computed item. -/
def SameBatchRecord {α β : Type} (x : T (List (T α))) (y : T (List (T β))) : Prop :=
  ∀ items items', x.val = .ok items → y.val = .ok items' →
    x.trace = y.trace ∧ List.Forall₂ SameRecord items items'

theorem rel_voprf_batchFinalize {is is' : List Bytes} {cs cs' : List (Voprf.VoprfClient CS)}
    {es es' : List (EvaluationElement CS)} (hi : is.map List.length = is'.map List.length)
    (hc : cs.length = cs'.length) (he : es.length = es'.length) (p p' : Proof CS) (pk pk' : CS.Elem) :
    Rel (List.Forall₂ (Rel Any)) (Leak.VoprfClient.batchFinalize is cs es p pk)
      (Leak.VoprfClient.batchFinalize is' cs' es' p' pk') := by
  refine (rel_verifyProof _ _ _ _ (by simpa using hc) (by simpa using he) p p' .Voprf).bind fun _ _ _ =>
    Rel.pure (forall₂_of_length ?_ ?_)
  · have := congrArg List.length hi
    simp only [List.length_map, List.length_zip] at this ⊢
    rw [this, hc, he]
  · intro j hj hj'
    simp only [List.getElem_map, List.getElem_zip]
    refine (rel_finalizeItem ?_ (rel_unblind _ _ _ _)).any
    simp only [List.length_map, List.length_zip] at hj hj'
    have := List.getElem_of_eq hi (i := j) (by simp only [List.length_map]; omega)
    simpa using this

theorem rel_poprf_batchFinalize {is is' : List Bytes} {cs cs' : List (Voprf.PoprfClient CS)}
    {es es' : List (EvaluationElement CS)} {info info' : Option Bytes}
    (hi : is.map List.length = is'.map List.length)
    (hc : cs.length = cs'.length) (he : es.length = es'.length) (p p' : Proof CS) (pk pk' : CS.Elem)
    (hn : infoLength info = infoLength info') :
    Rel (List.Forall₂ (Rel Any)) (Leak.PoprfClient.batchFinalize is cs es p pk info)
      (Leak.PoprfClient.batchFinalize is' cs' es' p' pk' info') := by
  refine (rel_computeTweakedKey _ _ hn).bind fun _ _ _ =>
    (rel_verifyProof _ _ _ _ (by simpa using he) (by simpa using hc) p p' .Poprf).bind fun _ _ _ =>
    Rel.bind (R := Any) (Rel.check fun _ _ _ _ => trivial) fun _ _ _ =>
    Rel.pure (forall₂_of_length ?_ ?_)
  · have := congrArg List.length hi
    simp only [List.length_map, List.length_zip] at this ⊢
    rw [this, hc, he]
  · intro j hj hj'
    simp only [List.getElem_map, List.getElem_zip]
    refine (rel_poprfFinalizeItem ?_ hn (rel_unblind _ _ _ _)).any
    simp only [List.length_map, List.length_zip] at hj hj'
    have := List.getElem_of_eq hi (i := j) (by simp only [List.length_map]; omega)
    simpa using this

theorem Leak.Rel.sameBatch {α β : Type} {x : T (List (T α))} {y : T (List (T β))}
    (h : Rel (List.Forall₂ (Rel Any)) x y) : SameBatchRecord x y := fun a b ha hb =>
  ⟨(h a b ha hb).1, (h a b ha hb).2.imp fun _ _ hr => hr.same⟩

/-- C47, VOPRF `batch_finalize`, the eager verification and every lazy item: for batches of the same
sizes, with inputs of the same lengths. -/
theorem C47_voprf_batch_finalize (is is' : List Bytes) (cs cs' : List (Voprf.VoprfClient CS))
    (es es' : List (EvaluationElement CS)) (hi : is.map List.length = is'.map List.length)
    (hc : cs.length = cs'.length) (he : es.length = es'.length) (p p' : Proof CS) (pk pk' : CS.Elem) :
    SameBatchRecord (Leak.VoprfClient.batchFinalize is cs es p pk)
      (Leak.VoprfClient.batchFinalize is' cs' es' p' pk') :=
  (rel_voprf_batchFinalize hi hc he p p' pk pk').sameBatch

theorem C47_poprf_batch_finalize (is is' : List Bytes) (cs cs' : List (Voprf.PoprfClient CS))
    (es es' : List (EvaluationElement CS)) (hi : is.map List.length = is'.map List.length)
    (hc : cs.length = cs'.length) (he : es.length = es'.length) (p p' : Proof CS) (pk pk' : CS.Elem)
    (info info' : Option Bytes) (hn : (info.getD []).length = (info'.getD []).length) :
    SameBatchRecord (Leak.PoprfClient.batchFinalize is cs es p pk info)
      (Leak.PoprfClient.batchFinalize is' cs' es' p' pk' info') :=
  (rel_poprf_batchFinalize hi hc he p p' pk pk' hn).sameBatch

/-- C47, VOPRF `finalize`. -/
theorem C47_voprf_finalize (c c' : Voprf.VoprfClient CS) (input input' : Bytes)
    (h : input.length = input'.length) (e e' : EvaluationElement CS) (p p' : Proof CS) (pk pk' : CS.Elem) :
    SameRecord (Leak.VoprfClient.finalize c input e p pk) (Leak.VoprfClient.finalize c' input' e' p' pk') := by
  refine Rel.same (R := Any) ?_
  refine Rel.bind (rel_voprf_batchFinalize (is := [input]) (is' := [input']) (cs := [c]) (cs' := [c'])
    (es := [e]) (es' := [e']) (by simpa using h) rfl rfl p p' pk pk') fun items items' hit => ?_
  refine Rel.bind (R := Rel Any) (Rel.check ?_) fun a b hab => hab
  intro a b ha hb
  cases hit with
  | nil => simp [Res.unwrapOption] at ha
  | cons hx _ =>
    simp only [List.head?_cons, Res.unwrapOption, Res.ok.injEq] at ha hb
    subst ha hb
    exact hx

/-- C47, POPRF `finalize`. -/
theorem C47_poprf_finalize (c c' : Voprf.PoprfClient CS) (input input' : Bytes)
    (h : input.length = input'.length) (e e' : EvaluationElement CS) (p p' : Proof CS) (pk pk' : CS.Elem)
    (info info' : Option Bytes) (hn : (info.getD []).length = (info'.getD []).length) :
    SameRecord (Leak.PoprfClient.finalize c input e p pk info)
      (Leak.PoprfClient.finalize c' input' e' p' pk' info') := by
  refine Rel.same (R := Any) ?_
  refine Rel.bind (rel_poprf_batchFinalize (is := [input]) (is' := [input']) (cs := [c]) (cs' := [c'])
    (es := [e]) (es' := [e']) (by simpa using h) rfl rfl p p' pk pk' hn) fun items items' hit => ?_
  refine Rel.bind (R := Rel Any) (Rel.check ?_) fun a b hab => hab
  intro a b ha hb
  cases hit with
  | nil => simp [Res.unwrapOption] at ha
  | cons hx _ =>
    simp only [List.head?_cons, Res.unwrapOption, Res.ok.injEq] at ha hb
    subst ha hb
    exact hx

end client

section server
open Leak

variable {σ σ' : Type} [RngCore σ] [RngCore σ']

/-- C47, OPRF `blind_evaluate`: one multiplication, whatever the key and the element. -/
theorem C47_oprf_blind_evaluate (s s' : Voprf.OprfServer CS) (b b' : BlindedElement CS) :
    (Leak.OprfServer.blindEvaluate s b).trace = (Leak.OprfServer.blindEvaluate s' b').trace := rfl

/-- C47, each item of VOPRF `batch_blind_evaluate_prepare`. -/
theorem C47_voprf_prepare (s s' : Voprf.VoprfServer CS) (b b' : BlindedElement CS) :
    (Leak.VoprfServer.prepareItem s b).trace = (Leak.VoprfServer.prepareItem s' b').trace := rfl

/-- C47, each item of POPRF `batch_blind_evaluate_prepare`, whatever the tweaked key. -/
theorem C47_poprf_prepare (t t' : CS.Scalar) (b b' : BlindedElement CS) :
    SameRecord (Leak.PoprfServer.prepareItem t b) (Leak.PoprfServer.prepareItem t' b') :=
  ((rel_unblind _ _ _ _).bind fun _ _ _ => Rel.pure (R := Any) trivial).same

/-- C47, the tweaked key, computed eagerly by POPRF `batch_blind_evaluate_prepare`. -/
theorem C47_poprf_tweak (s s' : Voprf.PoprfServer CS) (info info' : Option Bytes)
    (hn : (info.getD []).length = (info'.getD []).length) :
    SameRecord (Leak.Poprf.computeTweak CS s.sk info) (Leak.Poprf.computeTweak CS s'.sk info') :=
  (rel_computeTweak _ _ hn).same

theorem rel_voprf_finish (s s' : Voprf.VoprfServer CS) (g : σ) (g' : σ') {bs bs' : List (BlindedElement CS)}
    {ps ps' : List (PreparedEvaluationElement CS)} (hb : bs.length = bs'.length) (hp : ps.length = ps'.length) :
    Rel (fun r r' => r.1.messages.length = r'.1.messages.length)
      (Leak.VoprfServer.batchBlindEvaluateFinish s g bs ps)
      (Leak.VoprfServer.batchBlindEvaluateFinish s' g' bs' ps') :=
  (rel_generateProof g g' _ _ _ _ _ _ (by simpa using hb) (by simpa using hp) .Voprf).bind fun _ _ _ =>
    Rel.pure (by simpa using hp)

theorem rel_poprf_finish (g : σ) (g' : σ') {bs bs' : List (BlindedElement CS)}
    {ps ps' : List (PreparedEvaluationElement CS)} (hb : bs.length = bs'.length) (hp : ps.length = ps'.length)
    (t t' : CS.Scalar) :
    Rel (fun r r' => r.1.messages.length = r'.1.messages.length)
      (Leak.PoprfServer.batchBlindEvaluateFinish g bs ps t)
      (Leak.PoprfServer.batchBlindEvaluateFinish g' bs' ps' t') :=
  (rel_mul _ _ _ _).bind fun _ _ _ =>
  (rel_generateProof g g' _ _ _ _ _ _ (by simpa using hp) (by simpa using hb) .Poprf).bind fun _ _ _ =>
    Rel.pure (by simpa using hp)

/-- C47, `batch_blind_evaluate_finish`: the proof generation, whatever the key, the nonce and the
elements, for batches of the same size. -/
theorem C47_voprf_finish (s s' : Voprf.VoprfServer CS) (g : σ) (g' : σ') (bs bs' : List (BlindedElement CS))
    (ps ps' : List (PreparedEvaluationElement CS)) (hb : bs.length = bs'.length) (hp : ps.length = ps'.length) :
    SameRecord (Leak.VoprfServer.batchBlindEvaluateFinish s g bs ps)
      (Leak.VoprfServer.batchBlindEvaluateFinish s' g' bs' ps') :=
  (rel_voprf_finish s s' g g' hb hp).same

theorem C47_poprf_finish (g : σ) (g' : σ') (bs bs' : List (BlindedElement CS))
    (ps ps' : List (PreparedEvaluationElement CS)) (hb : bs.length = bs'.length) (hp : ps.length = ps'.length)
    (t t' : CS.Scalar) :
    SameRecord (Leak.PoprfServer.batchBlindEvaluateFinish g bs ps t)
      (Leak.PoprfServer.batchBlindEvaluateFinish g' bs' ps' t') :=
  (rel_poprf_finish g g' hb hp t t').same

/-- C47, VOPRF `batch_blind_evaluate`. -/
theorem C47_voprf_batch_blind_evaluate (s s' : Voprf.VoprfServer CS) (g : σ) (g' : σ')
    (bs bs' : List (BlindedElement CS)) (hb : bs.length = bs'.length) :
    SameRecord (Leak.VoprfServer.batchBlindEvaluate s g bs) (Leak.VoprfServer.batchBlindEvaluate s' g' bs') := by
  refine Rel.same (R := Any) (Rel.bind (Rel.collect (R := Any) (forall₂_of_length (by simpa using hb) ?_))
    fun ps ps' hp => (rel_voprf_finish s s' g g' hb hp.length_eq).any)
  intro i hi hi'
  simp only [List.getElem_map]
  exact (rel_mul _ _ _ _).bind fun _ _ _ => Rel.pure trivial

/-- C47, POPRF `batch_blind_evaluate`. -/
theorem C47_poprf_batch_blind_evaluate (s s' : Voprf.PoprfServer CS) (g : σ) (g' : σ')
    (bs bs' : List (BlindedElement CS)) (hb : bs.length = bs'.length) (info info' : Option Bytes)
    (hn : (info.getD []).length = (info'.getD []).length) :
    SameRecord (Leak.PoprfServer.batchBlindEvaluate s g bs info)
      (Leak.PoprfServer.batchBlindEvaluate s' g' bs' info') := by
  refine Rel.same (R := Any) ((rel_computeTweak _ _ hn).bind fun t t' _ =>
    Rel.bind (Rel.collect (R := Any) (forall₂_of_length (by simpa using hb) ?_))
    fun ps ps' hp => (rel_poprf_finish g g' hb hp.length_eq t t').unwrap.any)
  intro i hi hi'
  simp only [List.getElem_map]
  exact (rel_unblind _ _ _ _).bind fun _ _ _ => Rel.pure trivial

/-- C47, VOPRF `blind_evaluate`. -/
theorem C47_voprf_blind_evaluate (s s' : Voprf.VoprfServer CS) (g : σ) (g' : σ') (b b' : BlindedElement CS) :
    SameRecord (Leak.VoprfServer.blindEvaluate s g b) (Leak.VoprfServer.blindEvaluate s' g' b') :=
  Rel.same (R := Any) ((Rel.bind (R := Any) ((rel_mul _ _ _ _).bind fun _ _ _ => Rel.pure trivial) fun q q' _ =>
    ((rel_voprf_finish s s' g g' (bs := [b]) (bs' := [b']) (ps := [q]) (ps' := [q']) rfl rfl).unwrap).bind fun _ _ _ =>
    Rel.bind (R := Any) (Rel.check fun _ _ _ _ => trivial) fun _ _ _ => Rel.pure trivial))

/-- C47, POPRF `blind_evaluate`. -/
theorem C47_poprf_blind_evaluate (s s' : Voprf.PoprfServer CS) (g : σ) (g' : σ') (b b' : BlindedElement CS)
    (info info' : Option Bytes) (hn : (info.getD []).length = (info'.getD []).length) :
    SameRecord (Leak.PoprfServer.blindEvaluate s g b info) (Leak.PoprfServer.blindEvaluate s' g' b' info') :=
  Rel.same (R := Any) ((rel_computeTweak _ _ hn).bind fun t t' _ =>
    Rel.bind (R := Any) ((rel_unblind _ _ _ _).bind fun _ _ _ => Rel.pure trivial) fun q q' _ =>
    ((rel_poprf_finish g g' (bs := [b]) (bs' := [b']) (ps := [q]) (ps' := [q']) rfl rfl t t').unwrap).bind fun _ _ _ =>
    Rel.bind (R := Any) (Rel.check fun _ _ _ _ => trivial) fun _ _ _ => Rel.pure trivial)

theorem rel_evaluateIn (mode : Mode) (sk sk' : CS.Scalar) {input input' : Bytes}
    (h : input.length = input'.length) :
    Rel SameLen (Leak.OprfServer.evaluateIn CS mode sk input) (Leak.OprfServer.evaluateIn CS mode sk' input') :=
  (rel_hashToGroup h mode).bind fun _ _ _ => Rel.testErr _ true rfl rfl rfl rfl
    ((rel_mul _ _ _ _).bind fun _ _ _ => (rel_ser _ _).bind fun _ _ hs =>
      rel_serverEvaluateHashInput h rfl hs)

/-- C47, `evaluate`, whatever the key and the input of the given length. -/
theorem C47_oprf_evaluate (s s' : Voprf.OprfServer CS) (input input' : Bytes)
    (h : input.length = input'.length) :
    SameRecord (Leak.OprfServer.evaluate s input) (Leak.OprfServer.evaluate s' input') :=
  (rel_evaluateIn .Oprf s.sk s'.sk h).same

theorem C47_voprf_evaluate (s s' : Voprf.VoprfServer CS) (input input' : Bytes)
    (h : input.length = input'.length) :
    SameRecord (Leak.VoprfServer.evaluate s input) (Leak.VoprfServer.evaluate s' input') :=
  (rel_evaluateIn .Voprf s.sk s'.sk h).same

/-- C47, POPRF `evaluate`; here an absent info is distinguishable from an empty one. -/
theorem C47_poprf_evaluate (s s' : Voprf.PoprfServer CS) (input input' : Bytes)
    (h : input.length = input'.length) (info info' : Option Bytes)
    (hn : info.map List.length = info'.map List.length) :
    SameRecord (Leak.PoprfServer.evaluate s input info) (Leak.PoprfServer.evaluate s' input' info') := by
  have hn' : infoLength info = infoLength info' := by
    cases info <;> cases info' <;> simp_all [infoLength]
  exact ((rel_hashToGroup h .Poprf).bind fun _ _ _ => Rel.testErr _ true rfl rfl rfl rfl
    ((rel_computeTweak _ _ hn').bind fun _ _ _ => (rel_unblind _ _ _ _).bind fun _ _ _ =>
      (rel_ser _ _).bind fun _ _ hs => rel_serverEvaluateHashInput h hn hs)).same

end server

section keys
open Leak

/-- A computation after key derivation that adds a fixed record. -/
theorem same_after {α β γ δ : Type} {x : T α} {y : T β} {f : α → T γ} {g : β → T δ} {l : List Event}
    (h : ∀ a b, x.val = .ok a → y.val = .ok b → x.trace.length = y.trace.length → x.trace = y.trace)
    (hf : ∀ a, (f a).trace = l) (hg : ∀ b, (g b).trace = l) (c : γ) (d : δ)
    (hc : (x >>= f).val = .ok c) (hd : (y >>= g).val = .ok d)
    (hl : (x >>= f).trace.length = (y >>= g).trace.length) : (x >>= f).trace = (y >>= g).trace := by
  rw [T.val_bind] at hc hd
  change (T.bind x f).trace.length = (T.bind y g).trace.length at hl
  show (T.bind x f).trace = (T.bind y g).trace
  unfold T.bind at hl ⊢
  cases hx : x.val with
  | ok a =>
    cases hy : y.val with
    | ok b =>
      simp only [hx, hy, hf, hg, List.length_append, Nat.add_right_cancel_iff] at hl ⊢
      rw [h a b hx hy hl]
    | _ => rw [hy] at hd; simp at hd
  | _ => rw [hx] at hc; simp at hc

theorem deriveKeyInternal_same {seed seed' info info' : Bytes} (hs : seed.length = seed'.length)
    (hi : info.length = info'.length) (mode : Mode) (k k' : CS.Scalar)
    (h : (Leak.deriveKeyInternal CS seed info mode).val = .ok k)
    (h' : (Leak.deriveKeyInternal CS seed' info' mode).val = .ok k')
    (hl : (Leak.deriveKeyInternal CS seed info mode).trace.length
      = (Leak.deriveKeyInternal CS seed' info' mode).trace.length) :
    (Leak.deriveKeyInternal CS seed info mode).trace = (Leak.deriveKeyInternal CS seed' info' mode).trace := by
  unfold Leak.deriveKeyInternal at h h' hl ⊢
  rw [← hi] at h' hl ⊢
  rw [T.val_bind] at h h'
  change (T.bind _ _).trace.length = (T.bind _ _).trace.length at hl
  show (T.bind _ _).trace = (T.bind _ _).trace
  unfold T.bind at hl ⊢
  simp only [T.val_check] at h h' hl ⊢
  cases hd : Dst.new CS STR_DERIVE_KEYPAIR mode with
  | ok d =>
    simp only [hd, Res.ok_bind, T.val_bind, T.val_check] at h h' hl ⊢
    cases hn : Res.mapErr Error.DeriveKeyPair (i2osp2 info.length) with
    | ok n =>
      simp only [hn, Res.ok_bind] at h h'
      change (_ ++ (T.bind _ _).trace).length = (_ ++ (T.bind _ _).trace).length at hl
      show _ ++ (T.bind _ _).trace = _ ++ (T.bind _ _).trace
      unfold T.bind at hl ⊢
      simp only [T.val_check, hn, List.length_append, Nat.add_left_cancel_iff] at hl ⊢
      rw [deriveKeyLoop_trace hs rfl hi d d 256 0 0 k k' h h' hl]
    | _ => simp [hn] at h
  | _ => simp [hd] at h

/-- C47, key derivation: the only thing the record of `new_from_seed` shows, besides the lengths of the
seed and of the info, is how many candidates were rejected (it is determined by its length). -/
theorem C47_oprf_new_from_seed (seed seed' info info' : Bytes) (hs : seed.length = seed'.length)
    (hi : info.length = info'.length) (s s' : Voprf.OprfServer CS)
    (h : (Leak.OprfServer.newFromSeed CS seed info).val = .ok s)
    (h' : (Leak.OprfServer.newFromSeed CS seed' info').val = .ok s')
    (hl : (Leak.OprfServer.newFromSeed CS seed info).trace.length
      = (Leak.OprfServer.newFromSeed CS seed' info').trace.length) :
    (Leak.OprfServer.newFromSeed CS seed info).trace = (Leak.OprfServer.newFromSeed CS seed' info').trace :=
  same_after (fun _ _ h h' hl => deriveKeyInternal_same hs hi _ _ _ h h' hl) (fun _ => rfl) (fun _ => rfl)
    s s' h h' hl

theorem deriveKeypair_same {seed seed' info info' : Bytes} (hs : seed.length = seed'.length)
    (hi : info.length = info'.length) (mode : Mode) (k k' : CS.Scalar × CS.Elem)
    (h : (Leak.deriveKeypair CS seed info mode).val = .ok k)
    (h' : (Leak.deriveKeypair CS seed' info' mode).val = .ok k')
    (hl : (Leak.deriveKeypair CS seed info mode).trace.length
      = (Leak.deriveKeypair CS seed' info' mode).trace.length) :
    (Leak.deriveKeypair CS seed info mode).trace = (Leak.deriveKeypair CS seed' info' mode).trace :=
  same_after (l := [.op .elemMul []]) (fun _ _ h h' hl => deriveKeyInternal_same hs hi _ _ _ h h' hl) (fun _ => rfl) (fun _ => rfl)
    k k' h h' hl

theorem C47_voprf_new_from_seed (seed seed' info info' : Bytes) (hs : seed.length = seed'.length)
    (hi : info.length = info'.length) (s s' : Voprf.VoprfServer CS)
    (h : (Leak.VoprfServer.newFromSeed CS seed info).val = .ok s)
    (h' : (Leak.VoprfServer.newFromSeed CS seed' info').val = .ok s')
    (hl : (Leak.VoprfServer.newFromSeed CS seed info).trace.length
      = (Leak.VoprfServer.newFromSeed CS seed' info').trace.length) :
    (Leak.VoprfServer.newFromSeed CS seed info).trace = (Leak.VoprfServer.newFromSeed CS seed' info').trace :=
  same_after (fun _ _ h h' hl => deriveKeypair_same hs hi _ _ _ h h' hl) (fun _ => rfl) (fun _ => rfl)
    s s' h h' hl

theorem C47_poprf_new_from_seed (seed seed' info info' : Bytes) (hs : seed.length = seed'.length)
    (hi : info.length = info'.length) (s s' : Voprf.PoprfServer CS)
    (h : (Leak.PoprfServer.newFromSeed CS seed info).val = .ok s)
    (h' : (Leak.PoprfServer.newFromSeed CS seed' info').val = .ok s')
    (hl : (Leak.PoprfServer.newFromSeed CS seed info).trace.length
      = (Leak.PoprfServer.newFromSeed CS seed' info').trace.length) :
    (Leak.PoprfServer.newFromSeed CS seed info).trace = (Leak.PoprfServer.newFromSeed CS seed' info').trace :=
  same_after (fun _ _ h h' hl => deriveKeypair_same hs hi _ _ _ h h' hl) (fun _ => rfl) (fun _ => rfl)
    s s' h h' hl

/-- C47, `new`: nothing of the random seed but the number of rejected candidates. -/
theorem C47_oprf_new {σ σ' : Type} [RngCore σ] [RngCore σ'] (g : σ) (g' : σ') (s : Voprf.OprfServer CS × σ)
    (s' : Voprf.OprfServer CS × σ') (h : (Leak.OprfServer.new CS g).val = .ok s)
    (h' : (Leak.OprfServer.new CS g').val = .ok s')
    (hl : (Leak.OprfServer.new CS g).trace.length = (Leak.OprfServer.new CS g').trace.length) :
    (Leak.OprfServer.new CS g).trace = (Leak.OprfServer.new CS g').trace := by
  have hs : (RngCore.fillBytes g CS.group.scalarLen).1.length = (RngCore.fillBytes g' CS.group.scalarLen).1.length := by
    rw [RngCore.fillBytes_length, RngCore.fillBytes_length]
  refine congrArg (Event.op .fillBytes [CS.group.scalarLen] :: ·)
    (same_after (fun s s' h h' hl => C47_oprf_new_from_seed _ _ [] [] hs rfl s s' h h' hl)
      (fun _ => rfl) (fun _ => rfl) s s' h h' ?_)
  exact Nat.succ.inj hl

theorem C47_voprf_new {σ σ' : Type} [RngCore σ] [RngCore σ'] (g : σ) (g' : σ') (s : Voprf.VoprfServer CS × σ)
    (s' : Voprf.VoprfServer CS × σ') (h : (Leak.VoprfServer.new CS g).val = .ok s)
    (h' : (Leak.VoprfServer.new CS g').val = .ok s')
    (hl : (Leak.VoprfServer.new CS g).trace.length = (Leak.VoprfServer.new CS g').trace.length) :
    (Leak.VoprfServer.new CS g).trace = (Leak.VoprfServer.new CS g').trace := by
  have hs : (RngCore.fillBytes g CS.group.scalarLen).1.length = (RngCore.fillBytes g' CS.group.scalarLen).1.length := by
    rw [RngCore.fillBytes_length, RngCore.fillBytes_length]
  refine congrArg (Event.op .fillBytes [CS.group.scalarLen] :: ·)
    (same_after (fun s s' h h' hl => C47_voprf_new_from_seed _ _ [] [] hs rfl s s' h h' hl)
      (fun _ => rfl) (fun _ => rfl) s s' h h' ?_)
  exact Nat.succ.inj hl

theorem C47_poprf_new {σ σ' : Type} [RngCore σ] [RngCore σ'] (g : σ) (g' : σ') (s : Voprf.PoprfServer CS × σ)
    (s' : Voprf.PoprfServer CS × σ') (h : (Leak.PoprfServer.new CS g).val = .ok s)
    (h' : (Leak.PoprfServer.new CS g').val = .ok s')
    (hl : (Leak.PoprfServer.new CS g).trace.length = (Leak.PoprfServer.new CS g').trace.length) :
    (Leak.PoprfServer.new CS g).trace = (Leak.PoprfServer.new CS g').trace := by
  have hs : (RngCore.fillBytes g CS.group.scalarLen).1.length = (RngCore.fillBytes g' CS.group.scalarLen).1.length := by
    rw [RngCore.fillBytes_length, RngCore.fillBytes_length]
  refine congrArg (Event.op .fillBytes [CS.group.scalarLen] :: ·)
    (same_after (fun s s' h h' hl => C47_poprf_new_from_seed _ _ [] [] hs rfl s s' h h' hl)
      (fun _ => rfl) (fun _ => rfl) s s' h h' ?_)
  exact Nat.succ.inj hl

/-- C47, `new_with_key`: nothing but the length of the key. -/
theorem C47_new_with_key (key key' : Bytes) (h : key.length = key'.length) :
    SameRecord (Leak.OprfServer.newWithKey CS key) (Leak.OprfServer.newWithKey CS key') ∧
    SameRecord (Leak.VoprfServer.newWithKey CS key) (Leak.VoprfServer.newWithKey CS key') ∧
    SameRecord (Leak.PoprfServer.newWithKey CS key) (Leak.PoprfServer.newWithKey CS key') := by
  have hl : lens [key] = lens [key'] := by simp only [lens, List.map_cons, List.map_nil, h]
  exact ⟨Rel.same (R := Any) (Rel.bind (R := Any) (Rel.callRes _ hl fun _ _ _ _ => trivial) fun _ _ _ =>
      Rel.pure trivial),
    Rel.same (R := Any) (Rel.bind (R := Any) (Rel.callRes _ hl fun _ _ _ _ => trivial) fun _ _ _ =>
      (rel_mul _ _ _ _).bind fun _ _ _ => Rel.pure trivial),
    Rel.same (R := Any) (Rel.bind (R := Any) (Rel.callRes _ hl fun _ _ _ _ => trivial) fun _ _ _ =>
      (rel_mul _ _ _ _).bind fun _ _ _ => Rel.pure trivial)⟩

end keys

section examples
open Toy

/-- Two servers with different keys, different generators and different elements: both runs succeed, and
the (non-empty) records agree. -/
example : (Leak.VoprfServer.blindEvaluate (⟨7, 7⟩ : VoprfServer suite) (⟨9⟩ : Rng) ⟨3⟩).val.isOk = true ∧
    (Leak.VoprfServer.blindEvaluate (⟨5, 5⟩ : VoprfServer suite) (⟨4⟩ : Rng) ⟨2⟩).val.isOk = true ∧
    (Leak.VoprfServer.blindEvaluate (⟨7, 7⟩ : VoprfServer suite) (⟨9⟩ : Rng) ⟨3⟩).trace
      = (Leak.VoprfServer.blindEvaluate (⟨5, 5⟩ : VoprfServer suite) (⟨4⟩ : Rng) ⟨2⟩).trace ∧
    20 < (Leak.VoprfServer.blindEvaluate (⟨7, 7⟩ : VoprfServer suite) (⟨9⟩ : Rng) ⟨3⟩).trace.length := by
  decide +kernel

example : (Leak.PoprfServer.blindEvaluate (⟨7, 7⟩ : PoprfServer suite) (⟨9⟩ : Rng) ⟨3⟩ (some [1])).val.isOk = true ∧
    (Leak.PoprfServer.blindEvaluate (⟨5, 5⟩ : PoprfServer suite) (⟨4⟩ : Rng) ⟨2⟩ (some [2])).val.isOk = true := by
  decide +kernel

/-- Two clients: a blind and a finalisation each. -/
example : (Leak.OprfClient.blindInput suite [1, 2, 3] (⟨9⟩ : Rng)).val.isOk = true ∧
    (Leak.OprfClient.blindInput suite [4, 5, 6] (⟨2⟩ : Rng)).val.isOk = true ∧
    (Leak.OprfClient.finalize (⟨3⟩ : OprfClient suite) [1, 2, 3] ⟨4⟩).val.isOk = true ∧
    (Leak.OprfClient.finalize (⟨6⟩ : OprfClient suite) [4, 5, 6] ⟨9⟩).val.isOk = true := by
  decide +kernel

/-- Two full verifiable runs reach a successful `finalize`. -/
example : ∃ c c' e e' p p' o o',
    (Leak.VoprfClient.finalize (c : VoprfClient suite) [1, 2] e p 7).val = .ok o ∧
    (Leak.VoprfClient.finalize (c' : VoprfClient suite) [3, 4] e' p' 7).val = .ok o' ∧
    c.blind ≠ c'.blind := by
  have run : ∀ (i : Bytes) (g g' : Rng),
      (do let (b, _) ← VoprfClient.blindInput suite i g
          let (r, _) ← (⟨7, 7⟩ : VoprfServer suite).blindEvaluate g' b.message
          let o ← b.state.finalize i r.message r.proof 7
          pure (b, r, o)).isOk = true →
      ∃ b g₂ e p o, VoprfClient.blindInput suite i g = .ok (b, g₂) ∧
        (Leak.VoprfClient.finalize b.state i e p 7).val = .ok o := by
    intro i g g' h
    obtain ⟨x, hx⟩ := Res.exists_of_isOk h
    obtain ⟨⟨b, g₂⟩, hb, hx⟩ := Res.bind_eq_ok.mp hx
    obtain ⟨⟨r, _⟩, _, hx⟩ := Res.bind_eq_ok.mp hx
    obtain ⟨o, ho, _⟩ := Res.bind_eq_ok.mp hx
    exact ⟨b, g₂, r.message, r.proof, o, hb, (Leak.erase_voprf_finalize _ _ _ _ _).trans ho⟩
  obtain ⟨b, _, e, p, o, hb, ho⟩ := run [1, 2] ⟨5⟩ ⟨9⟩ (by decide +kernel)
  obtain ⟨b', _, e', p', o', hb', ho'⟩ := run [3, 4] ⟨6⟩ ⟨3⟩ (by decide +kernel)
  refine ⟨b.state, b'.state, e, e', p, p', o, o', ho, ho', ?_⟩
  have h1 : (match VoprfClient.blindInput suite [1, 2] (⟨5⟩ : Rng),
      VoprfClient.blindInput suite [3, 4] (⟨6⟩ : Rng) with
      | .ok (b, _), .ok (b', _) => decide ((b.state.blind : F) = (b'.state.blind : F))
      | _, _ => true) = false := by decide +kernel
  rw [hb, hb'] at h1
  exact of_decide_eq_false h1

/-- The record does show the public lengths: it is not a constant. -/
example : (Leak.OprfClient.finalize (⟨3⟩ : OprfClient suite) [1, 2, 3] ⟨4⟩).trace
    ≠ (Leak.OprfClient.finalize (⟨3⟩ : OprfClient suite) [1, 2] ⟨4⟩).trace := by decide +kernel

/-- And it shows failures: a key that cancels the info's tweak takes another path. -/
example : ∃ sk : F, (Leak.Poprf.computeTweak suite sk (some [1])).trace
    ≠ (Leak.Poprf.computeTweak suite (sk + 1 : F) (some [1])).trace := by decide +kernel

/-- Key derivation from two seeds with the same number of rejections. -/
example : (Leak.OprfServer.newFromSeed suite [1, 2] []).val.isOk = true ∧
    (Leak.OprfServer.newFromSeed suite [3, 4] []).val.isOk = true ∧
    (Leak.OprfServer.newFromSeed suite [1, 2] []).trace.length
      = (Leak.OprfServer.newFromSeed suite [3, 4] []).trace.length := by decide +kernel

end examples

end Voprf
