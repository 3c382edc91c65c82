import Verif.Lemmas.Leak

/-!
# Forgetting the record gives back the model
-/

namespace Voprf.Leak

variable {CS : CipherSuite}

@[simp] theorem val_mul (P : CS.Elem) (k : CS.Scalar) : (mul CS P k).val = .ok (CS.group.elemMul P k) := rfl
@[simp] theorem val_add (P Q : CS.Elem) : (add CS P Q).val = .ok (CS.group.elemAdd P Q) := rfl
@[simp] theorem val_ser (P : CS.Elem) : (ser CS P).val = .ok (CS.group.serializeElem P) := rfl
@[simp] theorem val_digest (parts : List Bytes) :
    (digest CS parts).val = .ok ((Digest.new.chainUpdateMulti parts).finalize CS.hash) := rfl

theorem multi_cons (d : Digest) (x : Bytes) (xs : List Bytes) :
    d.chainUpdateMulti (x :: xs) = (d.chainUpdate x).chainUpdateMulti xs := rfl
theorem multi_nil (d : Digest) : d.chainUpdateMulti [] = d := rfl

theorem erase_compositesSeed (b : CS.Elem) (mode : Mode) :
    (compositesSeed CS b mode).val = Voprf.compositesSeed CS b mode := by
  simp only [compositesSeed, Voprf.compositesSeed, T.val_bind, val_ser, T.val_check, val_digest, Res.ok_bind,
    List.cons_append, List.nil_append, multi_cons, Res.pure_eq]

theorem erase_compositeStep (k : Option CS.Scalar) (seed : Bytes) (mode : Mode) (acc item) :
    (compositeStep CS k seed mode acc item).val = Voprf.compositeStep CS k seed mode acc item := by
  obtain ⟨m, z⟩ := acc
  obtain ⟨i, c, d⟩ := item
  cases k <;>
  simp only [compositeStep, Voprf.compositeStep, compositeInput, T.val_bind, val_ser, T.val_check,
    T.val_callRes, val_mul, val_add, T.val_pure, Res.ok_bind, Res.pure_eq]

theorem erase_compositeLoop (k : Option CS.Scalar) (seed : Bytes) (mode : Mode) (items) : ∀ acc,
    (compositeLoop CS k seed mode acc items).val
      = items.foldlM (Voprf.compositeStep CS k seed mode) acc := by
  induction items with
  | nil => intro acc; rfl
  | cons item items ih =>
    intro acc
    simp only [compositeLoop, T.val_bind, erase_compositeStep, ih, List.foldlM_cons]

theorem erase_computeComposites (k : Option CS.Scalar) (b : CS.Elem) (cs ds : List CS.Elem) (mode : Mode) :
    (computeComposites CS k b cs ds mode).val = Voprf.computeComposites CS k b cs ds mode := by
  unfold computeComposites Voprf.computeComposites
  simp only [T.val_bind, T.val_check, erase_compositesSeed, erase_compositeLoop]
  by_cases h : cs.length = ds.length
  · simp only [ne_eq, h, not_true_eq_false, if_false, Res.ok_bind]
    cases k <;> simp only [T.val_bind, val_mul, T.val_pure, Res.ok_bind, Res.pure_eq]
  · simp only [ne_eq, h, not_false_eq_true, if_true, Res.err_bind]

theorem erase_challenge (b m z t2 t3 : CS.Elem) (mode : Mode) :
    (challenge CS b m z t2 t3 mode).val = (do
      let dst ← Dst.new CS STR_HASH_TO_SCALAR mode
      Res.unwrapExcept (CS.group.hashToScalar CS.hash (challengeInput CS b m z t2 t3) dst.asDst)) := by
  simp only [challenge, challengeInput, T.val_bind, val_ser, T.val_check, T.val_callRes, Res.ok_bind]

theorem erase_generateProof {σ : Type} [RngCore σ] (rng : σ) (k : CS.Scalar) (a b : CS.Elem)
    (cs ds : List CS.Elem) (mode : Mode) :
    (generateProof CS rng k a b cs ds mode).val = Voprf.generateProof CS rng k a b cs ds mode := by
  simp only [generateProof, Voprf.generateProof, T.val_bind, erase_computeComposites, T.val_callRes, val_mul,
    erase_challenge, T.val_call, T.val_pure, Res.ok_bind, Res.pure_eq, bind_assoc]

theorem erase_verifyProof (a b : CS.Elem) (cs ds : List CS.Elem) (proof : Proof CS) (mode : Mode) :
    (verifyProof CS a b cs ds proof mode).val = Voprf.verifyProof CS a b cs ds proof mode := by
  simp only [verifyProof, Voprf.verifyProof, T.val_bind, erase_computeComposites, val_mul, val_add,
    erase_challenge, T.val_test, Res.ok_bind, bind_assoc]
  congr 1
  funext x
  congr 1
  funext dst
  congr 1
  funext c
  cases CS.group.scalarCtEq c proof.cScalar <;> rfl

theorem erase_deriveKeyLoop (seed infoLen info : Bytes) (dst : Dst) : ∀ fuel counter,
    (deriveKeyLoop CS seed infoLen info dst fuel counter).val
      = Voprf.deriveKeyLoop CS seed infoLen info dst fuel counter
  | 0, _ => rfl
  | fuel + 1, counter => by
    simp only [deriveKeyLoop, Voprf.deriveKeyLoop, T.val_bind, T.val_callRes, T.val_test, Res.ok_bind]
    congr 1
    funext sk
    cases CS.group.isZeroScalar sk
    · rfl
    · exact erase_deriveKeyLoop seed infoLen info dst fuel _

theorem erase_deriveKeyInternal (seed info : Bytes) (mode : Mode) :
    (deriveKeyInternal CS seed info mode).val = Voprf.deriveKeyInternal CS seed info mode := by
  simp only [deriveKeyInternal, Voprf.deriveKeyInternal, T.val_bind, T.val_check, erase_deriveKeyLoop]

theorem erase_deriveKeypair (seed info : Bytes) (mode : Mode) :
    (deriveKeypair CS seed info mode).val = Voprf.deriveKeypair CS seed info mode := by
  simp only [deriveKeypair, Voprf.deriveKeypair, T.val_bind, erase_deriveKeyInternal, val_mul, T.val_pure,
    Res.ok_bind, Res.pure_eq]

theorem erase_hashToGroup (input : Bytes) (mode : Mode) :
    (hashToGroup CS input mode).val = Voprf.hashToGroup CS input mode := by
  simp only [hashToGroup, Voprf.hashToGroup, T.val_bind, T.val_check, T.val_callRes]

theorem erase_deterministicBlindUnchecked (input : Bytes) (blind : CS.Scalar) (mode : Mode) :
    (deterministicBlindUnchecked CS input blind mode).val
      = Voprf.deterministicBlindUnchecked CS input blind mode := by
  simp only [deterministicBlindUnchecked, Voprf.deterministicBlindUnchecked, T.val_bind, erase_hashToGroup,
    val_mul, Res.pure_eq]

theorem erase_serverEvaluateHashInput (input : Bytes) (info : Option Bytes) (issued : Bytes) :
    (serverEvaluateHashInput CS input info issued).val
      = Voprf.serverEvaluateHashInput CS input info issued := by
  cases info <;>
  simp only [serverEvaluateHashInput, Voprf.serverEvaluateHashInput, T.val_bind, T.val_check, val_digest,
    T.val_pure, Res.ok_bind, Res.pure_eq, List.cons_append, List.nil_append, multi_cons, multi_nil]

theorem erase_finalizeItem (input : Bytes) (u : T CS.Elem) :
    (finalizeItem CS input u).val = Oprf.finalizeItem CS (input, u.val) ∧
    (finalizeItem CS input u).val = Verifiable.finalizeItem CS (input, u.val) := by
  simp only [finalizeItem, Oprf.finalizeItem, Verifiable.finalizeItem, T.val_bind, T.val_check, val_ser,
    val_digest, Res.ok_bind, Res.pure_eq, multi_cons, multi_nil, and_self]

theorem erase_unblind (blind : CS.Scalar) (e : CS.Elem) :
    (unblind blind e).val = (do
      let inv ← Res.unwrapOption (CS.group.invertScalar blind)
      pure (CS.group.elemMul e inv)) := by
  simp only [unblind, T.val_bind, T.val_callRes, val_mul, Res.pure_eq]

/-- Runs the lazy items of a result. -/
def runItems {α : Type} (xs : List (T α)) : List (Res α) := xs.map T.val

theorem erase_hashInfo (info : Option Bytes) :
    (Poprf.hashInfo CS info).val = (do
      let infoLen ← Res.mapErr .Info (i2osp2 (info.getD []).length)
      let dst ← Dst.new CS STR_HASH_TO_SCALAR .Poprf
      Res.unwrapExcept (CS.group.hashToScalar CS.hash [STR_INFO, infoLen, info.getD []] dst.asDst)) := by
  simp only [Poprf.hashInfo, T.val_bind, T.val_check, T.val_callRes]

theorem erase_computeTweakedKey (pk : CS.Elem) (info : Option Bytes) :
    (Poprf.computeTweakedKey CS pk info).val = Voprf.Poprf.computeTweakedKey CS pk info := by
  simp only [Poprf.computeTweakedKey, Voprf.Poprf.computeTweakedKey, T.val_bind, erase_hashInfo, val_mul,
    val_add, T.val_test, Res.ok_bind, bind_assoc]
  congr 1; funext x; congr 1; funext d; congr 1; funext m
  cases CS.group.isIdentityElem (CS.group.elemAdd (CS.group.elemMul CS.group.baseElem m) pk) <;> rfl

theorem erase_computeTweak (sk : CS.Scalar) (info : Option Bytes) :
    (Poprf.computeTweak CS sk info).val = Voprf.Poprf.computeTweak CS sk info := by
  simp only [Poprf.computeTweak, Voprf.Poprf.computeTweak, T.val_bind, erase_hashInfo, T.val_call, T.val_test,
    Res.ok_bind, bind_assoc]
  congr 1; funext x; congr 1; funext d; congr 1; funext m
  cases CS.group.isZeroScalar (CS.group.scalarAdd sk m) <;> rfl

theorem erase_poprfFinalizeItem (input info : Bytes) (u : T CS.Elem) :
    (Poprf.finalizeItem CS input info u).val = Voprf.Poprf.finalizeItem CS ((u.val, input), info) := by
  simp only [Poprf.finalizeItem, Voprf.Poprf.finalizeItem, T.val_bind, T.val_check, val_ser, val_digest,
    Res.ok_bind, Res.pure_eq, multi_cons, multi_nil]

/-! ## The API -/

theorem erase_oprf_blind {σ : Type} [RngCore σ] (input : Bytes) (rng : σ) :
    (OprfClient.blindInput CS input rng).val = Voprf.OprfClient.blindInput CS input rng := by
  simp only [OprfClient.blindInput, Voprf.OprfClient.blindInput,
    Voprf.OprfClient.deterministicBlindUncheckedInner, T.val_bind, T.val_callRes, T.val_pure,
    erase_deterministicBlindUnchecked, Res.ok_bind, Res.pure_eq, bind_assoc]

theorem erase_voprf_blind {σ : Type} [RngCore σ] (input : Bytes) (rng : σ) :
    (VoprfClient.blindInput CS input rng).val = Voprf.VoprfClient.blindInput CS input rng := by
  simp only [VoprfClient.blindInput, Voprf.VoprfClient.blindInput,
    Voprf.VoprfClient.deterministicBlindUncheckedInner, T.val_bind, T.val_callRes, T.val_pure,
    erase_deterministicBlindUnchecked, Res.ok_bind, Res.pure_eq, bind_assoc]

theorem erase_poprf_blind {σ : Type} [RngCore σ] (input : Bytes) (rng : σ) :
    (PoprfClient.blindInput CS input rng).val = Voprf.PoprfClient.blindInput CS input rng := by
  simp only [PoprfClient.blindInput, Voprf.PoprfClient.blindInput,
    Voprf.PoprfClient.deterministicBlindUncheckedInner, T.val_bind, T.val_callRes, T.val_pure,
    erase_deterministicBlindUnchecked, Res.ok_bind, Res.pure_eq, bind_assoc]

theorem erase_oprf_finalize (c : Voprf.OprfClient CS) (input : Bytes) (e : EvaluationElement CS) :
    (OprfClient.finalize c input e).val = c.finalize input e := by
  simp only [OprfClient.finalize, (erase_finalizeItem _ _).1, erase_unblind, Voprf.OprfClient.finalize,
    Oprf.finalizeAfterUnblind, Oprf.finalizeItem, List.map_cons, List.map_nil, List.head?_cons,
    Res.unwrapOption, bind_assoc, Res.pure_eq, Res.ok_bind]

theorem erase_newFromSeed_oprf (seed info : Bytes) :
    (OprfServer.newFromSeed CS seed info).val = Voprf.OprfServer.newFromSeed CS seed info := by
  simp only [OprfServer.newFromSeed, Voprf.OprfServer.newFromSeed, T.val_bind, erase_deriveKeyInternal,
    T.val_pure, Res.pure_eq]

theorem erase_newFromSeed_voprf (seed info : Bytes) :
    (VoprfServer.newFromSeed CS seed info).val = Voprf.VoprfServer.newFromSeed CS seed info := by
  simp only [VoprfServer.newFromSeed, Voprf.VoprfServer.newFromSeed, T.val_bind, erase_deriveKeypair,
    T.val_pure, Res.pure_eq]

theorem erase_newFromSeed_poprf (seed info : Bytes) :
    (PoprfServer.newFromSeed CS seed info).val = Voprf.PoprfServer.newFromSeed CS seed info := by
  simp only [PoprfServer.newFromSeed, Voprf.PoprfServer.newFromSeed, T.val_bind, erase_deriveKeypair,
    T.val_pure, Res.pure_eq]

theorem erase_oprf_blindEvaluate (s : Voprf.OprfServer CS) (b : BlindedElement CS) :
    (OprfServer.blindEvaluate s b).val = .ok (s.blindEvaluate b) := rfl

theorem erase_oprf_evaluate (s : Voprf.OprfServer CS) (input : Bytes) :
    (OprfServer.evaluate s input).val = s.evaluate input := by
  simp only [OprfServer.evaluate, OprfServer.evaluateIn, Voprf.OprfServer.evaluate, T.val_bind,
    erase_hashToGroup, T.val_test, Res.ok_bind]
  congr 1; funext P
  cases CS.group.isIdentityElem P
  · simp only [T.val_bind, val_mul, val_ser, Res.ok_bind, erase_serverEvaluateHashInput, Bool.false_eq_true,
      if_false]
  · simp only [T.val_check, if_true]

theorem erase_voprf_evaluate (s : Voprf.VoprfServer CS) (input : Bytes) :
    (VoprfServer.evaluate s input).val = s.evaluate input := by
  simp only [VoprfServer.evaluate, OprfServer.evaluateIn, Voprf.VoprfServer.evaluate, T.val_bind,
    erase_hashToGroup, T.val_test, Res.ok_bind]
  congr 1; funext P
  cases CS.group.isIdentityElem P
  · simp only [T.val_bind, val_mul, val_ser, Res.ok_bind, erase_serverEvaluateHashInput, Bool.false_eq_true,
      if_false]
  · simp only [T.val_check, if_true]

theorem erase_voprf_batchFinalize (inputs : List Bytes) (clients : List (Voprf.VoprfClient CS))
    (messages : List (EvaluationElement CS)) (proof : Proof CS) (pk : CS.Elem) :
    (do let items ← (VoprfClient.batchFinalize inputs clients messages proof pk).val
        pure (runItems items))
      = Voprf.VoprfClient.batchFinalize inputs clients messages proof pk := by
  simp only [VoprfClient.batchFinalize, Voprf.VoprfClient.batchFinalize, Verifiable.verifiableUnblind,
    Verifiable.finalizeAfterUnblind, T.val_bind, erase_verifyProof, T.val_pure, bind_assoc, Res.pure_eq,
    Res.ok_bind]
  congr 1; funext _
  congr 1
  rw [runItems, List.map_map, List.zip_map_right, List.map_map]
  refine List.map_congr_left ?_
  rintro ⟨i, b, e⟩ _
  simp only [Function.comp, Prod.map, id, (erase_finalizeItem _ _).2, erase_unblind, Res.pure_eq]

theorem erase_voprf_finalize (c : Voprf.VoprfClient CS) (input : Bytes) (e : EvaluationElement CS)
    (proof : Proof CS) (pk : CS.Elem) :
    (VoprfClient.finalize c input e proof pk).val = c.finalize input e proof pk := by
  simp only [VoprfClient.finalize, Voprf.VoprfClient.finalize, ← erase_voprf_batchFinalize, T.val_bind,
    T.val_check, bind_assoc, Res.pure_eq, Res.ok_bind]
  congr 1; funext items
  cases items <;> rfl

theorem erase_voprf_prepare (s : Voprf.VoprfServer CS) (bs : List (BlindedElement CS)) :
    runItems (bs.map (VoprfServer.prepareItem s)) = (s.batchBlindEvaluatePrepare bs).map Res.ok := by
  simp only [runItems, List.map_map, Voprf.VoprfServer.batchBlindEvaluatePrepare]
  rfl

theorem erase_voprf_finish {σ : Type} [RngCore σ] (s : Voprf.VoprfServer CS) (rng : σ)
    (bs : List (BlindedElement CS)) (es : List (PreparedEvaluationElement CS)) :
    (VoprfServer.batchBlindEvaluateFinish s rng bs es).val = s.batchBlindEvaluateFinish rng bs es := by
  simp only [VoprfServer.batchBlindEvaluateFinish, Voprf.VoprfServer.batchBlindEvaluateFinish, T.val_bind,
    erase_generateProof, T.val_pure, Res.pure_eq]

theorem collect_map_ok {α : Type} (xs : List α) : Res.collect (xs.map Res.ok) = .ok xs := by
  induction xs with
  | nil => rfl
  | cons x xs ih => simp only [List.map_cons, Res.collect, ih, Res.ok_bind, Res.pure_eq]

theorem erase_voprf_batchBlindEvaluate {σ : Type} [RngCore σ] (s : Voprf.VoprfServer CS) (rng : σ)
    (bs : List (BlindedElement CS)) :
    (VoprfServer.batchBlindEvaluate s rng bs).val = s.batchBlindEvaluate rng bs := by
  have h := erase_voprf_prepare s bs
  rw [runItems] at h
  simp only [VoprfServer.batchBlindEvaluate, Voprf.VoprfServer.batchBlindEvaluate, T.val_bind, T.val_collect,
    h, collect_map_ok, Res.ok_bind, erase_voprf_finish, Res.pure_eq]
  cases s.batchBlindEvaluateFinish rng bs (s.batchBlindEvaluatePrepare bs) <;> rfl

theorem erase_voprf_blindEvaluate {σ : Type} [RngCore σ] (s : Voprf.VoprfServer CS) (rng : σ)
    (b : BlindedElement CS) :
    (VoprfServer.blindEvaluate s rng b).val = s.blindEvaluate rng b := by
  simp only [VoprfServer.blindEvaluate, Voprf.VoprfServer.blindEvaluate, VoprfServer.prepareItem,
    Voprf.VoprfServer.batchBlindEvaluatePrepare, T.val_bind, val_mul, T.val_pure, T.val_unwrap, T.val_check,
    erase_voprf_finish, List.map_cons, List.map_nil, List.head?_cons, Res.unwrapOption, Res.ok_bind,
    Res.pure_eq]

theorem erase_poprf_batchFinalize (inputs : List Bytes) (clients : List (Voprf.PoprfClient CS))
    (messages : List (EvaluationElement CS)) (proof : Proof CS) (pk : CS.Elem) (info : Option Bytes) :
    (do let items ← (PoprfClient.batchFinalize inputs clients messages proof pk info).val
        pure (runItems items))
      = Voprf.PoprfClient.batchFinalize inputs clients messages proof pk info := by
  simp only [PoprfClient.batchFinalize, Voprf.PoprfClient.batchFinalize, Voprf.Poprf.poprfUnblind,
    Voprf.Poprf.finalizeAfterUnblind, T.val_bind, erase_computeTweakedKey, erase_verifyProof, T.val_pure,
    T.val_check, bind_assoc, Res.pure_eq, Res.ok_bind, List.length_map]
  congr 1; funext key
  congr 1; funext _
  split
  · rfl
  · simp only [Res.ok_bind]
    congr 1
    generalize (clients.map fun c => c.blind).zip messages = u
    rw [runItems, List.map_map, List.zip_map_left, List.map_map, List.map_map]
    refine List.map_congr_left ?_
    rintro ⟨⟨b, e⟩, i⟩ _
    simp only [Function.comp, Prod.map, id, erase_poprfFinalizeItem, erase_unblind, Res.pure_eq]

theorem erase_poprf_finalize (c : Voprf.PoprfClient CS) (input : Bytes) (e : EvaluationElement CS)
    (proof : Proof CS) (pk : CS.Elem) (info : Option Bytes) :
    (PoprfClient.finalize c input e proof pk info).val = c.finalize input e proof pk info := by
  simp only [PoprfClient.finalize, Voprf.PoprfClient.finalize, ← erase_poprf_batchFinalize, T.val_bind,
    T.val_check, bind_assoc, Res.pure_eq, Res.ok_bind]
  congr 1; funext items
  cases items <;> rfl

theorem erase_poprf_prepare (s : Voprf.PoprfServer CS) (bs : List (BlindedElement CS)) (info : Option Bytes) :
    (do let t ← (Poprf.computeTweak CS s.sk info).val
        pure (⟨runItems (bs.map (PoprfServer.prepareItem t)), ⟨t⟩⟩ : PoprfServerBatchEvaluatePrepareResult CS))
      = s.batchBlindEvaluatePrepare bs info := by
  simp only [Voprf.PoprfServer.batchBlindEvaluatePrepare, erase_computeTweak, runItems, List.map_map,
    Res.pure_eq]
  congr 1; funext t
  congr 2
  refine List.map_congr_left ?_
  intro b _
  simp only [Function.comp, PoprfServer.prepareItem, T.val_bind, erase_unblind, T.val_pure, bind_assoc,
    Res.pure_eq, Res.ok_bind]

theorem erase_poprf_finish {σ : Type} [RngCore σ] (rng : σ)
    (bs : List (BlindedElement CS)) (es : List (PreparedEvaluationElement CS)) (t : CS.Scalar) :
    (PoprfServer.batchBlindEvaluateFinish rng bs es t).val
      = Voprf.PoprfServer.batchBlindEvaluateFinish rng bs es ⟨t⟩ := by
  simp only [PoprfServer.batchBlindEvaluateFinish, Voprf.PoprfServer.batchBlindEvaluateFinish, T.val_bind,
    val_mul, Res.ok_bind, erase_generateProof, T.val_pure, Res.pure_eq]

theorem erase_poprf_batchBlindEvaluate {σ : Type} [RngCore σ] (s : Voprf.PoprfServer CS) (rng : σ)
    (bs : List (BlindedElement CS)) (info : Option Bytes) :
    (PoprfServer.batchBlindEvaluate s rng bs info).val = s.batchBlindEvaluate rng bs info := by
  simp only [PoprfServer.batchBlindEvaluate, Voprf.PoprfServer.batchBlindEvaluate, ← erase_poprf_prepare,
    T.val_bind, T.val_collect, T.val_unwrap, bind_assoc, Res.pure_eq, Res.ok_bind, runItems]
  congr 1; funext t
  congr 1; funext es
  rw [erase_poprf_finish]
  cases Res.unwrap (Voprf.PoprfServer.batchBlindEvaluateFinish rng bs es ⟨t⟩) <;> rfl

theorem erase_poprf_blindEvaluate {σ : Type} [RngCore σ] (s : Voprf.PoprfServer CS) (rng : σ)
    (b : BlindedElement CS) (info : Option Bytes) :
    (PoprfServer.blindEvaluate s rng b info).val = s.blindEvaluate rng b info := by
  simp only [PoprfServer.blindEvaluate, Voprf.PoprfServer.blindEvaluate, ← erase_poprf_prepare,
    T.val_bind, T.val_pure, T.val_unwrap, T.val_check, erase_poprf_finish, bind_assoc, Res.pure_eq, Res.ok_bind,
    runItems, List.map_cons, List.map_nil, List.head?_cons, Res.unwrapOption]

theorem erase_poprf_evaluate (s : Voprf.PoprfServer CS) (input : Bytes) (info : Option Bytes) :
    (PoprfServer.evaluate s input info).val = s.evaluate input info := by
  simp only [PoprfServer.evaluate, Voprf.PoprfServer.evaluate, T.val_bind,
    erase_hashToGroup, T.val_test, Res.ok_bind]
  congr 1; funext P
  cases CS.group.isIdentityElem P
  · simp only [T.val_bind, erase_computeTweak, erase_unblind, val_ser, Res.ok_bind, bind_assoc, Res.pure_eq,
      erase_serverEvaluateHashInput, Bool.false_eq_true, if_false]
  · simp only [T.val_check, if_true]

theorem erase_new_oprf {σ : Type} [RngCore σ] (rng : σ) :
    (OprfServer.new CS rng).val = Voprf.OprfServer.new CS rng := by
  simp only [OprfServer.new, Voprf.OprfServer.new, T.val_bind, T.val_call, T.val_pure, Res.ok_bind, Res.pure_eq,
    erase_newFromSeed_oprf]

theorem erase_newWithKey_oprf (key : Bytes) :
    (OprfServer.newWithKey CS key).val = Voprf.OprfServer.newWithKey CS key := by
  simp only [OprfServer.newWithKey, Voprf.OprfServer.newWithKey, T.val_bind, T.val_callRes, T.val_pure,
    Res.pure_eq]

theorem erase_new_voprf {σ : Type} [RngCore σ] (rng : σ) :
    (VoprfServer.new CS rng).val = Voprf.VoprfServer.new CS rng := by
  simp only [VoprfServer.new, Voprf.VoprfServer.new, T.val_bind, T.val_call, T.val_pure, Res.ok_bind, Res.pure_eq,
    erase_newFromSeed_voprf]

theorem erase_newWithKey_voprf (key : Bytes) :
    (VoprfServer.newWithKey CS key).val = Voprf.VoprfServer.newWithKey CS key := by
  simp only [VoprfServer.newWithKey, Voprf.VoprfServer.newWithKey, T.val_bind, T.val_callRes, T.val_pure,
    val_mul, Res.ok_bind, Res.pure_eq]

theorem erase_new_poprf {σ : Type} [RngCore σ] (rng : σ) :
    (PoprfServer.new CS rng).val = Voprf.PoprfServer.new CS rng := by
  simp only [PoprfServer.new, Voprf.PoprfServer.new, T.val_bind, T.val_call, T.val_pure, Res.ok_bind, Res.pure_eq,
    erase_newFromSeed_poprf]

theorem erase_newWithKey_poprf (key : Bytes) :
    (PoprfServer.newWithKey CS key).val = Voprf.PoprfServer.newWithKey CS key := by
  simp only [PoprfServer.newWithKey, Voprf.PoprfServer.newWithKey, T.val_bind, T.val_callRes, T.val_pure,
    val_mul, Res.ok_bind, Res.pure_eq]

end Voprf.Leak
