import Verif.Lemmas.LeakFail
import Verif.Props.Leak

/-!
# C69: a failing call shows nothing but its error

Two runs of the same API function, with any two secrets, that end in the same way (both succeed, both return the same error, both
panic or both do not return) leave the same record (`Model/Leak.lean`).
-/

namespace Voprf

open Leak (T Event Outcome outcome)

/-- Two runs that end in the same way leave the same record. -/
def RevealsOutcomeOnly {α β : Type} (x : T α) (y : T β) : Prop := outcome x.val = outcome y.val → x.trace = y.trace

/-- The same for a batch and each of its lazily computed items. -/
def BatchRevealsOutcomeOnly {α β : Type} (x : T (List (T α))) (y : T (List (T β))) : Prop :=
  RevealsOutcomeOnly x y ∧ ∀ items items', x.val = .ok items → y.val = .ok items' →
    List.Forall₂ RevealsOutcomeOnly items items'

variable {CS : CipherSuite} [L : CS.group.Lawful]

namespace Leak

open Spec

theorem Kin.check {α β : Type} {r : Res α} {r' : Res β} (o : Outcome)
    (h : outcome r = .ok ∨ outcome r = o) (h' : outcome r' = .ok ∨ outcome r' = o) :
    Kin [o] (T.check r) (T.check r') := by
  refine ⟨fun e => ?_, h.imp_right fun e => by simp [e], h'.imp_right fun e => by simp [e]⟩
  simp only [T.val_check] at e
  simp only [T.check, e]

theorem hashToGroup_total (wf : CS.WF) (th : CS.group.TotalHash) (input : Bytes) (mode : Mode) :
    ∃ P, (hashToGroup CS input mode).val = .ok P := by
  obtain ⟨P, hP⟩ := th.hashToCurve_ok CS.hash input (ascii "HashToGroup-" ++ contextString CS mode)
    (by simp [ascii_len_h2g]; omega)
  refine ⟨P, ?_⟩
  rw [erase_hashToGroup, hashToGroup_eq wf]
  exact congrArg (Res.mapErr .Input) hP

theorem blind_total (wf : CS.WF) (th : CS.group.TotalHash) (input : Bytes) (k : CS.Scalar) (mode : Mode) :
    ∃ P, (deterministicBlindUnchecked CS input k mode).val = .ok P := by
  obtain ⟨P, hP⟩ := hashToGroup_total wf th input mode
  exact ⟨_, (bind_ok hP).1⟩

theorem kin_i2osp {x y : Bytes} (e : Error) :
    Kin [.err e] (T.check (Res.mapErr e (i2osp2 x.length))) (T.check (Res.mapErr e (i2osp2 y.length))) := by
  have : ∀ n, outcome (Res.mapErr e (i2osp2 n)) = .ok ∨ outcome (Res.mapErr e (i2osp2 n)) = .err e := by
    intro n
    cases i2osp2 n <;> simp [Res.mapErr, outcome]
  exact .check _ (this _) (this _)

theorem i2osp_ok {x : Bytes} (h : x.length ≤ 65535) (e : Error) :
    (T.check (Res.mapErr e (i2osp2 x.length))).val = .ok (be16 x.length) := by
  rw [T.val_check, i2osp2_of_le h]; rfl

theorem i2osp_err {x : Bytes} (h : ¬ x.length ≤ 65535) (e : Error) :
    outcome (T.check (Res.mapErr e (i2osp2 x.length))).val = .err e := by
  rw [T.val_check, i2osp2_of_gt (Nat.lt_of_not_le h)]; rfl

omit L in
theorem kin_unblind (k k' : CS.Scalar) (e e' : CS.Elem) : Kin [.panic] (unblind k e) (unblind k' e') := by
  have : ∀ k : CS.Scalar, outcome (Res.unwrapOption (CS.group.invertScalar k)) = .ok ∨
      outcome (Res.unwrapOption (CS.group.invertScalar k)) = .panic := by
    intro k
    cases CS.group.invertScalar k <;> simp [Res.unwrapOption, outcome]
  exact (Kin.callRes _ rfl _ (this k) (this k')).bindTotal (fun _ _ _ _ => rfl) (fun _ _ => ⟨_, rfl⟩) (fun _ _ => ⟨_, rfl⟩) (by simp)

theorem unblind_total {k : CS.Scalar} (hk : k ≠ 0) (e : CS.Elem) : ∃ P, (unblind k e).val = .ok P := by
  rw [erase_unblind, VGroup.Lawful.invertScalar_eq k hk]
  exact ⟨_, rfl⟩

omit L in
theorem kin_finalizeItem {input input' : Bytes} (h : input.length = input'.length) (k k' : CS.Scalar) (e e' : CS.Elem) :
    Kin [.panic, .err .Input] (finalizeItem CS input (unblind k e)) (finalizeItem CS input' (unblind k' e')) := by
  have rest : ∀ (input input' : Bytes) (P P' : CS.Elem), input.length = input'.length → Kin [.err .Input]
      (T.check (Res.mapErr .Input (i2osp2 input.length)) >>= fun inputLen =>
        ser CS P >>= fun bytes => digest CS [inputLen, input, elemLenBytes CS, bytes, STR_FINALIZE])
      (T.check (Res.mapErr .Input (i2osp2 input'.length)) >>= fun inputLen =>
        ser CS P' >>= fun bytes => digest CS [inputLen, input', elemLenBytes CS, bytes, STR_FINALIZE]) := by
    intro input input' P P' h
    refine (kin_i2osp _).bindTotal (fun a b ha hb => ?_) (fun _ _ => ⟨_, rfl⟩) (fun _ _ => ⟨_, rfl⟩) (by simp)
    rw [T.val_check] at ha hb
    rw [h, hb] at ha
    obtain rfl := Res.ok.inj ha
    rw [(bind_ok (val_ser P)).2, (bind_ok (val_ser P')).2]
    simp only [ser, T.call, digest, lens, List.map_cons, List.map_nil, h, CS.group.serializeElem_length]
  exact (kin_unblind k k' e e').bind (S' := [.err .Input]) (fun P P' _ _ => rest input input' P P' h)
    (fun P _ => (rest input input P P rfl).left) (fun P _ => (rest input' input' P P rfl).left) (by simp)

omit L in
theorem kin_poprfFinalizeItem {input input' info info' : Bytes} (h : input.length = input'.length)
    (hi : info.length = info'.length) (k k' : CS.Scalar) (e e' : CS.Elem) :
    Kin [.panic, .err .Input, .err .Info] (Poprf.finalizeItem CS input info (unblind k e))
      (Poprf.finalizeItem CS input' info' (unblind k' e')) := by
  have rest2 : ∀ (input input' info info' l : Bytes) (P P' : CS.Elem), input.length = input'.length →
      info.length = info'.length → Kin [.err .Info]
      (T.check (Res.mapErr .Info (i2osp2 info.length)) >>= fun infoLen =>
        ser CS P >>= fun bytes => digest CS [l, input, infoLen, info, elemLenBytes CS, bytes, STR_FINALIZE])
      (T.check (Res.mapErr .Info (i2osp2 info'.length)) >>= fun infoLen =>
        ser CS P' >>= fun bytes => digest CS [l, input', infoLen, info', elemLenBytes CS, bytes, STR_FINALIZE]) := by
    intro input input' info info' l P P' h hi
    refine (kin_i2osp _).bindTotal (fun a b ha hb => ?_) (fun _ _ => ⟨_, rfl⟩) (fun _ _ => ⟨_, rfl⟩) (by simp)
    rw [T.val_check] at ha hb
    rw [hi, hb] at ha
    obtain rfl := Res.ok.inj ha
    rw [(bind_ok (val_ser P)).2, (bind_ok (val_ser P')).2]
    simp only [ser, T.call, digest, lens, List.map_cons, List.map_nil, h, hi, CS.group.serializeElem_length]
  have rest : ∀ (input input' info info' : Bytes) (P P' : CS.Elem), input.length = input'.length →
      info.length = info'.length → Kin [.err .Input, .err .Info]
      (T.check (Res.mapErr .Input (i2osp2 input.length)) >>= fun inputLen =>
        T.check (Res.mapErr .Info (i2osp2 info.length)) >>= fun infoLen =>
        ser CS P >>= fun bytes => digest CS [inputLen, input, infoLen, info, elemLenBytes CS, bytes, STR_FINALIZE])
      (T.check (Res.mapErr .Input (i2osp2 input'.length)) >>= fun inputLen =>
        T.check (Res.mapErr .Info (i2osp2 info'.length)) >>= fun infoLen =>
        ser CS P' >>= fun bytes => digest CS [inputLen, input', infoLen, info', elemLenBytes CS, bytes, STR_FINALIZE]) := by
    intro input input' info info' P P' h hi
    refine (kin_i2osp _).bind (S' := [.err .Info]) (fun a b ha hb => ?_) (fun l _ => (rest2 input input info info l P P rfl rfl).left)
      (fun l _ => (rest2 input' input' info' info' l P' P' rfl rfl).left) (by simp)
    rw [T.val_check] at ha hb
    rw [h, hb] at ha
    obtain rfl := Res.ok.inj ha
    exact rest2 input input' info info' _ P P' h hi
  exact (kin_unblind k k' e e').bind (S' := [.err .Input, .err .Info]) (fun P P' _ _ => rest input input' info info' P P' h hi)
    (fun P _ => (rest input input info info P P rfl rfl).left) (fun P _ => (rest input' input' info' info' P P rfl rfl).left) (by simp)

theorem hashInfo_ok (wf : CS.WF) (th : CS.group.TotalHash) {info : Option Bytes} (h : infoLength info ≤ 65535) :
    ∃ m, (Poprf.hashInfo CS info).val = .ok m := by
  rw [erase_hashInfo, i2osp2_of_le (show (info.getD []).length ≤ 65535 from h), STR_HASH_TO_SCALAR_eq, Dst.new_ok wf (by decide)]
  simp only [Res.mapErr_ok, Res.ok_bind, Dst.asDst]
  rw [hashToScalar_dst]
  obtain ⟨m, hm⟩ := th.hashToScalar_ok CS.hash [STR_INFO, be16 (info.getD []).length, info.getD []].flatten
    (ascii "HashToScalar-" ++ contextString CS .Poprf) (by simp [ascii_len_h2s]; omega)
  exact ⟨m, by rw [hm]; rfl⟩

omit L in
theorem hashInfo_bad {info info' : Option Bytes} (hn : infoLength info = infoLength info') (h : ¬ infoLength info ≤ 65535) :
    outcome (Poprf.hashInfo CS info).val = .err .Info ∧ (Poprf.hashInfo CS info).trace = (Poprf.hashInfo CS info').trace := by
  unfold Poprf.hashInfo
  have e1 := i2osp_err (x := info.getD []) h .Info
  have e2 := i2osp_err (x := info'.getD []) (by rw [infoLength, infoLength] at *; omega) .Info
  rw [(bind_fail (by rw [e1]; simp)).1, (bind_fail (by rw [e1]; simp)).2, (bind_fail (by rw [e2]; simp)).2]
  refine ⟨e1, ?_⟩
  rw [show (info.getD []).length = (info'.getD []).length from hn]

theorem kin_computeTweakedKey (wf : CS.WF) (th : CS.group.TotalHash) (pk pk' : CS.Elem) {info info' : Option Bytes}
    (hn : infoLength info = infoLength info') (h : infoLength info ≤ 65535) :
    Kin [.err .Protocol] (Poprf.computeTweakedKey CS pk info) (Poprf.computeTweakedKey CS pk' info') := by
  obtain ⟨m, hm⟩ := hashInfo_ok wf th h
  obtain ⟨m', hm'⟩ := hashInfo_ok wf th (hn ▸ h)
  refine .step hm hm' (rel_hashInfo hn m m' hm hm').1 <| .step rfl rfl rfl <| .step rfl rfl rfl ?_
  exact .testErr (S := []) _ true rfl rfl (fun _ _ => .total rfl rfl rfl) (fun _ => .inl rfl) (fun _ => .inl rfl) (by simp)

omit L in
theorem computeTweakedKey_bad (pk pk' : CS.Elem) {info info' : Option Bytes} (hn : infoLength info = infoLength info')
    (h : ¬ infoLength info ≤ 65535) : outcome (Poprf.computeTweakedKey CS pk info).val = .err .Info ∧
      (Poprf.computeTweakedKey CS pk info).trace = (Poprf.computeTweakedKey CS pk' info').trace := by
  obtain ⟨h1, h2⟩ := hashInfo_bad (CS := CS) hn h
  obtain ⟨h3, -⟩ := hashInfo_bad (CS := CS) hn.symm (hn ▸ h)
  unfold Poprf.computeTweakedKey
  rw [(bind_fail (by rw [h1]; simp)).1, (bind_fail (by rw [h1]; simp)).2, (bind_fail (by rw [h3]; simp)).2]
  exact ⟨h1, h2⟩

theorem kin_computeTweak (wf : CS.WF) (th : CS.group.TotalHash) (sk sk' : CS.Scalar) {info info' : Option Bytes}
    (hn : infoLength info = infoLength info') (h : infoLength info ≤ 65535) :
    Kin [.err .Protocol] (Poprf.computeTweak CS sk info) (Poprf.computeTweak CS sk' info') := by
  obtain ⟨m, hm⟩ := hashInfo_ok wf th h
  obtain ⟨m', hm'⟩ := hashInfo_ok wf th (hn ▸ h)
  refine .step hm hm' (rel_hashInfo hn m m' hm hm').1 <| .step rfl rfl rfl ?_
  exact .testErr (S := []) _ true rfl rfl (fun _ _ => .total rfl rfl rfl) (fun _ => .inl rfl) (fun _ => .inl rfl) (by simp)

omit L in
theorem computeTweak_bad (sk sk' : CS.Scalar) {info info' : Option Bytes} (hn : infoLength info = infoLength info')
    (h : ¬ infoLength info ≤ 65535) : outcome (Poprf.computeTweak CS sk info).val = .err .Info ∧
      (Poprf.computeTweak CS sk info).trace = (Poprf.computeTweak CS sk' info').trace := by
  obtain ⟨h1, h2⟩ := hashInfo_bad (CS := CS) hn h
  obtain ⟨h3, -⟩ := hashInfo_bad (CS := CS) hn.symm (hn ▸ h)
  unfold Poprf.computeTweak
  rw [(bind_fail (by rw [h1]; simp)).1, (bind_fail (by rw [h1]; simp)).2, (bind_fail (by rw [h3]; simp)).2]
  exact ⟨h1, h2⟩

theorem computeTweak_ne_zero {sk t : CS.Scalar} {info : Option Bytes} (h : (Poprf.computeTweak CS sk info).val = .ok t) :
    t ≠ 0 := by
  unfold Poprf.computeTweak at h
  rw [T.val_bind] at h
  obtain ⟨m, -, h⟩ := Res.bind_eq_ok.mp h
  rw [T.val_bind, T.val_call, Res.ok_bind, T.val_bind, T.val_test, Res.ok_bind] at h
  cases hz : CS.group.isZeroScalar (CS.group.scalarAdd sk m) with
  | true => rw [hz] at h; simp at h
  | false =>
    rw [hz] at h
    obtain rfl := Res.ok.inj h
    exact (isZeroScalar_eq_false _).mp hz

omit L in
theorem serverEvaluateHashInput_total {input issued : Bytes} {info : Option Bytes} (h : input.length ≤ 65535)
    (hi : infoLength info ≤ 65535) (he : issued.length ≤ 65535) :
    ∃ o, (serverEvaluateHashInput CS input info issued).val = .ok o := by
  unfold serverEvaluateHashInput
  rw [(bind_ok (i2osp_ok h _)).1]
  cases info with
  | none =>
    rw [T.val_bind, T.val_pure, Res.ok_bind, (bind_ok (i2osp_ok he _)).1]
    exact ⟨_, rfl⟩
  | some i =>
    simp only [T.val_bind, i2osp_ok (x := i) hi, i2osp_ok he, T.val_pure, Res.ok_bind]
    exact ⟨_, rfl⟩

end Leak

section client
open Leak

variable {σ σ' : Type} [RngCore σ] [RngCore σ']

/-- C69, `blind`. -/
theorem C69_blind (wf : CS.WF) (th : CS.group.TotalHash) (input input' : Bytes) (h : input.length = input'.length) (g : σ) (g' : σ') :
    RevealsOutcomeOnly (Leak.OprfClient.blindInput CS input g) (Leak.OprfClient.blindInput CS input' g') ∧
    RevealsOutcomeOnly (Leak.VoprfClient.blindInput CS input g) (Leak.VoprfClient.blindInput CS input' g') ∧
    RevealsOutcomeOnly (Leak.PoprfClient.blindInput CS input g) (Leak.PoprfClient.blindInput CS input' g') := by
  have total : ∀ {γ : Type} (f : CS.Elem → γ) (input : Bytes) (k : CS.Scalar) (mode : Mode),
      ∃ c, (Leak.deterministicBlindUnchecked CS input k mode >>= fun P => (pure (f P) : T γ)).val = .ok c := by
    intro γ f input k mode
    obtain ⟨P, hP⟩ := blind_total wf th input k mode
    exact ⟨_, (bind_ok hP).1⟩
  have same : ∀ {γ δ : Type} (f : CS.Elem → γ) (f' : CS.Elem → δ) (k k' : CS.Scalar) (mode : Mode),
      (Leak.deterministicBlindUnchecked CS input k mode >>= fun P => (pure (f P) : T γ)).trace =
      (Leak.deterministicBlindUnchecked CS input' k' mode >>= fun P => (pure (f' P) : T δ)).trace := by
    intro γ δ f f' k k' mode
    obtain ⟨P, hP⟩ := blind_total wf th input k mode
    obtain ⟨P', hP'⟩ := blind_total wf th input' k' mode
    rw [(bind_ok hP).2, (bind_ok hP').2, (rel_blind h k k' mode P P' hP hP').1]
    rfl
  refine ⟨(Kin.bindTotal (randomScalar_kin g g') ?_ ?_ ?_ (by simp)).same,
    (Kin.bindTotal (randomScalar_kin g g') ?_ ?_ ?_ (by simp)).same, (Kin.bindTotal (randomScalar_kin g g') ?_ ?_ ?_ (by simp)).same⟩
  all_goals first
    | exact fun _ _ _ _ => same _ _ _ _ _
    | exact fun _ _ => total _ _ _ _

omit L in
/-- C69, OPRF `finalize`. -/
theorem C69_oprf_finalize (c c' : Voprf.OprfClient CS) (input input' : Bytes) (h : input.length = input'.length)
    (e e' : EvaluationElement CS) :
    RevealsOutcomeOnly (Leak.OprfClient.finalize c input e) (Leak.OprfClient.finalize c' input' e') :=
  (kin_finalizeItem h c.blind c'.blind e.value e'.value).same

/-- Whether a batch has the right sizes is seen from the lengths. -/
theorem kin_voprf_batchFinalize (wf : CS.WF) {is is' : List Bytes} {cs cs' : List (Voprf.VoprfClient CS)}
    {es es' : List (EvaluationElement CS)} (hc : cs.length = cs'.length) (he : es.length = es'.length) (p p' : Proof CS)
    (pk pk' : CS.Elem) :
    (¬ BadSize (cs.map (·.blindedElement)) (es.map (·.value)) → Kin [.err .ProofVerification]
      (Leak.VoprfClient.batchFinalize is cs es p pk) (Leak.VoprfClient.batchFinalize is' cs' es' p' pk')) ∧
    (BadSize (cs.map (·.blindedElement)) (es.map (·.value)) → Kin [.err .Batch]
      (Leak.VoprfClient.batchFinalize is cs es p pk) (Leak.VoprfClient.batchFinalize is' cs' es' p' pk')) := by
  have hc' : (cs.map (·.blindedElement)).length = (cs'.map (·.blindedElement)).length := by simpa using hc
  have he' : (es.map (·.value)).length = (es'.map (·.value)).length := by simpa using he
  constructor
  · intro hs
    exact (kin_verifyProof wf _ _ _ _ hc' he' p p' .Voprf hs).bindTotal (fun _ _ _ _ => rfl) (fun _ _ => ⟨_, rfl⟩)
      (fun _ _ => ⟨_, rfl⟩) (by simp)
  · intro hs
    obtain ⟨h1, h2⟩ := verifyProof_bad CS.group.baseElem CS.group.baseElem pk pk' hc' he' p p' .Voprf hs
    obtain ⟨h3, -⟩ := verifyProof_bad CS.group.baseElem CS.group.baseElem pk' pk hc'.symm he'.symm p' p .Voprf
      (by rwa [BadSize, ← hc', ← he'])
    exact .lockBind h1 h3 (by simp) h2

/-- C69, VOPRF `batch_finalize`: the verification, and every lazy item. -/
theorem C69_voprf_batch_finalize (wf : CS.WF) (is is' : List Bytes) (cs cs' : List (Voprf.VoprfClient CS))
    (es es' : List (EvaluationElement CS)) (hi : is.map List.length = is'.map List.length)
    (hc : cs.length = cs'.length) (he : es.length = es'.length) (p p' : Proof CS) (pk pk' : CS.Elem) :
    BatchRevealsOutcomeOnly (Leak.VoprfClient.batchFinalize is cs es p pk)
      (Leak.VoprfClient.batchFinalize is' cs' es' p' pk') := by
  obtain ⟨h1, h2⟩ := kin_voprf_batchFinalize wf (is := is) (is' := is') hc he p p' pk pk'
  constructor
  · by_cases hs : BadSize (cs.map (·.blindedElement)) (es.map (·.value))
    · exact (h2 hs).same
    · exact (h1 hs).same
  · intro items items' hv hv'
    unfold Leak.VoprfClient.batchFinalize at hv hv'
    rw [T.val_bind] at hv hv'
    obtain ⟨-, -, hv⟩ := Res.bind_eq_ok.mp hv
    obtain ⟨-, -, hv'⟩ := Res.bind_eq_ok.mp hv'
    obtain rfl := Res.ok.inj hv
    obtain rfl := Res.ok.inj hv'
    refine forall₂_of_length ?_ ?_
    · have := congrArg List.length hi
      simp only [List.length_map, List.length_zip] at this ⊢
      rw [this, hc, he]
    · intro j hj hj'
      simp only [List.getElem_map, List.getElem_zip]
      refine (kin_finalizeItem ?_ _ _ _ _).same
      simp only [List.length_map, List.length_zip] at hj hj'
      have := List.getElem_of_eq hi (i := j) (by simp only [List.length_map]; omega)
      simpa using this

/-- C69, VOPRF `finalize`. -/
theorem C69_voprf_finalize (wf : CS.WF) (c c' : Voprf.VoprfClient CS) (input input' : Bytes)
    (h : input.length = input'.length) (e e' : EvaluationElement CS) (p p' : Proof CS) (pk pk' : CS.Elem) :
    RevealsOutcomeOnly (Leak.VoprfClient.finalize c input e p pk) (Leak.VoprfClient.finalize c' input' e' p' pk') := by
  have rest : ∀ (c c' : Voprf.VoprfClient CS) (input input' : Bytes) (e e' : EvaluationElement CS) (p p' : Proof CS)
      (pk pk' : CS.Elem) (x x' : List (T Bytes)), input.length = input'.length →
      (Leak.VoprfClient.batchFinalize [input] [c] [e] p pk).val = .ok x →
      (Leak.VoprfClient.batchFinalize [input'] [c'] [e'] p' pk').val = .ok x' → Kin [.panic, .err .Input]
      (T.check (Res.unwrapOption x.head?) >>= fun item => item) (T.check (Res.unwrapOption x'.head?) >>= fun item => item) := by
    intro c c' input input' e e' p p' pk pk' x x' h hv hv'
    unfold Leak.VoprfClient.batchFinalize at hv hv'
    rw [T.val_bind] at hv hv'
    obtain ⟨-, -, hv⟩ := Res.bind_eq_ok.mp hv
    obtain ⟨-, -, hv'⟩ := Res.bind_eq_ok.mp hv'
    obtain rfl := Res.ok.inj hv
    obtain rfl := Res.ok.inj hv'
    exact .step rfl rfl rfl (kin_finalizeItem h _ _ _ _)
  refine (((kin_voprf_batchFinalize wf (is := [input]) (is' := [input']) (cs := [c]) (cs' := [c']) (es := [e]) (es' := [e'])
    rfl rfl p p' pk pk').1 (by simp [BadSize])).bind (S' := [.panic, .err .Input]) ?_ ?_ ?_ (by simp)).same
  · exact fun x x' hx hx' => rest c c' input input' e e' p p' pk pk' x x' h hx hx'
  · exact fun x hx => (rest c c input input e e p p pk pk x x rfl hx hx).left
  · exact fun x hx => (rest c' c' input' input' e' e' p' p' pk' pk' x x rfl hx hx).left

theorem kin_poprf_batchFinalize (wf : CS.WF) (th : CS.group.TotalHash) {is is' : List Bytes} {cs cs' : List (Voprf.PoprfClient CS)}
    {es es' : List (EvaluationElement CS)} (hi : is.length = is'.length) (hc : cs.length = cs'.length) (he : es.length = es'.length)
    (p p' : Proof CS) (pk pk' : CS.Elem) {info info' : Option Bytes} (hn : infoLength info = infoLength info') :
    (infoLength info ≤ 65535 → Kin [.err .Protocol, .err .ProofVerification, .err .Batch]
      (Leak.PoprfClient.batchFinalize is cs es p pk info) (Leak.PoprfClient.batchFinalize is' cs' es' p' pk' info')) ∧
    (¬ infoLength info ≤ 65535 → Kin [.err .Info]
      (Leak.PoprfClient.batchFinalize is cs es p pk info) (Leak.PoprfClient.batchFinalize is' cs' es' p' pk' info')) := by
  have hn' : infoLength (some (info.getD [])) = infoLength (some (info'.getD [])) := hn
  constructor
  · intro h
    have rest : ∀ (is is' : List Bytes) (cs cs' : List (Voprf.PoprfClient CS)) (es es' : List (EvaluationElement CS))
        (p p' : Proof CS) (info info' : Option Bytes) (K K' : CS.Elem), is.length = is'.length → cs.length = cs'.length →
        es.length = es'.length → Kin [.err .ProofVerification, .err .Batch]
        (do
          Leak.verifyProof CS CS.group.baseElem K (es.map fun e => e.value) (cs.map fun c => c.blindedElement) p .Poprf
          let unblinded := (cs.map fun c => c.blind).zip es
          let _ ← T.check (if unblinded.length ≠ is.length then Res.err .Batch else Res.ok ())
          pure ((unblinded.zip is).map fun ((blind, e), input) =>
            Leak.Poprf.finalizeItem CS input (info.getD []) (unblind blind e.value)) : T (List (T Bytes)))
        (do
          Leak.verifyProof CS CS.group.baseElem K' (es'.map fun e => e.value) (cs'.map fun c => c.blindedElement) p' .Poprf
          let unblinded := (cs'.map fun c => c.blind).zip es'
          let _ ← T.check (if unblinded.length ≠ is'.length then Res.err .Batch else Res.ok ())
          pure ((unblinded.zip is').map fun ((blind, e), input) =>
            Leak.Poprf.finalizeItem CS input (info'.getD []) (unblind blind e.value)) : T (List (T Bytes))) := by
      intro is is' cs cs' es es' p p' info info' K K' hi hc he
      have hc' : (cs.map fun c => c.blindedElement).length = (cs'.map fun c => c.blindedElement).length := by simpa using hc
      have he' : (es.map fun e => e.value).length = (es'.map fun e => e.value).length := by simpa using he
      have last : ∀ {γ δ : Type} (n m : Nat) (f : Unit → T γ) (g : Unit → T δ) (_ : ∀ u, ∃ c, (f u).val = .ok c)
          (_ : ∀ u, ∃ c, (g u).val = .ok c) (_ : (f ()).trace = (g ()).trace), Kin [.err .Batch]
          (T.check (if n ≠ m then Res.err .Batch else Res.ok ()) >>= f) (T.check (if n ≠ m then Res.err .Batch else Res.ok ()) >>= g) := by
        intro γ δ n m f g hf hg hfg
        have : outcome (if n ≠ m then Res.err .Batch else Res.ok () : Res Unit) = .ok ∨
            outcome (if n ≠ m then Res.err .Batch else Res.ok () : Res Unit) = .err .Batch := by
          by_cases e : n = m <;> simp [e, outcome]
        exact (Kin.check _ this this).bindTotal (fun _ _ _ _ => hfg) (fun u _ => hf u) (fun u _ => hg u) (by simp)
      have last' : ∀ {γ : Type} (n m : Nat) (f : Unit → T γ) (_ : ∀ u, ∃ c, (f u).val = .ok c),
          outcome (T.check (if n ≠ m then Res.err .Batch else Res.ok ()) >>= f).val = .ok ∨
          outcome (T.check (if n ≠ m then Res.err .Batch else Res.ok ()) >>= f).val ∈ [Outcome.err .Batch] :=
        fun n m f hf => (last n m f f hf hf rfl).left
      by_cases hs : BadSize (es.map fun e => e.value) (cs.map fun c => c.blindedElement)
      · obtain ⟨h1, h2⟩ := verifyProof_bad CS.group.baseElem CS.group.baseElem K K' he' hc' p p' .Poprf hs
        obtain ⟨h3, -⟩ := verifyProof_bad CS.group.baseElem CS.group.baseElem K' K he'.symm hc'.symm p' p .Poprf
          (by rwa [BadSize, ← hc', ← he'])
        exact (Kin.lockBind h1 h3 (by simp) h2).mono (by simp)
      · refine (kin_verifyProof wf _ _ _ _ he' hc' p p' .Poprf hs).bind (S' := [.err .Batch]) (fun _ _ _ _ => ?_)
          (fun _ _ => last' _ _ _ fun _ => ⟨_, rfl⟩) (fun _ _ => last' _ _ _ fun _ => ⟨_, rfl⟩) (by simp)
        have hz : ((cs.map fun c => c.blind).zip es).length = ((cs'.map fun c => c.blind).zip es').length := by
          simp only [List.length_zip, List.length_map, hc, he]
        simp only [hz, hi]
        exact last _ _ _ _ (fun _ => ⟨_, rfl⟩) (fun _ => ⟨_, rfl⟩) rfl
    exact (kin_computeTweakedKey wf th pk pk' hn' h).bind (S' := [.err .ProofVerification, .err .Batch])
      (fun K K' _ _ => rest is is' cs cs' es es' p p' info info' K K' hi hc he)
      (fun K _ => (rest is is cs cs es es p p info info K K rfl rfl rfl).left)
      (fun K _ => (rest is' is' cs' cs' es' es' p' p' info' info' K K rfl rfl rfl).left) (by simp)
  · intro h
    obtain ⟨h1, h2⟩ := computeTweakedKey_bad pk pk' hn' h
    obtain ⟨h3, -⟩ := computeTweakedKey_bad pk' pk hn'.symm (hn' ▸ h)
    exact .lockBind h1 h3 (by simp) h2

/-- C69, POPRF `batch_finalize`: the verification, and every lazy item. -/
theorem C69_poprf_batch_finalize (wf : CS.WF) (th : CS.group.TotalHash) (is is' : List Bytes) (cs cs' : List (Voprf.PoprfClient CS))
    (es es' : List (EvaluationElement CS)) (hi : is.map List.length = is'.map List.length)
    (hc : cs.length = cs'.length) (he : es.length = es'.length) (p p' : Proof CS) (pk pk' : CS.Elem)
    (info info' : Option Bytes) (hn : (info.getD []).length = (info'.getD []).length) :
    BatchRevealsOutcomeOnly (Leak.PoprfClient.batchFinalize is cs es p pk info)
      (Leak.PoprfClient.batchFinalize is' cs' es' p' pk' info') := by
  obtain ⟨h1, h2⟩ := kin_poprf_batchFinalize wf th (is := is) (is' := is') (by simpa using congrArg List.length hi) hc he p p' pk pk'
    (info := info) (info' := info') hn
  constructor
  · by_cases hs : infoLength info ≤ 65535
    · exact (h1 hs).same
    · exact (h2 hs).same
  · intro items items' hv hv'
    unfold Leak.PoprfClient.batchFinalize at hv hv'
    simp only [T.val_bind] at hv hv'
    obtain ⟨_, _, hv1⟩ := Res.bind_eq_ok.mp hv
    obtain ⟨_, _, hv2⟩ := Res.bind_eq_ok.mp hv1
    obtain ⟨_, _, hv3⟩ := Res.bind_eq_ok.mp hv2
    obtain ⟨_, _, hw1⟩ := Res.bind_eq_ok.mp hv'
    obtain ⟨_, _, hw2⟩ := Res.bind_eq_ok.mp hw1
    obtain ⟨_, _, hw3⟩ := Res.bind_eq_ok.mp hw2
    obtain rfl := Res.ok.inj hv3
    obtain rfl := Res.ok.inj hw3
    refine forall₂_of_length ?_ ?_
    · have := congrArg List.length hi
      simp only [List.length_map, List.length_zip] at this ⊢
      rw [this, hc, he]
    · intro j hj hj'
      simp only [List.getElem_map, List.getElem_zip]
      refine (kin_poprfFinalizeItem ?_ hn _ _ _ _).same
      simp only [List.length_map, List.length_zip] at hj hj'
      have := List.getElem_of_eq hi (i := j) (by simp only [List.length_map]; omega)
      simpa using this

/-- C69, POPRF `finalize`. -/
theorem C69_poprf_finalize (wf : CS.WF) (th : CS.group.TotalHash) (c c' : Voprf.PoprfClient CS) (input input' : Bytes)
    (h : input.length = input'.length) (e e' : EvaluationElement CS) (p p' : Proof CS) (pk pk' : CS.Elem)
    (info info' : Option Bytes) (hn : (info.getD []).length = (info'.getD []).length) :
    RevealsOutcomeOnly (Leak.PoprfClient.finalize c input e p pk info)
      (Leak.PoprfClient.finalize c' input' e' p' pk' info') := by
  have rest : ∀ (c c' : Voprf.PoprfClient CS) (input input' : Bytes) (e e' : EvaluationElement CS) (p p' : Proof CS)
      (pk pk' : CS.Elem) (info info' : Option Bytes) (x x' : List (T Bytes)), input.length = input'.length →
      (info.getD []).length = (info'.getD []).length →
      (Leak.PoprfClient.batchFinalize [input] [c] [e] p pk info).val = .ok x →
      (Leak.PoprfClient.batchFinalize [input'] [c'] [e'] p' pk' info').val = .ok x' → Kin [.panic, .err .Input, .err .Info]
      (T.check (Res.unwrapOption x.head?) >>= fun item => item) (T.check (Res.unwrapOption x'.head?) >>= fun item => item) := by
    intro c c' input input' e e' p p' pk pk' info info' x x' h hn hv hv'
    unfold Leak.PoprfClient.batchFinalize at hv hv'
    simp only [T.val_bind] at hv hv'
    obtain ⟨_, _, hv1⟩ := Res.bind_eq_ok.mp hv
    obtain ⟨_, _, hv2⟩ := Res.bind_eq_ok.mp hv1
    obtain ⟨_, _, hv3⟩ := Res.bind_eq_ok.mp hv2
    obtain ⟨_, _, hw1⟩ := Res.bind_eq_ok.mp hv'
    obtain ⟨_, _, hw2⟩ := Res.bind_eq_ok.mp hw1
    obtain ⟨_, _, hw3⟩ := Res.bind_eq_ok.mp hw2
    obtain rfl := Res.ok.inj hv3
    obtain rfl := Res.ok.inj hw3
    exact .step rfl rfl rfl (kin_poprfFinalizeItem h hn _ _ _ _)
  obtain ⟨h1, h2⟩ := kin_poprf_batchFinalize wf th (is := [input]) (is' := [input']) (cs := [c]) (cs' := [c']) (es := [e]) (es' := [e'])
    rfl rfl rfl p p' pk pk' (info := info) (info' := info') hn
  by_cases hs : infoLength info ≤ 65535
  · refine ((h1 hs).bind (S' := [.panic, .err .Input, .err .Info]) ?_ ?_ ?_ (by simp)).same
    · exact fun x x' hx hx' => rest c c' input input' e e' p p' pk pk' info info' x x' h hn hx hx'
    · exact fun x hx => (rest c c input input e e p p pk pk info info x x rfl rfl hx hx).left
    · exact fun x hx => (rest c' c' input' input' e' e' p' p' pk' pk' info' info' x x rfl rfl hx hx).left
  · obtain ⟨h3, h4⟩ := computeTweakedKey_bad pk pk' (info := some (info.getD [])) (info' := some (info'.getD [])) hn hs
    obtain ⟨h5, -⟩ := computeTweakedKey_bad pk' pk (info := some (info'.getD [])) (info' := some (info.getD [])) hn.symm
      (by rw [infoLength] at *; simp only [Option.getD_some] at *; omega)
    have b1 := bind_fail (x := Leak.Poprf.computeTweakedKey CS pk (some (info.getD []))) (f := fun tweakedKey => do
      Leak.verifyProof CS CS.group.baseElem tweakedKey ([e].map fun e => e.value) ([c].map fun c => c.blindedElement) p .Poprf
      let unblinded := ([c].map fun c => c.blind).zip [e]
      let _ ← T.check (if unblinded.length ≠ [input].length then Res.err .Batch else Res.ok ())
      pure ((unblinded.zip [input]).map fun ((blind, e), input) =>
        Leak.Poprf.finalizeItem CS input (info.getD []) (unblind blind e.value))) (by rw [h3]; simp)
    have b2 := bind_fail (x := Leak.Poprf.computeTweakedKey CS pk' (some (info'.getD []))) (f := fun tweakedKey => do
      Leak.verifyProof CS CS.group.baseElem tweakedKey ([e'].map fun e => e.value) ([c'].map fun c => c.blindedElement) p' .Poprf
      let unblinded := ([c'].map fun c => c.blind).zip [e']
      let _ ← T.check (if unblinded.length ≠ [input'].length then Res.err .Batch else Res.ok ())
      pure ((unblinded.zip [input']).map fun ((blind, e), input) =>
        Leak.Poprf.finalizeItem CS input (info'.getD []) (unblind blind e.value))) (by rw [h5]; simp)
    exact (Kin.lockBind (b1.1.trans h3) (b2.1.trans h5) (by simp) ((b1.2.trans h4).trans b2.2.symm)).same

end client

section server
open Leak

variable {σ σ' : Type} [RngCore σ] [RngCore σ']

theorem kin_voprf_finish (wf : CS.WF) (s s' : Voprf.VoprfServer CS) (g : σ) (g' : σ') {bs bs' : List (BlindedElement CS)}
    {ps ps' : List (PreparedEvaluationElement CS)} (hb : bs.length = bs'.length) (hp : ps.length = ps'.length)
    (hs : ¬ BadSize (bs.map (·.value)) (ps.map (·.inner.value))) :
    Kin [.diverge] (Leak.VoprfServer.batchBlindEvaluateFinish s g bs ps)
      (Leak.VoprfServer.batchBlindEvaluateFinish s' g' bs' ps') :=
  (kin_generateProof wf g g' _ _ _ _ _ _ (by simpa using hb) (by simpa using hp) .Voprf hs).bindTotal (fun _ _ _ _ => rfl)
    (fun _ _ => ⟨_, rfl⟩) (fun _ _ => ⟨_, rfl⟩) (by simp)

theorem kin_poprf_finish (wf : CS.WF) (g : σ) (g' : σ') {bs bs' : List (BlindedElement CS)}
    {ps ps' : List (PreparedEvaluationElement CS)} (hb : bs.length = bs'.length) (hp : ps.length = ps'.length)
    (t t' : CS.Scalar) (hs : ¬ BadSize (ps.map (·.inner.value)) (bs.map (·.value))) :
    Kin [.diverge] (Leak.PoprfServer.batchBlindEvaluateFinish g bs ps t)
      (Leak.PoprfServer.batchBlindEvaluateFinish g' bs' ps' t') :=
  .step rfl rfl rfl <|
    (kin_generateProof wf g g' _ _ _ _ _ _ (by simpa using hp) (by simpa using hb) .Poprf hs).bindTotal (fun _ _ _ _ => rfl)
    (fun _ _ => ⟨_, rfl⟩) (fun _ _ => ⟨_, rfl⟩) (by simp)

omit L in
theorem generateProof_bad (g : σ) (g' : σ') (k k' : CS.Scalar) (a a' b b' : CS.Elem) {cs cs' ds ds' : List CS.Elem}
    (hc : cs.length = cs'.length) (hd : ds.length = ds'.length) (mode : Mode) (hs : BadSize cs ds) :
    outcome (Leak.generateProof CS g k a b cs ds mode).val = .err .Batch ∧
      (Leak.generateProof CS g k a b cs ds mode).trace = (Leak.generateProof CS g' k' a' b' cs' ds' mode).trace := by
  obtain ⟨h1, h2⟩ := composites_bad (some k) (some k') b b' hc hd mode hs
  obtain ⟨h3, -⟩ := composites_bad (some k') (some k) b' b hc.symm hd.symm mode (by rwa [BadSize, ← hc, ← hd])
  unfold Leak.generateProof
  rw [(bind_fail (by rw [h1]; simp [outcome])).1, (bind_fail (by rw [h1]; simp [outcome])).2,
    (bind_fail (by rw [h3]; simp [outcome])).2, h1]
  exact ⟨rfl, h2⟩

omit L in
theorem voprf_finish_bad (s s' : Voprf.VoprfServer CS) (g : σ) (g' : σ') {bs bs' : List (BlindedElement CS)}
    {ps ps' : List (PreparedEvaluationElement CS)} (hb : bs.length = bs'.length) (hp : ps.length = ps'.length)
    (hs : BadSize (bs.map (·.value)) (ps.map (·.inner.value))) :
    outcome (Leak.VoprfServer.batchBlindEvaluateFinish s g bs ps).val = .err .Batch ∧
    outcome (Leak.VoprfServer.batchBlindEvaluateFinish s' g' bs' ps').val = .err .Batch ∧
    (Leak.VoprfServer.batchBlindEvaluateFinish s g bs ps).trace = (Leak.VoprfServer.batchBlindEvaluateFinish s' g' bs' ps').trace := by
  have hb' : (bs.map (·.value)).length = (bs'.map (·.value)).length := by simpa using hb
  have hp' : (ps.map (·.inner.value)).length = (ps'.map (·.inner.value)).length := by simpa using hp
  obtain ⟨h1, h2⟩ := generateProof_bad g g' s.sk s'.sk CS.group.baseElem CS.group.baseElem s.pk s'.pk hb' hp' .Voprf hs
  obtain ⟨h3, -⟩ := generateProof_bad g' g s'.sk s.sk CS.group.baseElem CS.group.baseElem s'.pk s.pk hb'.symm hp'.symm .Voprf
    (by rwa [BadSize, ← hb', ← hp'])
  unfold Leak.VoprfServer.batchBlindEvaluateFinish
  rw [(bind_fail (by rw [h1]; simp)).1, (bind_fail (by rw [h1]; simp)).2, (bind_fail (by rw [h3]; simp)).1,
    (bind_fail (by rw [h3]; simp)).2]
  exact ⟨h1, h3, h2⟩

omit L in
theorem poprf_finish_bad (g : σ) (g' : σ') {bs bs' : List (BlindedElement CS)}
    {ps ps' : List (PreparedEvaluationElement CS)} (hb : bs.length = bs'.length) (hp : ps.length = ps'.length) (t t' : CS.Scalar)
    (hs : BadSize (ps.map (·.inner.value)) (bs.map (·.value))) :
    outcome (Leak.PoprfServer.batchBlindEvaluateFinish g bs ps t).val = .err .Batch ∧
    outcome (Leak.PoprfServer.batchBlindEvaluateFinish g' bs' ps' t').val = .err .Batch ∧
    (Leak.PoprfServer.batchBlindEvaluateFinish g bs ps t).trace = (Leak.PoprfServer.batchBlindEvaluateFinish g' bs' ps' t').trace := by
  have hb' : (bs.map (·.value)).length = (bs'.map (·.value)).length := by simpa using hb
  have hp' : (ps.map (·.inner.value)).length = (ps'.map (·.inner.value)).length := by simpa using hp
  obtain ⟨h1, h2⟩ := generateProof_bad g g' t t' CS.group.baseElem CS.group.baseElem (CS.group.elemMul CS.group.baseElem t)
    (CS.group.elemMul CS.group.baseElem t') hp' hb' .Poprf hs
  obtain ⟨h3, -⟩ := generateProof_bad g' g t' t CS.group.baseElem CS.group.baseElem (CS.group.elemMul CS.group.baseElem t')
    (CS.group.elemMul CS.group.baseElem t) hp'.symm hb'.symm .Poprf (by rwa [BadSize, ← hb', ← hp'])
  unfold Leak.PoprfServer.batchBlindEvaluateFinish
  rw [(bind_ok (val_mul _ t)).1, (bind_ok (val_mul _ t)).2, (bind_ok (val_mul _ t')).1, (bind_ok (val_mul _ t')).2,
    (bind_fail (by rw [h1]; simp)).1, (bind_fail (by rw [h1]; simp)).2, (bind_fail (by rw [h3]; simp)).1,
    (bind_fail (by rw [h3]; simp)).2, h2]
  exact ⟨h1, h3, rfl⟩

/-- C69, `batch_blind_evaluate_finish`. -/
theorem C69_finish (wf : CS.WF) (s s' : Voprf.VoprfServer CS) (g : σ) (g' : σ') (bs bs' : List (BlindedElement CS))
    (ps ps' : List (PreparedEvaluationElement CS)) (hb : bs.length = bs'.length) (hp : ps.length = ps'.length) (t t' : CS.Scalar) :
    RevealsOutcomeOnly (Leak.VoprfServer.batchBlindEvaluateFinish s g bs ps)
      (Leak.VoprfServer.batchBlindEvaluateFinish s' g' bs' ps') ∧
    RevealsOutcomeOnly (Leak.PoprfServer.batchBlindEvaluateFinish g bs ps t)
      (Leak.PoprfServer.batchBlindEvaluateFinish g' bs' ps' t') := by
  constructor
  · by_cases hs : BadSize (bs.map (·.value)) (ps.map (·.inner.value))
    · exact fun _ => (voprf_finish_bad s s' g g' hb hp hs).2.2
    · exact (kin_voprf_finish wf s s' g g' hb hp hs).same
  · by_cases hs : BadSize (ps.map (·.inner.value)) (bs.map (·.value))
    · exact fun _ => (poprf_finish_bad g g' hb hp t t' hs).2.2
    · exact (kin_poprf_finish wf g g' hb hp t t' hs).same

omit L in
/-- C69, each item of POPRF `batch_blind_evaluate_prepare`, whatever the tweaked key. -/
theorem C69_poprf_prepare (t t' : CS.Scalar) (b b' : BlindedElement CS) :
    RevealsOutcomeOnly (Leak.PoprfServer.prepareItem t b) (Leak.PoprfServer.prepareItem t' b') := by
  have h := (kin_unblind t t' b.value b'.value).bindTotal (f := fun v => (pure ⟨⟨v⟩⟩ : T (PreparedEvaluationElement CS)))
    (g := fun v => (pure ⟨⟨v⟩⟩ : T (PreparedEvaluationElement CS))) (fun _ _ _ _ => rfl) (fun _ _ => ⟨_, rfl⟩) (fun _ _ => ⟨_, rfl⟩)
    (by simp)
  exact h.same

/-- C69, the tweaked key of POPRF. -/
theorem C69_poprf_tweak (wf : CS.WF) (th : CS.group.TotalHash) (s s' : Voprf.PoprfServer CS) (info info' : Option Bytes)
    (hn : (info.getD []).length = (info'.getD []).length) :
    RevealsOutcomeOnly (Leak.Poprf.computeTweak CS s.sk info) (Leak.Poprf.computeTweak CS s'.sk info') := by
  by_cases h : infoLength info ≤ 65535
  · exact (kin_computeTweak wf th s.sk s'.sk hn h).same
  · exact fun _ => (computeTweak_bad s.sk s'.sk hn h).2

/-- C69, VOPRF `batch_blind_evaluate`. -/
theorem C69_voprf_batch_blind_evaluate (wf : CS.WF) (s s' : Voprf.VoprfServer CS) (g : σ) (g' : σ')
    (bs bs' : List (BlindedElement CS)) (hb : bs.length = bs'.length) :
    RevealsOutcomeOnly (Leak.VoprfServer.batchBlindEvaluate s g bs) (Leak.VoprfServer.batchBlindEvaluate s' g' bs') := by
  obtain ⟨ps, hps, hl⟩ := collect_total (xs := bs.map (Leak.VoprfServer.prepareItem s)) (by simp [Leak.VoprfServer.prepareItem])
  obtain ⟨ps', hps', hl'⟩ := collect_total (xs := bs'.map (Leak.VoprfServer.prepareItem s')) (by simp [Leak.VoprfServer.prepareItem])
  have ht := (Rel.collect (R := Any) (forall₂_of_length (xs := bs.map (Leak.VoprfServer.prepareItem s))
    (ys := bs'.map (Leak.VoprfServer.prepareItem s')) (by simpa using hb) (by
      intro i hi hi'
      simp only [List.getElem_map]
      exact (rel_mul _ _ _ _).bind fun _ _ _ => Rel.pure trivial)) ps ps' hps hps').1
  have hp : ps.length = ps'.length := by rw [hl, hl']; simpa using hb
  by_cases hs : BadSize (bs.map (·.value)) (ps.map (·.inner.value))
  · obtain ⟨h1, h2, h3⟩ := voprf_finish_bad s s' g g' hb hp hs
    exact (Kin.step hps hps' ht (.lock h1 h2 h3)).same
  · exact (Kin.step hps hps' ht (kin_voprf_finish wf s s' g g' hb hp hs)).same

omit L in
theorem unwrap_bad {α β : Type} {x : T α} {y : T β} (hx : outcome x.val = .err .Batch) (hy : outcome y.val = .err .Batch)
    (ht : x.trace = y.trace) : Kin [.panic] (T.unwrap x) (T.unwrap y) := by
  have key : ∀ {ε : Type} (z : T ε), outcome z.val = .err .Batch → outcome (T.unwrap z).val = .panic := by
    intro ε z hz
    rw [T.val_unwrap]
    cases hv : z.val with
    | err e => rfl
    | _ => rw [hv] at hz; simp [outcome] at hz
  exact .lock (key x hx) (key y hy) (by simp only [T.unwrap, ht, hx, hy])

theorem poprf_after_tweak (wf : CS.WF) (g : σ) (g' : σ') {bs bs' : List (BlindedElement CS)} (hb : bs.length = bs'.length)
    {t t' : CS.Scalar} (h0 : t ≠ 0) (h0' : t' ≠ 0) : Kin [.diverge, .panic]
    (T.collect (bs.map (Leak.PoprfServer.prepareItem t)) >>= fun prepared =>
      T.unwrap (Leak.PoprfServer.batchBlindEvaluateFinish g bs prepared t))
    (T.collect (bs'.map (Leak.PoprfServer.prepareItem t')) >>= fun prepared =>
      T.unwrap (Leak.PoprfServer.batchBlindEvaluateFinish g' bs' prepared t')) := by
  have prep : ∀ {t : CS.Scalar} (_ : t ≠ 0) (bs : List (BlindedElement CS)), ∀ x ∈ bs.map (Leak.PoprfServer.prepareItem t),
      ∃ a, x.val = .ok a := by
    intro t ht bs x hx
    obtain ⟨b, -, rfl⟩ := List.mem_map.mp hx
    obtain ⟨P, hP⟩ := unblind_total ht b.value
    exact ⟨_, (bind_ok hP).1⟩
  obtain ⟨ps, hps, hl⟩ := collect_total (prep h0 bs)
  obtain ⟨ps', hps', hl'⟩ := collect_total (prep h0' bs')
  have ht := (Rel.collect (R := Any) (forall₂_of_length (xs := bs.map (Leak.PoprfServer.prepareItem t))
    (ys := bs'.map (Leak.PoprfServer.prepareItem t')) (by simpa using hb) (by
      intro i hi hi'
      simp only [List.getElem_map]
      exact (rel_unblind _ _ _ _).bind fun _ _ _ => Rel.pure trivial)) ps ps' hps hps').1
  have hp : ps.length = ps'.length := by rw [hl, hl']; simpa using hb
  by_cases hs : BadSize (ps.map (·.inner.value)) (bs.map (·.value))
  · obtain ⟨h1, h2, h3⟩ := poprf_finish_bad g g' hb hp t t' hs
    exact (Kin.step hps hps' ht (unwrap_bad h1 h2 h3)).mono (by simp)
  · exact (Kin.step hps hps' ht (kin_poprf_finish wf g g' hb hp t t' hs).unwrapDiverge).mono (by simp)

/-- C69, POPRF `batch_blind_evaluate`. -/
theorem C69_poprf_batch_blind_evaluate (wf : CS.WF) (th : CS.group.TotalHash) (s s' : Voprf.PoprfServer CS) (g : σ) (g' : σ')
    (bs bs' : List (BlindedElement CS)) (hb : bs.length = bs'.length) (info info' : Option Bytes)
    (hn : (info.getD []).length = (info'.getD []).length) :
    RevealsOutcomeOnly (Leak.PoprfServer.batchBlindEvaluate s g bs info)
      (Leak.PoprfServer.batchBlindEvaluate s' g' bs' info') := by
  by_cases h : infoLength info ≤ 65535
  · exact ((kin_computeTweak wf th s.sk s'.sk hn h).bind (S' := [.diverge, .panic])
      (fun t t' e e' => poprf_after_tweak wf g g' hb (computeTweak_ne_zero e) (computeTweak_ne_zero e'))
      (fun t e => (poprf_after_tweak wf g g rfl (computeTweak_ne_zero e) (computeTweak_ne_zero e)).left)
      (fun t e => (poprf_after_tweak wf g' g' rfl (computeTweak_ne_zero e) (computeTweak_ne_zero e)).left) (by simp)).same
  · obtain ⟨h1, h2⟩ := computeTweak_bad s.sk s'.sk (CS := CS) (info := info) (info' := info') hn h
    obtain ⟨h3, -⟩ := computeTweak_bad s'.sk s.sk (CS := CS) (info := info') (info' := info) hn.symm (by rw [infoLength] at *; omega)
    exact (Kin.lockBind h1 h3 (by simp) h2).same

/-- C69, VOPRF `blind_evaluate`. -/
theorem C69_voprf_blind_evaluate (wf : CS.WF) (s s' : Voprf.VoprfServer CS) (g : σ) (g' : σ') (b b' : BlindedElement CS) :
    RevealsOutcomeOnly (Leak.VoprfServer.blindEvaluate s g b) (Leak.VoprfServer.blindEvaluate s' g' b') := by
  have msg : ∀ {τ : Type} [RngCore τ] (s : Voprf.VoprfServer CS) (g : τ) (b : BlindedElement CS) (q : PreparedEvaluationElement CS)
      (x : VoprfServerBatchEvaluateResult CS × τ),
      (T.unwrap (Leak.VoprfServer.batchBlindEvaluateFinish s g [b] [q])).val = .ok x → x.1.messages = [⟨q.inner.value⟩] := by
    intro τ _ s g b q x hx
    rw [T.val_unwrap] at hx
    cases hv : (Leak.VoprfServer.batchBlindEvaluateFinish s g [b] [q]).val with
    | ok y =>
      rw [hv] at hx
      obtain rfl := Res.ok.inj hx
      unfold Leak.VoprfServer.batchBlindEvaluateFinish at hv
      rw [T.val_bind] at hv
      obtain ⟨_, _, hv1⟩ := Res.bind_eq_ok.mp hv
      obtain rfl := Res.ok.inj hv1
      rfl
    | _ => rw [hv] at hx; simp at hx
  suffices k : Kin [.diverge] (Leak.VoprfServer.blindEvaluate s g b) (Leak.VoprfServer.blindEvaluate s' g' b') from k.same
  unfold Leak.VoprfServer.blindEvaluate
  refine Kin.step (a := (⟨⟨CS.group.elemMul b.value s.sk⟩⟩ : PreparedEvaluationElement CS))
    (b := (⟨⟨CS.group.elemMul b'.value s'.sk⟩⟩ : PreparedEvaluationElement CS)) rfl rfl rfl <|
    (kin_voprf_finish wf s s' g g' (bs := [b]) (bs' := [b']) (ps := [⟨⟨CS.group.elemMul b.value s.sk⟩⟩])
      (ps' := [⟨⟨CS.group.elemMul b'.value s'.sk⟩⟩]) rfl rfl (by simp [BadSize])).unwrapDiverge.bindTotal ?_ ?_ ?_
      (by simp)
  · intro x x' hx hx'
    have h1 := msg _ _ _ _ _ hx
    have h2 := msg _ _ _ _ _ hx'
    obtain ⟨⟨ms, pr⟩, r⟩ := x
    obtain ⟨⟨ms', pr'⟩, r'⟩ := x'
    obtain rfl : ms = _ := h1
    obtain rfl : ms' = _ := h2
    rfl
  · intro x hx
    have h1 := msg _ _ _ _ _ hx
    obtain ⟨⟨ms, pr⟩, r⟩ := x
    obtain rfl : ms = _ := h1
    exact ⟨_, rfl⟩
  · intro x hx
    have h1 := msg _ _ _ _ _ hx
    obtain ⟨⟨ms, pr⟩, r⟩ := x
    obtain rfl : ms = _ := h1
    exact ⟨_, rfl⟩

/-- C69, POPRF `blind_evaluate`. -/
theorem C69_poprf_blind_evaluate (wf : CS.WF) (th : CS.group.TotalHash) (s s' : Voprf.PoprfServer CS) (g : σ) (g' : σ')
    (b b' : BlindedElement CS) (info info' : Option Bytes) (hn : (info.getD []).length = (info'.getD []).length) :
    RevealsOutcomeOnly (Leak.PoprfServer.blindEvaluate s g b info) (Leak.PoprfServer.blindEvaluate s' g' b' info') := by
  have msg : ∀ {τ : Type} [RngCore τ] (t : CS.Scalar) (g : τ) (b : BlindedElement CS) (q : PreparedEvaluationElement CS)
      (x : PoprfServerBatchEvaluateResult CS × τ),
      (T.unwrap (Leak.PoprfServer.batchBlindEvaluateFinish g [b] [q] t)).val = .ok x → x.1.messages = [⟨q.inner.value⟩] := by
    intro τ _ t g b q x hx
    rw [T.val_unwrap] at hx
    cases hv : (Leak.PoprfServer.batchBlindEvaluateFinish g [b] [q] t).val with
    | ok y =>
      rw [hv] at hx
      obtain rfl := Res.ok.inj hx
      unfold Leak.PoprfServer.batchBlindEvaluateFinish at hv
      rw [T.val_bind, val_mul, Res.ok_bind, T.val_bind] at hv
      obtain ⟨_, _, hv1⟩ := Res.bind_eq_ok.mp hv
      obtain rfl := Res.ok.inj hv1
      rfl
    | _ => rw [hv] at hx; simp at hx
  have rest : ∀ {τ τ' : Type} [RngCore τ] [RngCore τ'] (g : τ) (g' : τ') (b b' : BlindedElement CS) (t t' : CS.Scalar), t ≠ 0 →
      t' ≠ 0 → Kin [.diverge]
      (Leak.PoprfServer.prepareItem t b >>= fun prepared =>
        T.unwrap (Leak.PoprfServer.batchBlindEvaluateFinish g [b] [prepared] t) >>= fun x =>
        T.check (Res.unwrapOption x.1.messages.head?) >>= fun message =>
        (pure (⟨message, x.1.proof⟩, x.2) : T (PoprfServerEvaluateResult CS × τ)))
      (Leak.PoprfServer.prepareItem t' b' >>= fun prepared =>
        T.unwrap (Leak.PoprfServer.batchBlindEvaluateFinish g' [b'] [prepared] t') >>= fun x =>
        T.check (Res.unwrapOption x.1.messages.head?) >>= fun message =>
        (pure (⟨message, x.1.proof⟩, x.2) : T (PoprfServerEvaluateResult CS × τ'))) := by
    intro τ τ' _ _ g g' b b' t t' h0 h0'
    obtain ⟨P, hP⟩ := unblind_total h0 b.value
    obtain ⟨P', hP'⟩ := unblind_total h0' b'.value
    refine Kin.step (a := (⟨⟨P⟩⟩ : PreparedEvaluationElement CS)) (b := (⟨⟨P'⟩⟩ : PreparedEvaluationElement CS))
      (bind_ok hP).1 (bind_ok hP').1 ?_ <|
      (kin_poprf_finish wf g g' (bs := [b]) (bs' := [b']) (ps := [⟨⟨P⟩⟩]) (ps' := [⟨⟨P'⟩⟩]) rfl rfl t t'
        (by simp [BadSize])).unwrapDiverge.bindTotal ?_ ?_ ?_ (by simp)
    · rw [Leak.PoprfServer.prepareItem, Leak.PoprfServer.prepareItem, (bind_ok hP).2, (bind_ok hP').2,
        (rel_unblind t t' b.value b'.value P P' hP hP').1]
      rfl
    · intro x x' hx hx'
      rw [msg _ _ _ _ _ hx, msg _ _ _ _ _ hx']
      rfl
    · intro x hx
      rw [msg _ _ _ _ _ hx]
      exact ⟨_, rfl⟩
    · intro x hx
      rw [msg _ _ _ _ _ hx]
      exact ⟨_, rfl⟩
  by_cases h : infoLength info ≤ 65535
  · exact ((kin_computeTweak wf th s.sk s'.sk hn h).bind (S' := [.diverge])
      (fun t t' e e' => rest g g' b b' t t' (computeTweak_ne_zero e) (computeTweak_ne_zero e'))
      (fun t e => (rest g g b b t t (computeTweak_ne_zero e) (computeTweak_ne_zero e)).left)
      (fun t e => (rest g' g' b' b' t t (computeTweak_ne_zero e) (computeTweak_ne_zero e)).left) (by simp)).same
  · obtain ⟨h1, h2⟩ := computeTweak_bad s.sk s'.sk (CS := CS) (info := info) (info' := info') hn h
    obtain ⟨h3, -⟩ := computeTweak_bad s'.sk s.sk (CS := CS) (info := info') (info' := info) hn.symm (by rw [infoLength] at *; omega)
    exact (Kin.lockBind h1 h3 (by simp) h2).same

omit L in
theorem ser_short (wf : CS.WF) (P : CS.Elem) : (CS.group.serializeElem P).length ≤ 65535 := by
  have := wf.elem_length
  rw [CS.group.serializeElem_length]
  omega

theorem kin_evaluateIn (wf : CS.WF) (th : CS.group.TotalHash) (mode : Mode) (sk sk' : CS.Scalar) {input input' : Bytes}
    (h : input.length = input'.length) (hl : input.length ≤ 65535) :
    Kin [.err .Input] (Leak.OprfServer.evaluateIn CS mode sk input) (Leak.OprfServer.evaluateIn CS mode sk' input') := by
  obtain ⟨P, hP⟩ := hashToGroup_total wf th input mode
  obtain ⟨P', hP'⟩ := hashToGroup_total wf th input' mode
  obtain ⟨o, ho⟩ := serverEvaluateHashInput_total (CS := CS) (info := none) hl (by simp [infoLength])
    (ser_short wf (CS.group.elemMul P sk))
  obtain ⟨o', ho'⟩ := serverEvaluateHashInput_total (CS := CS) (info := none) (h ▸ hl) (by simp [infoLength])
    (ser_short wf (CS.group.elemMul P' sk'))
  refine .step hP hP' (rel_hashToGroup h mode P P' hP hP').1 <|
    .testErr (S := []) _ true rfl rfl (fun _ _ => ?_) (fun _ => .inl (outcome_ok.mpr ⟨o, ho⟩))
      (fun _ => .inl (outcome_ok.mpr ⟨o', ho'⟩)) (by simp)
  refine .step rfl rfl rfl <| .step rfl rfl rfl <| .total ho ho' (rel_serverEvaluateHashInput h rfl ?_ o o' ho ho').1
  rw [CS.group.serializeElem_length, CS.group.serializeElem_length]

/-- C69, `evaluate` of OPRF and VOPRF, for inputs of at most 65535 bytes. -/
theorem C69_evaluate (wf : CS.WF) (th : CS.group.TotalHash) (s s' : Voprf.OprfServer CS) (v v' : Voprf.VoprfServer CS)
    (input input' : Bytes) (h : input.length = input'.length) (hl : input.length ≤ 65535) :
    RevealsOutcomeOnly (Leak.OprfServer.evaluate s input) (Leak.OprfServer.evaluate s' input') ∧
    RevealsOutcomeOnly (Leak.VoprfServer.evaluate v input) (Leak.VoprfServer.evaluate v' input') :=
  ⟨(kin_evaluateIn wf th .Oprf s.sk s'.sk h hl).same, (kin_evaluateIn wf th .Voprf v.sk v'.sk h hl).same⟩

/-- C69, POPRF `evaluate`, for inputs of at most 65535 bytes. -/
theorem C69_poprf_evaluate (wf : CS.WF) (th : CS.group.TotalHash) (s s' : Voprf.PoprfServer CS) (input input' : Bytes)
    (h : input.length = input'.length) (hl : input.length ≤ 65535) (info info' : Option Bytes)
    (hn : info.map List.length = info'.map List.length) :
    RevealsOutcomeOnly (Leak.PoprfServer.evaluate s input info) (Leak.PoprfServer.evaluate s' input' info') := by
  have hn' : infoLength info = infoLength info' := by
    cases info <;> cases info' <;> simp_all [infoLength]
  obtain ⟨P, hP⟩ := hashToGroup_total wf th input .Poprf
  obtain ⟨P', hP'⟩ := hashToGroup_total wf th input' .Poprf
  have last : ∀ {input : Bytes} {info : Option Bytes} (_ : input.length ≤ 65535) (_ : infoLength info ≤ 65535) (P : CS.Elem)
      {t : CS.Scalar} (_ : t ≠ 0), ∃ o, (unblind t P >>= fun Q => ser CS Q >>= fun issued =>
        Leak.serverEvaluateHashInput CS input info issued).val = .ok o := by
    intro input info hl hi P t ht
    obtain ⟨Q, hQ⟩ := unblind_total ht P
    obtain ⟨o, ho⟩ := serverEvaluateHashInput_total (CS := CS) (info := info) hl hi (ser_short wf Q)
    refine ⟨o, ?_⟩
    rw [(bind_ok hQ).1, (bind_ok (val_ser Q)).1, ho]
  have rest : ∀ (s s' : Voprf.PoprfServer CS) (input input' : Bytes) (info info' : Option Bytes) (P P' : CS.Elem)
      (_ : input.length = input'.length) (_ : input.length ≤ 65535) (_ : infoLength info = infoLength info')
      (_ : info.map List.length = info'.map List.length), Kin [.err .Protocol, .err .Info]
      (Leak.Poprf.computeTweak CS s.sk info >>= fun tweak => unblind tweak P >>= fun Q => ser CS Q >>= fun issued =>
        Leak.serverEvaluateHashInput CS input info issued)
      (Leak.Poprf.computeTweak CS s'.sk info' >>= fun tweak => unblind tweak P' >>= fun Q => ser CS Q >>= fun issued =>
        Leak.serverEvaluateHashInput CS input' info' issued) := by
    intro s s' input input' info info' P P' h hl hn' hn
    by_cases hi : infoLength info ≤ 65535
    · refine Kin.mono ((kin_computeTweak wf th s.sk s'.sk hn' hi).bindTotal ?_
        (fun t e => last hl hi P (computeTweak_ne_zero e)) (fun t e => last (h ▸ hl) (hn' ▸ hi) P' (computeTweak_ne_zero e))
        (by simp)) (by simp)
      intro t t' e e'
      obtain ⟨o, ho⟩ := last hl hi P (computeTweak_ne_zero e)
      obtain ⟨o', ho'⟩ := last (h ▸ hl) (hn' ▸ hi) P' (computeTweak_ne_zero e')
      exact (((rel_unblind _ _ _ _).bind fun _ _ _ => (rel_ser _ _).bind fun _ _ hs =>
        rel_serverEvaluateHashInput h hn hs) o o' ho ho').1
    · obtain ⟨h1, h2⟩ := computeTweak_bad s.sk s'.sk (CS := CS) hn' hi
      obtain ⟨h3, -⟩ := computeTweak_bad s'.sk s.sk (CS := CS) hn'.symm (hn' ▸ hi)
      exact (Kin.lockBind h1 h3 (by simp) h2).mono (by simp)
  refine (Kin.step hP hP' (rel_hashToGroup h .Poprf P P' hP hP').1 <|
    .testErr (S := [.err .Protocol, .err .Info]) _ true rfl rfl (fun _ _ => rest s s' input input' info info' P P' h hl hn' hn)
      (fun _ => (rest s s input input info info P P rfl hl rfl rfl).left)
      (fun _ => (rest s' s' input' input' info' info' P' P' rfl (h ▸ hl) rfl rfl).left) (by simp)).same

end server

section keys
open Leak Spec

theorem kin_key (key key' : Bytes) (h : key.length = key'.length) : Kin [.err .Deserialization]
    (T.callRes .deserializeScalar (lens [key]) (Res.ofExcept (CS.group.deserializeScalar key)))
    (T.callRes .deserializeScalar (lens [key']) (Res.ofExcept (CS.group.deserializeScalar key'))) := by
  have : ∀ key, outcome (Res.ofExcept (CS.group.deserializeScalar key)) = .ok ∨
      outcome (Res.ofExcept (CS.group.deserializeScalar key)) = .err .Deserialization := by
    intro key
    cases hd : CS.group.deserializeScalar key with
    | ok a => exact .inl rfl
    | error e => exact .inr (by rw [VGroup.Lawful.deserializeScalar_error key e hd]; rfl)
  exact .callRes _ (by simp [lens, h]) _ (this key) (this key')

/-- C69, `new_with_key`. -/
theorem C69_new_with_key (key key' : Bytes) (h : key.length = key'.length) :
    RevealsOutcomeOnly (Leak.OprfServer.newWithKey CS key) (Leak.OprfServer.newWithKey CS key') ∧
    RevealsOutcomeOnly (Leak.VoprfServer.newWithKey CS key) (Leak.VoprfServer.newWithKey CS key') ∧
    RevealsOutcomeOnly (Leak.PoprfServer.newWithKey CS key) (Leak.PoprfServer.newWithKey CS key') := by
  refine ⟨((kin_key key key' h).bindTotal ?_ ?_ ?_ (by simp)).same, ((kin_key key key' h).bindTotal ?_ ?_ ?_ (by simp)).same,
    ((kin_key key key' h).bindTotal ?_ ?_ ?_ (by simp)).same⟩
  all_goals first
    | exact fun _ _ _ _ => rfl
    | exact fun _ _ => ⟨_, rfl⟩

omit L in
theorem deriveKeyLoop_fail {seed seed' infoLen info info' : Bytes} (h1 : seed.length = seed'.length) (h3 : info.length = info'.length)
    (dst : Dst) (hok : ∀ c, ∃ k, CS.group.hashToScalar CS.hash [seed, infoLen, info, [c]] dst.asDst = .ok k)
    (hok' : ∀ c, ∃ k, CS.group.hashToScalar CS.hash [seed', infoLen, info', [c]] dst.asDst = .ok k) : ∀ fuel counter,
    outcome (Leak.deriveKeyLoop CS seed infoLen info dst fuel counter).val ≠ .ok →
    outcome (Leak.deriveKeyLoop CS seed' infoLen info' dst fuel counter).val ≠ .ok →
    (Leak.deriveKeyLoop CS seed infoLen info dst fuel counter).trace
      = (Leak.deriveKeyLoop CS seed' infoLen info' dst fuel counter).trace := by
  have one : ∀ {seed info : Bytes}, (∀ c, ∃ k, CS.group.hashToScalar CS.hash [seed, infoLen, info, [c]] dst.asDst = .ok k) →
      ∀ fuel counter, outcome (Leak.deriveKeyLoop CS seed infoLen info dst (fuel + 1) counter).val ≠ .ok →
      outcome (Leak.deriveKeyLoop CS seed infoLen info dst fuel (counter + 1)).val ≠ .ok ∧
      (Leak.deriveKeyLoop CS seed infoLen info dst (fuel + 1) counter).trace =
        (T.callRes .hashToScalar (lens [seed, infoLen, info, [0]]) (Res.ok ())).trace ++ ((T.test .isZeroScalar true).trace ++
          (Leak.deriveKeyLoop CS seed infoLen info dst fuel (counter + 1)).trace) := by
    intro seed info hok fuel counter h
    obtain ⟨k, hk⟩ := hok (UInt8.ofNat counter)
    have hc : (T.callRes .hashToScalar (lens [seed, infoLen, info, [UInt8.ofNat counter]])
        (Res.mapErr .DeriveKeyPair (CS.group.hashToScalar CS.hash [seed, infoLen, info, [UInt8.ofNat counter]] dst.asDst))).val
        = .ok k := by
      rw [T.val_callRes, hk]; rfl
    rw [Leak.deriveKeyLoop] at h ⊢
    rw [(bind_ok hc).1, (bind_ok (T.val_test _ _)).1] at h
    rw [(bind_ok hc).2, (bind_ok (T.val_test _ _)).2]
    cases hz : CS.group.isZeroScalar k with
    | false => rw [hz] at h; exact absurd rfl h
    | true =>
      rw [hz] at h
      refine ⟨h, ?_⟩
      simp only [T.callRes, hk]
      rfl
  intro fuel
  induction fuel with
  | zero => intro c _ _; rfl
  | succ fuel ih =>
    intro c h h'
    obtain ⟨a1, a2⟩ := one hok fuel c h
    obtain ⟨b1, b2⟩ := one hok' fuel c h'
    rw [a2, b2, ih (c + 1) a1 b1]
    simp [lens, h1, h3]

theorem deriveKeyInternal_fail (wf : CS.WF) (th : CS.group.TotalHash) {seed seed' info info' : Bytes} (hs : seed.length = seed'.length)
    (hi : info.length = info'.length) (mode : Mode) (h : outcome (Leak.deriveKeyInternal CS seed info mode).val ≠ .ok)
    (h' : outcome (Leak.deriveKeyInternal CS seed' info' mode).val ≠ .ok) :
    (Leak.deriveKeyInternal CS seed info mode).trace = (Leak.deriveKeyInternal CS seed' info' mode).trace := by
  have hd : (T.check (Dst.new CS STR_DERIVE_KEYPAIR mode)).val
      = .ok ⟨ascii "DeriveKeyPair" ++ (ascii "OPRFV1-" ++ [modeByte mode] ++ ascii "-"), CS.ID⟩ := by
    rw [T.val_check, STR_DERIVE_KEYPAIR_eq, Dst.new_ok wf (by decide)]
  unfold Leak.deriveKeyInternal at h h' ⊢
  rw [(bind_ok hd).1] at h h'
  rw [(bind_ok hd).2, (bind_ok hd).2]
  congr 1
  by_cases hl : info.length ≤ 65535
  · have hn : (T.check (Res.mapErr Error.DeriveKeyPair (i2osp2 info.length))).val = .ok (be16 info.length) := i2osp_ok hl _
    have hn' : (T.check (Res.mapErr Error.DeriveKeyPair (i2osp2 info'.length))).val = .ok (be16 info.length) := by
      rw [← hi]; exact hn
    rw [(bind_ok hn).1] at h
    rw [(bind_ok hn').1] at h'
    rw [(bind_ok hn).2, (bind_ok hn').2, hi]
    have ok : ∀ (x : List Bytes), ∃ k, CS.group.hashToScalar CS.hash x
        (Dst.asDst ⟨ascii "DeriveKeyPair" ++ (ascii "OPRFV1-" ++ [modeByte mode] ++ ascii "-"), CS.ID⟩) = .ok k := by
      intro x
      simp only [Dst.asDst]
      rw [hashToScalar_dst]
      exact th.hashToScalar_ok _ _ _ (dst_nonempty _ _)
    rw [← hi]
    exact congrArg _ (deriveKeyLoop_fail hs hi _ (fun _ => ok _) (fun _ => ok _) 256 0 h h')
  · have e1 := i2osp_err hl .DeriveKeyPair
    have e2 := i2osp_err (x := info') (hi ▸ hl) .DeriveKeyPair
    rw [(bind_fail (by rw [e1]; simp)).2, (bind_fail (by rw [e2]; simp)).2, hi]

omit L in
theorem fail_after {α β γ δ : Type} {x : T α} {y : T β} {f : α → T γ} {g : β → T δ}
    (h : outcome x.val ≠ .ok → outcome y.val ≠ .ok → x.trace = y.trace)
    (hf : ∀ a, ∃ c, (f a).val = .ok c) (hg : ∀ b, ∃ d, (g b).val = .ok d)
    (hc : outcome (x >>= f).val ≠ .ok) (hd : outcome (y >>= g).val ≠ .ok) : (x >>= f).trace = (y >>= g).trace := by
  have key : ∀ {α γ : Type} {x : T α} {f : α → T γ}, (∀ a, ∃ c, (f a).val = .ok c) → outcome (x >>= f).val ≠ .ok →
      outcome x.val ≠ .ok := by
    intro α γ x f hf hc e
    obtain ⟨a, ha⟩ := outcome_ok.mp e
    obtain ⟨c, hc'⟩ := hf a
    exact hc (outcome_ok.mpr ⟨c, by rw [(bind_ok ha).1, hc']⟩)
  rw [(bind_fail (key hf hc)).2, (bind_fail (key hg hd)).2, h (key hf hc) (key hg hd)]

/-- C69, a failing `new_from_seed` shows the lengths of the seed and of the info and nothing else (not even which error). -/
theorem C69_new_from_seed (wf : CS.WF) (th : CS.group.TotalHash) (seed seed' info info' : Bytes) (hs : seed.length = seed'.length)
    (hi : info.length = info'.length) :
    ((∀ s, (Leak.OprfServer.newFromSeed CS seed info).val ≠ .ok s) → (∀ s, (Leak.OprfServer.newFromSeed CS seed' info').val ≠ .ok s) →
      (Leak.OprfServer.newFromSeed CS seed info).trace = (Leak.OprfServer.newFromSeed CS seed' info').trace) ∧
    ((∀ s, (Leak.VoprfServer.newFromSeed CS seed info).val ≠ .ok s) →
      (∀ s, (Leak.VoprfServer.newFromSeed CS seed' info').val ≠ .ok s) →
      (Leak.VoprfServer.newFromSeed CS seed info).trace = (Leak.VoprfServer.newFromSeed CS seed' info').trace) ∧
    ((∀ s, (Leak.PoprfServer.newFromSeed CS seed info).val ≠ .ok s) →
      (∀ s, (Leak.PoprfServer.newFromSeed CS seed' info').val ≠ .ok s) →
      (Leak.PoprfServer.newFromSeed CS seed info).trace = (Leak.PoprfServer.newFromSeed CS seed' info').trace) := by
  have no : ∀ {α : Type} {x : T α}, (∀ s, x.val ≠ .ok s) → outcome x.val ≠ .ok := by
    intro α x h e
    obtain ⟨a, ha⟩ := outcome_ok.mp e
    exact h a ha
  have pair : ∀ mode, outcome (Leak.deriveKeypair CS seed info mode).val ≠ .ok →
      outcome (Leak.deriveKeypair CS seed' info' mode).val ≠ .ok →
      (Leak.deriveKeypair CS seed info mode).trace = (Leak.deriveKeypair CS seed' info' mode).trace := fun mode h h' =>
    fail_after (deriveKeyInternal_fail wf th hs hi mode) (fun _ => ⟨_, rfl⟩) (fun _ => ⟨_, rfl⟩) h h'
  refine ⟨fun h h' => ?_, fun h h' => ?_, fun h h' => ?_⟩
  · exact fail_after (deriveKeyInternal_fail wf th hs hi .Oprf) (fun _ => ⟨_, rfl⟩) (fun _ => ⟨_, rfl⟩) (no h) (no h')
  · exact fail_after (pair .Voprf) (fun _ => ⟨_, rfl⟩) (fun _ => ⟨_, rfl⟩) (no h) (no h')
  · exact fail_after (pair .Poprf) (fun _ => ⟨_, rfl⟩) (fun _ => ⟨_, rfl⟩) (no h) (no h')

end keys

section examples
open Toy

/-- Two runs that end in the same way, decidably. -/
theorem same_of {α β : Type} {x : T α} {y : T β} (h : RevealsOutcomeOnly x y) (e : outcome x.val = outcome y.val) : x.trace = y.trace :=
  h e

/-- Two clients with different blinds, inputs, answers and proofs, both refused with the same error: the hypotheses of
`C69_voprf_finalize` are met, and the (non-empty) records agree. -/
example : outcome (Leak.VoprfClient.finalize (⟨3, 5⟩ : VoprfClient suite) [1, 2] ⟨4⟩ ⟨1, 2⟩ 7).val = .err .ProofVerification ∧
    outcome (Leak.VoprfClient.finalize (⟨9, 6⟩ : VoprfClient suite) [3, 4] ⟨8⟩ ⟨5, 6⟩ 11).val = .err .ProofVerification ∧
    (Leak.VoprfClient.finalize (⟨3, 5⟩ : VoprfClient suite) [1, 2] ⟨4⟩ ⟨1, 2⟩ 7).trace
      = (Leak.VoprfClient.finalize (⟨9, 6⟩ : VoprfClient suite) [3, 4] ⟨8⟩ ⟨5, 6⟩ 11).trace ∧
    20 < (Leak.VoprfClient.finalize (⟨3, 5⟩ : VoprfClient suite) [1, 2] ⟨4⟩ ⟨1, 2⟩ 7).trace.length := by
  have h := C69_voprf_finalize wf (⟨3, 5⟩ : VoprfClient suite) ⟨9, 6⟩ [1, 2] [3, 4] rfl ⟨4⟩ ⟨8⟩ ⟨1, 2⟩ ⟨5, 6⟩ 7 11
  have e : outcome (Leak.VoprfClient.finalize (⟨3, 5⟩ : VoprfClient suite) [1, 2] ⟨4⟩ ⟨1, 2⟩ 7).val = .err .ProofVerification := by
    decide +kernel
  have e' : outcome (Leak.VoprfClient.finalize (⟨9, 6⟩ : VoprfClient suite) [3, 4] ⟨8⟩ ⟨5, 6⟩ 11).val = .err .ProofVerification := by
    decide +kernel
  exact ⟨e, e', same_of h (e.trans e'.symm), by decide +kernel⟩

/-- The record does show how the call ended: a refused proof and an accepted one leave different records. -/
example : ∃ e p, (Leak.VoprfClient.finalize (⟨3, 5⟩ : VoprfClient suite) [1, 2] e p 7).trace
    ≠ (Leak.VoprfClient.finalize (⟨3, 5⟩ : VoprfClient suite) [1, 2] ⟨4⟩ ⟨1, 2⟩ 7).trace := by
  have h : (do let (r, _) ← (⟨7, 7⟩ : VoprfServer suite).blindEvaluate (⟨9⟩ : Rng) ⟨(5 : F)⟩
               pure (decide ((Leak.VoprfClient.finalize (⟨3, 5⟩ : VoprfClient suite) [1, 2] r.message r.proof 7).trace
                 ≠ (Leak.VoprfClient.finalize (⟨3, 5⟩ : VoprfClient suite) [1, 2] ⟨4⟩ ⟨1, 2⟩ 7).trace))) = .ok true := by
    decide +kernel
  obtain ⟨⟨r, _⟩, _, hr⟩ := Res.bind_eq_ok.mp h
  exact ⟨r.message, r.proof, of_decide_eq_true (Res.ok.inj hr)⟩

/-- Two failing evaluations: an info that meets the same refusal with two keys. -/
example : ∃ sk sk' : F, sk ≠ sk' ∧ outcome (Leak.Poprf.computeTweak suite sk (some [1])).val = .err .Protocol ∧
    outcome (Leak.Poprf.computeTweak suite sk' (some [2])).val = .err .Protocol := by
  decide +kernel

/-- Two refused seeds: infos too long. -/
example : (∀ s, (Leak.OprfServer.newFromSeed suite [1] (List.replicate 65536 0)).val ≠ .ok s) ∧
    (∀ s, (Leak.OprfServer.newFromSeed suite [2] (List.replicate 65536 1)).val ≠ .ok s) := by
  have key : ∀ seed info : Bytes, 65535 < info.length → ∀ s, (Leak.OprfServer.newFromSeed suite seed info).val ≠ .ok s := by
    intro seed info h s e
    unfold Leak.OprfServer.newFromSeed at e
    rw [Leak.T.val_bind, Leak.erase_deriveKeyInternal, deriveKeyInternal_of_gt wf _ _ _ h] at e
    cases e
  exact ⟨key _ _ (by rw [List.length_replicate]; omega), key _ _ (by rw [List.length_replicate]; omega)⟩

end examples

end Voprf
