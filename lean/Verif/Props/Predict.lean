import Verif.Lemmas.Predict
import Verif.Lemmas.Rehash
import Verif.Lemmas.Api
import Verif.Props.Rom
import Verif.Props.ZeroKnowledge
import Verif.Toy

/-!
# C54: outputs are unpredictable
-/

namespace Voprf

open Spec

variable {CS : CipherSuite} [L : CS.group.Lawful]

/-! ## The suite with a table of digests -/

omit L in
theorem digest_wf (wf : CS.WF) (D : Digests CS) : (digestSuite CS D).WF := ⟨wf.1, wf.2⟩

instance : Finite UInt8 := Finite.of_injective UInt8.toFin fun _ _ h => UInt8.toFin_inj.mp h

instance : Finite DigestQuestion := (List.finite_length_le UInt8 262143).to_subtype

instance : Finite (DigestValue CS) := (List.finite_length_eq UInt8 CS.hash.outputSize).to_subtype

instance : Nonempty (DigestValue CS) := ⟨⟨List.replicate CS.hash.outputSize 0, by simp⟩⟩

omit L in
theorem card_digestValue : Nat.card (DigestValue CS) = 256 ^ CS.hash.outputSize := by
  have := Fintype.ofFinite UInt8
  have h8 : Fintype.card UInt8 = 256 := by
    rw [← Nat.card_eq_fintype_card, Nat.card_congr (⟨UInt8.toFin, UInt8.ofFin, fun _ => rfl, fun _ => rfl⟩ : UInt8 ≃ Fin 256)]
    simp
  have : Nat.card (DigestValue CS) = Fintype.card (List.Vector UInt8 CS.hash.outputSize) := by
    rw [← Nat.card_eq_fintype_card]; rfl
  rw [this, card_vector, h8]

/-! ## What the answers of the servers depend on -/

/-- The two tables agree on the strings the batch seed is the digest of. -/
def SameSeeds (D D' : Digests CS) : Prop :=
  ∀ (mode : Mode) (B : CS.Elem), Spec.seed (digestSuite CS D) mode B = Spec.seed (digestSuite CS D') mode B

omit L in
theorem computeComposites_seed (k : Option CS.Scalar) (B : CS.Elem) (Cs Ds : List CS.Elem) (mode : Mode)
    (D D' : Digests CS)
    (h : compositesSeed (digestSuite CS D) B mode = compositesSeed (digestSuite CS D') B mode) :
    (computeComposites (digestSuite CS D) k B Cs Ds mode : Res (CS.Elem × CS.Elem)) =
      computeComposites (digestSuite CS D') k B Cs Ds mode := by
  have hstep : ∀ seed, (compositeStep (digestSuite CS D) k seed mode :
      CS.Elem × CS.Elem → Nat × (CS.Elem × CS.Elem) → Res (CS.Elem × CS.Elem)) =
      compositeStep (digestSuite CS D') k seed mode := fun seed =>
    funext fun acc => funext fun item => by
      obtain ⟨M, Z⟩ := acc
      obtain ⟨i, c, d⟩ := item
      unfold compositeStep
      refine Res.bind_congr_res (x := Dst.new CS STR_HASH_TO_SCALAR mode) rfl fun dst => ?_
      exact Res.bind_congr_res rfl fun _ => by cases k <;> rfl
  unfold computeComposites
  by_cases hl : Cs.length ≠ Ds.length
  · exact (if_pos hl).trans (if_pos hl).symm
  · refine (if_neg hl).trans (Eq.trans ?_ (if_neg hl).symm)
    refine Res.bind_congr_res rfl fun len => ?_
    refine Res.bind_congr_res h fun seed => ?_
    refine Res.bind_congr_res (congrArg (fun st : CS.Elem × CS.Elem → Nat × (CS.Elem × CS.Elem) →
        Res (CS.Elem × CS.Elem) => List.foldlM st (CS.group.identityElem, CS.group.identityElem)
      ((List.range len).zip (Cs.zip Ds))) (hstep seed)) fun _ => by cases k <;> rfl

theorem generateProof_seed (wf : CS.WF) {D D' : Digests CS} (h : SameSeeds D D') {σ : Type} [RngCore σ] (rng : σ)
    (k : CS.Scalar) (A B : CS.Elem) (Cs Ds : List CS.Elem) (mode : Mode) :
    (proofView (CS := digestSuite CS D) <$> generateProof (digestSuite CS D) rng k A B Cs Ds mode :
        Res (CS.Scalar × CS.Scalar × σ)) =
      proofView (CS := digestSuite CS D') <$> generateProof (digestSuite CS D') rng k A B Cs Ds mode := by
  have hc := computeComposites_seed (some k) B Cs Ds mode D D' (by
    exact (compositesSeed_eq (digest_wf wf D) B mode).trans
      ((congrArg Res.ok (h mode B)).trans (compositesSeed_eq (digest_wf wf D') B mode).symm))
  refine Res.map_bind_congr_of hc fun MZ _ => ?_
  obtain ⟨M, Z⟩ := MZ
  refine Res.map_bind_congr_of (x := Res.ofLoop (CS.group.randomScalar rng)) rfl fun rr _ => ?_
  obtain ⟨r, rng'⟩ := rr
  refine Res.map_bind_congr_of (x := Dst.new CS STR_HASH_TO_SCALAR mode) rfl fun dst hd => ?_
  exact Res.map_bind_congr_of rfl fun _ _ => rfl

theorem voprfOne_view (wf : CS.WF) (k : CS.Scalar) (pk : CS.Elem) {σ : Type} [RngCore σ] (rng : σ) (b : CS.Elem) :
    ((fun p => ([p.1.message.value], p.1.proof.cScalar, p.1.proof.sScalar)) <$>
      VoprfServer.blindEvaluate (CS := CS) ⟨k, pk⟩ rng ⟨b⟩ : Res (List CS.Elem × CS.Scalar × CS.Scalar)) =
    (generateProof CS rng k CS.group.baseElem pk [b] [k • b] .Voprf >>= fun p =>
      .ok ([k • b], p.1.cScalar, p.1.sScalar)) := by
  rw [VoprfServer.blindEvaluate_eq wf]
  cases generateProof CS rng k CS.group.baseElem pk [b] [k • b] .Voprf <;> rfl

theorem poprfOne_view (wf : CS.WF) (k : CS.Scalar) (pk : CS.Elem) {σ : Type} [RngCore σ] (rng : σ) (b : CS.Elem)
    (info : Option Bytes) :
    ((fun p => ([p.1.message.value], p.1.proof.cScalar, p.1.proof.sScalar)) <$>
      PoprfServer.blindEvaluate (CS := CS) ⟨k, pk⟩ rng ⟨b⟩ info : Res (List CS.Elem × CS.Scalar × CS.Scalar)) =
    (Poprf.computeTweak CS k info >>= fun t => generateProof CS rng t CS.group.baseElem (t • CS.group.baseElem)
      [t⁻¹ • b] [b] .Poprf >>= fun p => .ok ([t⁻¹ • b], p.1.cScalar, p.1.sScalar)) := by
  rw [PoprfServer.blindEvaluate_eq wf]
  cases Poprf.computeTweak CS k info with
  | ok t =>
    simp only [Res.ok_bind]
    cases generateProof CS rng t CS.group.baseElem (t • CS.group.baseElem) [t⁻¹ • b] [b] .Poprf <;> rfl
  | err e => rfl
  | panic => rfl
  | diverge => rfl

theorem voprfServe_seed (wf : CS.WF) {D D' : Digests CS} (h : SameSeeds D D') {σ : Type} [RngCore σ]
    (k : CS.Scalar) (pk : CS.Elem) (r : EvalRequest CS × σ) : voprfServe k pk D r = voprfServe k pk D' r := by
  obtain ⟨r, rng⟩ := r
  cases r with
  | one b =>
    refine (voprfOne_view (CS := digestSuite CS D) (digest_wf wf D) k pk rng b).trans
      (Eq.trans ?_ (voprfOne_view (CS := digestSuite CS D') (digest_wf wf D') k pk rng b).symm)
    refine Res.map_bind_congr (proofView (CS := digestSuite CS D)) (proofView (CS := digestSuite CS D'))
      (generateProof_seed wf h rng k CS.group.baseElem pk [b] [k • b] .Voprf) ?_
    intro a a' hab
    exact congrArg (fun v : CS.Scalar × CS.Scalar × σ => Res.ok ([k • b], v.1, v.2.1)) hab
  | batch bs hb =>
    refine (voprfBatch_view (CS := digestSuite CS D) k pk rng bs).trans
      (Eq.trans ?_ (voprfBatch_view (CS := digestSuite CS D') k pk rng bs).symm)
    refine Res.map_bind_congr (proofView (CS := digestSuite CS D)) (proofView (CS := digestSuite CS D'))
      (generateProof_seed wf h rng k CS.group.baseElem pk bs (bs.map fun b : CS.Elem => k • b) .Voprf) ?_
    intro a b hab
    exact congrArg (fun v : CS.Scalar × CS.Scalar × σ => Res.ok (bs.map fun b : CS.Elem => k • b, v.1, v.2.1)) hab

omit L in
theorem Res.map_unwrap {α β : Type} (f : α → β) (x : Res α) : f <$> Res.unwrap x = Res.unwrap (f <$> x) := by
  cases x <;> rfl

omit L in
theorem computeTweak_digest (D : Digests CS) (k : CS.Scalar) (info : Option Bytes) :
    (Poprf.computeTweak (digestSuite CS D) k info : Res CS.Scalar) = Poprf.computeTweak CS k info := by
  rfl

theorem poprfServe_seed (wf : CS.WF) {D D' : Digests CS} (h : SameSeeds D D') {σ : Type} [RngCore σ]
    (k : CS.Scalar) (pk : CS.Elem) (r : EvalRequest CS × Option Bytes × σ) :
    poprfServe k pk D r = poprfServe k pk D' r := by
  obtain ⟨r, info, rng⟩ := r
  cases r with
  | one b =>
    refine (poprfOne_view (CS := digestSuite CS D) (digest_wf wf D) k pk rng b info).trans
      (Eq.trans ?_ (poprfOne_view (CS := digestSuite CS D') (digest_wf wf D') k pk rng b info).symm)
    refine Res.bind_congr_res (x := Poprf.computeTweak CS k info) rfl fun t => ?_
    refine Res.map_bind_congr (proofView (CS := digestSuite CS D)) (proofView (CS := digestSuite CS D'))
      (generateProof_seed wf h rng t CS.group.baseElem (t • CS.group.baseElem) [t⁻¹ • b] [b] .Poprf) ?_
    intro a a' hab
    exact congrArg (fun v : CS.Scalar × CS.Scalar × σ => Res.ok ([t⁻¹ • b], v.1, v.2.1)) hab
  | batch bs hb =>
    refine (poprfBatch_view (CS := digestSuite CS D) (digest_wf wf D) k pk rng bs info).trans
      (Eq.trans ?_ (poprfBatch_view (CS := digestSuite CS D') (digest_wf wf D') k pk rng bs info).symm)
    refine Res.bind_congr_res (x := Poprf.computeTweak CS k info) rfl fun t => ?_
    refine Res.map_bind_congr (proofView (CS := digestSuite CS D)) (proofView (CS := digestSuite CS D'))
      ((Res.map_unwrap _ _).trans ((congrArg Res.unwrap (generateProof_seed wf h rng t CS.group.baseElem
        (t • CS.group.baseElem) (bs.map fun b : CS.Elem => t⁻¹ • b) bs .Poprf)).trans (Res.map_unwrap _ _).symm)) ?_
    intro a b hab
    exact congrArg (fun v : CS.Scalar × CS.Scalar × σ => Res.ok (bs.map fun b : CS.Elem => t⁻¹ • b, v.1, v.2.1)) hab

/-! ## The strings of outputs are not the strings of batch seeds -/

/-- The string an output is the digest of. -/
def outString (CS : CipherSuite) (x : Bytes) (info : Option Bytes) (E : CS.Elem) : Bytes :=
  match info with
  | none => finalizeInput x (CS.group.serializeElem E)
  | some i => finalizeInputInfo x i (CS.group.serializeElem E)

omit L in
theorem finalize_ne_seed {x B S : Bytes} (info : Option Bytes) (E : CS.Elem) (hx : x.length ≤ 65535)
    (he : (CS.group.serializeElem E).length ≤ 65535) (hi : (info.getD []).length ≤ 65535)
    (hB : B.length ≤ 65535) (hS : S.length ≤ 65535) : outString CS x info E ≠ framed B ++ framed S := by
  intro h
  cases info with
  | none =>
    simp only [outString, finalizeInput, List.append_assoc] at h
    obtain ⟨_, h⟩ := framed_append_inj hx hB h
    obtain ⟨_, h⟩ := framed_append_inj he hS (h.trans (List.append_nil _).symm)
    exact absurd h (by decide)
  | some i =>
    simp only [outString, finalizeInputInfo, List.append_assoc] at h
    obtain ⟨_, h⟩ := framed_append_inj hx hB h
    obtain ⟨_, h⟩ := framed_append_inj hi hS (h.trans (List.append_nil _).symm)
    have := congrArg List.length h
    simp [framed, be16] at this

omit L in
theorem elem_len_le (wf : CS.WF) (E : CS.Elem) : (CS.group.serializeElem E).length ≤ 65535 := by
  rw [CS.group.serializeElem_length]
  have := wf.elem_length
  omega

omit L in
theorem ascii_finalize_length : (ascii "Finalize").length = 8 := by decide

omit L in
theorem outString_length (wf : CS.WF) (x : Bytes) (info : Option Bytes) (E : CS.Elem) (hx : x.length ≤ 65535)
    (hi : (info.getD []).length ≤ 65535) : (outString CS x info E).length ≤ 262143 := by
  have := elem_len_le wf E
  have := ascii_finalize_length
  cases info with
  | none => simp only [outString, finalizeInput, framed, be16, List.length_append, List.length_cons, List.length_nil]; omega
  | some i =>
    have hi : i.length ≤ 65535 := hi
    simp only [outString, finalizeInputInfo, framed, be16, List.length_append, List.length_cons, List.length_nil]; omega

omit L in
theorem sameSeeds_update (wf : CS.WF) (D : Digests CS) (x : Bytes) (info : Option Bytes) (E : CS.Elem)
    (hx : x.length ≤ 65535) (hi : (info.getD []).length ≤ 65535) (q : DigestQuestion)
    (hq : q.1 = outString CS x info E) (b : DigestValue CS) : SameSeeds (Function.update D q b) D := by
  intro mode B
  have hS : (ascii "Seed-" ++ contextString CS mode).length ≤ 65535 := by
    have := wf.id_length
    rw [List.length_append, contextString_length, ascii_len_seed]; omega
  show Digests.answer _ (framed (CS.group.serializeElem B) ++ framed (ascii "Seed-" ++ contextString CS mode)) =
    Digests.answer _ (framed (CS.group.serializeElem B) ++ framed (ascii "Seed-" ++ contextString CS mode))
  unfold Digests.answer
  split
  · next hl =>
    refine congrArg Subtype.val (Function.update_of_ne ?_ _ _)
    intro h
    have h : framed (CS.group.serializeElem B) ++ framed (ascii "Seed-" ++ contextString CS mode) =
      outString CS x info E := (congrArg Subtype.val h).trans hq
    exact finalize_ne_seed info E hx (elem_len_le wf E) hi (elem_len_le wf B) hS h.symm
  · rfl

/-! ## Right claims that were not prepared -/

omit L in
/-- A claim `c` says that the digest of the string `str c` is `val c`. -/
theorem claims_bound {R V X : Type} (serve : Digests CS → R → V)
    (T : Player DigestQuestion (DigestValue CS) R V (List X)) (m : Nat)
    (hm : ∀ D, (T.run D (serve D)).length ≤ m) (str : X → Option Bytes) (val : X → Bytes)
    (hs : ∀ c s, str c = some s → ∀ q : DigestQuestion, q.1 = s → ∀ (D : Digests CS) (b : DigestValue CS),
      serve (Function.update D q b) = serve D) :
    chance (fun D : Digests CS => ∃ c ∈ T.run D (serve D), ∃ s, str c = some s ∧ s.length ≤ 262143 ∧
      D.answer s = val c ∧ ∀ q : DigestQuestion, q.1 = s → ¬ T.Asks D (serve D) q) ≤
      m / (256 : ℚ) ^ CS.hash.outputSize := by
  classical
  have hcard : (1 : ℚ) / (256 : ℚ) ^ CS.hash.outputSize = 1 / (Nat.card (DigestValue CS) : ℚ) := by
    rw [card_digestValue]; push_cast; rfl
  rw [div_eq_mul_one_div, hcard]
  set target : Nat → List X → Option (DigestQuestion × DigestValue CS) := fun i l =>
    l[i]? >>= fun c => str c >>= fun s =>
      if h : s.length ≤ 262143 ∧ (val c).length = CS.hash.outputSize then some (⟨s, h.1⟩, ⟨val c, h.2⟩) else none
    with htarget
  have hspec : ∀ i l q a, target i l = some (q, a) → ∃ c s, l[i]? = some c ∧ str c = some s ∧ q.1 = s ∧ a.1 = val c := by
    intro i l q a h
    simp only [htarget] at h
    obtain ⟨c, hc, h⟩ := Option.bind_eq_some_iff.mp h
    obtain ⟨s, hs, h⟩ := Option.bind_eq_some_iff.mp h
    split at h
    · have := Option.some.inj h
      simp only [Prod.mk.injEq] at this
      obtain ⟨rfl, rfl⟩ := this
      exact ⟨c, s, hc, hs, rfl, rfl⟩
    · exact absurd h (by simp)
  refine le_trans (chance_mono ?_) (chance_exists_lt (fun i (D : Digests CS) =>
      ∃ q a, target i (T.run D (serve D)) = some (q, a) ∧ D q = a ∧ ¬ T.Asks D (serve D) q) m _ fun i _ =>
    Spec.Player.guess_bound serve T (target i) fun o q a h D b => ?_)
  · rintro D ⟨c, hc, s, hsc, hl, hv, hask⟩
    obtain ⟨i, hi, hic⟩ := List.mem_iff_getElem.mp hc
    have hv' : (val c).length = CS.hash.outputSize := by rw [← hv]; exact D.answer_length s
    refine ⟨i, lt_of_lt_of_le hi (hm D), ⟨s, hl⟩, ⟨val c, hv'⟩, ?_, ?_, hask _ rfl⟩
    · simp only [htarget]
      rw [List.getElem?_eq_getElem hi, hic]
      show (str c >>= _) = _
      rw [hsc]
      exact dif_pos ⟨hl, hv'⟩
    · exact Subtype.ext ((dif_pos hl).symm.trans hv)
  · obtain ⟨c, s, _, h2, h3, _⟩ := hspec i o q a h
    have := hs c s h2 q h3 D b
    convert this

theorem oprf_evaluate_iff (wf : CS.WF) (k : CS.Scalar) (x y : Bytes) :
    OprfServer.evaluate (CS := CS) ⟨k⟩ x = .ok y ↔ ∃ P, Spec.hashToGroup CS .Oprf x = .ok P ∧ P ≠ 0 ∧
      x.length ≤ 65535 ∧ CS.hash.digest (outString CS x none (k • P)) = y := by
  rw [OprfServer.evaluate_eq wf]
  cases hP : Spec.hashToGroup CS .Oprf x with
  | error e => simp
  | ok P =>
    simp only [Except.ok.injEq, exists_eq_left', ← isIdentityElem_eq_false]
    cases CS.group.isIdentityElem P
    · by_cases hl : x.length ≤ 65535 <;> simp [hl, outString, Spec.output]
    · simp

theorem voprf_evaluate_iff (wf : CS.WF) (k : CS.Scalar) (pk : CS.Elem) (x y : Bytes) :
    VoprfServer.evaluate (CS := CS) ⟨k, pk⟩ x = .ok y ↔ ∃ P, Spec.hashToGroup CS .Voprf x = .ok P ∧ P ≠ 0 ∧
      x.length ≤ 65535 ∧ CS.hash.digest (outString CS x none (k • P)) = y := by
  rw [VoprfServer.evaluate_eq wf]
  cases hP : Spec.hashToGroup CS .Voprf x with
  | error e => simp
  | ok P =>
    simp only [Except.ok.injEq, exists_eq_left', ← isIdentityElem_eq_false]
    cases CS.group.isIdentityElem P
    · by_cases hl : x.length ≤ 65535 <;> simp [hl, outString, Spec.output]
    · simp

theorem poprf_evaluate_iff (wf : CS.WF) (k : CS.Scalar) (pk : CS.Elem) (x y : Bytes) (info : Option Bytes) :
    PoprfServer.evaluate (CS := CS) ⟨k, pk⟩ x info = .ok y ↔ ∃ P t, Spec.hashToGroup CS .Poprf x = .ok P ∧ P ≠ 0 ∧
      x.length ≤ 65535 ∧ (info.getD []).length ≤ 65535 ∧
      Spec.hashToScalar CS .Poprf (infoInput (info.getD [])) = .ok t ∧ k + t ≠ 0 ∧
      CS.hash.digest (outString CS x info ((k + t)⁻¹ • P)) = y := by
  rw [PoprfServer.evaluate_eq wf]
  cases hP : Spec.hashToGroup CS .Poprf x with
  | error e => simp
  | ok P =>
    simp only [Except.ok.injEq, exists_and_left, exists_eq_left', ← isIdentityElem_eq_false]
    cases CS.group.isIdentityElem P
    · simp only [Bool.false_eq_true, if_false, true_and, Res.bind_eq_ok]
      constructor
      · rintro ⟨t, ht, h⟩
        obtain ⟨m, hi, hm, rfl, h0⟩ := computeTweak_ok wf ht
        split at h
        · next hl => exact ⟨hl, hi, m, hm, h0, by have := Res.ok.inj h; cases info <;> exact this⟩
        · exact nomatch h
      · rintro ⟨hl, hi, m, hm, h0, h⟩
        refine ⟨k + m, ?_, ?_⟩
        · rw [computeTweak_eq wf, if_pos hi, hm]
          have hz : CS.group.isZeroScalar (k + m) = false :=
            Bool.eq_false_iff.mpr fun h => h0 ((VGroup.Lawful.isZeroScalar_iff _).mp h)
          simp [hz]
        · rw [if_pos hl]
          cases info <;> exact congrArg Res.ok h
    · simp

theorem oprf_digest_iff (wf : CS.WF) (D : Digests CS) (k : CS.Scalar) (x y : Bytes) :
    OprfServer.evaluate (CS := digestSuite CS D) ⟨k⟩ x = .ok y ↔ ∃ P : CS.Elem, Spec.hashToGroup CS .Oprf x = .ok P ∧
      P ≠ 0 ∧ x.length ≤ 65535 ∧ D.answer (outString CS x none (k • P)) = y :=
  oprf_evaluate_iff (CS := digestSuite CS D) (digest_wf wf D) k x y

theorem voprf_digest_iff (wf : CS.WF) (D : Digests CS) (k : CS.Scalar) (pk : CS.Elem) (x y : Bytes) :
    VoprfServer.evaluate (CS := digestSuite CS D) ⟨k, pk⟩ x = .ok y ↔ ∃ P : CS.Elem,
      Spec.hashToGroup CS .Voprf x = .ok P ∧ P ≠ 0 ∧ x.length ≤ 65535 ∧
      D.answer (outString CS x none (k • P)) = y :=
  voprf_evaluate_iff (CS := digestSuite CS D) (digest_wf wf D) k pk x y

theorem poprf_digest_iff (wf : CS.WF) (D : Digests CS) (k : CS.Scalar) (pk : CS.Elem) (x y : Bytes)
    (info : Option Bytes) :
    PoprfServer.evaluate (CS := digestSuite CS D) ⟨k, pk⟩ x info = .ok y ↔ ∃ (P : CS.Elem) (t : CS.Scalar),
      Spec.hashToGroup CS .Poprf x = .ok P ∧ P ≠ 0 ∧ x.length ≤ 65535 ∧ (info.getD []).length ≤ 65535 ∧
      Spec.hashToScalar CS .Poprf (infoInput (info.getD [])) = .ok t ∧ k + t ≠ 0 ∧
      D.answer (outString CS x info ((k + t)⁻¹ • P)) = y := by
  cases info with
  | none => exact poprf_evaluate_iff (CS := digestSuite CS D) (digest_wf wf D) k pk x y none
  | some i => exact poprf_evaluate_iff (CS := digestSuite CS D) (digest_wf wf D) k pk x y (some i)

/-- C54, OPRF: a party that sends requests to the server, asks for digests and claims at most `m` outputs. The
probability that some claim is right although the party never presented the evaluated element to the digest is at
most `m / 256^Nh`. -/
theorem C54_oprf (wf : CS.WF) (k : CS.Scalar)
    (T : Player DigestQuestion (DigestValue CS) CS.Elem CS.Elem (List (Bytes × Bytes))) (m : Nat)
    (hm : ∀ D, (T.run D (oprfServe k D)).length ≤ m) :
    chance (fun D : Digests CS => ∃ c ∈ T.run D (oprfServe k D),
      OprfServer.evaluate (CS := digestSuite CS D) ⟨k⟩ c.1 = .ok c.2 ∧
      ∀ P, Spec.hashToGroup CS .Oprf c.1 = .ok P → ¬ Presents D (oprfServe k D) T c.1 none (k • P)) ≤
      m / (256 : ℚ) ^ CS.hash.outputSize := by
  refine le_trans (chance_mono ?_) (claims_bound (oprfServe k) T m hm
    (fun c => match Spec.hashToGroup CS .Oprf c.1 with
      | .ok P => some (outString CS c.1 none (k • P))
      | .error _ => none) (fun c => c.2) fun _ _ _ _ _ _ _ => rfl)
  rintro D ⟨c, hc, he, hp⟩
  obtain ⟨P, hP, _, hl, h⟩ := (oprf_digest_iff wf D k c.1 c.2).mp he
  exact ⟨c, hc, outString CS c.1 none (k • P), by rw [hP], outString_length wf _ _ _ hl (by simp), h, fun q hq ha => hp P hP ⟨q, ha, hq⟩⟩

/-- C54, VOPRF: the same; the requests are single elements or batches, the responses come with proofs, and the party
even chooses the generators they are made with. -/
theorem C54_voprf (wf : CS.WF) (k : CS.Scalar) (pk : CS.Elem) {σ : Type} [RngCore σ]
    (T : Player DigestQuestion (DigestValue CS) (EvalRequest CS × σ) (EvalResponse CS) (List (Bytes × Bytes)))
    (m : Nat) (hm : ∀ D, (T.run D (voprfServe k pk D)).length ≤ m) :
    chance (fun D : Digests CS => ∃ c ∈ T.run D (voprfServe k pk D),
      VoprfServer.evaluate (CS := digestSuite CS D) ⟨k, pk⟩ c.1 = .ok c.2 ∧
      ∀ P, Spec.hashToGroup CS .Voprf c.1 = .ok P → ¬ Presents D (voprfServe k pk D) T c.1 none (k • P)) ≤
      m / (256 : ℚ) ^ CS.hash.outputSize := by
  refine le_trans (chance_mono ?_) (claims_bound (voprfServe k pk) T m hm
    (fun c => match Spec.hashToGroup CS .Voprf c.1 with
      | .ok P => if c.1.length ≤ 65535 then some (outString CS c.1 none (k • P)) else none
      | .error _ => none) (fun c => c.2) ?_)
  · rintro D ⟨c, hc, he, hp⟩
    obtain ⟨P, hP, _, hl, h⟩ :=
      (voprf_digest_iff wf D k pk c.1 c.2).mp he
    exact ⟨c, hc, outString CS c.1 none (k • P), by simp only [hP]; exact if_pos hl,
      outString_length wf _ _ _ hl (by simp), h,
      fun q hq ha => hp P hP ⟨q, ha, hq⟩⟩
  · intro c s hc q hq D b
    cases hP : Spec.hashToGroup CS .Voprf c.1 with
    | error e => simp [hP] at hc
    | ok P =>
      simp only [hP, Option.ite_none_right_eq_some, Option.some.injEq] at hc
      exact funext fun r => voprfServe_seed wf
        (sameSeeds_update wf D c.1 none (k • P) hc.1 (by simp) q (hq.trans hc.2.symm) b) k pk r

/-- C54, POPRF: the same, a claim being an input, an info and an output. -/
theorem C54_poprf (wf : CS.WF) (k : CS.Scalar) (pk : CS.Elem) {σ : Type} [RngCore σ]
    (T : Player DigestQuestion (DigestValue CS) (EvalRequest CS × Option Bytes × σ) (EvalResponse CS)
      (List (Bytes × Option Bytes × Bytes)))
    (m : Nat) (hm : ∀ D, (T.run D (poprfServe k pk D)).length ≤ m) :
    chance (fun D : Digests CS => ∃ c ∈ T.run D (poprfServe k pk D),
      PoprfServer.evaluate (CS := digestSuite CS D) ⟨k, pk⟩ c.1 c.2.1 = .ok c.2.2 ∧
      ∀ P t, Spec.hashToGroup CS .Poprf c.1 = .ok P →
        Spec.hashToScalar CS .Poprf (infoInput (c.2.1.getD [])) = .ok t →
        ¬ Presents D (poprfServe k pk D) T c.1 c.2.1 ((k + t)⁻¹ • P)) ≤
      m / (256 : ℚ) ^ CS.hash.outputSize := by
  refine le_trans (chance_mono ?_) (claims_bound (poprfServe k pk) T m hm
    (fun c => match Spec.hashToGroup CS .Poprf c.1, Spec.hashToScalar CS .Poprf (infoInput (c.2.1.getD [])) with
      | .ok P, .ok t => if c.1.length ≤ 65535 ∧ (c.2.1.getD []).length ≤ 65535 then
          some (outString CS c.1 c.2.1 ((k + t)⁻¹ • P)) else none
      | _, _ => none) (fun c => c.2.2) ?_)
  · rintro D ⟨c, hc, he, hp⟩
    obtain ⟨P, t, hP, _, hl, hi, ht, _, h⟩ :=
      (poprf_digest_iff wf D k pk c.1 c.2.2 c.2.1).mp he
    exact ⟨c, hc, outString CS c.1 c.2.1 ((k + t)⁻¹ • P), by simp only [hP, ht]; exact if_pos ⟨hl, hi⟩,
      outString_length wf _ _ _ hl hi, h,
      fun q hq ha => hp P t hP ht ⟨q, ha, hq⟩⟩
  · intro c s hc q hq D b
    cases hP : Spec.hashToGroup CS .Poprf c.1 with
    | error e => simp [hP] at hc
    | ok P =>
      cases ht : Spec.hashToScalar CS .Poprf (infoInput (c.2.1.getD [])) with
      | error e => simp [hP, ht] at hc
      | ok t =>
        simp only [hP, ht, Option.ite_none_right_eq_some, Option.some.injEq] at hc
        exact funext fun r => poprfServe_seed wf
          (sameSeeds_update wf D c.1 c.2.1 ((k + t)⁻¹ • P) hc.1.1 hc.1.2 q (hq.trans hc.2.symm) b) k pk r

/-! ## Independence -/

omit L in
theorem entries_chance {X : Type} (l : List X) (str val : X → Bytes) (hs : ∀ c ∈ l, (str c).length ≤ 262143)
    (hv : ∀ c ∈ l, (val c).length = CS.hash.outputSize) (hn : l.Pairwise fun c c' => str c ≠ str c') :
    chance (fun D : Digests CS => ∀ c ∈ l, D.answer (str c) = val c) =
      1 / ((256 : ℚ) ^ CS.hash.outputSize) ^ l.length := by
  have h := chance_entries (A := DigestValue CS)
    (l.attach.map fun c => ((⟨str c.1, hs c.1 c.2⟩ : DigestQuestion), (⟨val c.1, hv c.1 c.2⟩ : DigestValue CS))) (by
      rw [List.map_map, List.Nodup, List.pairwise_map]
      have := List.pairwise_map.mp (l.attach_map_subtype_val.symm ▸ hn : (l.attach.map Subtype.val).Pairwise _)
      exact this.imp fun {a b} hab e => hab (congrArg Subtype.val e))
  rw [card_digestValue, List.length_map, List.length_attach] at h
  push_cast at h
  rw [← h]
  refine chance_congr fun D => ?_
  constructor
  · intro hD p hp
    obtain ⟨c, _, rfl⟩ := List.mem_map.mp hp
    exact Subtype.ext ((dif_pos (hs c.1 c.2)).symm.trans (hD c.1 c.2))
  · intro hD c hc
    have := hD _ (List.mem_map.mpr ⟨⟨c, hc⟩, List.mem_attach _ _, rfl⟩)
    exact (dif_pos (hs c hc)).trans (congrArg Subtype.val this)

theorem outString_inj (wf : CS.WF) {x x' : Bytes} {info info' : Option Bytes} {E E' : CS.Elem}
    (hx : x.length ≤ 65535) (hx' : x'.length ≤ 65535) (hi : (info.getD []).length ≤ 65535)
    (hi' : (info'.getD []).length ≤ 65535) (h : outString CS x info E = outString CS x' info' E') :
    x = x' ∧ info = info' ∧ E = E' := by
  have he := elem_len_le wf E
  have he' := elem_len_le wf E'
  have hF : ∀ y : Bytes, ascii "Finalize" ≠ framed y ++ ascii "Finalize" := fun y h => by
    have := congrArg List.length h
    simp [framed, be16] at this
    omega
  cases info with
  | none =>
    cases info' with
    | none =>
      simp only [outString, finalizeInput, List.append_assoc] at h
      obtain ⟨h1, h⟩ := framed_append_inj hx hx' h
      obtain ⟨h2, _⟩ := framed_append_inj he he' h
      exact ⟨h1, rfl, serializeElem_injective h2⟩
    | some i =>
      simp only [outString, finalizeInput, finalizeInputInfo, List.append_assoc] at h
      obtain ⟨h1, h⟩ := framed_append_inj hx hx' h
      obtain ⟨_, h⟩ := framed_append_inj he hi' h
      exact absurd h (hF _)
  | some i =>
    cases info' with
    | none =>
      simp only [outString, finalizeInput, finalizeInputInfo, List.append_assoc] at h
      obtain ⟨h1, h⟩ := framed_append_inj hx hx' h
      obtain ⟨_, h⟩ := framed_append_inj hi he' h
      exact absurd h.symm (hF _)
    | some i' =>
      simp only [outString, finalizeInputInfo, List.append_assoc] at h
      obtain ⟨h1, h⟩ := framed_append_inj hx hx' h
      obtain ⟨h2, h⟩ := framed_append_inj hi hi' h
      obtain ⟨h3, _⟩ := framed_append_inj he he' h
      simp only [Option.getD_some] at h2
      exact ⟨h1, by rw [h2], serializeElem_injective h3⟩

/-- C54, OPRF: the outputs of servers on pairwise different (key, input) pairs are independent and uniform. -/
theorem C54_oprf_independent (wf : CS.WF) (l : List (CS.Scalar × Bytes × Bytes))
    (hn : (l.map fun c => (c.1, c.2.1)).Nodup) (hy : ∀ c ∈ l, c.2.2.length = CS.hash.outputSize)
    (hx : ∀ c ∈ l, c.2.1.length ≤ 65535 ∧ ∃ P, Spec.hashToGroup CS .Oprf c.2.1 = .ok P ∧ P ≠ 0) :
    chance (fun D : Digests CS => ∀ c ∈ l, OprfServer.evaluate (CS := digestSuite CS D) ⟨c.1⟩ c.2.1 = .ok c.2.2) =
      1 / ((256 : ℚ) ^ CS.hash.outputSize) ^ l.length := by
  set str : CS.Scalar × Bytes × Bytes → Bytes := fun c => match Spec.hashToGroup CS .Oprf c.2.1 with
    | .ok P => outString CS c.2.1 none (c.1 • P)
    | .error _ => [] with hstr
  have hs : ∀ c ∈ l, ∃ P, Spec.hashToGroup CS .Oprf c.2.1 = .ok P ∧ P ≠ 0 ∧ str c = outString CS c.2.1 none (c.1 • P) := by
    intro c hc
    obtain ⟨_, P, hP, h0⟩ := hx c hc
    exact ⟨P, hP, h0, by simp only [hstr, hP]⟩
  rw [← entries_chance (CS := CS) l str (fun c => c.2.2) ?_ hy ?_]
  · refine chance_congr fun D => forall_congr' fun c => forall_congr' fun hc => ?_
    obtain ⟨P, hP, h0, hst⟩ := hs c hc
    rw [oprf_digest_iff wf, hst]
    constructor
    · rintro ⟨P', hP', _, _, h⟩
      cases Except.ok.inj (hP.symm.trans hP')
      exact h
    · exact fun h => ⟨P, hP, h0, (hx c hc).1, h⟩
  · intro c hc
    obtain ⟨P, _, _, hst⟩ := hs c hc
    rw [hst]
    exact outString_length wf _ _ _ (hx c hc).1 (by simp)
  · rw [List.Nodup, List.pairwise_map] at hn
    refine hn.imp_of_mem fun {c c'} hc hc' hne heq => hne ?_
    obtain ⟨P, hP, h0, hst⟩ := hs c hc
    obtain ⟨P', hP', _, hst'⟩ := hs c' hc'
    rw [hst, hst'] at heq
    obtain ⟨e1, _, e2⟩ := outString_inj wf (hx c hc).1 (hx c' hc').1 (by simp) (by simp) heq
    rw [e1] at hP
    cases Except.ok.inj (hP.symm.trans hP')
    rw [Prod.mk.injEq]
    exact ⟨smul_left_injective _ h0 e2, e1⟩

/-- C54, VOPRF: the outputs of servers on pairwise different (key, input) pairs are independent and uniform. -/
theorem C54_voprf_independent (wf : CS.WF) (pk : CS.Scalar → CS.Elem) (l : List (CS.Scalar × Bytes × Bytes))
    (hn : (l.map fun c => (c.1, c.2.1)).Nodup) (hy : ∀ c ∈ l, c.2.2.length = CS.hash.outputSize)
    (hx : ∀ c ∈ l, c.2.1.length ≤ 65535 ∧ ∃ P, Spec.hashToGroup CS .Voprf c.2.1 = .ok P ∧ P ≠ 0) :
    chance (fun D : Digests CS => ∀ c ∈ l,
        VoprfServer.evaluate (CS := digestSuite CS D) ⟨c.1, pk c.1⟩ c.2.1 = .ok c.2.2) =
      1 / ((256 : ℚ) ^ CS.hash.outputSize) ^ l.length := by
  set str : CS.Scalar × Bytes × Bytes → Bytes := fun c => match Spec.hashToGroup CS .Voprf c.2.1 with
    | .ok P => outString CS c.2.1 none (c.1 • P)
    | .error _ => [] with hstr
  have hs : ∀ c ∈ l, ∃ P, Spec.hashToGroup CS .Voprf c.2.1 = .ok P ∧ P ≠ 0 ∧ str c = outString CS c.2.1 none (c.1 • P) := by
    intro c hc
    obtain ⟨_, P, hP, h0⟩ := hx c hc
    exact ⟨P, hP, h0, by simp only [hstr, hP]⟩
  rw [← entries_chance (CS := CS) l str (fun c => c.2.2) ?_ hy ?_]
  · refine chance_congr fun D => forall_congr' fun c => forall_congr' fun hc => ?_
    obtain ⟨P, hP, h0, hst⟩ := hs c hc
    rw [voprf_digest_iff wf, hst]
    constructor
    · rintro ⟨P', hP', _, _, h⟩
      cases Except.ok.inj (hP.symm.trans hP')
      exact h
    · exact fun h => ⟨P, hP, h0, (hx c hc).1, h⟩
  · intro c hc
    obtain ⟨P, _, _, hst⟩ := hs c hc
    rw [hst]
    exact outString_length wf _ _ _ (hx c hc).1 (by simp)
  · rw [List.Nodup, List.pairwise_map] at hn
    refine hn.imp_of_mem fun {c c'} hc hc' hne heq => hne ?_
    obtain ⟨P, hP, h0, hst⟩ := hs c hc
    obtain ⟨P', hP', _, hst'⟩ := hs c' hc'
    rw [hst, hst'] at heq
    obtain ⟨e1, _, e2⟩ := outString_inj wf (hx c hc).1 (hx c' hc').1 (by simp) (by simp) heq
    rw [e1] at hP
    cases Except.ok.inj (hP.symm.trans hP')
    rw [Prod.mk.injEq]
    exact ⟨smul_left_injective _ h0 e2, e1⟩

/-- C54, POPRF: the outputs of servers on pairwise different (key, input, info) triples are independent and uniform. -/
theorem C54_poprf_independent (wf : CS.WF) (pk : CS.Scalar → CS.Elem)
    (l : List (CS.Scalar × Bytes × Option Bytes × Bytes))
    (hn : (l.map fun c => (c.1, c.2.1, c.2.2.1)).Nodup) (hy : ∀ c ∈ l, c.2.2.2.length = CS.hash.outputSize)
    (hx : ∀ c ∈ l, c.2.1.length ≤ 65535 ∧ (c.2.2.1.getD []).length ≤ 65535 ∧
      (∃ P, Spec.hashToGroup CS .Poprf c.2.1 = .ok P ∧ P ≠ 0) ∧
      ∃ t, Spec.hashToScalar CS .Poprf (infoInput (c.2.2.1.getD [])) = .ok t ∧ c.1 + t ≠ 0) :
    chance (fun D : Digests CS => ∀ c ∈ l,
        PoprfServer.evaluate (CS := digestSuite CS D) ⟨c.1, pk c.1⟩ c.2.1 c.2.2.1 = .ok c.2.2.2) =
      1 / ((256 : ℚ) ^ CS.hash.outputSize) ^ l.length := by
  set str : CS.Scalar × Bytes × Option Bytes × Bytes → Bytes := fun c =>
    match Spec.hashToGroup CS .Poprf c.2.1, Spec.hashToScalar CS .Poprf (infoInput (c.2.2.1.getD [])) with
    | .ok P, .ok t => outString CS c.2.1 c.2.2.1 ((c.1 + t)⁻¹ • P)
    | _, _ => [] with hstr
  have hs : ∀ c ∈ l, ∃ P t, Spec.hashToGroup CS .Poprf c.2.1 = .ok P ∧ P ≠ 0 ∧
      Spec.hashToScalar CS .Poprf (infoInput (c.2.2.1.getD [])) = .ok t ∧ c.1 + t ≠ 0 ∧
      str c = outString CS c.2.1 c.2.2.1 ((c.1 + t)⁻¹ • P) := by
    intro c hc
    obtain ⟨_, _, ⟨P, hP, h0⟩, t, ht, h1⟩ := hx c hc
    exact ⟨P, t, hP, h0, ht, h1, by simp only [hstr, hP, ht]⟩
  rw [← entries_chance (CS := CS) l str (fun c => c.2.2.2) ?_ hy ?_]
  · refine chance_congr fun D => forall_congr' fun c => forall_congr' fun hc => ?_
    obtain ⟨P, t, hP, h0, ht, h1, hst⟩ := hs c hc
    rw [poprf_digest_iff wf, hst]
    constructor
    · rintro ⟨P', t', hP', _, _, _, ht', _, h⟩
      cases Except.ok.inj (hP.symm.trans hP')
      cases Except.ok.inj (ht.symm.trans ht')
      exact h
    · exact fun h => ⟨P, t, hP, h0, (hx c hc).1, (hx c hc).2.1, ht, h1, h⟩
  · intro c hc
    obtain ⟨P, t, _, _, _, _, hst⟩ := hs c hc
    rw [hst]
    exact outString_length wf _ _ _ (hx c hc).1 (hx c hc).2.1
  · rw [List.Nodup, List.pairwise_map] at hn
    refine hn.imp_of_mem fun {c c'} hc hc' hne heq => hne ?_
    obtain ⟨P, t, hP, h0, ht, _, hst⟩ := hs c hc
    obtain ⟨P', t', hP', _, ht', _, hst'⟩ := hs c' hc'
    rw [hst, hst'] at heq
    obtain ⟨e1, e2, e3⟩ := outString_inj wf (hx c hc).1 (hx c' hc').1 (hx c hc).2.1 (hx c' hc').2.1 heq
    rw [e1] at hP
    rw [e2] at ht
    cases Except.ok.inj (hP.symm.trans hP')
    cases Except.ok.inj (ht.symm.trans ht')
    have e4 : c.1 = c'.1 := by
      have := inv_injective (smul_left_injective _ h0 e3)
      exact add_right_cancel this
    rw [Prod.mk.injEq, Prod.mk.injEq]
    exact ⟨e4, e1, e2⟩

section examples
open Toy

/-- The hash of the input `[x]`. -/
def exampleHash (x : UInt8) : F := match Spec.hashToGroup suite .Oprf [x] with
  | .ok P => P
  | .error _ => 0

theorem exampleHash_eq : Spec.hashToGroup suite .Oprf [1] = .ok (exampleHash 1) ∧ exampleHash 1 ≠ 0 ∧
    Spec.hashToGroup suite .Oprf [2] = .ok (exampleHash 2) ∧ exampleHash 2 ≠ 0 :=
  ⟨rfl, by decide +kernel, rfl, by decide +kernel⟩

/-- A party with nothing to hide: it sends the hashed input itself, presents the answer to the digest and claims the
result for this input, and, as a guess, for another one. -/
def exampleParty : Player DigestQuestion (DigestValue suite) suite.Elem suite.Elem (List (Bytes × Bytes)) :=
  .request (exampleHash 1) fun e =>
    .ask ⟨finalizeInput [1] (suite.group.serializeElem e), by
      rw [finalizeInput, List.length_append, List.length_append, framed, framed, List.length_append, List.length_append,
        suite.group.serializeElem_length]
      decide⟩ fun y => .done [([1], y.1), ([2], y.1)]

/-- It makes two claims; the first is right for every table, and presented, so that `C54_oprf` is about the second. -/
example (D : Digests suite) : ∃ (y z : Bytes) (P : suite.Elem), P = exampleHash 1 ∧ exampleParty.run D (oprfServe (7 : suite.Scalar) D) = [([1], y), ([2], z)] ∧
    OprfServer.evaluate (CS := digestSuite suite D) ⟨(7 : suite.Scalar)⟩ [1] = .ok y ∧
    Presents D (oprfServe (7 : suite.Scalar) D) exampleParty [1] none ((7 : suite.Scalar) • P) := by
  refine ⟨_, _, _, rfl, rfl, ?_, ⟨_, Or.inl rfl, rfl⟩⟩
  refine (oprf_digest_iff Toy.wf D _ _ _).mpr ⟨exampleHash 1, rfl, exampleHash_eq.2.1, by decide, ?_⟩
  exact dif_pos (by
    rw [outString, finalizeInput, List.length_append, List.length_append, framed, framed, List.length_append,
      List.length_append, suite.group.serializeElem_length]
    decide)

/-- Two servers and two inputs, three pairs. -/
example : chance (fun D : Digests suite =>
    ∀ c ∈ [((7 : suite.Scalar), ([1] : Bytes), List.replicate suite.hash.outputSize (5 : UInt8)),
        (7, [2], List.replicate suite.hash.outputSize 5), (9, [1], List.replicate suite.hash.outputSize 6)],
      OprfServer.evaluate (CS := digestSuite suite D) ⟨c.1⟩ c.2.1 = .ok c.2.2) =
    1 / ((256 : ℚ) ^ suite.hash.outputSize) ^ 3 := by
  refine C54_oprf_independent Toy.wf _ ?_ ?_ ?_
  · decide +kernel
  · intro c hc
    simp only [List.mem_cons, List.not_mem_nil, or_false] at hc
    rcases hc with rfl | rfl | rfl <;> simp
  · intro c hc
    simp only [List.mem_cons, List.not_mem_nil, or_false] at hc
    rcases hc with rfl | rfl | rfl
    · exact ⟨by decide, exampleHash 1, rfl, exampleHash_eq.2.1⟩
    · exact ⟨by decide, exampleHash 2, rfl, exampleHash_eq.2.2.2⟩
    · exact ⟨by decide, exampleHash 1, rfl, exampleHash_eq.2.1⟩

end examples

end Voprf
