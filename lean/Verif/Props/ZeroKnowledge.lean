import Verif.Props.Rom
import Verif.Lemmas.Distinguisher
import Verif.Spec.Simulator

/-!
# C52: proofs are zero-knowledge in the random oracle model
-/

namespace Voprf

open Spec

variable {CS : CipherSuite} [L : CS.group.Lawful]

/-- The questions for challenges. -/
def chalSet (wf : CS.WF) (mode : Mode) : Set Question :=
  {q | ∃ B M Z T U, q = challengeQ wf mode B M Z T U}

theorem weightsIn_eq (wf : CS.WF) (f : Table CS) (mode : Mode) (B : CS.Elem) (Cs Ds : List CS.Elem) :
    weightsIn f mode B Cs Ds = .ok ((Cs.zip Ds).zipIdx.map fun t => f (itemQ wf mode B t)) :=
  oracle_weightsFrom wf f mode B (Cs.zip Ds) 0

theorem weightsIn_congr (wf : CS.WF) {f f' : Table CS} {mode : Mode}
    (h : ∀ q, q ∉ chalSet wf mode → f' q = f q) (B : CS.Elem) (Cs Ds : List CS.Elem) :
    weightsIn f' mode B Cs Ds = weightsIn f mode B Cs Ds := by
  rw [weightsIn_eq wf, weightsIn_eq wf]
  congr 1
  refine List.map_congr_left fun t _ => h _ ?_
  rintro ⟨B', M, Z, T, U, hq⟩
  exact weightQ_ne_challengeQ wf mode B _ _ _ B' M Z T U hq

/-- The proof the server makes from the nonce `ρ`. -/
theorem oracle_generateProof (wf : CS.WF) (f : Table CS) {σ : Type} [RngCore σ] (rng g : σ)
    (ρ k : CS.Scalar) (hρ : CS.group.randomScalar rng = some (ρ, g)) (B : CS.Elem)
    (Cs Ds : List CS.Elem) (hl : Cs.length = Ds.length) (hn : Cs.length ≤ 65535) (mode : Mode)
    (ws : List CS.Scalar) (hws : weightsIn f mode B Cs Ds = .ok ws) :
    generateProof (oracleSuite CS f) rng k CS.group.baseElem B Cs Ds mode =
      .ok (⟨f (challengeQ wf mode B (lincomb ws Cs) (k • lincomb ws Cs) (ρ • CS.group.baseElem)
          (ρ • lincomb ws Cs)),
        ρ - f (challengeQ wf mode B (lincomb ws Cs) (k • lincomb ws Cs) (ρ • CS.group.baseElem)
          (ρ • lincomb ws Cs)) * k⟩, g) := by
  refine (generateProof_eq (CS := oracleSuite CS f) (oracle_wf wf f) rng k CS.group.baseElem B Cs Ds
    mode).trans ?_
  refine (if_neg (fun h => h.elim (fun h => h hl) (fun h => absurd hn (Nat.not_le.mpr h)))).trans ?_
  have h1 : weights (oracleSuite CS f) mode B Cs Ds = .ok ws := hws
  have h2 : (oracleSuite CS f).group.randomScalar rng = some (ρ, g) := hρ
  rw [h1]
  simp only [h2]
  have h3 := oracle_challenge wf f mode B (lincomb ws Cs) (k • lincomb ws Cs) (ρ • CS.group.baseElem)
          (ρ • lincomb ws Cs)
  split
  · next e he => exact absurd (he.symm.trans h3) (by simp)
  · next c hc =>
    have := Except.ok.inj (hc.symm.trans h3)
    subst this
    rfl

/-- The simulator's coins stand for the nonce and the challenge. -/
noncomputable def coinsEquiv (k : CS.Scalar) :
    SimCoins (k • CS.group.baseElem) ≃ Nonce CS × CS.Scalar where
  toFun x := (⟨x.1.2 + x.1.1 * k, fun h => x.2 (by
    rw [← mul_smul, ← add_smul, h, zero_smul])⟩, x.1.1)
  invFun p := ⟨(p.2, p.1.1 - p.2 * k), by
    show (p.1.1 - p.2 * k) • CS.group.baseElem + p.2 • k • CS.group.baseElem ≠ 0
    rw [← mul_smul, ← add_smul, sub_add_cancel]
    exact fun h => p.1.2 ((smul_base_eq_zero _).mp h)⟩
  left_inv x := by
    apply Subtype.ext; simp
  right_inv p := by
    apply Prod.ext
    · apply Subtype.ext; simp
    · rfl

omit L in
theorem write_eq (wf : CS.WF) (f : Table CS) (mode : Mode) (B M Z T U : CS.Elem) (c : CS.Scalar)
    (q : Question) :
    f.write (ascii "HashToScalar-" ++ contextString CS mode)
      (Spec.challengeInput (CS.group.serializeElem B) (CS.group.serializeElem M) (CS.group.serializeElem Z)
        (CS.group.serializeElem T) (CS.group.serializeElem U)) c q =
      (open Classical in if q = challengeQ wf mode B M Z T U then c else f q) := by
  classical
  unfold Table.write
  have : q.1 = (ascii "HashToScalar-" ++ contextString CS mode,
      Spec.challengeInput (CS.group.serializeElem B) (CS.group.serializeElem M) (CS.group.serializeElem Z)
        (CS.group.serializeElem T) (CS.group.serializeElem U)) ↔
      q = challengeQ wf mode B M Z T U := by
    constructor
    · intro h; exact Subtype.ext h
    · intro h; rw [h]; rfl
  simp only [this]

/-- The question a nonce leads to. -/
def noncePoint (wf : CS.WF) (mode : Mode) (k : CS.Scalar) (M : CS.Elem) (ρ : Nonce CS) : Question :=
  challengeQ wf mode (k • CS.group.baseElem) M (k • M) (ρ.1 • CS.group.baseElem) (ρ.1 • M)

theorem noncePoint_inj (wf : CS.WF) (mode : Mode) (k : CS.Scalar) (M : CS.Elem) :
    Function.Injective (noncePoint wf mode k M) := fun _ _ h =>
  Subtype.ext (smul_base_inj (challengeQ_inj wf mode h).2.2.2.1)

theorem simulateProof_eq (wf : CS.WF) (f : Table CS) (mode : Mode) (k : CS.Scalar)
    (Cs Ds : List CS.Elem) (hD : Ds = Cs.map fun C => k • C) (ws : List CS.Scalar)
    (hws : weightsIn f mode (k • CS.group.baseElem) Cs Ds = .ok ws)
    (x : SimCoins (k • CS.group.baseElem)) (q : Question) :
    simulateProof mode (k • CS.group.baseElem) Cs Ds f x.1.1 x.1.2 q =
      (open Classical in if q = noncePoint wf mode k (lincomb ws Cs) (coinsEquiv k x).1
        then (coinsEquiv k x).2 else f q) := by
  unfold simulateProof
  simp only [hws]
  rw [write_eq wf, hD, lincomb_smul]
  have h1 : x.1.2 • CS.group.baseElem + x.1.1 • k • CS.group.baseElem =
      (coinsEquiv k x).1.1 • CS.group.baseElem := by
    show _ = (x.1.2 + x.1.1 * k) • _
    rw [add_smul, mul_smul]
  have h2 : x.1.2 • lincomb ws Cs + x.1.1 • k • lincomb ws Cs =
      (coinsEquiv k x).1.1 • lincomb ws Cs := by
    show _ = (x.1.2 + x.1.1 * k) • _
    rw [add_smul, mul_smul]
  rw [h1, h2]
  rfl

theorem voprfBatch_view (k : CS.Scalar) (pk : CS.Elem) {σ : Type} [RngCore σ] (rng : σ)
    (bs : List CS.Elem) :
    ((fun p => (p.1.messages.map (·.value), p.1.proof.cScalar, p.1.proof.sScalar)) <$>
      VoprfServer.batchBlindEvaluate (CS := CS) ⟨k, pk⟩ rng (bs.map fun b => ⟨b⟩) :
        Res (List CS.Elem × CS.Scalar × CS.Scalar)) =
    (generateProof CS rng k CS.group.baseElem pk bs (bs.map fun b => k • b) .Voprf >>= fun p =>
      .ok (bs.map fun b => k • b, p.1.cScalar, p.1.sScalar)) := by
  rw [VoprfServer.batch_eq]
  simp only [List.map_map, Function.comp_def, List.map_id']
  generalize generateProof CS rng k CS.group.baseElem pk bs (bs.map fun b => k • b) .Voprf = x
  cases x with
  | ok p => show Res.ok _ = Res.ok _; simp
  | err e => rfl
  | panic => rfl
  | diverge => rfl

theorem poprfBatch_view (wf : CS.WF) (k : CS.Scalar) (pk : CS.Elem) {σ : Type} [RngCore σ] (rng : σ)
    (bs : List CS.Elem) (info : Option Bytes) :
    ((fun p => (p.1.messages.map (·.value), p.1.proof.cScalar, p.1.proof.sScalar)) <$>
      PoprfServer.batchBlindEvaluate (CS := CS) ⟨k, pk⟩ rng (bs.map fun b => ⟨b⟩) info :
        Res (List CS.Elem × CS.Scalar × CS.Scalar)) =
    (Poprf.computeTweak CS k info >>= fun t => Res.unwrap (generateProof CS rng t CS.group.baseElem
      (t • CS.group.baseElem) (bs.map fun b => t⁻¹ • b) bs .Poprf) >>= fun p =>
      .ok (bs.map fun b => t⁻¹ • b, p.1.cScalar, p.1.sScalar)) := by
  rw [PoprfServer.batch_eq wf]
  simp only [List.map_map, Function.comp_def, List.map_id']
  cases Poprf.computeTweak CS k info with
  | ok t =>
    simp only [Res.ok_bind]
    generalize Res.unwrap (generateProof CS rng t CS.group.baseElem
      (t • CS.group.baseElem) (bs.map fun b => t⁻¹ • b) bs .Poprf) = x
    cases x with
    | ok p => show Res.ok _ = Res.ok _; simp
    | err e => rfl
    | panic => rfl
    | diverge => rfl
  | err e => rfl
  | panic => rfl
  | diverge => rfl

omit L in
theorem EvalRequest.length_le (r : EvalRequest CS) : r.elems.length ≤ 65535 := by
  cases r with
  | one b => simp [EvalRequest.elems]
  | batch bs h => exact h

theorem voprfAnswer_eq (wf : CS.WF) (k : CS.Scalar) {σ : Type} [RngCore σ] (draw : Nonce CS → σ)
    (hd : Draws draw) (r : EvalRequest CS) (f : Table CS) (ρ : Nonce CS) (ws : List CS.Scalar)
    (hws : weightsIn f .Voprf (k • CS.group.baseElem) r.elems (r.elems.map fun C => k • C) = .ok ws) :
    voprfAnswer k (k • CS.group.baseElem) r f (draw ρ) =
      .ok (r.elems.map (fun C => k • C), f (noncePoint wf .Voprf k (lincomb ws r.elems) ρ),
        ρ.1 - f (noncePoint wf .Voprf k (lincomb ws r.elems) ρ) * k) := by
  obtain ⟨g, hg⟩ := hd ρ
  have hp := oracle_generateProof wf f (draw ρ) g ρ.1 k hg (k • CS.group.baseElem) r.elems
    (r.elems.map fun C => k • C) (by simp) (EvalRequest.length_le r) .Voprf ws hws
  cases r with
  | one b =>
    unfold voprfAnswer
    have := VoprfServer.blindEvaluate_eq (CS := oracleSuite CS f) (oracle_wf wf f)
      ⟨k, k • CS.group.baseElem⟩ (draw ρ) ⟨b⟩
    simp only
    rw [this]
    refine (congrArg (fun z => _ <$> (z >>= _)) hp).trans ?_
    rfl
  | batch bs h =>
    refine (voprfBatch_view (CS := oracleSuite CS f) k (k • CS.group.baseElem) (draw ρ) bs).trans ?_
    refine (congrArg (fun z => z >>= _) hp).trans ?_
    rfl

theorem voprf_simulates (wf : CS.WF) (k : CS.Scalar) {σ : Type} [RngCore σ] (draw : Nonce CS → σ)
    (hd : Draws draw) :
    Simulates (fun r f ρ => voprfAnswer k (k • CS.group.baseElem) r f (draw ρ))
      (fun _ _ => SimCoins (k • CS.group.baseElem))
      (voprfSimulator (fun P => k • P) (k • CS.group.baseElem)) (chalSet wf .Voprf) := by
  intro r f
  obtain ⟨ws, hws⟩ : ∃ ws, weightsIn f .Voprf (k • CS.group.baseElem) r.elems
      (r.elems.map fun C => k • C) = .ok ws := ⟨_, weightsIn_eq wf _ _ _ _ _⟩
  refine Or.inr ⟨noncePoint wf .Voprf k (lincomb ws r.elems),
    fun ρ c => .ok (r.elems.map (fun C => k • C), c, ρ.1 - c * k), noncePoint_inj wf _ _ _,
    fun ρ => ⟨_, _, _, _, _, rfl⟩, fun f' hf => ?_⟩
  have hws' := (weightsIn_congr wf hf (k • CS.group.baseElem) r.elems
    (r.elems.map fun C => k • C)).trans hws
  refine ⟨fun ρ => voprfAnswer_eq wf k draw hd r f' ρ ws hws', coinsEquiv k, fun x => ⟨?_, fun q => ?_⟩⟩
  · show Res.ok (_, _, _) = Res.ok (_, _, _)
    simp [coinsEquiv]
  · exact simulateProof_eq wf f' .Voprf k _ _ rfl ws hws' x q

theorem poprfAnswer_eq (wf : CS.WF) (k m : CS.Scalar) (pk : CS.Elem) {σ : Type} [RngCore σ]
    (draw : Nonce CS → σ) (hd : Draws draw) (r : EvalRequest CS) (info : Option Bytes) (f : Table CS)
    (ht : Poprf.computeTweak (oracleSuite CS f) k info = .ok (k + m))
    (ρ : Nonce CS) (ws : List CS.Scalar)
    (hws : weightsIn f .Poprf ((k + m) • CS.group.baseElem) (r.elems.map fun C => (k + m)⁻¹ • C)
      r.elems = .ok ws) :
    poprfAnswer k pk (r, info) f (draw ρ) =
      .ok (r.elems.map (fun C => (k + m)⁻¹ • C),
        f (noncePoint wf .Poprf (k + m) (lincomb ws (r.elems.map fun C => (k + m)⁻¹ • C)) ρ),
        ρ.1 - f (noncePoint wf .Poprf (k + m) (lincomb ws (r.elems.map fun C => (k + m)⁻¹ • C)) ρ)
          * (k + m)) := by
  obtain ⟨g, hg⟩ := hd ρ
  have hp := oracle_generateProof wf f (draw ρ) g ρ.1 (k + m) hg ((k + m) • CS.group.baseElem)
    (r.elems.map fun C => (k + m)⁻¹ • C) r.elems (by simp) (by simpa using EvalRequest.length_le r)
    .Poprf ws hws
  cases r with
  | one b =>
    unfold poprfAnswer
    have := PoprfServer.blindEvaluate_eq (CS := oracleSuite CS f) (oracle_wf wf f)
      ⟨k, pk⟩ (draw ρ) ⟨b⟩ info
    simp only
    rw [this]
    refine (congrArg (fun z => _ <$> (z >>= _)) ht).trans ?_
    refine (congrArg (fun z => _ <$> z) (Res.ok_bind _ _)).trans ?_
    refine (congrArg (fun z => _ <$> (z >>= _)) hp).trans ?_
    rfl
  | batch bs h =>
    refine (poprfBatch_view (CS := oracleSuite CS f) (oracle_wf wf f) k pk (draw ρ) bs info).trans ?_
    refine (congrArg (fun z => z >>= _) ht).trans ?_
    refine (Res.ok_bind _ _).trans ?_
    refine (congrArg (fun z => Res.unwrap z >>= _) hp).trans ?_
    rfl

theorem poprfAnswer_err (wf : CS.WF) (k : CS.Scalar) (pk : CS.Elem) {σ : Type} [RngCore σ]
    (rng : σ) (r : EvalRequest CS) (info : Option Bytes) (f : Table CS) (e : Error)
    (ht : Poprf.computeTweak (oracleSuite CS f) k info = .err e) :
    poprfAnswer k pk (r, info) f rng = .err e := by
  cases r with
  | one b =>
    unfold poprfAnswer
    have := PoprfServer.blindEvaluate_eq (CS := oracleSuite CS f) (oracle_wf wf f)
      ⟨k, pk⟩ rng ⟨b⟩ info
    simp only
    rw [this]
    exact (congrArg (fun z => _ <$> (z >>= _)) ht).trans rfl
  | batch bs h =>
    refine (poprfBatch_view (CS := oracleSuite CS f) (oracle_wf wf f) k pk rng bs info).trans ?_
    exact (congrArg (fun z => z >>= _) ht).trans rfl

theorem oracle_computeTweak (wf : CS.WF) (f : Table CS) (k : CS.Scalar) (info : Option Bytes)
    (hi : (info.getD []).length ≤ 65535) :
    Poprf.computeTweak (oracleSuite CS f) k info =
      (open Classical in if k + tweakOf f info = 0 then .err .Protocol else .ok (k + tweakOf f info)) := by
  classical
  refine (computeTweak_eq (CS := oracleSuite CS f) (oracle_wf wf f) k info).trans ?_
  refine (if_pos hi).trans ?_
  have h1 : Spec.hashToScalar (oracleSuite CS f) .Poprf (infoInput (info.getD [])) =
      .ok (tweakOf f info) := by
    show Except.ok (f.answer ([scalarTag CS .Poprf].flatten) ([infoInput (info.getD [])].flatten)) = _
    simp only [List.flatten_cons, List.flatten_nil, List.append_nil]
    rfl
  rw [h1]
  by_cases h : k + tweakOf f info = 0
  · rw [if_pos h]
    exact if_pos ((VGroup.Lawful.isZeroScalar_iff (G := CS.group) _).mpr h)
  · rw [if_neg h]
    exact if_neg fun h' => h ((VGroup.Lawful.isZeroScalar_iff (G := CS.group) _).mp h')

theorem oracle_computeTweak_long (wf : CS.WF) (f : Table CS) (k : CS.Scalar) (info : Option Bytes)
    (hi : ¬ (info.getD []).length ≤ 65535) :
    Poprf.computeTweak (oracleSuite CS f) k info = .err .Info :=
  (computeTweak_eq (CS := oracleSuite CS f) (oracle_wf wf f) k info).trans (if_neg hi)

theorem tweakOf_congr (wf : CS.WF) {f f' : Table CS} (h : ∀ q, q ∉ chalSet wf .Poprf → f' q = f q)
    (info : Option Bytes) (hi : (info.getD []).length ≤ 65535) : tweakOf f' info = tweakOf f info := by
  have hl : (ascii "HashToScalar-" ++ contextString CS .Poprf).length ≤ 131071 ∧
      (infoInput (info.getD [])).length ≤ 131071 :=
    ⟨scalarTag_length wf .Poprf, infoInput_length_le _ hi⟩
  unfold tweakOf Table.answer
  rw [dif_pos hl, dif_pos hl]
  refine h _ ?_
  rintro ⟨B, M, Z, T, U, hq⟩
  exact (scalarInputs_disjoint wf B M Z T U B B .Poprf B 0 (info.getD [])).2.1
    (congrArg (fun q : Question => q.1.2) hq).symm

instance simCoins_finite (B : CS.Elem) : Finite (SimCoins B) := by
  have : Finite CS.Scalar := VGroup.Lawful.finite_scalar
  infer_instance

theorem simCoins_nonempty (B : CS.Elem) : Nonempty (SimCoins B) :=
  ⟨⟨(0, 1), by simp [VGroup.Lawful.baseElem_ne_zero (G := CS.group)]⟩⟩

theorem poprf_simulates (wf : CS.WF) (k : CS.Scalar) {σ : Type} [RngCore σ] (draw : Nonce CS → σ)
    (hd : Draws draw) :
    Simulates (fun r f ρ => poprfAnswer k (k • CS.group.baseElem) r f (draw ρ))
      (PoprfCoins (k • CS.group.baseElem))
      (poprfSimulator (fun m P => (k + m)⁻¹ • P) (k • CS.group.baseElem)) (chalSet wf .Poprf) := by
  classical
  rintro ⟨r, info⟩ f
  by_cases hi : (info.getD []).length ≤ 65535
  · have hB : ∀ m : CS.Scalar, m • CS.group.baseElem + k • CS.group.baseElem =
        (k + m) • CS.group.baseElem := fun m => by rw [add_smul, add_comm]
    by_cases h0 : k + tweakOf f info = 0
    · refine Or.inl ⟨.err .Protocol, fun f' hf => ⟨fun ρ => ?_, simCoins_nonempty _, simCoins_finite _,
        fun x => ?_⟩⟩
      · refine poprfAnswer_err wf k _ _ r info f' .Protocol ?_
        rw [oracle_computeTweak wf f' k info hi, tweakOf_congr wf hf info hi, if_pos h0]
      · show poprfSimulator _ _ _ _ _ = _
        unfold poprfSimulator
        simp only
        rw [if_neg (by omega), if_pos]
        rw [hB, tweakOf_congr wf hf info hi, h0, zero_smul]
    · set m := tweakOf f info with hm
      obtain ⟨ws, hws⟩ : ∃ ws, weightsIn f .Poprf ((k + m) • CS.group.baseElem)
          (r.elems.map fun C => (k + m)⁻¹ • C) r.elems = .ok ws := ⟨_, weightsIn_eq wf _ _ _ _ _⟩
      have hBC : r.elems = (r.elems.map fun C => (k + m)⁻¹ • C).map fun C => (k + m) • C := by
        rw [List.map_map]
        conv_lhs => rw [← List.map_id r.elems]
        exact List.map_congr_left fun P _ => by simp [smul_inv_smul₀ h0]
      refine Or.inr ⟨noncePoint wf .Poprf (k + m) (lincomb ws (r.elems.map fun C => (k + m)⁻¹ • C)),
        fun ρ c => .ok (r.elems.map (fun C => (k + m)⁻¹ • C), c, ρ.1 - c * (k + m)),
        noncePoint_inj wf _ _ _, fun ρ => ⟨_, _, _, _, _, rfl⟩, fun f' hf => ?_⟩
      have hws' := (weightsIn_congr wf hf ((k + m) • CS.group.baseElem)
        (r.elems.map fun C => (k + m)⁻¹ • C) r.elems).trans hws
      have hm' : tweakOf f' info = m := tweakOf_congr wf hf info hi
      have ht : Poprf.computeTweak (oracleSuite CS f') k info = .ok (k + m) := by
        rw [oracle_computeTweak wf f' k info hi, hm', if_neg h0]
      refine ⟨fun ρ => poprfAnswer_eq wf k m _ draw hd r info f' ht ρ ws hws', ?_⟩
      have hBm : tweakOf f' info • CS.group.baseElem + k • CS.group.baseElem =
          (k + m) • CS.group.baseElem := by rw [hm', hB]
      have hne : tweakOf f' info • CS.group.baseElem + k • CS.group.baseElem ≠ 0 := by
        rw [hBm]; exact fun h => h0 ((smul_base_eq_zero _).mp h)
      let e0 : SimCoins (tweakOf f' info • CS.group.baseElem + k • CS.group.baseElem) ≃
          SimCoins ((k + m) • CS.group.baseElem) := Equiv.subtypeEquivRight fun p => by rw [hBm]
      refine ⟨e0.trans (coinsEquiv (k + m)), fun x => ?_⟩
      have hs : poprfSimulator (fun m P => (k + m)⁻¹ • P) (k • CS.group.baseElem) (r, info) f' x =
          (.ok (r.elems.map (fun C => (k + m)⁻¹ • C), x.1.1, x.1.2),
            simulateProof .Poprf ((k + m) • CS.group.baseElem) (r.elems.map fun C => (k + m)⁻¹ • C)
              r.elems f' x.1.1 x.1.2) := by
        unfold poprfSimulator
        simp only
        rw [if_neg (by omega), if_neg hne]
        generalize x.1.1 = c
        generalize x.1.2 = s
        rw [hm', hB]
      refine ⟨?_, fun q => ?_⟩
      · refine (congrArg Prod.fst hs).trans ?_
        show Res.ok (_, _, _) = Res.ok (_, _, _)
        simp [coinsEquiv, e0]
      · refine (congrArg (fun z => z.2 q) hs).trans ?_
        exact simulateProof_eq wf f' .Poprf (k + m) _ _ hBC ws hws' (e0 x) q
  · refine Or.inl ⟨.err .Info, fun f' hf => ⟨fun ρ => ?_, simCoins_nonempty _, simCoins_finite _,
      fun x => ?_⟩⟩
    · exact poprfAnswer_err wf k _ _ r info f' .Info (oracle_computeTweak_long wf f' k info hi)
    · show poprfSimulator _ _ _ _ _ = _
      unfold poprfSimulator
      simp only
      rw [if_pos (by omega)]

instance : Nonempty (Nonce CS) := ⟨⟨1, one_ne_zero⟩⟩

instance : Finite (Nonce CS) := by
  have : Finite CS.Scalar := VGroup.Lawful.finite_scalar
  infer_instance

/-- C52, VOPRF: no party that asks the hash `n` questions and the server for `m` evaluations (single ones or
batches, adaptively) tells the server's proofs from simulated ones, made without the private key, except
with probability `m (n + m)` over the number of non-zero scalars. -/
theorem C52_voprf (wf : CS.WF) (k : CS.Scalar) {σ : Type} [RngCore σ] (draw : Nonce CS → σ)
    (hd : Draws draw) (S : Distinguisher Question CS.Scalar (EvalRequest CS) (EvalResponse CS)) (n m : Nat)
    (hS : S.Within n m) :
    |(average fun f : Table CS =>
        S.real f fun r ρ => voprfAnswer k (k • CS.group.baseElem) r f (draw ρ)) -
      (average fun f : Table CS => S.ideal (fun _ _ => SimCoins (k • CS.group.baseElem))
        (voprfSimulator (fun P => k • P) (k • CS.group.baseElem)) f)| ≤
      (m * (n + m) : ℚ) / Nat.card (Nonce CS) := by
  have : Finite CS.Scalar := VGroup.Lawful.finite_scalar
  exact session_bound (voprf_simulates wf k draw hd) S n m hS

/-- C52, POPRF: the same; the simulator gets the evaluations under the tweaked keys. -/
theorem C52_poprf (wf : CS.WF) (k : CS.Scalar) {σ : Type} [RngCore σ] (draw : Nonce CS → σ)
    (hd : Draws draw)
    (S : Distinguisher Question CS.Scalar (EvalRequest CS × Option Bytes) (EvalResponse CS)) (n m : Nat)
    (hS : S.Within n m) :
    |(average fun f : Table CS =>
        S.real f fun r ρ => poprfAnswer k (k • CS.group.baseElem) r f (draw ρ)) -
      (average fun f : Table CS =>
        S.ideal (PoprfCoins (k • CS.group.baseElem))
        (poprfSimulator (fun m P => (k + m)⁻¹ • P) (k • CS.group.baseElem)) f)| ≤
      (m * (n + m) : ℚ) / Nat.card (Nonce CS) := by
  have : Finite CS.Scalar := VGroup.Lawful.finite_scalar
  exact session_bound (poprf_simulates wf k draw hd) S n m hS

/-! ## C12: simulated proofs are accepted, whatever they claim -/

theorem simulateProof_off (wf : CS.WF) (mode : Mode) (B : CS.Elem) (Cs Ds : List CS.Elem) (f : Table CS)
    (c s : CS.Scalar) (q : Question) (hq : q ∉ chalSet wf mode) :
    simulateProof mode B Cs Ds f c s q = f q := by
  classical
  unfold simulateProof
  rw [weightsIn_eq wf]
  simp only
  rw [write_eq wf]
  exact if_neg fun h => hq ⟨_, _, _, _, _, h⟩

theorem simulateProof_accepted (wf : CS.WF) (mode : Mode) (B : CS.Elem) (Cs Ds : List CS.Elem)
    (f : Table CS) (c s : CS.Scalar) :
    Accepted (oracleSuite CS (simulateProof mode B Cs Ds f c s)) mode B Cs Ds c s := by
  classical
  set f' := simulateProof mode B Cs Ds f c s with hf'
  obtain ⟨ws, hws⟩ : ∃ ws, weightsIn f mode B Cs Ds = .ok ws := ⟨_, weightsIn_eq wf _ _ _ _ _⟩
  have hws' : weightsIn f' mode B Cs Ds = .ok ws :=
    (weightsIn_congr wf (fun q hq => simulateProof_off wf mode B Cs Ds f c s q hq) B Cs Ds).trans hws
  refine ⟨ws, hws', ?_⟩
  refine (oracle_challenge wf f' mode B (lincomb ws Cs) (lincomb ws Ds) (s • CS.group.baseElem + c • B)
    (s • lincomb ws Cs + c • lincomb ws Ds)).trans (congrArg Except.ok ?_)
  rw [hf']
  unfold simulateProof
  simp only [hws]
  rw [write_eq wf, if_pos rfl]

theorem voprf_batch_accepts (wf : CS.WF) (inputs : List Bytes) (clients : List (CS.Scalar × CS.Elem))
    (messages : List CS.Elem) (c s : CS.Scalar) (pk : CS.Elem)
    (hl : clients.length = messages.length) (hn : clients.length ≤ 65535)
    (h : Accepted CS .Voprf pk (clients.map (·.2)) messages c s) :
    ∃ outs, VoprfClient.batchFinalize inputs (clients.map fun p => (⟨p.1, p.2⟩ : VoprfClient CS))
      (messages.map fun e => ⟨e⟩) ⟨c, s⟩ pk = .ok outs := by
  refine (C09_voprf_batch wf inputs _ _ ⟨c, s⟩ pk (by simpa using hl) (by simpa using hn)).1.mpr ?_
  simpa [Function.comp_def] using h

theorem poprf_batch_accepts (wf : CS.WF) (inputs : List Bytes) (clients : List (CS.Scalar × CS.Elem))
    (messages : List CS.Elem) (c s : CS.Scalar) (pk : CS.Elem) (info : Option Bytes) (m : CS.Scalar)
    (hi : (info.getD []).length ≤ 65535)
    (hm : Spec.hashToScalar CS .Poprf (infoInput (info.getD [])) = .ok m)
    (hk : m • CS.group.baseElem + pk ≠ 0) (hb : ∀ p ∈ clients, p.1 ≠ 0)
    (hin : inputs.length = clients.length)
    (hl : clients.length = messages.length) (hn : clients.length ≤ 65535)
    (h : Accepted CS .Poprf (m • CS.group.baseElem + pk) messages (clients.map (·.2)) c s) :
    ∃ outs, PoprfClient.batchFinalize inputs (clients.map fun p => (⟨p.1, p.2⟩ : PoprfClient CS))
      (messages.map fun e => ⟨e⟩) ⟨c, s⟩ pk info = .ok outs := by
  refine (C09_poprf_batch wf inputs _ ?_ _ ⟨c, s⟩ pk info m hi hm hk (by simpa using hl)
    (by simpa using hn) (by simpa using hin)).1.mpr ?_
  · intro c hc
    obtain ⟨p, hp, rfl⟩ := List.mem_map.mp hc
    exact hb p hp
  · simpa [Function.comp_def] using h

/-- C12, VOPRF: for every batch of messages, right or wrong, and every pair `(c, s)`, the client accepts once
the hash answers `c` to the one question the simulator picks. So acceptance by itself carries no
information about the key; it is the hash that makes proofs convincing (C49). -/
theorem C12_voprf_simulated_accepted (wf : CS.WF) (f : Table CS) (a : BatchAttempt CS) (pk : CS.Elem)
    (hl : a.clients.length = a.messages.length) (hn : a.clients.length ≤ 65535) :
    ∃ outs, a.voprfFinalize (simulateProof .Voprf pk (a.clients.map (·.2)) a.messages f a.c a.s) pk =
      .ok outs := by
  set f' := simulateProof .Voprf pk (a.clients.map (·.2)) a.messages f a.c a.s with hf'
  exact voprf_batch_accepts (CS := oracleSuite CS f') (oracle_wf wf f') a.inputs a.clients a.messages a.c
    a.s pk hl hn (simulateProof_accepted wf .Voprf pk (a.clients.map (·.2)) a.messages f a.c a.s)

/-- C12, POPRF: the same. -/
theorem C12_poprf_simulated_accepted (wf : CS.WF) (f : Table CS) (a : BatchAttempt CS) (pk : CS.Elem)
    (info : Option Bytes) (hi : (info.getD []).length ≤ 65535)
    (hk : tweakOf f info • CS.group.baseElem + pk ≠ 0) (hb : ∀ p ∈ a.clients, p.1 ≠ 0)
    (hin : a.inputs.length = a.clients.length)
    (hl : a.clients.length = a.messages.length) (hn : a.clients.length ≤ 65535) :
    ∃ outs, a.poprfFinalize (simulateProof .Poprf (tweakOf f info • CS.group.baseElem + pk) a.messages
      (a.clients.map (·.2)) f a.c a.s) pk info = .ok outs := by
  set f' := simulateProof .Poprf (tweakOf f info • CS.group.baseElem + pk) a.messages
      (a.clients.map (·.2)) f a.c a.s with hf'
  have ht : tweakOf f' info = tweakOf f info :=
    tweakOf_congr wf (fun q hq => simulateProof_off wf .Poprf _ _ _ f _ _ q hq) info hi
  have hm : Spec.hashToScalar (oracleSuite CS f') .Poprf (infoInput (info.getD [])) =
      .ok (tweakOf f info) := by
    refine Eq.trans ?_ (congrArg Except.ok ht)
    show Except.ok (f'.answer ([scalarTag CS .Poprf].flatten) ([infoInput (info.getD [])].flatten)) = _
    simp only [List.flatten_cons, List.flatten_nil, List.append_nil]
    rfl
  exact poprf_batch_accepts (CS := oracleSuite CS f') (oracle_wf wf f') a.inputs a.clients a.messages a.c
    a.s pk info (tweakOf f info) hi hm hk hb hin hl hn
    (simulateProof_accepted wf .Poprf _ a.messages (a.clients.map (·.2)) f a.c a.s)

section examples
open Toy

/-- Generators for every nonce exist on the toy suite. -/
example : Draws (CS := suite) fun ρ => (⟨ZMod.val (n := 251) ρ.1 - 1⟩ : Rng) := by
  rintro ⟨ρ, hρ⟩
  refine ⟨⟨ZMod.val (n := 251) ρ⟩, ?_⟩
  have key : ∀ ρ : F, ρ ≠ 0 → rand (⟨ZMod.val ρ - 1⟩ : Rng) = some (ρ, ⟨ZMod.val ρ⟩) := by
    decide +kernel
  exact key ρ hρ

/-- A session with one question, two requests (the second batch made of the answers to the first) and a
guess. -/
example : (Distinguisher.ask (Q := Question) (A := suite.Scalar) (R := EvalRequest suite)
    (V := EvalResponse suite) ⟨([], []), by simp, by simp⟩ fun _ =>
      .request (.one (3 : F)) fun v => match v with
        | .ok (es, c, _) => .request (.batch (es.take 65535) (by simp)) fun v' => match v' with
          | .ok (_, c', _) => .done (decide (c = c'))
          | _ => .done false
        | _ => .done true).Within 1 2 := by
  intro a v
  match v with
  | .ok (es, c, s) =>
    intro v'
    match v' with
    | .ok _ => trivial
    | .err _ => trivial
    | .panic => trivial
    | .diverge => trivial
  | .err _ => trivial
  | .panic => trivial
  | .diverge => trivial

end examples

end Voprf
