import Verif.Spec.ServeTape
import Verif.Props.ZeroKnowledge
import Verif.Props.Drawer

/-!
# C67: proofs reveal nothing when the server's generator yields uniform bytes
-/

namespace Voprf

open Spec

variable {CS : CipherSuite} [L : CS.group.Lawful]

/-- A request served with a generator and one answered with a nonce are the same thing. -/
def Serves {V : Type} (serve : Tape → Res (V × Tape)) (answer : Nonce CS → Res V) : Prop :=
  (∃ e, (∀ rng, serve rng = .err e) ∧ ∀ ρ, answer ρ = .err e) ∨
  ∃ v : CS.Scalar → V, (∀ rng, serve rng = match CS.group.randomScalar rng with
    | none => .diverge
    | some (x, rng') => .ok (v x, rng')) ∧ ∀ ρ : Nonce CS, answer ρ = .ok (v ρ.1)

theorem atMost_succ {X R : Type} (T : Drawer X R) (m : Nat) (h : T.AtMost m) : T.AtMost (m + 1) := by
  induction T generalizing m with
  | done r => trivial
  | draw next ih =>
    cases m with
    | zero => simp [Drawer.AtMost] at h
    | succ m => exact fun x => ih x m (h x)

/-- A conversation as a computation that draws scalars. -/
theorem exists_drawer {Q A R V : Type} (f : Q → A) (serve : R → Tape → Res (V × Tape)) (answer : R → Nonce CS → Res V)
    (h : ∀ r, Serves (serve r) (answer r)) (S : Distinguisher Q A R (Res V)) (n m : Nat) (hS : S.Within n m) :
    ∃ T : Drawer CS.Scalar Bool, T.AtMost m ∧ (∀ t : Tape, T.run CS.group t = S.run f serve t) ∧
      T.prob CS.group (· = true) = S.real f answer := by
  induction S generalizing n m with
  | done g =>
    refine ⟨.done g, ?_, fun _ => rfl, ?_⟩
    · cases m <;> trivial
    · simp only [Drawer.prob, Distinguisher.real]
      cases g <;> simp
  | ask q next ih =>
    cases n with
    | zero => exact absurd hS (by simp [Distinguisher.Within])
    | succ n => exact ih (f q) n m (by cases m <;> exact hS _)
  | request r next ih =>
    cases m with
    | zero => exact absurd hS (by cases n <;> simp [Distinguisher.Within])
    | succ m =>
      have hS' : ∀ v, (next v).Within n m := by cases n <;> exact hS
      have : Finite CS.Scalar := VGroup.Lawful.finite_scalar
      have : Nonempty (Nonce CS) := ⟨⟨1, one_ne_zero⟩⟩
      rcases h r with ⟨e, h1, h2⟩ | ⟨v, h1, h2⟩
      · obtain ⟨T, hT, hr, hp⟩ := ih (.err e) n m (hS' _)
        refine ⟨T, ?_, fun t => ?_, ?_⟩
        · exact atMost_succ T m hT
        · simp only [Distinguisher.run, h1, hr]
        · simp only [Distinguisher.real, h2, hp, average_const]
      · choose T hT hr hp using fun x => ih (.ok (v x)) n m (hS' _)
        refine ⟨.draw T, hT, fun t => ?_, ?_⟩
        · simp only [Distinguisher.run, Drawer.run, h1]
          cases CS.group.randomScalar t with
          | none => rfl
          | some p => exact hr p.1 p.2
        · simp only [Distinguisher.real, Drawer.prob, h2, hp]

omit L in
theorem oneScalar_map {R S : Type} {call : Randomized R} (h : OneScalar CS.group call) (g : R → S) :
    OneScalar CS.group (fun _ _ rng => (fun p => (g p.1, p.2)) <$> call _ rng) := by
  refine OneScalar.congr (fun σ _ rng => ?_) (OneScalar.map h g)
  cases call σ rng <;> rfl

/-- The random-oracle reading of a suite has the generator calls of the suite. -/
theorem oneScalar_oracle (f : Table CS) {R : Type} {call : Randomized R} (h : OneScalar (oracleSuite CS f).group call) :
    OneScalar CS.group call := by
  rcases h with ⟨e, he⟩ | ⟨result, hr⟩
  · exact .inl ⟨e, he⟩
  · refine .inr ⟨result, fun σ _ rng => ?_⟩
    have h := hr σ rng
    cases hs : CS.group.randomScalar rng with
    | none =>
      have hs' : (oracleSuite CS f).group.randomScalar rng = none := hs
      rw [hs'] at h
      exact h
    | some p =>
      have hs' : (oracleSuite CS f).group.randomScalar rng = some p := hs
      rw [hs'] at h
      exact h

theorem voprfServeWith_oneScalar (wf : CS.WF) (k : CS.Scalar) (pk : CS.Elem) (r : EvalRequest CS) (f : Table CS) :
    OneScalar CS.group (fun _ _ rng => voprfServeWith k pk r f rng) := by
  cases r with
  | one b =>
    exact oneScalar_map (oneScalar_oracle f (R := VoprfServerEvaluateResult (oracleSuite CS f))
      (C53_evaluate (CS := oracleSuite CS f) (oracle_wf wf f) ⟨k, pk⟩ ⟨k, pk⟩ ⟨b⟩ [] [] ⟨k⟩ none).1)
      fun p => ([p.message.value], p.proof.cScalar, p.proof.sScalar)
  | batch bs hb =>
    exact oneScalar_map (oneScalar_oracle f (R := VoprfServerBatchEvaluateResult (oracleSuite CS f))
      (C53_evaluate (CS := oracleSuite CS f) (oracle_wf wf f) ⟨k, pk⟩ ⟨k, pk⟩ ⟨pk⟩ (bs.map fun b => ⟨b⟩) [] ⟨k⟩ none).2.1)
      fun p => (p.messages.map (·.value), p.proof.cScalar, p.proof.sScalar)

theorem poprfServeWith_oneScalar (wf : CS.WF) (k : CS.Scalar) (pk : CS.Elem) (r : EvalRequest CS × Option Bytes) (f : Table CS) :
    OneScalar CS.group (fun _ _ rng => poprfServeWith k pk r f rng) := by
  obtain ⟨r, info⟩ := r
  cases r with
  | one b =>
    exact oneScalar_map (oneScalar_oracle f (R := PoprfServerEvaluateResult (oracleSuite CS f))
      (C53_evaluate (CS := oracleSuite CS f) (oracle_wf wf f) ⟨k, pk⟩ ⟨k, pk⟩ ⟨b⟩ [] [] ⟨k⟩ info).2.2.2.1)
      fun p => ([p.message.value], p.proof.cScalar, p.proof.sScalar)
  | batch bs hb =>
    exact oneScalar_map (oneScalar_oracle f (R := PoprfServerBatchEvaluateResult (oracleSuite CS f))
      (C53_evaluate (CS := oracleSuite CS f) (oracle_wf wf f) ⟨k, pk⟩ ⟨k, pk⟩ ⟨pk⟩ (bs.map fun b => ⟨b⟩) [] ⟨k⟩ info).2.2.2.2.1)
      fun p => (p.messages.map (·.value), p.proof.cScalar, p.proof.sScalar)

theorem voprfAnswer_fst {σ : Type} [RngCore σ] (k : CS.Scalar) (pk : CS.Elem) (r : EvalRequest CS) (f : Table CS) (rng : σ) :
    voprfAnswer k pk r f rng = Prod.fst <$> voprfServeWith k pk r f rng := by
  cases r with
  | one b =>
    unfold voprfAnswer voprfServeWith
    simp only
    generalize VoprfServer.blindEvaluate (CS := oracleSuite CS f) ⟨k, pk⟩ rng ⟨b⟩ = x
    cases x <;> rfl
  | batch bs h =>
    unfold voprfAnswer voprfServeWith
    simp only
    generalize VoprfServer.batchBlindEvaluate (CS := oracleSuite CS f) ⟨k, pk⟩ rng (bs.map fun b => ⟨b⟩) = x
    cases x <;> rfl

theorem poprfAnswer_fst {σ : Type} [RngCore σ] (k : CS.Scalar) (pk : CS.Elem) (r : EvalRequest CS × Option Bytes) (f : Table CS)
    (rng : σ) : poprfAnswer k pk r f rng = Prod.fst <$> poprfServeWith k pk r f rng := by
  obtain ⟨r, info⟩ := r
  cases r with
  | one b =>
    unfold poprfAnswer poprfServeWith
    simp only
    generalize PoprfServer.blindEvaluate (CS := oracleSuite CS f) ⟨k, pk⟩ rng ⟨b⟩ info = x
    cases x <;> rfl
  | batch bs h =>
    unfold poprfAnswer poprfServeWith
    simp only
    generalize PoprfServer.batchBlindEvaluate (CS := oracleSuite CS f) ⟨k, pk⟩ rng (bs.map fun b => ⟨b⟩) info = x
    cases x <;> rfl

/-- A call that draws one scalar and succeeds with every nonce. -/
theorem serves_ok {V : Type} {serve : Randomized V} (h1 : OneScalar CS.group serve) {σ : Type} [RngCore σ]
    (draw : Nonce CS → σ) (hd : Draws draw) (answer : Nonce CS → Res V)
    (ha : ∀ ρ, answer ρ = Prod.fst <$> serve σ (draw ρ)) (hok : ∀ ρ, ∃ v, answer ρ = .ok v) :
    Serves (serve Tape) answer := by
  classical
  rcases h1 with ⟨e, he⟩ | ⟨result, hr⟩
  · obtain ⟨v, hv⟩ := hok ⟨1, one_ne_zero⟩
    rw [ha, he] at hv
    cases e with
    | ok x => exact x.elim
    | err e => cases hv
    | panic => cases hv
    | diverge => cases hv
  · have key : ∀ ρ : Nonce CS, ∃ v, result ρ.1 = .ok v ∧ answer ρ = .ok v := by
      intro ρ
      obtain ⟨v, hv⟩ := hok ρ
      obtain ⟨g, hg⟩ := hd ρ
      refine ⟨v, ?_, hv⟩
      rw [ha, hr, hg] at hv
      cases h : result ρ.1 with
      | ok w =>
        simp only [h] at hv
        cases hv
        rfl
      | err e => simp only [h] at hv; cases hv
      | panic => simp only [h] at hv; cases hv
      | diverge => simp only [h] at hv; cases hv
    choose w hw using key
    refine .inr ⟨fun x => if hx : x ≠ 0 then w ⟨x, hx⟩ else w ⟨1, one_ne_zero⟩, fun rng => ?_, fun ρ => ?_⟩
    · rw [hr]
      cases hs : CS.group.randomScalar rng with
      | none => rfl
      | some p =>
        obtain ⟨x, rng'⟩ := p
        have hx : x ≠ 0 := L.randomScalar_ne_zero _ _ _ hs
        simp only [(hw ⟨x, hx⟩).1, dif_pos hx]
        rfl
    · simp only [(hw ρ).2, dif_pos ρ.2]

/-- A call that fails in one way. -/
theorem serves_err {V : Type} {serve : Randomized V} {σ : Type} [RngCore σ]
    (draw : Nonce CS → σ) (answer : Nonce CS → Res V) (e : Error)
    (ha : ∀ ρ, answer ρ = Prod.fst <$> serve σ (draw ρ))
    (h : ∀ (σ : Type) [RngCore σ] (rng : σ), serve σ rng = .err e) : Serves (serve Tape) answer :=
  .inl ⟨e, h Tape, fun ρ => by rw [ha, h]; rfl⟩

theorem voprf_serves (wf : CS.WF) (k : CS.Scalar) {σ : Type} [RngCore σ] (draw : Nonce CS → σ) (hd : Draws draw)
    (r : EvalRequest CS) (f : Table CS) :
    Serves (fun rng => voprfServeWith k (k • CS.group.baseElem) r f rng)
      fun ρ => voprfAnswer k (k • CS.group.baseElem) r f (draw ρ) := by
  refine serves_ok (voprfServeWith_oneScalar wf k (k • CS.group.baseElem) r f) draw hd _ (fun ρ => voprfAnswer_fst _ _ _ _ _) fun ρ => ?_
  exact ⟨_, voprfAnswer_eq wf k draw hd r f ρ _ (weightsIn_eq wf _ _ _ _ _)⟩

theorem poprfServeWith_err (wf : CS.WF) (k : CS.Scalar) (pk : CS.Elem) {σ : Type} [RngCore σ] (rng : σ)
    (r : EvalRequest CS × Option Bytes) (f : Table CS) (e : Error)
    (ht : Poprf.computeTweak (oracleSuite CS f) k r.2 = .err e) : poprfServeWith k pk r f rng = .err e := by
  have := poprfAnswer_err wf k pk rng r.1 r.2 f e ht
  rw [show ((r.1, r.2) : EvalRequest CS × Option Bytes) = r from rfl, poprfAnswer_fst] at this
  cases h : poprfServeWith k pk r f rng with
  | ok x => rw [h] at this; cases this
  | err e' => rw [h] at this; cases this; rfl
  | panic => rw [h] at this; cases this
  | diverge => rw [h] at this; cases this

theorem poprf_serves (wf : CS.WF) (k : CS.Scalar) {σ : Type} [RngCore σ] (draw : Nonce CS → σ) (hd : Draws draw)
    (r : EvalRequest CS × Option Bytes) (f : Table CS) :
    Serves (fun rng => poprfServeWith k (k • CS.group.baseElem) r f rng)
      fun ρ => poprfAnswer k (k • CS.group.baseElem) r f (draw ρ) := by
  classical
  have herr : ∀ e, Poprf.computeTweak (oracleSuite CS f) k r.2 = .err e →
      Serves (fun rng => poprfServeWith k (k • CS.group.baseElem) r f rng)
        fun ρ => poprfAnswer k (k • CS.group.baseElem) r f (draw ρ) := fun e he =>
    serves_err (serve := fun _ _ rng => poprfServeWith k (k • CS.group.baseElem) r f rng) draw _ e
      (fun ρ => poprfAnswer_fst _ _ _ _ _) fun σ _ rng => poprfServeWith_err wf k _ rng r f e he
  by_cases hi : (r.2.getD []).length ≤ 65535
  · by_cases h0 : k + tweakOf f r.2 = 0
    · exact herr .Protocol ((oracle_computeTweak wf f k r.2 hi).trans (if_pos h0))
    · refine serves_ok (poprfServeWith_oneScalar wf k (k • CS.group.baseElem) r f) draw hd _ (fun ρ => poprfAnswer_fst _ _ _ _ _)
        fun ρ => ?_
      exact ⟨_, poprfAnswer_eq wf k (tweakOf f r.2) _ draw hd r.1 r.2 f
        ((oracle_computeTweak wf f k r.2 hi).trans (if_neg h0)) ρ _ (weightsIn_eq wf _ _ _ _ _)⟩
  · exact herr .Info (oracle_computeTweak_long wf f k r.2 hi)

/-- C67, VOPRF: the server takes its nonces from uniform bytes; whatever a party asks of it and of the random oracle, and
whatever it concludes, it concludes the same with nearly the same probability when the proofs come from a simulator that does not
know the key. -/
theorem C67_voprf (wf : CS.WF) {block p q : Nat} (hp : 0 < p) (hpq : p ≤ q) (hu : NearlyUniform CS.group block p q)
    (k : CS.Scalar) {σ : Type} [RngCore σ] (draw : Nonce CS → σ) (hd : Draws draw)
    (S : Distinguisher Question CS.Scalar (EvalRequest CS) (EvalResponse CS)) (n m : Nat) (hS : S.Within n m) (N : Nat) :
    |(average fun f : Table CS =>
        tapeChance (N * block) fun t => S.run f (fun r => voprfServeWith k (k • CS.group.baseElem) r f) t = some true) -
      (average fun f : Table CS => S.ideal (fun _ _ => SimCoins (k • CS.group.baseElem))
        (voprfSimulator (fun P => k • P) (k • CS.group.baseElem)) f)| ≤
      (m * (n + m) : ℚ) / Nat.card (Nonce CS) + (((q : ℚ) / p) ^ m - 1 + tapeChance (N * block) (RunsDry CS.group m)) := by
  have : Finite CS.Scalar := VGroup.Lawful.finite_scalar
  have : Nonempty (Table CS) := ⟨fun _ => 0⟩
  have h1 := C52_voprf wf k draw hd S n m hS
  have h2 := abs_average_sub_le (fun f : Table CS =>
      tapeChance (N * block) fun t => S.run f (fun r => voprfServeWith k (k • CS.group.baseElem) r f) t = some true)
    (fun f : Table CS => S.real f fun r ρ => voprfAnswer k (k • CS.group.baseElem) r f (draw ρ)) _ fun f => by
      obtain ⟨T, hT, hr, hpr⟩ := exists_drawer f (fun r => voprfServeWith k (k • CS.group.baseElem) r f)
        (fun r ρ => voprfAnswer k (k • CS.group.baseElem) r f (draw ρ)) (fun r => voprf_serves wf k draw hd r f) S n m hS
      have := C61_programs hp hpq hu N m T hT (· = true)
      simp only [hr, exists_eq_right] at this
      rwa [hpr] at this
  have := abs_sub_le (average fun f : Table CS =>
      tapeChance (N * block) fun t => S.run f (fun r => voprfServeWith k (k • CS.group.baseElem) r f) t = some true)
    (average fun f : Table CS => S.real f fun r ρ => voprfAnswer k (k • CS.group.baseElem) r f (draw ρ))
    (average fun f : Table CS => S.ideal (fun _ _ => SimCoins (k • CS.group.baseElem))
        (voprfSimulator (fun P => k • P) (k • CS.group.baseElem)) f)
  linarith

/-- C67, POPRF: the same; the simulator gets the evaluations under the tweaked keys. -/
theorem C67_poprf (wf : CS.WF) {block p q : Nat} (hp : 0 < p) (hpq : p ≤ q) (hu : NearlyUniform CS.group block p q)
    (k : CS.Scalar) {σ : Type} [RngCore σ] (draw : Nonce CS → σ) (hd : Draws draw)
    (S : Distinguisher Question CS.Scalar (EvalRequest CS × Option Bytes) (EvalResponse CS)) (n m : Nat) (hS : S.Within n m)
    (N : Nat) :
    |(average fun f : Table CS =>
        tapeChance (N * block) fun t => S.run f (fun r => poprfServeWith k (k • CS.group.baseElem) r f) t = some true) -
      (average fun f : Table CS => S.ideal (PoprfCoins (k • CS.group.baseElem))
        (poprfSimulator (fun m P => (k + m)⁻¹ • P) (k • CS.group.baseElem)) f)| ≤
      (m * (n + m) : ℚ) / Nat.card (Nonce CS) + (((q : ℚ) / p) ^ m - 1 + tapeChance (N * block) (RunsDry CS.group m)) := by
  have : Finite CS.Scalar := VGroup.Lawful.finite_scalar
  have : Nonempty (Table CS) := ⟨fun _ => 0⟩
  have h1 := C52_poprf wf k draw hd S n m hS
  have h2 := abs_average_sub_le (fun f : Table CS =>
      tapeChance (N * block) fun t => S.run f (fun r => poprfServeWith k (k • CS.group.baseElem) r f) t = some true)
    (fun f : Table CS => S.real f fun r ρ => poprfAnswer k (k • CS.group.baseElem) r f (draw ρ)) _ fun f => by
      obtain ⟨T, hT, hr, hpr⟩ := exists_drawer f (fun r => poprfServeWith k (k • CS.group.baseElem) r f)
        (fun r ρ => poprfAnswer k (k • CS.group.baseElem) r f (draw ρ)) (fun r => poprf_serves wf k draw hd r f) S n m hS
      have := C61_programs hp hpq hu N m T hT (· = true)
      simp only [hr, exists_eq_right] at this
      rwa [hpr] at this
  have := abs_sub_le (average fun f : Table CS =>
      tapeChance (N * block) fun t => S.run f (fun r => poprfServeWith k (k • CS.group.baseElem) r f) t = some true)
    (average fun f : Table CS => S.real f fun r ρ => poprfAnswer k (k • CS.group.baseElem) r f (draw ρ))
    (average fun f : Table CS => S.ideal (PoprfCoins (k • CS.group.baseElem))
        (poprfSimulator (fun m P => (k + m)⁻¹ • P) (k • CS.group.baseElem)) f)
  linarith

end Voprf
