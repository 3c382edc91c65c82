import Verif.Props.Cost
import Verif.Props.Randomness

/-!
# C53: the generator after a call that failed
-/

namespace Voprf

open Spec Leak

variable {CS : CipherSuite} {α β : Type}

/-- How many random scalars a call draws. -/
abbrev draws (x : T α) : Nat := opCount .randomScalar x.trace

/-- A call that returns an error has drawn no random scalar. -/
def ErrNoDraw (x : T α) : Prop := ∀ e, x.val = .err e → draws x = 0

namespace ErrNoDraw

theorem bind {x : T α} {f : α → T β} (hx : ErrNoDraw x) (h0 : draws x = 0 ∨ ∀ a e, (f a).val ≠ .err e)
    (hf : ∀ a, x.val = .ok a → ErrNoDraw (f a)) : ErrNoDraw (x >>= f) := by
  intro e he
  have ht : (x >>= f) = T.bind x f := rfl
  unfold draws
  rw [ht] at he ⊢
  unfold T.bind at he ⊢
  cases hv : x.val with
  | ok a =>
    simp only [hv] at he ⊢
    rw [opCount_append]
    rcases h0 with h0 | h0
    · have := hf a hv e he
      unfold draws at this h0
      omega
    · exact absurd he (h0 a e)
  | err e' =>
    simp only [hv] at he ⊢
    exact hx e' hv
  | panic => simp [hv] at he
  | diverge => simp [hv] at he

theorem of_zero {x : T α} (h : draws x = 0) : ErrNoDraw x := fun _ _ => h
theorem of_noErr {x : T α} (h : ∀ e, x.val ≠ .err e) : ErrNoDraw x := fun e he => absurd he (h e)

theorem unwrap (x : T α) : ErrNoDraw (T.unwrap x) := by
  refine of_noErr fun e => ?_
  rw [T.val_unwrap]
  cases x.val <;> simp [Res.unwrap]

end ErrNoDraw

theorem draws_of_costs {x : T α} {c : Cost} (h : Costs x c) (h0 : c .randomScalar = 0) : draws x = 0 := by
  have := (h .randomScalar).1
  unfold draws
  omega

theorem dst_noErr (par : Bytes) (mode : Mode) (e : Error) : Dst.new CS par mode ≠ .err e := by
  unfold Dst.new
  simp only
  split <;> simp

theorem unwrapExcept_noErr {ε : Type} (r : Except ε α) (e : Error) : Res.unwrapExcept r ≠ .err e := by
  cases r <;> simp [Res.unwrapExcept]

theorem challenge_noErr (b m z t2 t3 : CS.Elem) (mode : Mode) (e : Error) :
    (Leak.challenge CS b m z t2 t3 mode).val ≠ .err e := by
  unfold Leak.challenge
  simp only [T.val_bind, Leak.ser, T.val_call, Res.ok_bind, T.val_check, T.val_callRes]
  cases hd : Dst.new CS STR_HASH_TO_SCALAR mode with
  | ok d => exact unwrapExcept_noErr _ e
  | err e' => exact absurd hd (dst_noErr _ _ e')
  | panic => simp
  | diverge => simp

theorem proof_errNoDraw {σ : Type} [RngCore σ] (rng : σ) (k : CS.Scalar) (a b : CS.Elem) (cs ds : List CS.Elem)
    (mode : Mode) : ErrNoDraw (Leak.generateProof CS rng k a b cs ds mode) := by
  unfold Leak.generateProof
  have h0 := draws_of_costs (costs_compositesKey (CS := CS) k b cs ds mode) rfl
  refine .bind (.of_zero h0) (.inl h0) fun mz _ => ?_
  refine .of_noErr fun e => ?_
  simp only [T.val_bind, T.val_callRes, Leak.mul, T.val_call, Res.ok_bind]
  cases hr : CS.group.randomScalar rng with
  | none => simp [Res.ofLoop]
  | some r =>
    simp only [Res.ofLoop, Res.ok_bind]
    cases hc : (Leak.challenge CS b mz.1 mz.2 (CS.group.elemMul a r.1) (CS.group.elemMul mz.1 r.1) mode).val with
    | ok c => simp
    | err e' => exact absurd hc (challenge_noErr _ _ _ _ _ _ e')
    | panic => simp
    | diverge => simp

/-- C53: a server call that returns an error has drawn nothing, so the next call uses the draw this one would have used.
(In the record of `Model/Leak.lean`, which `C47_instrumentation_faithful` ties to the model.) -/
theorem C53_failed_answer {σ : Type} [RngCore σ] (rng : σ) (s : Voprf.VoprfServer CS) (p : Voprf.PoprfServer CS)
    (b : BlindedElement CS) (bs : List (BlindedElement CS)) (es : List (PreparedEvaluationElement CS)) (t : CS.Scalar)
    (info : Option Bytes) (e : Error) :
    ((Leak.VoprfServer.blindEvaluate s rng b).val = .err e →
      opCount .randomScalar (Leak.VoprfServer.blindEvaluate s rng b).trace = 0) ∧
    ((Leak.VoprfServer.batchBlindEvaluate s rng bs).val = .err e →
      opCount .randomScalar (Leak.VoprfServer.batchBlindEvaluate s rng bs).trace = 0) ∧
    ((Leak.VoprfServer.batchBlindEvaluateFinish s rng bs es).val = .err e →
      opCount .randomScalar (Leak.VoprfServer.batchBlindEvaluateFinish s rng bs es).trace = 0) ∧
    ((Leak.PoprfServer.blindEvaluate p rng b info).val = .err e →
      opCount .randomScalar (Leak.PoprfServer.blindEvaluate p rng b info).trace = 0) ∧
    ((Leak.PoprfServer.batchBlindEvaluate p rng bs info).val = .err e →
      opCount .randomScalar (Leak.PoprfServer.batchBlindEvaluate p rng bs info).trace = 0) ∧
    ((Leak.PoprfServer.batchBlindEvaluateFinish rng bs es t).val = .err e →
      opCount .randomScalar (Leak.PoprfServer.batchBlindEvaluateFinish rng bs es t).trace = 0) := by
  have vf : ∀ bs es, ErrNoDraw (Leak.VoprfServer.batchBlindEvaluateFinish s rng bs es) := fun bs es =>
    .bind (proof_errNoDraw _ _ _ _ _ _ _) (.inr fun a e => by simp) fun a _ => .of_zero rfl
  have pf : ∀ es, ErrNoDraw (Leak.PoprfServer.batchBlindEvaluateFinish rng bs es t) := fun es =>
    .bind (.of_zero rfl) (.inl rfl) fun a _ =>
      .bind (proof_errNoDraw _ _ _ _ _ _ _) (.inr fun a e => by simp) fun a _ => .of_zero rfl
  have head : ∀ {γ δ : Type} (l : List γ) (f : γ → δ) (e : Error),
      (T.check (Res.unwrapOption l.head?) >>= fun m => (pure (f m) : T δ)).val ≠ .err e := by
    intro γ δ l f e
    rw [T.val_bind, T.val_check]
    cases l.head? <;> simp [Res.unwrapOption]
  refine ⟨?_, ?_, vf bs es e, ?_, ?_, pf es e⟩
  · refine ErrNoDraw.bind (.of_zero rfl) (.inl rfl) (fun a _ => ?_) e
    exact .bind (.unwrap _) (.inr fun r e => head _ _ e) fun r _ => .of_noErr fun e => head _ _ e
  · have h0 := draws_of_costs (Costs.collect (bs.map (Leak.VoprfServer.prepareItem s)) oprfServerCost
      (by simpa using fun a _ => (C57_voprf_server s rng bs a es []).2.2.1)) (by simp [oprfServerCost])
    exact ErrNoDraw.bind (.of_zero h0) (.inl h0) (fun a _ => vf bs a) e
  · have h0 := draws_of_costs (costs_tweak (CS := CS) p.sk info) rfl
    refine ErrNoDraw.bind (.of_zero h0) (.inl h0) (fun tw _ => ?_) e
    have h1 := draws_of_costs (C57_poprf_server p rng bs b es tw [] info).2.2.1 rfl
    refine .bind (.of_zero h1) (.inl h1) fun a _ => ?_
    exact .bind (.unwrap _) (.inr fun r e => head _ _ e) fun r _ => .of_noErr fun e => head _ _ e
  · have h0 := draws_of_costs (costs_tweak (CS := CS) p.sk info) rfl
    refine ErrNoDraw.bind (.of_zero h0) (.inl h0) (fun tw _ => ?_) e
    have h1 := draws_of_costs (Costs.collect (bs.map (Leak.PoprfServer.prepareItem tw)) poprfPrepareCost
      (by simpa using fun a _ => (C57_poprf_server p rng bs a es tw [] info).2.2.1)) (by simp [poprfPrepareCost])
    exact .bind (.of_zero h1) (.inl h1) fun a _ => .unwrap _

/-- C53: `blind` has drawn its one scalar even when it returns an error. -/
theorem C53_failed_blind {σ : Type} [RngCore σ] (rng : σ) (input : Bytes) :
    opCount .randomScalar (Leak.OprfClient.blindInput CS input rng).trace = 1 ∧
    opCount .randomScalar (Leak.VoprfClient.blindInput CS input rng).trace = 1 ∧
    opCount .randomScalar (Leak.PoprfClient.blindInput CS input rng).trace = 1 := by
  have key : ∀ {δ : Type} (f : CS.Scalar × σ → T δ), (∀ p, draws (f p) = 0) →
      draws (T.callRes .randomScalar [] (Res.ofLoop (CS.group.randomScalar rng)) >>= f) = 1 := by
    intro δ f hf
    show opCount .randomScalar (T.bind _ f).trace = 1
    unfold T.bind
    cases hr : CS.group.randomScalar rng with
    | none => simp [T.callRes, Res.ofLoop, opCount, List.filter]
    | some p =>
      simp only [T.callRes, Res.ofLoop, opCount_append]
      have := hf p
      unfold draws at this
      rw [this]
      simp [opCount, List.filter]
  have blind : ∀ {δ : Type} (m : Mode) (x : CS.Scalar) (g : CS.Elem → δ),
      draws (Leak.deterministicBlindUnchecked CS input x m >>= fun P => (pure (g P) : T δ)) = 0 := by
    intro δ m x g
    exact draws_of_costs (c := one .hashToCurve + one .elemMul + 0)
      (Costs.bind (Costs.bind (costs_hashToGroup input m) fun P _ => costs_mul P x) fun P _ => Costs.pure _) rfl
  exact ⟨key _ fun p => blind _ _ _, key _ fun p => blind _ _ _, key _ fun p => blind _ _ _⟩

section examples
open Toy

/-- A refused batch (two requests, one prepared element) and a refused info leave the generator alone. -/
example : (Leak.VoprfServer.batchBlindEvaluateFinish (⟨7, 7⟩ : Voprf.VoprfServer suite) (⟨9⟩ : Rng)
      [⟨3⟩, ⟨4⟩] [⟨⟨21⟩⟩]).val = .err .Batch ∧
    (Leak.PoprfServer.blindEvaluate (⟨7, 7⟩ : Voprf.PoprfServer suite) (⟨9⟩ : Rng) ⟨3⟩
      (some (List.replicate 65536 0))).val = .err .Info := by
  have hi : i2osp2 (List.replicate 65536 (0 : UInt8)).length = .error .I2osp := by rw [List.length_replicate]; rfl
  refine ⟨rfl, ?_⟩
  unfold Leak.PoprfServer.blindEvaluate Leak.Poprf.computeTweak Leak.Poprf.hashInfo
  simp only [T.val_bind, T.val_check, Option.getD_some, hi, Res.mapErr, Res.err_bind]

end examples

end Voprf
