import Verif.Spec.Cost
import Verif.Lemmas.Leak
import Verif.Spec.Reach
import Verif.Toy

/-!
# C57: the work of every call is linear in the number of items
-/

namespace Voprf

open Spec Leak

variable {CS : CipherSuite} {α β : Type}

theorem opCount_append (o : Op) (s t : List Event) : opCount o (s ++ t) = opCount o s + opCount o t := by
  simp [opCount]

/-- One operation. -/
def one (o : Op) : Cost := fun o' => if o = o' then 1 else 0

namespace Spec.Costs

theorem cast {x : T α} {c d : Cost} (h : Costs x c) (e : ∀ o, c o = d o) : Costs x d := by
  rw [← funext e]; exact h

theorem bind {x : T α} {f : α → T β} {c d : Cost} (hx : Costs x c) (hf : ∀ a, x.val = .ok a → Costs (f a) d) :
    Costs (x >>= f) (c + d) := by
  intro o
  show opCount o (T.bind x f).trace ≤ c o + d o ∧ ∀ a, (T.bind x f).val = _ → opCount o (T.bind x f).trace = c o + d o
  obtain ⟨h1, h2⟩ := hx o
  unfold T.bind
  cases e : x.val with
  | ok a =>
    obtain ⟨h3, h4⟩ := hf a e o
    simp only [opCount_append]
    refine ⟨Nat.add_le_add h1 h3, fun b hb => ?_⟩
    rw [h2 a e, h4 b hb]
  | err _ => exact ⟨h1.trans (Nat.le_add_right _ _), fun _ h => by simp at h⟩
  | panic => exact ⟨h1.trans (Nat.le_add_right _ _), fun _ h => by simp at h⟩
  | diverge => exact ⟨h1.trans (Nat.le_add_right _ _), fun _ h => by simp at h⟩

theorem pure (a : α) : Costs (Pure.pure a : T α) 0 := fun _ => ⟨Nat.zero_le _, fun _ _ => rfl⟩

theorem call (o : Op) (l : List Nat) (a : α) : Costs (T.call o l a) (one o) := by
  intro o'
  by_cases h : o = o' <;> simp [opCount, T.call, one, h]

theorem callRes (o : Op) (l : List Nat) (r : Res α) : Costs (T.callRes o l r) (one o) := by
  intro o'
  by_cases h : o = o' <;> simp [opCount, T.callRes, one, h]

theorem check (r : Res α) : Costs (T.check r) 0 := fun o => by simp [opCount, T.check]

theorem fail (e : Error) (c : Cost) : Costs (T.check (Res.err e : Res α)) c := fun o => by simp [opCount, T.check]

theorem test (o : Op) (b : Bool) : Costs (T.test o b) (one o) := by
  intro o'
  by_cases h : o = o' <;> simp [opCount, T.test, one, h]

theorem unwrap {x : T α} {c : Cost} (h : Costs x c) : Costs (T.unwrap x) c := by
  intro o
  have e : opCount o (T.unwrap x).trace = opCount o x.trace := by
    show opCount o (x.trace ++ _) = _
    rw [opCount_append]; simp [opCount]
  rw [e]
  refine ⟨(h o).1, fun a ha => ?_⟩
  rw [T.val_unwrap] at ha
  cases hx : x.val with
  | ok b => exact (h o).2 b hx
  | _ => rw [hx] at ha; simp [Res.unwrap] at ha

theorem collect (xs : List (T α)) (c : Cost) (h : ∀ x ∈ xs, Costs x c) :
    Costs (T.collect xs) (fun o => xs.length * c o) := by
  induction xs with
  | nil => exact (Costs.pure []).cast fun o => by simp
  | cons x xs ih =>
    refine (bind (h x (by simp)) fun a _ => bind (ih fun y hy => h y (by simp [hy])) fun as _ => pure _).cast fun o => ?_
    simp [Nat.add_mul, Nat.add_comm]

end Spec.Costs

macro "cost" : tactic =>
  `(tactic| (intro o; cases o <;> simp [one, Pi.add_apply] <;> (try omega)))

open Costs

theorem costs_mul (P : CS.Elem) (k : CS.Scalar) : Costs (Leak.mul CS P k) (one .elemMul) := call _ _ _
theorem costs_add (P Q : CS.Elem) : Costs (Leak.add CS P Q) (one .elemAdd) := call _ _ _
theorem costs_ser (P : CS.Elem) : Costs (Leak.ser CS P) (one .serializeElem) := call _ _ _
theorem costs_digest (ps : List Bytes) : Costs (Leak.digest CS ps) (one .digest) := call _ _ _

theorem costs_seed (b : CS.Elem) (mode : Mode) :
    Costs (Leak.compositesSeed CS b mode) (one .serializeElem + one .digest) :=
  ((costs_ser b).bind fun _ _ => (check _).bind fun _ _ => (check _).bind fun _ _ => costs_digest _).cast
    fun o => by simp

/-- One item of the composites, with the key. -/
def stepCostKey : Cost
  | .serializeElem => 2 | .hashToScalar => 1 | .elemMul => 1 | .elemAdd => 1
  | _ => 0

/-- One item of the composites, without the key. -/
def stepCost : Cost
  | .serializeElem => 2 | .hashToScalar => 1 | .elemMul => 2 | .elemAdd => 2
  | _ => 0

theorem costs_stepKey (k : CS.Scalar) (seed : Bytes) (mode : Mode) (acc) (item) :
    Costs (Leak.compositeStep CS (some k) seed mode acc item) stepCostKey :=
  ((costs_ser _).bind fun _ _ => (costs_ser _).bind fun _ _ => (check _).bind fun _ _ => (callRes _ _ _).bind fun _ _ =>
    (costs_mul _ _).bind fun _ _ => (costs_add _ _).bind fun _ _ => (pure _).bind fun _ _ => pure _).cast
    (by unfold stepCostKey; cost)

theorem costs_step (seed : Bytes) (mode : Mode) (acc) (item) :
    Costs (Leak.compositeStep CS none seed mode acc item) stepCost :=
  ((costs_ser _).bind fun _ _ => (costs_ser _).bind fun _ _ => (check _).bind fun _ _ => (callRes _ _ _).bind fun x _ =>
    (costs_mul _ _).bind fun _ _ => (costs_add _ _).bind fun _ _ =>
    ((costs_mul item.2.2 x).bind fun _ _ => costs_add _ _).bind fun _ _ => pure _).cast
    (by unfold stepCost; cost)

theorem costs_loop (kOption : Option CS.Scalar) (seed : Bytes) (mode : Mode) (c : Cost)
    (h : ∀ acc item, Costs (Leak.compositeStep CS kOption seed mode acc item) c) (acc) (items) :
    Costs (Leak.compositeLoop CS kOption seed mode acc items) (fun o => items.length * c o) := by
  induction items generalizing acc with
  | nil => exact (pure _).cast fun o => by simp
  | cons item items ih =>
    exact ((h acc item).bind fun a _ => ih a).cast fun o => by simp [Nat.add_mul, Nat.add_comm]

/-- `compute_composites` of `n` items, with the key. -/
def compositesCostKey (n : Nat) : Cost
  | .serializeElem => 2 * n + 1 | .hashToScalar => n | .elemMul => n + 1 | .elemAdd => n | .digest => 1
  | _ => 0

/-- `compute_composites` of `n` items, without the key. -/
def compositesCost (n : Nat) : Cost
  | .serializeElem => 2 * n + 1 | .hashToScalar => n | .elemMul => 2 * n | .elemAdd => 2 * n | .digest => 1
  | _ => 0

theorem zip_length {n : Nat} {cs ds : List CS.Elem} (h : cs.length = ds.length) (e : u16TryFrom cs.length = some n) :
    ((List.range n).zip (cs.zip ds)).length = cs.length := by
  have : n = cs.length := by
    unfold u16TryFrom at e
    split at e <;> simp_all
  subst this
  simp [List.length_zip, List.length_range, h]

theorem costs_compositesKey (k : CS.Scalar) (b : CS.Elem) (cs ds : List CS.Elem) (mode : Mode) :
    Costs (Leak.computeComposites CS (some k) b cs ds mode) (compositesCostKey cs.length) := by
  refine Costs.cast (c := 0 + (0 + ((one .serializeElem + one .digest) +
    ((fun o => cs.length * stepCostKey o) + (one .elemMul + 0))))) ?_ ?_
  · refine (check _).bind fun _ h => (check _).bind fun len hl => (costs_seed _ _).bind fun seed _ =>
      Costs.bind ?_ fun ⟨m, z⟩ _ => (costs_mul _ _).bind fun _ _ => pure _
    have h1 : cs.length = ds.length := by
      rw [T.val_check] at h
      by_contra hc
      rw [if_pos hc] at h
      cases h
    have h2 : u16TryFrom cs.length = some len := by
      rw [T.val_check] at hl
      cases e : u16TryFrom cs.length with
      | none => rw [e] at hl; cases hl
      | some x => rw [e] at hl; cases hl; rfl
    have := costs_loop (some k) seed mode stepCostKey (costs_stepKey k seed mode)
      (CS.group.identityElem, CS.group.identityElem) ((List.range len).zip (cs.zip ds))
    rwa [zip_length h1 h2] at this
  · unfold compositesCostKey stepCostKey; cost

theorem costs_composites (b : CS.Elem) (cs ds : List CS.Elem) (mode : Mode) :
    Costs (Leak.computeComposites CS none b cs ds mode) (compositesCost cs.length) := by
  refine Costs.cast (c := 0 + (0 + ((one .serializeElem + one .digest) +
    ((fun o => cs.length * stepCost o) + (0 + 0))))) ?_ ?_
  · refine (check _).bind fun _ h => (check _).bind fun len hl => (costs_seed _ _).bind fun seed _ =>
      Costs.bind ?_ fun ⟨m, z⟩ _ => (pure _).bind fun _ _ => pure _
    have h1 : cs.length = ds.length := by
      rw [T.val_check] at h
      by_contra hc
      rw [if_pos hc] at h
      cases h
    have h2 : u16TryFrom cs.length = some len := by
      rw [T.val_check] at hl
      cases e : u16TryFrom cs.length with
      | none => rw [e] at hl; cases hl
      | some x => rw [e] at hl; cases hl; rfl
    have := costs_loop none seed mode stepCost (costs_step seed mode)
      (CS.group.identityElem, CS.group.identityElem) ((List.range len).zip (cs.zip ds))
    rwa [zip_length h1 h2] at this
  · unfold compositesCost stepCost; cost

/-- The challenge hash. -/
def challengeCost : Cost
  | .serializeElem => 5 | .hashToScalar => 1
  | _ => 0

theorem costs_challenge (b m z t2 t3 : CS.Elem) (mode : Mode) :
    Costs (Leak.challenge CS b m z t2 t3 mode) challengeCost :=
  ((costs_ser _).bind fun _ _ => (costs_ser _).bind fun _ _ => (costs_ser _).bind fun _ _ => (costs_ser _).bind fun _ _ =>
    (costs_ser _).bind fun _ _ => (check _).bind fun _ _ => callRes _ _ _).cast (by unfold challengeCost; cost)

theorem costs_proof {σ : Type} [RngCore σ] (rng : σ) (k : CS.Scalar) (a b : CS.Elem) (cs ds : List CS.Elem) (mode : Mode) :
    Costs (Leak.generateProof CS rng k a b cs ds mode) (voprfFinishCost cs.length) :=
  ((costs_compositesKey k b cs ds mode).bind fun ⟨m, z⟩ _ => (callRes _ _ _).bind fun ⟨r, rng'⟩ _ =>
    (costs_mul _ _).bind fun _ _ => (costs_mul _ _).bind fun _ _ => (costs_challenge _ _ _ _ _ _).bind fun _ _ =>
    (call _ _ _).bind fun _ _ => (call _ _ _).bind fun _ _ => pure _).cast
    (by unfold voprfFinishCost compositesCostKey challengeCost; cost)

theorem costs_verify (a b : CS.Elem) (cs ds : List CS.Elem) (proof : Proof CS) (mode : Mode) :
    Costs (Leak.verifyProof CS a b cs ds proof mode) (voprfVerifyCost cs.length) :=
  ((costs_composites b cs ds mode).bind fun ⟨m, z⟩ _ =>
    (costs_mul _ _).bind fun _ _ => (costs_mul _ _).bind fun _ _ => (costs_add _ _).bind fun _ _ =>
    (costs_mul _ _).bind fun _ _ => (costs_mul _ _).bind fun _ _ => (costs_add _ _).bind fun _ _ =>
    (costs_challenge _ _ _ _ _ _).bind fun _ _ => (test _ _).bind (d := 0) fun s _ => by
      cases s
      · exact fail _ _
      · exact pure _).cast
    (by unfold voprfVerifyCost compositesCost challengeCost; cost)

theorem costs_hashToGroup (input : Bytes) (mode : Mode) : Costs (Leak.hashToGroup CS input mode) (one .hashToCurve) :=
  ((check _).bind fun _ _ => callRes _ _ _).cast fun o => by simp

theorem costs_unblind (blind : CS.Scalar) (e : CS.Elem) : Costs (Leak.unblind blind e) (one .invertScalar + one .elemMul) :=
  (callRes _ _ _).bind fun _ _ => costs_mul _ _

theorem costs_item (input : Bytes) (blind : CS.Scalar) (e : CS.Elem) :
    Costs (Leak.finalizeItem CS input (Leak.unblind blind e)) itemCost :=
  ((costs_unblind _ _).bind fun _ _ => (check _).bind fun _ _ => (costs_ser _).bind fun _ _ => costs_digest _).cast
    (by unfold itemCost; cost)

theorem costs_poprfItem (input info : Bytes) (blind : CS.Scalar) (e : CS.Elem) :
    Costs (Leak.Poprf.finalizeItem CS input info (Leak.unblind blind e)) itemCost :=
  ((costs_unblind _ _).bind fun _ _ => (check _).bind fun _ _ => (check _).bind fun _ _ => (costs_ser _).bind fun _ _ =>
    costs_digest _).cast (by unfold itemCost; cost)

theorem costs_output (input : Bytes) (info : Option Bytes) (e : Bytes) :
    Costs (Leak.serverEvaluateHashInput CS input info e) (one .digest) := by
  cases info with
  | none =>
    exact ((check _).bind fun _ _ => (pure _).bind fun _ _ => (check _).bind fun _ _ => costs_digest _).cast
      fun o => by simp
  | some i =>
    exact ((check _).bind fun _ _ => (check _).bind fun _ _ => (pure _).bind fun _ _ => (check _).bind fun _ _ =>
      costs_digest _).cast fun o => by simp

theorem costs_evaluate (mode : Mode) (sk : CS.Scalar) (input : Bytes) :
    Costs (Leak.OprfServer.evaluateIn CS mode sk input) evaluateCost :=
  ((costs_hashToGroup _ _).bind fun _ _ => (test _ _).bind
    (d := one .elemMul + (one .serializeElem + one .digest)) fun z _ => by
      cases z
      · exact (costs_mul _ _).bind fun _ _ => (costs_ser _).bind fun _ _ => costs_output _ _ _
      · exact fail _ _).cast (by unfold evaluateCost; cost)

theorem costs_tweak (sk : CS.Scalar) (info : Option Bytes) :
    Costs (Leak.Poprf.computeTweak CS sk info) (one .hashToScalar + (one .scalarAdd + one .isZeroScalar)) :=
  (((check _).bind fun _ _ => (check _).bind fun _ _ => callRes _ _ _ : Costs (Leak.Poprf.hashInfo CS info) _).bind
    fun _ _ => (call _ _ _).bind fun _ _ => (test _ _).bind (d := 0) fun z _ => by
      cases z
      · exact pure _
      · exact fail _ _).cast fun o => by simp

theorem costs_tweakedKey (pk : CS.Elem) (info : Option Bytes) :
    Costs (Leak.Poprf.computeTweakedKey CS pk info)
      (one .hashToScalar + (one .elemMul + (one .elemAdd + one .isIdentityElem))) :=
  (((check _).bind fun _ _ => (check _).bind fun _ _ => callRes _ _ _ : Costs (Leak.Poprf.hashInfo CS info) _).bind
    fun _ _ => (costs_mul _ _).bind fun _ _ => (costs_add _ _).bind fun _ _ => (test _ _).bind (d := 0) fun z _ => by
      cases z
      · exact pure _
      · exact fail _ _).cast fun o => by simp

/-! ## C57 -/

/-- C57, `blind`: one random scalar, one hash to the group, one multiplication. -/
theorem C57_blind {σ : Type} [RngCore σ] (input : Bytes) (rng : σ) :
    Costs (Leak.OprfClient.blindInput CS input rng) blindCost ∧
    Costs (Leak.VoprfClient.blindInput CS input rng) blindCost ∧
    Costs (Leak.PoprfClient.blindInput CS input rng) blindCost :=
  ⟨((callRes _ _ _).bind fun ⟨_, _⟩ _ => ((costs_hashToGroup _ _).bind fun _ _ => costs_mul _ _).bind fun _ _ =>
      pure _).cast (by unfold blindCost; cost),
    ((callRes _ _ _).bind fun ⟨_, _⟩ _ => ((costs_hashToGroup _ _).bind fun _ _ => costs_mul _ _).bind fun _ _ =>
      pure _).cast (by unfold blindCost; cost),
    ((callRes _ _ _).bind fun ⟨_, _⟩ _ => ((costs_hashToGroup _ _).bind fun _ _ => costs_mul _ _).bind fun _ _ =>
      pure _).cast (by unfold blindCost; cost)⟩

/-- C57, OPRF. -/
theorem C57_oprf (s : Voprf.OprfServer CS) (c : Voprf.OprfClient CS) (b : BlindedElement CS) (input : Bytes)
    (e : EvaluationElement CS) :
    Costs (Leak.OprfServer.blindEvaluate s b) oprfServerCost ∧
    Costs (Leak.OprfClient.finalize c input e) itemCost ∧
    Costs (Leak.OprfServer.evaluate s input) evaluateCost :=
  ⟨((costs_mul _ _).bind fun _ _ => pure _).cast (by unfold oprfServerCost; cost), costs_item _ _ _,
    costs_evaluate _ _ _⟩

theorem costs_voprfFinish {σ : Type} [RngCore σ] (s : Voprf.VoprfServer CS) (rng : σ) (bs : List (BlindedElement CS))
    (ps : List (PreparedEvaluationElement CS)) :
    Costs (Leak.VoprfServer.batchBlindEvaluateFinish s rng bs ps) (voprfFinishCost bs.length) :=
  ((costs_proof _ _ _ _ _ _ _).bind fun ⟨_, _⟩ _ => pure _).cast fun o => by simp

theorem costs_poprfFinish {σ : Type} [RngCore σ] (rng : σ) (bs : List (BlindedElement CS))
    (ps : List (PreparedEvaluationElement CS)) (t : CS.Scalar) :
    Costs (Leak.PoprfServer.batchBlindEvaluateFinish rng bs ps t) (poprfFinishCost ps.length) :=
  ((costs_mul _ _).bind fun _ _ => (costs_proof _ _ _ _ _ _ _).bind fun ⟨_, _⟩ _ => pure _).cast (by unfold poprfFinishCost voprfFinishCost; cost)

/-- C57, VOPRF server: `2n + 3` multiplications for `n` elements, alone or in a batch, whatever the elements are. -/
theorem C57_voprf_server {σ : Type} [RngCore σ] (s : Voprf.VoprfServer CS) (rng : σ) (bs : List (BlindedElement CS))
    (b : BlindedElement CS) (ps : List (PreparedEvaluationElement CS)) (input : Bytes) :
    Costs (Leak.VoprfServer.batchBlindEvaluate s rng bs) (voprfServerCost bs.length) ∧
    Costs (Leak.VoprfServer.blindEvaluate s rng b) (voprfServerCost 1) ∧
    Costs (Leak.VoprfServer.prepareItem s b) oprfServerCost ∧
    Costs (Leak.VoprfServer.batchBlindEvaluateFinish s rng bs ps) (voprfFinishCost bs.length) ∧
    Costs (Leak.VoprfServer.evaluate s input) evaluateCost := by
  have hp : ∀ b, Costs (Leak.VoprfServer.prepareItem s b) oprfServerCost := fun b =>
    ((costs_mul _ _).bind fun _ _ => pure _).cast (by unfold oprfServerCost; cost)
  refine ⟨?_, ?_, hp b, costs_voprfFinish s rng bs ps, costs_evaluate _ _ _⟩
  · refine ((collect (bs.map (Leak.VoprfServer.prepareItem s)) oprfServerCost (by simpa using fun b _ => hp b)).bind
      fun ps _ => costs_voprfFinish _ _ _ _).cast ?_
    rw [List.length_map]
    unfold voprfServerCost voprfFinishCost oprfServerCost; cost
  · exact ((hp b).bind fun p _ => (costs_voprfFinish s rng [b] [p]).unwrap.bind fun ⟨_, _⟩ _ => (check _).bind
      fun _ _ => pure _).cast (by unfold voprfServerCost voprfFinishCost oprfServerCost; cost)

theorem verify_lengths {a b : CS.Elem} {cs ds : List CS.Elem} {proof : Proof CS} {mode : Mode} {u : Unit}
    (h : (Leak.verifyProof CS a b cs ds proof mode).val = .ok u) : cs.length = ds.length := by
  by_contra hne
  unfold Leak.verifyProof Leak.computeComposites at h
  simp [hne] at h

theorem bind_ok {α β : Type} {x : Res α} {f : α → Res β} {b : β} (h : (x >>= f) = .ok b) :
    ∃ a, x = .ok a ∧ f a = .ok b := Res.bind_eq_ok.mp h

/-- C57, VOPRF client: `2n + 4` multiplications to verify a batch for `n` clients, and then one for each output that is
asked for. -/
theorem C57_voprf_client (inputs : List Bytes) (cs : List (Voprf.VoprfClient CS)) (es : List (EvaluationElement CS))
    (p : Proof CS) (pk : CS.Elem) (c : Voprf.VoprfClient CS) (input : Bytes) (e : EvaluationElement CS) :
    BatchCosts (Leak.VoprfClient.batchFinalize inputs cs es p pk) (voprfVerifyCost cs.length) itemCost
      (min inputs.length cs.length) ∧
    Costs (Leak.VoprfClient.finalize c input e p pk) (voprfVerifyCost 1 + itemCost) := by
  have hv : ∀ (inputs : List Bytes) (cs : List (Voprf.VoprfClient CS)) (es : List (EvaluationElement CS)),
      BatchCosts (Leak.VoprfClient.batchFinalize inputs cs es p pk) (voprfVerifyCost cs.length) itemCost
      (min inputs.length cs.length) := by
    intro inputs cs es
    refine ⟨((costs_verify _ _ _ _ _ _).bind fun _ _ => pure _).cast fun o => by simp, fun items h => ?_⟩
    unfold Leak.VoprfClient.batchFinalize at h
    rw [T.val_bind] at h
    obtain ⟨u, hu, h⟩ := bind_ok h
    cases h
    have := verify_lengths hu
    simp only [List.length_map] at this
    refine ⟨by simp [this], fun i hi => ?_⟩
    obtain ⟨⟨x, b, e⟩, _, rfl⟩ := List.mem_map.mp hi
    exact costs_item _ _ _
  refine ⟨hv _ _ _, ?_⟩
  refine ((hv [input] [c] [e]).1.bind (d := 0 + itemCost) fun items h => (check _).bind fun i hi => ?_).cast
    fun o => by simp
  rw [T.val_check] at hi
  cases items with
  | nil => cases hi
  | cons y ys => cases hi; exact ((hv [input] [c] [e]).2 _ h).2 _ (by simp)

/-- C57, POPRF server: `2n + 4` multiplications for `n` elements. -/
theorem C57_poprf_server {σ : Type} [RngCore σ] (s : Voprf.PoprfServer CS) (rng : σ) (bs : List (BlindedElement CS))
    (b : BlindedElement CS) (ps : List (PreparedEvaluationElement CS)) (t : CS.Scalar) (input : Bytes)
    (info : Option Bytes) :
    Costs (Leak.PoprfServer.batchBlindEvaluate s rng bs info) (poprfServerCost bs.length) ∧
    Costs (Leak.PoprfServer.blindEvaluate s rng b info) (poprfServerCost 1) ∧
    Costs (Leak.PoprfServer.prepareItem t b) poprfPrepareCost ∧
    Costs (Leak.PoprfServer.batchBlindEvaluateFinish rng bs ps t) (poprfFinishCost ps.length) ∧
    Costs (Leak.PoprfServer.evaluate s input info) poprfEvaluateCost := by
  have hp : ∀ (t : CS.Scalar) b, Costs (Leak.PoprfServer.prepareItem t b) poprfPrepareCost := fun t b =>
    ((costs_unblind _ _).bind fun _ _ => pure _).cast (by unfold poprfPrepareCost; cost)
  have hl : ∀ (xs : List (T (PreparedEvaluationElement CS))) ps, (T.collect xs).val = .ok ps → ps.length = xs.length := by
    intro xs
    induction xs with
    | nil => intro ps h; cases h; rfl
    | cons x xs ih =>
      intro ps h
      rw [T.collect, T.val_bind] at h
      obtain ⟨a, _, h⟩ := bind_ok h
      rw [T.val_bind] at h
      obtain ⟨as, h1, h⟩ := bind_ok h
      cases h
      simp [ih as h1]
  refine ⟨?_, ?_, hp t b, costs_poprfFinish rng bs ps t, ?_⟩
  · refine ((costs_tweak _ _).bind (d := (fun o => bs.length * poprfPrepareCost o) +
      poprfFinishCost bs.length) fun t _ => ?_).cast (by
        unfold poprfServerCost poprfFinishCost poprfPrepareCost; cost)
    have := collect (bs.map (Leak.PoprfServer.prepareItem t)) _ (by simpa using fun b _ => hp t b)
    rw [List.length_map] at this
    refine this.bind fun ps h => ?_
    have h2 := (costs_poprfFinish rng bs ps t).unwrap
    rw [hl _ _ h, List.length_map] at h2
    exact h2
  · exact ((costs_tweak _ _).bind fun t _ => (hp t b).bind fun p _ =>
      Costs.bind (c := poprfFinishCost 1) (costs_poprfFinish rng [b] [p] t).unwrap
      fun ⟨_, _⟩ _ => (check _).bind fun _ _ => pure _).cast (by
        unfold poprfServerCost poprfFinishCost poprfPrepareCost; cost)
  · exact ((costs_hashToGroup _ _).bind fun _ _ => (test _ _).bind
      (d := (one .hashToScalar + (one .scalarAdd + one .isZeroScalar)) + ((one .invertScalar + one .elemMul) +
        (one .serializeElem + one .digest))) fun z _ => by
        cases z
        · exact (costs_tweak _ _).bind fun _ _ => (costs_unblind _ _).bind fun _ _ => (costs_ser _).bind fun _ _ =>
            costs_output _ _ _
        · exact fail _ _).cast (by unfold poprfEvaluateCost; cost)

/-- C57, POPRF client: `2n + 5` multiplications to verify `n` messages, and then one for each output that is asked
for. -/
theorem C57_poprf_client (inputs : List Bytes) (cs : List (Voprf.PoprfClient CS)) (es : List (EvaluationElement CS))
    (p : Proof CS) (pk : CS.Elem) (info : Option Bytes) (c : Voprf.PoprfClient CS) (input : Bytes)
    (e : EvaluationElement CS) :
    BatchCosts (Leak.PoprfClient.batchFinalize inputs cs es p pk info) (poprfVerifyCost es.length) itemCost
      inputs.length ∧
    Costs (Leak.PoprfClient.finalize c input e p pk info) (poprfVerifyCost 1 + itemCost) := by
  have hv : ∀ (inputs : List Bytes) (cs : List (Voprf.PoprfClient CS)) (es : List (EvaluationElement CS)),
      BatchCosts (Leak.PoprfClient.batchFinalize inputs cs es p pk info) (poprfVerifyCost es.length) itemCost
      inputs.length := by
    intro inputs cs es
    refine ⟨((costs_tweakedKey _ _).bind fun _ _ => (costs_verify _ _ _ _ _ _).bind fun _ _ => (check _).bind
      fun _ _ => pure _).cast (by rw [List.length_map]; unfold poprfVerifyCost voprfVerifyCost; cost), fun items h => ?_⟩
    unfold Leak.PoprfClient.batchFinalize at h
    simp only [T.val_bind] at h
    obtain ⟨t, ht, h⟩ := bind_ok h
    obtain ⟨u, hu, h⟩ := bind_ok h
    obtain ⟨v, hl, h⟩ := bind_ok h
    cases h
    rw [T.val_check] at hl
    have hl' : ((cs.map fun c => c.blind).zip es).length = inputs.length := by
      by_contra hc
      rw [if_pos hc] at hl
      cases hl
    refine ⟨by simp only [List.length_map, List.length_zip] at hl' ⊢; omega, fun i hi => ?_⟩
    obtain ⟨⟨⟨b, e⟩, x⟩, _, rfl⟩ := List.mem_map.mp hi
    exact costs_poprfItem _ _ _ _
  refine ⟨hv _ _ _, ?_⟩
  refine ((hv [input] [c] [e]).1.bind (d := 0 + itemCost) fun items h => (check _).bind fun i hi => ?_).cast
    fun o => by simp
  rw [T.val_check] at hi
  cases items with
  | nil => cases hi
  | cons y ys => cases hi; exact ((hv [input] [c] [e]).2 _ h).2 _ (by simp)

/-! ## Keys -/

theorem atMost_of_costs {x : T α} {c : Cost} (h : Costs x c) : CostsAtMost x c := fun o => (h o).1

theorem Spec.CostsAtMost.bind {x : T α} {f : α → T β} {c d : Cost} (hx : CostsAtMost x c) (hf : ∀ a, CostsAtMost (f a) d) :
    CostsAtMost (x >>= f) (c + d) := by
  intro o
  show opCount o (T.bind x f).trace ≤ c o + d o
  unfold T.bind
  cases x.val with
  | ok a => exact (opCount_append _ _ _).le.trans (Nat.add_le_add (hx o) (hf a o))
  | _ => exact (hx o).trans (Nat.le_add_right _ _)

theorem Spec.CostsAtMost.mono {x : T α} {c d : Cost} (hx : CostsAtMost x c) (h : ∀ o, c o ≤ d o) : CostsAtMost x d :=
  fun o => (hx o).trans (h o)

/-- One round of key derivation. -/
def roundCost : Cost
  | .hashToScalar => 1 | .isZeroScalar => 1
  | _ => 0

theorem costs_deriveLoop (seed infoLen info : Bytes) (dst : Dst) (fuel counter : Nat) :
    CostsAtMost (Leak.deriveKeyLoop CS seed infoLen info dst fuel counter) (fun o => fuel * roundCost o) := by
  induction fuel generalizing counter with
  | zero => exact (atMost_of_costs (check _)).mono fun o => by simp
  | succ fuel ih =>
    refine ((atMost_of_costs (callRes _ _ _)).bind fun _ => (atMost_of_costs (test _ _)).bind
      (d := fun o => fuel * roundCost o) fun z => ?_).mono ?_
    · cases z
      · exact (atMost_of_costs (pure _)).mono fun o => Nat.zero_le _
      · exact ih _
    · intro o
      have : (one .hashToScalar + (one .isZeroScalar + fun o => fuel * roundCost o)) o =
          roundCost o + fuel * roundCost o := by
        cases o <;> simp [one, roundCost]
      rw [this, Nat.add_mul]
      omega

theorem costs_deriveKey (seed info : Bytes) (mode : Mode) :
    CostsAtMost (Leak.deriveKeyInternal CS seed info mode) (fun o => 256 * roundCost o) :=
  ((atMost_of_costs (check _)).bind fun _ => (atMost_of_costs (check _)).bind fun _ => costs_deriveLoop _ _ _ _ _ _).mono
    fun o => by simp

/-- C57, keys: deriving a key hashes at most 256 times, whatever the seed and the info, and multiplies at most once. -/
theorem C57_keys {σ : Type} [RngCore σ] (seed info : Bytes) (rng : σ) :
    CostsAtMost (Leak.OprfServer.newFromSeed CS seed info) deriveCost ∧
    CostsAtMost (Leak.VoprfServer.newFromSeed CS seed info) deriveCost ∧
    CostsAtMost (Leak.PoprfServer.newFromSeed CS seed info) deriveCost ∧
    CostsAtMost (Leak.OprfServer.new CS rng) newCost ∧
    CostsAtMost (Leak.VoprfServer.new CS rng) newCost ∧
    CostsAtMost (Leak.PoprfServer.new CS rng) newCost := by
  have h0 : ∀ seed info, CostsAtMost (Leak.OprfServer.newFromSeed CS seed info) deriveCost := fun seed info =>
    ((costs_deriveKey _ _ _).bind fun _ => atMost_of_costs (pure _)).mono fun o => by
      cases o <;> simp [roundCost, deriveCost]
  have h1 : ∀ seed info mode, CostsAtMost (Leak.deriveKeypair CS seed info mode) deriveCost := fun seed info mode =>
    ((costs_deriveKey _ _ _).bind fun _ => (atMost_of_costs (costs_mul _ _)).bind fun _ => atMost_of_costs (pure _)).mono
      fun o => by cases o <;> simp [roundCost, deriveCost, one]
  have h2 : ∀ seed info, CostsAtMost (Leak.VoprfServer.newFromSeed CS seed info) deriveCost := fun seed info =>
    ((h1 _ _ _).bind (d := 0) fun _ => atMost_of_costs (pure _)).mono (d := deriveCost) fun o => by simp
  have h3 : ∀ seed info, CostsAtMost (Leak.PoprfServer.newFromSeed CS seed info) deriveCost := fun seed info =>
    ((h1 _ _ _).bind (d := 0) fun _ => atMost_of_costs (pure _)).mono (d := deriveCost) fun o => by simp
  have hn : ∀ o : Op, (one .fillBytes + (deriveCost + 0)) o ≤ newCost o := fun o => by
    cases o <;> simp [one, deriveCost, newCost]
  exact ⟨h0 _ _, h2 _ _, h3 _ _,
    ((atMost_of_costs (call _ _ _)).bind fun ⟨_, _⟩ => (h0 _ _).bind fun _ => atMost_of_costs (pure _)).mono hn,
    ((atMost_of_costs (call _ _ _)).bind fun ⟨_, _⟩ => (h2 _ _).bind fun _ => atMost_of_costs (pure _)).mono hn,
    ((atMost_of_costs (call _ _ _)).bind fun ⟨_, _⟩ => (h3 _ _).bind fun _ => atMost_of_costs (pure _)).mono hn⟩

section examples
open Toy

/-- A batch of three elements succeeds, with the nine multiplications of `C57_voprf_server`. -/
example : (Leak.VoprfServer.batchBlindEvaluate (⟨7, 7⟩ : Voprf.VoprfServer suite) (⟨9⟩ : Rng)
      [⟨3⟩, ⟨4⟩, ⟨5⟩]).val.isOk = true ∧
    opCount .elemMul (Leak.VoprfServer.batchBlindEvaluate (⟨7, 7⟩ : Voprf.VoprfServer suite) (⟨9⟩ : Rng)
      [⟨3⟩, ⟨4⟩, ⟨5⟩]).trace = 9 := by decide +kernel

/-- So does one of two elements with an info, with eight. -/
example : (Leak.PoprfServer.batchBlindEvaluate (⟨7, 7⟩ : Voprf.PoprfServer suite) (⟨9⟩ : Rng)
      [⟨3⟩, ⟨4⟩] (some [1])).val.isOk = true ∧
    opCount .elemMul (Leak.PoprfServer.batchBlindEvaluate (⟨7, 7⟩ : Voprf.PoprfServer suite) (⟨9⟩ : Rng)
      [⟨3⟩, ⟨4⟩] (some [1])).trace = 8 := by decide +kernel

/-- A rejected proof costs the verification and no output. -/
example : (Leak.VoprfClient.finalize (⟨3, 4⟩ : Voprf.VoprfClient suite) [1] ⟨5⟩ ⟨6, 7⟩ 8).val = .err .ProofVerification ∧
    opCount .elemMul (Leak.VoprfClient.finalize (⟨3, 4⟩ : Voprf.VoprfClient suite) [1] ⟨5⟩ ⟨6, 7⟩ 8).trace = 6 := by
  decide +kernel

/-- Key derivation succeeds. -/
example : (Leak.VoprfServer.newFromSeed suite [1, 2] []).val.isOk = true := by decide +kernel

end examples

end Voprf
