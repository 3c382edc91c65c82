import Verif.Spec.Rehash
import Verif.Lemmas.Core

/-!
# Which tags the internal functions consult
-/

namespace Voprf

open Spec

theorem Res.map_bind_congr {α α' β γ : Type} {x : Res α} {y : Res α'} (p : α → β) (q : α' → β)
    (h : p <$> x = q <$> y) {f : α → Res γ} {g : α' → Res γ} (hfg : ∀ a b, p a = q b → f a = g b) :
    (x >>= f) = (y >>= g) := by
  cases x <;> cases y <;> first
    | exact hfg _ _ (Res.ok.inj h)
    | (cases h; rfl)
    | exact absurd h (by intro h; cases h)

theorem Res.bind_congr_res {α β : Type} {x y : Res α} (h : x = y) {f g : α → Res β}
    (hfg : ∀ a, f a = g a) : (x >>= f) = (y >>= g) := by
  subst h; cases x <;> first | rfl | exact hfg _

theorem Res.bind_congr_of {α β : Type} {x : Res α} {f g : α → Res β}
    (hfg : ∀ a, x = .ok a → f a = g a) : (x >>= f) = (x >>= g) := by
  cases x <;> first | rfl | exact hfg _ rfl

theorem Res.map_bind_congr_of {α β β' γ : Type} {x y : Res α} (hxy : x = y) {p : β → γ} {q : β' → γ}
    {f : α → Res β} {g : α → Res β'} (hfg : ∀ a, x = .ok a → p <$> f a = q <$> g a) :
    p <$> (x >>= f) = q <$> (y >>= g) := by
  subst hxy; cases x <;> first | rfl | exact hfg _ rfl

theorem Res.map_bind_assoc {α β γ δ : Type} (x : Res α) (f : α → Res β) (g : β → Res γ) (p : γ → δ) :
    p <$> ((x >>= f) >>= g) = p <$> (x >>= fun a => f a >>= g) := by
  cases x <;> rfl

section
variable {CS : CipherSuite} {hc hc' : Bytes → Bytes → Except InternalError CS.Elem}
  {hs hs' : Bytes → Bytes → Except InternalError CS.Scalar}

theorem dst_rehash (t : Bytes) (m : Mode) : Dst.new (rehash CS hc hs) t m = Dst.new CS t m := rfl

theorem dst_tag {t : Bytes} {m : Mode} {d : Dst} (h : Dst.new CS t m = .ok d) :
    d.asDst.flatten = t ++ contextString CS m := by
  unfold Dst.new at h
  simp only at h
  split at h
  · simp only [Res.ok.injEq] at h
    subst h
    simp only [Dst.asDst, List.flatten_cons, List.flatten_nil, contextString, STR_OPRF_eq,
      modeByte_eq, List.append_assoc, List.append_nil]
    rfl
  · simp at h

theorem hashToGroup_rehash {m : Mode}
    (h : AgreeOn (ascii "HashToGroup-" ++ contextString CS m) hc hc') (x : Bytes) :
    (Voprf.hashToGroup (rehash CS hc hs) x m : Res CS.Elem) = Voprf.hashToGroup (rehash CS hc' hs') x m := by
  have key : ∀ d, Dst.new CS STR_HASH_TO_GROUP m = .ok d →
      hc d.asDst.flatten [x].flatten = hc' d.asDst.flatten [x].flatten := by
    intro d hd
    rw [dst_tag hd, STR_HASH_TO_GROUP_eq]; exact h _
  unfold Voprf.hashToGroup
  rw [dst_rehash, dst_rehash]
  cases hd : Dst.new CS STR_HASH_TO_GROUP m with
  | ok d => exact congrArg (Res.mapErr Error.Input) (key d hd)
  | err e => rfl
  | panic => rfl
  | diverge => rfl

theorem h2s_rehash {t : Bytes} {m : Mode} (h : AgreeOn (t ++ contextString CS m) hs hs')
    {d : Dst} (hd : Dst.new CS t m = .ok d) (xs : List Bytes) :
    hs d.asDst.flatten xs.flatten = hs' d.asDst.flatten xs.flatten := by
  rw [dst_tag hd]; exact h _

theorem deriveKeyLoop_rehash {d : Dst} (h : AgreeOn d.asDst.flatten hs hs') (seed l info : Bytes)
    (fuel : Nat) : ∀ counter,
    (deriveKeyLoop (rehash CS hc hs) seed l info d fuel counter : Res CS.Scalar) =
      deriveKeyLoop (rehash CS hc' hs') seed l info d fuel counter := by
  induction fuel with
  | zero => intro _; rfl
  | succ n ih =>
    intro counter
    unfold deriveKeyLoop
    refine Res.bind_congr_res (congrArg (Res.mapErr Error.DeriveKeyPair) (h _)) fun k => ?_
    exact congrArg (fun r : Res CS.Scalar => if !CS.group.isZeroScalar k then pure k else r) (ih _)

theorem deriveKeyInternal_rehash {m : Mode}
    (h : AgreeOn (ascii "DeriveKeyPair" ++ contextString CS m) hs hs') (seed info : Bytes) :
    (deriveKeyInternal (rehash CS hc hs) seed info m : Res CS.Scalar) =
      deriveKeyInternal (rehash CS hc' hs') seed info m := by
  rw [← STR_DERIVE_KEYPAIR_eq] at h
  exact Res.bind_congr_of (x := Dst.new CS STR_DERIVE_KEYPAIR m) fun d hd =>
    Res.bind_congr_res rfl fun l =>
      deriveKeyLoop_rehash (by rw [dst_tag hd]; exact h) seed l info 256 0

theorem compositeStep_rehash {m : Mode}
    (h : AgreeOn (ascii "HashToScalar-" ++ contextString CS m) hs hs') (k : Option CS.Scalar)
    (seed : Bytes) (acc : CS.Elem × CS.Elem) (item : Nat × (CS.Elem × CS.Elem)) :
    (compositeStep (rehash CS hc hs) k seed m acc item : Res (CS.Elem × CS.Elem)) =
      compositeStep (rehash CS hc' hs') k seed m acc item := by
  rw [← STR_HASH_TO_SCALAR_eq] at h
  obtain ⟨M, Z⟩ := acc
  obtain ⟨i, c, d⟩ := item
  unfold compositeStep
  rw [dst_rehash, dst_rehash]
  cases hd : Dst.new CS STR_HASH_TO_SCALAR m with
  | ok dst =>
    exact Res.bind_congr_res (congrArg Res.unwrapExcept (h2s_rehash h hd _)) fun _ => by cases k <;> rfl
  | err e => rfl
  | panic => rfl
  | diverge => rfl

theorem computeComposites_rehash {m : Mode}
    (h : AgreeOn (ascii "HashToScalar-" ++ contextString CS m) hs hs') (k : Option CS.Scalar)
    (B : CS.Elem) (Cs Ds : List CS.Elem) :
    (computeComposites (rehash CS hc hs) k B Cs Ds m : Res (CS.Elem × CS.Elem)) =
      computeComposites (rehash CS hc' hs') k B Cs Ds m := by
  have hstep : ∀ seed, (compositeStep (rehash CS hc hs) k seed m :
      CS.Elem × CS.Elem → Nat × (CS.Elem × CS.Elem) → Res (CS.Elem × CS.Elem)) =
      compositeStep (rehash CS hc' hs') k seed m := fun seed =>
    funext fun acc => funext fun item => compositeStep_rehash h k seed acc item
  unfold computeComposites
  by_cases hl : Cs.length ≠ Ds.length
  · exact (if_pos hl).trans (if_pos hl).symm
  · refine (if_neg hl).trans (Eq.trans ?_ (if_neg hl).symm)
    refine Res.bind_congr_res rfl fun len => ?_
    refine Res.bind_congr_res (x := compositesSeed CS B m) rfl fun seed => ?_
    refine Res.bind_congr_res (congrArg (fun st : CS.Elem × CS.Elem → Nat × (CS.Elem × CS.Elem) →
        Res (CS.Elem × CS.Elem) => List.foldlM st (CS.group.identityElem, CS.group.identityElem)
      ((List.range len).zip (Cs.zip Ds))) (hstep seed)) fun _ => by cases k <;> rfl

/-- The two scalars of a proof and the generator afterwards. -/
def proofView {σ : Type} (r : Proof CS × σ) : CS.Scalar × CS.Scalar × σ :=
  (r.1.cScalar, r.1.sScalar, r.2)

theorem generateProof_rehash {m : Mode}
    (h : AgreeOn (ascii "HashToScalar-" ++ contextString CS m) hs hs') {σ : Type} [RngCore σ] (rng : σ)
    (k : CS.Scalar) (A B : CS.Elem) (Cs Ds : List CS.Elem) :
    (proofView (CS := rehash CS hc hs) <$> generateProof (rehash CS hc hs) rng k A B Cs Ds m :
        Res (CS.Scalar × CS.Scalar × σ)) =
      proofView (CS := rehash CS hc' hs') <$> generateProof (rehash CS hc' hs') rng k A B Cs Ds m := by
  have h0 := computeComposites_rehash (hc := hc) (hc' := hc') h (some k) B Cs Ds
  rw [← STR_HASH_TO_SCALAR_eq] at h
  refine Res.map_bind_congr_of h0 fun MZ _ => ?_
  obtain ⟨M, Z⟩ := MZ
  refine Res.map_bind_congr_of (x := Res.ofLoop (CS.group.randomScalar rng)) rfl fun rr _ => ?_
  obtain ⟨r, rng'⟩ := rr
  refine Res.map_bind_congr_of (x := Dst.new CS STR_HASH_TO_SCALAR m) rfl fun dst hd => ?_
  exact Res.map_bind_congr_of (congrArg Res.unwrapExcept (h2s_rehash h hd _)) fun _ _ => rfl

theorem verifyProof_rehash {m : Mode}
    (h : AgreeOn (ascii "HashToScalar-" ++ contextString CS m) hs hs')
    (A B : CS.Elem) (Cs Ds : List CS.Elem) (c s : CS.Scalar) :
    verifyProof (rehash CS hc hs) A B Cs Ds ⟨c, s⟩ m = verifyProof (rehash CS hc' hs') A B Cs Ds ⟨c, s⟩ m := by
  have h0 := computeComposites_rehash (hc := hc) (hc' := hc') h none B Cs Ds
  rw [← STR_HASH_TO_SCALAR_eq] at h
  unfold verifyProof
  refine Res.bind_congr_res h0 fun MZ => ?_
  obtain ⟨M, Z⟩ := MZ
  simp only [dst_rehash]
  cases hd : Dst.new CS STR_HASH_TO_SCALAR m with
  | ok dst =>
    rw [Res.ok_bind, Res.ok_bind]
    exact Res.bind_congr_res (congrArg Res.unwrapExcept (h2s_rehash h hd _)) fun _ => rfl
  | err e => rfl
  | panic => rfl
  | diverge => rfl

theorem computeTweak_rehash
    (h : AgreeOn (ascii "HashToScalar-" ++ contextString CS .Poprf) hs hs') (sk : CS.Scalar)
    (info : Option Bytes) :
    (Poprf.computeTweak (rehash CS hc hs) sk info : Res CS.Scalar) =
      Poprf.computeTweak (rehash CS hc' hs') sk info := by
  rw [← STR_HASH_TO_SCALAR_eq] at h
  unfold Poprf.computeTweak
  refine Res.bind_congr_res rfl fun l => ?_
  simp only [dst_rehash]
  cases hd : Dst.new CS STR_HASH_TO_SCALAR .Poprf with
  | ok dst =>
    rw [Res.ok_bind, Res.ok_bind]
    exact Res.bind_congr_res (congrArg Res.unwrapExcept (h2s_rehash h hd _)) fun _ => rfl
  | err e => rfl
  | panic => rfl
  | diverge => rfl

theorem computeTweakedKey_rehash
    (h : AgreeOn (ascii "HashToScalar-" ++ contextString CS .Poprf) hs hs') (pk : CS.Elem)
    (info : Option Bytes) :
    (Poprf.computeTweakedKey (rehash CS hc hs) pk info : Res CS.Elem) =
      Poprf.computeTweakedKey (rehash CS hc' hs') pk info := by
  rw [← STR_HASH_TO_SCALAR_eq] at h
  unfold Poprf.computeTweakedKey
  refine Res.bind_congr_res rfl fun l => ?_
  simp only [dst_rehash]
  cases hd : Dst.new CS STR_HASH_TO_SCALAR .Poprf with
  | ok dst =>
    rw [Res.ok_bind, Res.ok_bind]
    exact Res.bind_congr_res (congrArg Res.unwrapExcept (h2s_rehash h hd _)) fun _ => rfl
  | err e => rfl
  | panic => rfl
  | diverge => rfl

end

end Voprf
