import Verif.Lemmas.LeakErase

/-!
# Two runs of the same function leave the same record

Nothing is assumed of the group: that encodings and digests have fixed lengths is part of their types.
-/

namespace Voprf.Leak

variable {CS : CipherSuite}

/-- no relation between the results -/
def Any {α β : Type} (_ : α) (_ : β) : Prop := True

/-- results of the same length -/
def SameLen {α β : Type} (a : List α) (b : List β) : Prop := a.length = b.length

namespace Rel

theorem refl {α : Type} (x : T α) : Rel Eq x x := by
  intro a b ha hb
  rw [ha] at hb
  exact ⟨rfl, Res.ok.inj hb⟩

theorem any {α β : Type} {R : α → β → Prop} {x : T α} {y : T β} (h : Rel R x y) : Rel Any x y :=
  h.mono fun _ _ _ => trivial

/-- `check` of the same value, then the rest -/
theorem checkSame {α γ δ : Type} {S : γ → δ → Prop} {r : Res α} {f : α → T γ} {g : α → T δ}
    (h : ∀ a, Rel S (f a) (g a)) : Rel S (T.check r >>= f) (T.check r >>= g) :=
  (refl (T.check r)).bind fun a _ hab => hab ▸ h a

end Rel

theorem rel_mul (P P' : CS.Elem) (k k' : CS.Scalar) : Rel Any (mul CS P k) (mul CS P' k') :=
  Rel.call _ rfl trivial

theorem rel_add (P P' Q Q' : CS.Elem) : Rel Any (add CS P Q) (add CS P' Q') := Rel.call _ rfl trivial

theorem rel_ser (P P' : CS.Elem) : Rel SameLen (ser CS P) (ser CS P') :=
  Rel.call _ rfl (by rw [SameLen, CS.group.serializeElem_length, CS.group.serializeElem_length])

theorem rel_digest {xs ys : List Bytes} (h : lens xs = lens ys) : Rel SameLen (digest CS xs) (digest CS ys) :=
  Rel.call _ h (by
    rw [SameLen, Digest.finalize, Digest.finalize, CS.hash.digest_length, CS.hash.digest_length])

theorem rel_hashToScalar {α : Type} {xs ys : List Bytes} (h : lens xs = lens ys) (r r' : Res α) :
    Rel Any (T.callRes .hashToScalar (lens xs) r) (T.callRes .hashToScalar (lens ys) r') :=
  Rel.callRes _ h fun _ _ _ _ => trivial

theorem rel_compositesSeed (b b' : CS.Elem) (mode : Mode) :
    Rel SameLen (compositesSeed CS b mode) (compositesSeed CS b' mode) := by
  refine (rel_ser b b').bind fun x y hxy => ?_
  refine Rel.checkSame fun d => Rel.checkSame fun n => rel_digest ?_
  simp only [lens, List.map_append, List.map_cons, List.map_nil]
  rw [show x.length = y.length from hxy]

theorem rel_compositeStep (k k' : Option CS.Scalar) (hk : k.isSome = k'.isSome) {s s' : Bytes}
    (hs : s.length = s'.length) (mode : Mode) (acc acc' : CS.Elem × CS.Elem)
    (it it' : Nat × (CS.Elem × CS.Elem)) :
    Rel Any (compositeStep CS k s mode acc it) (compositeStep CS k' s' mode acc' it') := by
  refine (rel_ser _ _).bind fun c c' hc => (rel_ser _ _).bind fun d d' hd => Rel.checkSame fun dst => ?_
  refine (rel_hashToScalar ?_ _ _).bind fun x x' _ => (rel_mul _ _ _ _).bind fun cx cx' _ =>
    (rel_add _ _ _ _).bind fun m m' _ => ?_
  · simp only [lens, List.map_cons, List.map_nil, hs, show c.length = c'.length from hc,
      show d.length = d'.length from hd]
    rfl
  · cases k <;> cases k'
    · exact (rel_mul _ _ _ _).bind fun _ _ _ => (rel_add _ _ _ _).bind fun _ _ _ => Rel.pure trivial
    · simp at hk
    · simp at hk
    · exact (Rel.pure (R := Any) trivial).bind fun _ _ _ => Rel.pure trivial

theorem rel_compositeLoop (k k' : Option CS.Scalar) (hk : k.isSome = k'.isSome) {s s' : Bytes}
    (hs : s.length = s'.length) (mode : Mode) : ∀ (its its' : List (Nat × (CS.Elem × CS.Elem))),
    its.length = its'.length → ∀ acc acc',
    Rel Any (compositeLoop CS k s mode acc its) (compositeLoop CS k' s' mode acc' its')
  | [], [], _, _, _ => Rel.pure trivial
  | [], _ :: _, h, _, _ => by simp at h
  | _ :: _, [], h, _, _ => by simp at h
  | it :: its, it' :: its', h, acc, acc' =>
    (rel_compositeStep k k' hk hs mode acc acc' it it').bind fun a a' _ =>
      rel_compositeLoop k k' hk hs mode its its' (by simpa using h) a a'

theorem rel_computeComposites (k k' : Option CS.Scalar) (hk : k.isSome = k'.isSome) (b b' : CS.Elem)
    {cs cs' ds ds' : List CS.Elem} (hc : cs.length = cs'.length) (hd : ds.length = ds'.length) (mode : Mode) :
    Rel Any (computeComposites CS k b cs ds mode) (computeComposites CS k' b' cs' ds' mode) := by
  refine Rel.bind (R := Any) (Rel.check fun _ _ _ _ => trivial) fun _ _ _ => ?_
  refine Rel.bind (R := Eq) (Rel.check fun n n' hn hn' => ?_) fun n n' hn => ?_
  · rw [hc] at hn; rw [hn] at hn'; exact Res.ok.inj hn'
  subst hn
  refine (rel_compositesSeed b b' mode).bind fun s s' hs => ?_
  refine Rel.bind (rel_compositeLoop k k' hk hs mode _ _ ?_ _ _) fun a a' _ => ?_
  · simp only [List.length_zip, hc, hd]
  · cases k <;> cases k'
    · exact (Rel.pure (R := Any) trivial).bind fun _ _ _ => Rel.pure trivial
    · simp at hk
    · simp at hk
    · exact (rel_mul _ _ _ _).bind fun _ _ _ => Rel.pure trivial

theorem rel_challenge (b b' m m' z z' t2 t2' t3 t3' : CS.Elem) (mode : Mode) :
    Rel Any (challenge CS b m z t2 t3 mode) (challenge CS b' m' z' t2' t3' mode) := by
  refine (rel_ser _ _).bind fun x1 y1 h1 => (rel_ser _ _).bind fun x2 y2 h2 => (rel_ser _ _).bind fun x3 y3 h3 =>
    (rel_ser _ _).bind fun x4 y4 h4 => (rel_ser _ _).bind fun x5 y5 h5 => Rel.checkSame fun dst =>
    rel_hashToScalar ?_ _ _
  simp only [lens, List.map_cons, List.map_nil, show x1.length = y1.length from h1,
    show x2.length = y2.length from h2, show x3.length = y3.length from h3, show x4.length = y4.length from h4,
    show x5.length = y5.length from h5]

theorem rel_generateProof {σ σ' : Type} [RngCore σ] [RngCore σ'] (rng : σ) (rng' : σ') (k k' : CS.Scalar)
    (a a' b b' : CS.Elem) {cs cs' ds ds' : List CS.Elem} (hc : cs.length = cs'.length)
    (hd : ds.length = ds'.length) (mode : Mode) :
    Rel Any (generateProof CS rng k a b cs ds mode) (generateProof CS rng' k' a' b' cs' ds' mode) := by
  refine (rel_computeComposites (some k) (some k') rfl b b' hc hd mode).bind fun p p' _ => ?_
  refine Rel.bind (R := Any) (Rel.callRes _ rfl fun _ _ _ _ => trivial) fun r r' _ => ?_
  refine (rel_mul _ _ _ _).bind fun t2 t2' _ => (rel_mul _ _ _ _).bind fun t3 t3' _ =>
    (rel_challenge _ _ _ _ _ _ _ _ _ _ mode).bind fun c c' _ => ?_
  refine Rel.bind (R := Any) (Rel.call _ rfl trivial) fun _ _ _ => ?_
  refine Rel.bind (R := Any) (Rel.call _ rfl trivial) fun _ _ _ => ?_
  exact Rel.pure trivial

theorem rel_verifyProof (a a' b b' : CS.Elem) {cs cs' ds ds' : List CS.Elem} (hc : cs.length = cs'.length)
    (hd : ds.length = ds'.length) (proof proof' : Proof CS) (mode : Mode) :
    Rel Any (verifyProof CS a b cs ds proof mode) (verifyProof CS a' b' cs' ds' proof' mode) := by
  refine (rel_computeComposites none none rfl b b' hc hd mode).bind fun p p' _ => ?_
  refine (rel_mul _ _ _ _).bind fun _ _ _ => (rel_mul _ _ _ _).bind fun _ _ _ => (rel_add _ _ _ _).bind
    fun _ _ _ => (rel_mul _ _ _ _).bind fun _ _ _ => (rel_mul _ _ _ _).bind fun _ _ _ =>
    (rel_add _ _ _ _).bind fun _ _ _ => (rel_challenge _ _ _ _ _ _ _ _ _ _ mode).bind fun c c' _ => ?_
  exact Rel.testErr _ false rfl rfl rfl rfl (Rel.pure trivial)

theorem rel_hashToGroup {input input' : Bytes} (h : input.length = input'.length) (mode : Mode) :
    Rel Any (hashToGroup CS input mode) (hashToGroup CS input' mode) :=
  Rel.checkSame fun _ => Rel.callRes _ (by simp only [lens, List.map_cons, List.map_nil, h])
    fun _ _ _ _ => trivial

theorem rel_blind {input input' : Bytes} (h : input.length = input'.length) (k k' : CS.Scalar) (mode : Mode) :
    Rel Any (deterministicBlindUnchecked CS input k mode) (deterministicBlindUnchecked CS input' k' mode) :=
  (rel_hashToGroup h mode).bind fun _ _ _ => rel_mul _ _ _ _

/-- The length prefix of a byte string, computed from its length. -/
theorem rel_i2osp {γ δ : Type} {S : γ → δ → Prop} {e : Error} {x y : Bytes} (h : x.length = y.length)
    {f : Bytes → T γ} {g : Bytes → T δ} (hf : ∀ b, Rel S (f b) (g b)) :
    Rel S (T.check (Res.mapErr e (i2osp2 x.length)) >>= f)
      (T.check (Res.mapErr e (i2osp2 y.length)) >>= g) := by
  rw [h]; exact Rel.checkSame hf

theorem rel_serverEvaluateHashInput {input input' issued issued' : Bytes} {info info' : Option Bytes}
    (h : input.length = input'.length) (hi : info.map List.length = info'.map List.length)
    (he : issued.length = issued'.length) :
    Rel SameLen (serverEvaluateHashInput CS input info issued)
      (serverEvaluateHashInput CS input' info' issued') := by
  refine rel_i2osp h fun n => ?_
  cases info with
  | none =>
    cases info' with
    | some _ => simp at hi
    | none =>
      refine Rel.bind (R := Eq) (Rel.pure rfl) fun p p' hp => rel_i2osp he fun m => rel_digest ?_
      subst hp
      simp only [lens, List.map_append, List.map_cons, List.map_nil, h, he]
  | some i =>
    cases info' with
    | none => simp at hi
    | some i' =>
      have hi' : i.length = i'.length := by simpa using hi
      refine rel_i2osp hi' fun l => ?_
      refine Rel.bind (R := fun p p' => lens p = lens p') (Rel.pure ?_) fun p p' hp =>
        rel_i2osp he fun m => rel_digest ?_
      · simp only [lens, List.map_cons, List.map_nil, hi']
      · simp only [lens] at hp
        simp only [lens, List.map_append, List.map_cons, List.map_nil, h, he, hp]

theorem rel_unblind (k k' : CS.Scalar) (e e' : CS.Elem) : Rel Any (unblind k e) (unblind k' e') :=
  Rel.bind (R := Any) (Rel.callRes _ rfl fun _ _ _ _ => trivial) fun _ _ _ => rel_mul _ _ _ _

theorem rel_finalizeItem {input input' : Bytes} (h : input.length = input'.length) {u u' : T CS.Elem}
    (hu : Rel Any u u') : Rel SameLen (finalizeItem CS input u) (finalizeItem CS input' u') := by
  refine hu.bind fun _ _ _ => rel_i2osp h fun n => (rel_ser _ _).bind fun x y hxy => rel_digest ?_
  simp only [lens, List.map_cons, List.map_nil, h, show x.length = y.length from hxy]

theorem rel_poprfFinalizeItem {input input' info info' : Bytes} (h : input.length = input'.length)
    (hi : info.length = info'.length) {u u' : T CS.Elem} (hu : Rel Any u u') :
    Rel SameLen (Poprf.finalizeItem CS input info u) (Poprf.finalizeItem CS input' info' u') := by
  refine hu.bind fun _ _ _ => rel_i2osp h fun n => rel_i2osp hi fun m => (rel_ser _ _).bind fun x y hxy =>
    rel_digest ?_
  simp only [lens, List.map_cons, List.map_nil, h, hi, show x.length = y.length from hxy]

/-- An absent info counts as an empty one. -/
def infoLength (info : Option Bytes) : Nat := (info.getD []).length

theorem rel_hashInfo {info info' : Option Bytes} (h : infoLength info = infoLength info') :
    Rel Any (Poprf.hashInfo CS info) (Poprf.hashInfo CS info') := by
  refine rel_i2osp h fun n => Rel.checkSame fun d => rel_hashToScalar ?_ _ _
  simp only [infoLength] at h
  simp only [lens, List.map_cons, List.map_nil, h]

theorem rel_computeTweakedKey (pk pk' : CS.Elem) {info info' : Option Bytes}
    (h : infoLength info = infoLength info') :
    Rel Any (Poprf.computeTweakedKey CS pk info) (Poprf.computeTweakedKey CS pk' info') :=
  (rel_hashInfo h).bind fun _ _ _ => (rel_mul _ _ _ _).bind fun _ _ _ => (rel_add _ _ _ _).bind fun _ _ _ =>
    Rel.testErr _ true rfl rfl rfl rfl (Rel.pure trivial)

theorem rel_computeTweak (sk sk' : CS.Scalar) {info info' : Option Bytes}
    (h : infoLength info = infoLength info') :
    Rel Any (Poprf.computeTweak CS sk info) (Poprf.computeTweak CS sk' info') :=
  (rel_hashInfo h).bind fun _ _ _ => Rel.bind (R := Any) (Rel.call _ rfl trivial) fun _ _ _ =>
    Rel.testErr _ true rfl rfl rfl rfl (Rel.pure trivial)

/-- Equally long lists of items that may differ item by item. -/
theorem forall₂_of_length {α β : Type} {R : α → β → Prop} : ∀ {xs : List α} {ys : List β},
    xs.length = ys.length → (∀ i (h : i < xs.length) (h' : i < ys.length), R xs[i] ys[i]) → List.Forall₂ R xs ys
  | [], [], _, _ => .nil
  | [], _ :: _, h, _ => by simp at h
  | _ :: _, [], h, _ => by simp at h
  | x :: xs, y :: ys, h, hR => .cons (hR 0 (by simp) (by simp))
      (forall₂_of_length (by simpa using h) fun i hi hi' => hR (i + 1) (by simpa using hi) (by simpa using hi'))

/-! ## Key derivation -/

/-- A successful key derivation records one hash per candidate. -/
theorem deriveKeyLoop_pos (seed infoLen info : Bytes) (dst : Dst) : ∀ fuel counter (k : CS.Scalar),
    (deriveKeyLoop CS seed infoLen info dst fuel counter).val = .ok k →
    4 ≤ (deriveKeyLoop CS seed infoLen info dst fuel counter).trace.length
  | 0, _, _, h => by simp [deriveKeyLoop] at h
  | fuel + 1, counter, k, h => by
    rw [deriveKeyLoop] at h ⊢
    rw [T.val_bind, T.val_callRes] at h
    show 4 ≤ (T.bind _ _).trace.length
    unfold T.bind
    rw [T.val_callRes]
    cases hr : Res.mapErr Error.DeriveKeyPair (CS.group.hashToScalar CS.hash
        [seed, infoLen, info, [UInt8.ofNat counter]] dst.asDst) with
    | ok sk =>
      simp only [T.callRes]
      show 4 ≤ (_ ++ (T.bind _ _).trace).length
      simp only [T.bind, T.test, List.length_append, List.length_cons, List.length_nil]
      omega
    | _ => rw [hr] at h; simp at h

theorem deriveKeyLoop_trace {seed seed' infoLen infoLen' info info' : Bytes} (h1 : seed.length = seed'.length)
    (h2 : infoLen.length = infoLen'.length) (h3 : info.length = info'.length) (dst dst' : Dst) :
    ∀ fuel counter counter' (k k' : CS.Scalar),
    (deriveKeyLoop CS seed infoLen info dst fuel counter).val = .ok k →
    (deriveKeyLoop CS seed' infoLen' info' dst' fuel counter').val = .ok k' →
    (deriveKeyLoop CS seed infoLen info dst fuel counter).trace.length
      = (deriveKeyLoop CS seed' infoLen' info' dst' fuel counter').trace.length →
    (deriveKeyLoop CS seed infoLen info dst fuel counter).trace
      = (deriveKeyLoop CS seed' infoLen' info' dst' fuel counter').trace
  | 0, _, _, _, _, h, _, _ => by simp [deriveKeyLoop] at h
  | fuel + 1, counter, counter', k, k', h, h', hl => by
    rw [deriveKeyLoop] at h hl ⊢
    rw [deriveKeyLoop] at h' hl ⊢
    rw [T.val_bind, T.val_callRes] at h h'
    change (T.bind _ _).trace.length = (T.bind _ _).trace.length at hl
    show (T.bind _ _).trace = (T.bind _ _).trace
    unfold T.bind at hl ⊢
    rw [T.val_callRes, T.val_callRes] at hl ⊢
    cases hr : Res.mapErr Error.DeriveKeyPair (CS.group.hashToScalar CS.hash
        [seed, infoLen, info, [UInt8.ofNat counter]] dst.asDst) with
    | ok sk =>
      cases hr' : Res.mapErr Error.DeriveKeyPair (CS.group.hashToScalar CS.hash
          [seed', infoLen', info', [UInt8.ofNat counter']] dst'.asDst) with
      | ok sk' =>
        have hlens : lens [seed, infoLen, info, [UInt8.ofNat counter]]
            = lens [seed', infoLen', info', [UInt8.ofNat counter']] := by
          simp only [lens, List.map_cons, List.map_nil, h1, h2, h3, List.length_cons, List.length_nil]
        rw [hr] at h hl
        rw [hr'] at h' hl
        simp only [Res.ok_bind] at h h'
        rw [T.val_bind, T.val_test, Res.ok_bind] at h h'
        simp only [T.callRes, hlens] at hl ⊢
        change (_ ++ (T.bind _ _).trace).length = (_ ++ (T.bind _ _).trace).length at hl
        show _ ++ (T.bind _ _).trace = _ ++ (T.bind _ _).trace
        simp only [T.bind, T.test] at hl ⊢
        cases hz : CS.group.isZeroScalar sk <;> cases hz' : CS.group.isZeroScalar sk' <;>
          simp only [hz, hz'] at h h' hl ⊢
        · rfl
        · have := deriveKeyLoop_pos _ _ _ _ _ _ _ h'
          simp only [List.length_append, List.length_cons, List.length_nil, T.trace_pure] at hl
          omega
        · have := deriveKeyLoop_pos _ _ _ _ _ _ _ h
          simp only [List.length_append, List.length_cons, List.length_nil, T.trace_pure] at hl
          omega
        · have hl' : (deriveKeyLoop CS seed infoLen info dst fuel (counter + 1)).trace.length
              = (deriveKeyLoop CS seed' infoLen' info' dst' fuel (counter' + 1)).trace.length := by
            simp only [List.length_append, List.length_cons, List.length_nil] at hl
            omega
          rw [deriveKeyLoop_trace h1 h2 h3 dst dst' fuel _ _ _ _ h h' hl']
          rfl
      | _ => rw [hr'] at h'; simp at h'
    | _ => rw [hr] at h; simp at h

end Voprf.Leak
