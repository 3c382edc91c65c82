import Verif.Lemmas.LeakRel
import Verif.Lemmas.Keys

/-!
# Comparing two runs that may fail
-/

namespace Voprf.Leak

open Spec

variable {α β γ δ : Type}

/-- Two runs that end the same way leave the same record; every failure of either is in `S`. -/
structure Kin (S : List Outcome) (x : T α) (y : T β) : Prop where
  same : outcome x.val = outcome y.val → x.trace = y.trace
  left : outcome x.val = .ok ∨ outcome x.val ∈ S
  right : outcome y.val = .ok ∨ outcome y.val ∈ S

theorem outcome_ok {r : Res α} : outcome r = .ok ↔ ∃ a, r = .ok a := by
  cases r <;> simp [outcome]

theorem bind_ok {x : T α} {f : α → T γ} {a : α} (h : x.val = .ok a) :
    (x >>= f).val = (f a).val ∧ (x >>= f).trace = x.trace ++ (f a).trace := by
  refine ⟨by rw [T.val_bind, h]; rfl, ?_⟩
  show (T.bind x f).trace = _
  simp only [T.bind, h]

theorem bind_fail {x : T α} {f : α → T γ} (h : outcome x.val ≠ .ok) :
    outcome (x >>= f).val = outcome x.val ∧ (x >>= f).trace = x.trace := by
  constructor
  · rw [T.val_bind]
    cases hx : x.val with
    | ok a => exact absurd (by rw [hx]; rfl) h
    | _ => rfl
  · show (T.bind x f).trace = _
    unfold T.bind
    cases hx : x.val with
    | ok a => exact absurd (by rw [hx]; rfl) h
    | _ => rfl

namespace Kin

theorem swap {S : List Outcome} {x : T α} {y : T β} (h : Kin S x y) : Kin S y x :=
  ⟨fun e => (h.same e.symm).symm, h.right, h.left⟩

theorem mono {S S' : List Outcome} {x : T α} {y : T β} (h : Kin S x y) (hs : ∀ o ∈ S, o ∈ S') : Kin S' x y :=
  ⟨h.same, h.left.imp_right (hs _), h.right.imp_right (hs _)⟩

/-- Two runs that both succeed. -/
theorem total {x : T α} {y : T β} {a : α} {b : β} (hx : x.val = .ok a) (hy : y.val = .ok b) (ht : x.trace = y.trace) :
    Kin [] x y := ⟨fun _ => ht, .inl (by rw [hx]; rfl), .inl (by rw [hy]; rfl)⟩

/-- Two runs that end in the same way. -/
theorem lock {x : T α} {y : T β} {o : Outcome} (hx : outcome x.val = o) (hy : outcome y.val = o) (ht : x.trace = y.trace) :
    Kin [o] x y := ⟨fun _ => ht, .inr (by rw [hx]; simp), .inr (by rw [hy]; simp)⟩

/-- First a step that succeeds in both. -/
theorem step {S : List Outcome} {x : T α} {y : T β} {f : α → T γ} {g : β → T δ} {a : α} {b : β} (hx : x.val = .ok a)
    (hy : y.val = .ok b) (ht : x.trace = y.trace) (h : Kin S (f a) (g b)) : Kin S (x >>= f) (y >>= g) := by
  obtain ⟨h1, h2⟩ := bind_ok (f := f) hx
  obtain ⟨h3, h4⟩ := bind_ok (f := g) hy
  refine ⟨fun e => ?_, by rw [h1]; exact h.left, by rw [h3]; exact h.right⟩
  rw [h1, h3] at e
  rw [h2, h4, ht, h.same e]

/-- First a step that may fail, with a failure that the rest never has. -/
theorem bind {S S' : List Outcome} {x : T α} {y : T β} {f : α → T γ} {g : β → T δ} (h : Kin S x y)
    (hf : ∀ a b, x.val = .ok a → y.val = .ok b → Kin S' (f a) (g b))
    (hl : ∀ a, x.val = .ok a → outcome (f a).val = .ok ∨ outcome (f a).val ∈ S')
    (hr : ∀ b, y.val = .ok b → outcome (g b).val = .ok ∨ outcome (g b).val ∈ S')
    (hd : ∀ o ∈ S, o ≠ .ok ∧ o ∉ S') : Kin (S ++ S') (x >>= f) (y >>= g) := by
  have mem : ∀ {o : Outcome}, (o = .ok ∨ o ∈ S') → o = .ok ∨ o ∈ S ++ S' :=
    fun h => h.imp_right fun m => List.mem_append_right _ m
  have mem' : ∀ {o : Outcome}, (o = .ok ∨ o ∈ S) → o = .ok ∨ o ∈ S ++ S' :=
    fun h => h.imp_right fun m => List.mem_append_left _ m
  by_cases hx : outcome x.val = .ok <;> by_cases hy : outcome y.val = .ok
  · obtain ⟨a, ha⟩ := outcome_ok.mp hx
    obtain ⟨b, hb⟩ := outcome_ok.mp hy
    exact (step ha hb (h.same (hx.trans hy.symm)) (hf a b ha hb)).mono fun o m => List.mem_append_right _ m
  · obtain ⟨a, ha⟩ := outcome_ok.mp hx
    obtain ⟨h1, h2⟩ := bind_ok (f := f) ha
    obtain ⟨h3, h4⟩ := bind_fail (f := g) hy
    have hs := h.right.resolve_left hy
    refine ⟨fun e => ?_, by rw [h1]; exact mem (hl a ha), by rw [h3]; exact mem' h.right⟩
    rw [h1, h3] at e
    rcases hl a ha with e' | e'
    · exact absurd (e.symm.trans e') hy
    · exact absurd (e ▸ e') (hd _ hs).2
  · obtain ⟨b, hb⟩ := outcome_ok.mp hy
    obtain ⟨h1, h2⟩ := bind_ok (f := g) hb
    obtain ⟨h3, h4⟩ := bind_fail (f := f) hx
    have hs := h.left.resolve_left hx
    refine ⟨fun e => ?_, by rw [h3]; exact mem' h.left, by rw [h1]; exact mem (hr b hb)⟩
    rw [h1, h3] at e
    rcases hr b hb with e' | e'
    · exact absurd (e.trans e') hx
    · exact absurd (e ▸ e') (hd _ hs).2
  · obtain ⟨h1, h2⟩ := bind_fail (f := f) hx
    obtain ⟨h3, h4⟩ := bind_fail (f := g) hy
    refine ⟨fun e => ?_, by rw [h1]; exact mem' h.left, by rw [h3]; exact mem' h.right⟩
    rw [h1, h3] at e
    rw [h2, h4, h.same e]

/-- First a step that may fail, then steps that never do. -/
theorem bindTotal {S : List Outcome} {x : T α} {y : T β} {f : α → T γ} {g : β → T δ} (h : Kin S x y)
    (hf : ∀ a b, x.val = .ok a → y.val = .ok b → (f a).trace = (g b).trace) (hl : ∀ a, x.val = .ok a → ∃ c, (f a).val = .ok c)
    (hr : ∀ b, y.val = .ok b → ∃ d, (g b).val = .ok d) (hd : Outcome.ok ∉ S) : Kin S (x >>= f) (y >>= g) := by
  have := h.bind (S' := []) (f := f) (g := g)
    (fun a b ha hb => total (hl a ha).choose_spec (hr b hb).choose_spec (hf a b ha hb))
    (fun a ha => .inl (outcome_ok.mpr (hl a ha))) (fun b hb => .inl (outcome_ok.mpr (hr b hb)))
    (fun o ho => ⟨fun e => hd (e ▸ ho), List.not_mem_nil⟩)
  rwa [List.append_nil] at this

/-- First a step that fails in both. -/
theorem lockBind {x : T α} {y : T β} {f : α → T γ} {g : β → T δ} {o : Outcome} (hx : outcome x.val = o)
    (hy : outcome y.val = o) (ho : o ≠ .ok) (ht : x.trace = y.trace) : Kin [o] (x >>= f) (y >>= g) := by
  obtain ⟨h1, h2⟩ := bind_fail (f := f) (x := x) (by rw [hx]; exact ho)
  obtain ⟨h3, h4⟩ := bind_fail (f := g) (x := y) (by rw [hy]; exact ho)
  exact lock (h1.trans hx) (h3.trans hy) (by rw [h2, h4, ht])

/-- An operation that may fail in one way only. -/
theorem callRes {r : Res α} {r' : Res β} (op : Op) {l l' : List Nat} (hl : l = l') (o : Outcome)
    (h : outcome r = .ok ∨ outcome r = o) (h' : outcome r' = .ok ∨ outcome r' = o) :
    Kin [o] (T.callRes op l r) (T.callRes op l' r') := by
  subst hl
  refine ⟨fun e => ?_, h.imp_right fun e => by simp [e], h'.imp_right fun e => by simp [e]⟩
  simp only [T.val_callRes] at e
  simp only [T.callRes, e]

/-- A test one of whose results is an error that the rest never has. -/
theorem testErr {S : List Outcome} (o : Op) (bad : Bool) {b b' : Bool} {e : Error} {f : Bool → T γ} {g : Bool → T δ}
    (hf : f bad = T.check (.err e)) (hg : g bad = T.check (.err e))
    (h : b = !bad → b' = !bad → Kin S (f (!bad)) (g (!bad)))
    (hl : b = !bad → outcome (f (!bad)).val = .ok ∨ outcome (f (!bad)).val ∈ S)
    (hr : b' = !bad → outcome (g (!bad)).val = .ok ∨ outcome (g (!bad)).val ∈ S)
    (he : Outcome.err e ∉ S) : Kin (.err e :: S) (T.test o b >>= f) (T.test o b' >>= g) := by
  have mem : ∀ {o : Outcome}, (o = .ok ∨ o ∈ S) → o = .ok ∨ o ∈ Outcome.err e :: S :=
    fun h => h.imp_right fun m => List.mem_cons_of_mem _ m
  obtain ⟨h1, h2⟩ := bind_ok (f := f) (T.val_test o b)
  obtain ⟨h3, h4⟩ := bind_ok (f := g) (T.val_test o b')
  have fbad : (f bad).val = .err e := by rw [hf]; rfl
  have gbad : (g bad).val = .err e := by rw [hg]; rfl
  have key : ∀ c : Bool, c = bad ∨ c = !bad := by intro c; cases c <;> cases bad <;> simp
  rcases key b with rfl | hb <;> rcases key b' with hb' | hb'
  · subst hb'
    refine ⟨fun _ => ?_, .inr (by rw [h1, fbad]; simp [outcome]), .inr (by rw [h3, gbad]; simp [outcome])⟩
    rw [h2, h4, hf, hg]
    rfl
  · refine ⟨fun eq => ?_, .inr (by rw [h1, fbad]; simp [outcome]), by rw [h3, hb']; exact mem (hr hb')⟩
    rw [h1, h3, fbad, hb'] at eq
    rcases hr hb' with e' | e'
    · rw [e'] at eq; exact absurd eq (by simp [outcome])
    · rw [← eq] at e'; exact absurd e' he
  · subst hb'
    refine ⟨fun eq => ?_, by rw [h1, hb]; exact mem (hl hb), .inr (by rw [h3, gbad]; simp [outcome])⟩
    rw [h1, h3, gbad, hb] at eq
    rcases hl hb with e' | e'
    · rw [e'] at eq; exact absurd eq (by simp [outcome])
    · rw [eq] at e'; exact absurd e' he
  · have hk := h hb hb'
    subst hb hb'
    refine ⟨fun eq => ?_, by rw [h1]; exact mem hk.left, by rw [h3]; exact mem hk.right⟩
    rw [h1, h3] at eq
    rw [h2, h4, hk.same eq]

theorem unwrapDiverge {x : T α} {y : T β} (h : Kin [.diverge] x y) : Kin [.diverge] (T.unwrap x) (T.unwrap y) := by
  have key : ∀ {ε : Type} (z : T ε), outcome z.val = .ok ∨ outcome z.val ∈ [Outcome.diverge] →
      outcome (Res.unwrap z.val) = outcome z.val := by
    intro ε z hz
    cases hv : z.val with
    | ok a => rfl
    | diverge => rfl
    | err e => rw [hv] at hz; simp [outcome] at hz
    | panic => rfl
  refine ⟨fun e => ?_, by rw [T.val_unwrap, key x h.left]; exact h.left, by rw [T.val_unwrap, key y h.right]; exact h.right⟩
  rw [T.val_unwrap, T.val_unwrap, key x h.left, key y h.right] at e
  simp only [T.unwrap, h.same e, e]

end Kin

theorem collect_total : ∀ {xs : List (T α)}, (∀ x ∈ xs, ∃ a, x.val = .ok a) →
    ∃ as, (T.collect xs).val = .ok as ∧ as.length = xs.length
  | [], _ => ⟨[], rfl, rfl⟩
  | x :: xs, h => by
    obtain ⟨a, ha⟩ := h x (by simp)
    obtain ⟨as, has, hl⟩ := collect_total (xs := xs) fun y hy => h y (by simp [hy])
    refine ⟨a :: as, ?_, by simp [hl]⟩
    rw [T.collect, (bind_ok ha).1, (bind_ok has).1]
    rfl

variable {CS : CipherSuite} [L : CS.group.Lawful]

/-! ## `src/common.rs` -/

theorem composites_ok (wf : CS.WF) (k : Option CS.Scalar) (b : CS.Elem) {cs ds : List CS.Elem} (mode : Mode)
    (h : cs.length = ds.length) (h' : cs.length ≤ 65535) : ∃ p, (computeComposites CS k b cs ds mode).val = .ok p := by
  rw [erase_computeComposites, computeComposites_eq wf, if_neg (by simp [h]; omega)]
  obtain ⟨ws, hw, -⟩ := weights_ok wf mode b cs ds
  exact ⟨_, by rw [hw]⟩

/-- A batch of the wrong size. -/
def BadSize (cs ds : List CS.Elem) : Prop := cs.length ≠ ds.length ∨ 65535 < cs.length

omit L in
theorem composites_bad (k k' : Option CS.Scalar) (b b' : CS.Elem) {cs cs' ds ds' : List CS.Elem} (hc : cs.length = cs'.length)
    (hd : ds.length = ds'.length) (mode : Mode) (h : BadSize cs ds) :
    (computeComposites CS k b cs ds mode).val = .err .Batch ∧
      (computeComposites CS k b cs ds mode).trace = (computeComposites CS k' b' cs' ds' mode).trace := by
  unfold computeComposites
  by_cases hl : cs.length = ds.length
  · have hn : ¬ cs.length ≤ 65535 := by rcases h with h | h <;> omega
    have e1 : (T.check (if cs.length ≠ ds.length then Res.err .Batch else Res.ok ()) : T Unit).val = .ok () := by simp [hl]
    have e2 : (T.check (if cs'.length ≠ ds'.length then Res.err .Batch else Res.ok ()) : T Unit).val = .ok () := by
      rw [← hc, ← hd]; exact e1
    have f1 : outcome (T.check (Res.okOr .Batch (u16TryFrom cs.length))).val = .err .Batch := by
      simp [u16TryFrom, hn, Res.okOr, outcome]
    have f2 : outcome (T.check (Res.okOr .Batch (u16TryFrom cs'.length))).val = .err .Batch := by rw [← hc]; exact f1
    rw [(bind_ok e1).1, (bind_ok e1).2, (bind_ok e2).2, (bind_fail (by rw [f1]; simp)).2, (bind_fail (by rw [f2]; simp)).2]
    refine ⟨?_, by rw [hc, hd]⟩
    simp [u16TryFrom, hn, Res.okOr]
  · have f1 : outcome (T.check (if cs.length ≠ ds.length then Res.err .Batch else Res.ok ()) : T Unit).val = .err .Batch := by
      simp [hl, outcome]
    have f2 : outcome (T.check (if cs'.length ≠ ds'.length then Res.err .Batch else Res.ok ()) : T Unit).val = .err .Batch := by
      rw [← hc, ← hd]; exact f1
    rw [(bind_fail (by rw [f1]; simp)).2, (bind_fail (by rw [f2]; simp)).2]
    refine ⟨?_, by rw [hc, hd]⟩
    rw [T.val_bind, T.val_check, if_pos hl]
    rfl

theorem challenge_total (wf : CS.WF) (b m z t2 t3 : CS.Elem) (mode : Mode) : ∃ c, (challenge CS b m z t2 t3 mode).val = .ok c := by
  obtain ⟨c, hc⟩ := challenge_ok wf mode b m z t2 t3
  exact ⟨c, by rw [erase_challenge, challenge_unwrap wf, hc]; rfl⟩

theorem kin_verifyProof (wf : CS.WF) (a a' b b' : CS.Elem) {cs cs' ds ds' : List CS.Elem} (hc : cs.length = cs'.length)
    (hd : ds.length = ds'.length) (proof proof' : Proof CS) (mode : Mode) (hs : ¬ BadSize cs ds) :
    Kin [.err .ProofVerification] (verifyProof CS a b cs ds proof mode) (verifyProof CS a' b' cs' ds' proof' mode) := by
  simp only [BadSize, not_or, not_not, not_lt] at hs
  obtain ⟨p, hp⟩ := composites_ok wf none b mode hs.1 hs.2
  obtain ⟨p', hp'⟩ := composites_ok wf none b' (cs := cs') (ds := ds') mode (by omega) (by omega)
  refine .step hp hp' (rel_computeComposites none none rfl b b' hc hd mode p p' hp hp').1 ?_
  refine .step rfl rfl rfl <| .step rfl rfl rfl <| .step rfl rfl rfl <| .step rfl rfl rfl <| .step rfl rfl rfl <|
    .step rfl rfl rfl ?_
  obtain ⟨c, hc⟩ := challenge_total wf b p.1 p.2 (CS.group.elemAdd (CS.group.elemMul a proof.sScalar) (CS.group.elemMul b proof.cScalar))
    (CS.group.elemAdd (CS.group.elemMul p.1 proof.sScalar) (CS.group.elemMul p.2 proof.cScalar)) mode
  obtain ⟨c', hc'⟩ := challenge_total wf b' p'.1 p'.2
    (CS.group.elemAdd (CS.group.elemMul a' proof'.sScalar) (CS.group.elemMul b' proof'.cScalar))
    (CS.group.elemAdd (CS.group.elemMul p'.1 proof'.sScalar) (CS.group.elemMul p'.2 proof'.cScalar)) mode
  refine .step hc hc' (rel_challenge _ _ _ _ _ _ _ _ _ _ mode c c' hc hc').1 ?_
  exact .testErr (S := []) _ false rfl rfl (fun _ _ => .total rfl rfl rfl) (fun _ => .inl rfl) (fun _ => .inl rfl) (by simp)

omit L in
theorem verifyProof_bad (a a' b b' : CS.Elem) {cs cs' ds ds' : List CS.Elem} (hc : cs.length = cs'.length)
    (hd : ds.length = ds'.length) (proof proof' : Proof CS) (mode : Mode) (hs : BadSize cs ds) :
    outcome (verifyProof CS a b cs ds proof mode).val = .err .Batch ∧
      (verifyProof CS a b cs ds proof mode).trace = (verifyProof CS a' b' cs' ds' proof' mode).trace := by
  obtain ⟨h1, h2⟩ := composites_bad none none b b' hc hd mode hs
  obtain ⟨h3, h4⟩ := composites_bad none none b' b hc.symm hd.symm mode (by rwa [BadSize, ← hc, ← hd])
  unfold verifyProof
  rw [(bind_fail (by rw [h1]; simp [outcome])).1, (bind_fail (by rw [h1]; simp [outcome])).2,
    (bind_fail (by rw [h3]; simp [outcome])).2, h1]
  exact ⟨rfl, h2⟩

omit L in
theorem randomScalar_kin {σ σ' : Type} [RngCore σ] [RngCore σ'] (g : σ) (g' : σ') :
    Kin [.diverge] (T.callRes .randomScalar [] (Res.ofLoop (CS.group.randomScalar g)))
      (T.callRes .randomScalar [] (Res.ofLoop (CS.group.randomScalar g'))) := by
  refine .callRes _ rfl _ ?_ ?_
  · cases CS.group.randomScalar g <;> simp [Res.ofLoop, outcome]
  · cases CS.group.randomScalar g' <;> simp [Res.ofLoop, outcome]

theorem kin_generateProof (wf : CS.WF) {σ σ' : Type} [RngCore σ] [RngCore σ'] (rng : σ) (rng' : σ') (k k' : CS.Scalar)
    (a a' b b' : CS.Elem) {cs cs' ds ds' : List CS.Elem} (hc : cs.length = cs'.length) (hd : ds.length = ds'.length) (mode : Mode)
    (hs : ¬ BadSize cs ds) :
    Kin [.diverge] (generateProof CS rng k a b cs ds mode) (generateProof CS rng' k' a' b' cs' ds' mode) := by
  simp only [BadSize, not_or, not_not, not_lt] at hs
  obtain ⟨p, hp⟩ := composites_ok wf (some k) b mode hs.1 hs.2
  obtain ⟨p', hp'⟩ := composites_ok wf (some k') b' (cs := cs') (ds := ds') mode (by omega) (by omega)
  refine .step hp hp' (rel_computeComposites (some k) (some k') rfl b b' hc hd mode p p' hp hp').1 ?_
  have rest : ∀ (τ : Type) (r : CS.Scalar) (t : τ) (k : CS.Scalar) (a b : CS.Elem) (p : CS.Elem × CS.Elem), ∃ x, (do
      let t2 ← mul CS a r
      let t3 ← mul CS p.1 r
      let c ← challenge CS b p.1 p.2 t2 t3 mode
      let ck ← T.call .scalarMul [] (CS.group.scalarMul c k)
      let s ← T.call .scalarSub [] (CS.group.scalarSub r ck)
      pure ((⟨c, s⟩ : Proof CS), t) : T (Proof CS × τ)).val = .ok x := by
    intro τ r t k a b p
    obtain ⟨c, hc⟩ := challenge_total wf b p.1 p.2 (CS.group.elemMul a r) (CS.group.elemMul p.1 r) mode
    refine ⟨(⟨c, CS.group.scalarSub r (CS.group.scalarMul c k)⟩, t), ?_⟩
    rw [(bind_ok (val_mul a r)).1, (bind_ok (val_mul p.1 r)).1, (bind_ok hc).1]
    rfl
  refine (randomScalar_kin rng rng').bindTotal ?_ (fun x _ => rest σ x.1 x.2 k a b p) (fun x _ => rest σ' x.1 x.2 k' a' b' p')
    (by simp)
  intro x x' _ _
  obtain ⟨y, hy⟩ := rest σ x.1 x.2 k a b p
  obtain ⟨y', hy'⟩ := rest σ' x'.1 x'.2 k' a' b' p'
  refine (Rel.bind (R := Any) (S := Any) (rel_mul _ _ _ _) fun t2 t2' _ => (rel_mul _ _ _ _).bind fun t3 t3' _ =>
    (rel_challenge _ _ _ _ _ _ _ _ _ _ mode).bind fun c c' _ =>
    Rel.bind (R := Any) (Rel.call _ rfl trivial) fun ck ck' _ =>
    Rel.bind (R := Any) (Rel.call _ rfl trivial) fun s s' _ => Rel.pure trivial) y y' hy hy' |>.1

end Voprf.Leak
