import Verif.Spec.Fresh
import Verif.Props.Pseudorandom
import Verif.Props.Party

/-!
# C64: outputs of a freshly made server are pseudorandom
-/

namespace Voprf

open Spec

variable {CS : CipherSuite} [L : CS.group.Lawful]

namespace Spec.Strategy
variable {Q A O P : Type}

/-- Go on with another strategy. -/
def bind : Strategy Q A O → (O → Strategy Q A P) → Strategy Q A P
  | done o, k => k o
  | ask q next, k => ask q fun a => (next a).bind k

theorem run_bind (f : Q → A) : ∀ (S : Strategy Q A O) (k : O → Strategy Q A P), (S.bind k).run f = (k (S.run f)).run f
  | done _, _ => rfl
  | ask q next, k => run_bind f (next (f q)) k

theorem Within.mono' {S : Strategy Q A O} : ∀ {n n' : Nat}, S.Within n → n ≤ n' → S.Within n' := by
  induction S with
  | done o => intros; simp [Within]
  | ask q next ih =>
    intro n n' h hn
    cases n with
    | zero => exact absurd h (by simp [Within])
    | succ n =>
      cases n' with
      | zero => omega
      | succ n' => exact fun a => ih a (h a) (by omega)

theorem within_bind {k : O → Strategy Q A P} {b : Nat} (hk : ∀ o, (k o).Within b) {S : Strategy Q A O} :
    ∀ {a : Nat}, S.Within a → (S.bind k).Within (a + b) := by
  induction S with
  | done o => intro a _; exact Within.mono' (hk o) (by omega)
  | ask q next ih =>
    intro a h
    cases a with
    | zero => exact absurd h (by simp [Within])
    | succ a =>
      rw [show a + 1 + b = (a + b) + 1 by omega]
      exact fun x => ih x (h x)

end Spec.Strategy

namespace Spec.OutputJudge
variable {X : Type}

/-- The party computing the outputs itself. -/
def collapse (D : Digests CS) (sim : X → Strategy Question CS.Scalar (Option Bytes)) :
    OutputJudge CS X → Strategy Question CS.Scalar Bool
  | .done o => .done o
  | .ask q next => collapse D sim (next (D q))
  | .request (.inl q) next => .ask q fun a => collapse D sim (next (.inl a))
  | .request (.inr x) next => (sim x).bind fun o => collapse D sim (next (.inr o))

omit L in
theorem collapse_run (f : Table CS) (D : Digests CS) (sim : X → Strategy Question CS.Scalar (Option Bytes))
    (out : X → Option Bytes) (h : ∀ x, (sim x).run f = out x) (T : OutputJudge CS X) :
    (collapse D sim T).run f = T.run D (withOutputs f out) := by
  induction T with
  | done o => rfl
  | ask q next ih => exact ih (D q)
  | request r next ih =>
    cases r with
    | inl q => exact ih (.inl (f q))
    | inr x =>
      show ((sim x).bind _).run f = Player.run D _ (next (.inr (out x)))
      rw [Strategy.run_bind, h x]
      exact ih (.inr (out x))

omit L in
theorem collapse_within (D : Digests CS) (sim : X → Strategy Question CS.Scalar (Option Bytes)) (c : Nat)
    (hs : ∀ x, (sim x).Within c) {d h m : Nat} {T : OutputJudge CS X} (hT : T.Within d h m) :
    (collapse D sim T).Within (h + c * m) := by
  induction hT with
  | done o => simp [collapse, Strategy.Within]
  | digest q next _ ih => exact ih (D q)
  | @scalar d h m q next _ ih =>
    rw [show h + 1 + c * m = (h + c * m) + 1 by omega]
    exact fun a => ih a
  | @output d h m x next _ ih =>
    rw [show h + c * (m + 1) = c + (h + c * m) by ring]
    exact Strategy.within_bind (fun o => ih o) (hs x)

/-- The party with `hash_to_scalar` fixed. -/
def fixed (f : Table CS) : OutputJudge CS X → Player DigestQuestion (DigestValue CS) X (Option Bytes) Bool
  | .done o => .done o
  | .ask q next => .ask q fun a => fixed f (next a)
  | .request (.inl q) next => fixed f (next (.inl (f q)))
  | .request (.inr x) next => .request x fun o => fixed f (next (.inr o))

omit L in
theorem fixed_run (f : Table CS) (D : Digests CS) (out : X → Option Bytes) (T : OutputJudge CS X) :
    (fixed f T).run D out = T.run D (withOutputs f out) := by
  induction T with
  | done o => rfl
  | ask q next ih => exact ih (D q)
  | request r next ih =>
    cases r with
    | inl q => exact ih (.inl (f q))
    | inr x => exact ih (.inr (out x))

omit L in
theorem fixed_count (f : Table CS) {d h m : Nat} {T : OutputJudge CS X} (hT : T.Within d h m) (D : Digests CS)
    (out : X → Option Bytes) : (fixed f T).questions D out ≤ d ∧ (fixed f T).requests D out ≤ m := by
  induction hT with
  | done o => simp [fixed, Player.questions, Player.requests]
  | digest q next _ ih =>
    have := ih (D q)
    exact ⟨Nat.succ_le_succ this.1, this.2⟩
  | scalar q next _ ih => exact ih (f q)
  | output x next _ ih =>
    have := ih (out x)
    refine ⟨this.1, ?_⟩
    show Player.requests D out (.request x _) ≤ _
    simp only [Player.requests]
    exact Nat.succ_le_succ this.2

end Spec.OutputJudge

/-! ## Averages over products -/

theorem chance_prod {α β : Type} [Finite α] [Finite β] (P : α × β → Prop) :
    chance P = average fun a => chance fun b => P (a, b) := by
  have := Fintype.ofFinite α
  have := Fintype.ofFinite β
  rw [chance_expect, average_eq, ← Finset.univ_product_univ, Finset.expect_product]
  exact Finset.expect_congr rfl fun a _ => (chance_expect _).symm

theorem chance_prod' {α β : Type} [Finite α] [Finite β] (P : α × β → Prop) :
    chance P = average fun b => chance fun a => P (a, b) := by
  rw [chance_prod]
  unfold chance
  exact average_comm _

/-- The two hops: first the key of `new` is replaced by a uniform one, then the outputs by those of a random function. -/
theorem fresh_bound (wf : CS.WF) (hl : CS.group.scalarLen ≤ 65533) (mode : Mode) {X I : Type} [Finite I] [Nonempty I]
    (T : OutputJudge CS X) {d h m : Nat} (hT : T.Within d h m)
    (out : CS.Scalar → Table CS → Digests CS → X → Option Bytes) (ideal : Table CS → I → X → Option Bytes)
    (sim : CS.Scalar → Digests CS → X → Strategy Question CS.Scalar (Option Bytes)) (c : Nat)
    (hc : ∀ k D x, (sim k D x).Within c) (hs : ∀ k D f x, (sim k D x).run f = out k f D x) (b : ℚ)
    (hb : ∀ f : Table CS, |chance (fun w : Nonce CS × Digests CS => (T.fixed f).run w.2 (out w.1.1 f w.2) = true) -
      chance (fun w : Digests CS × I => (T.fixed f).run w.1 (ideal f w.2) = true)| ≤ b) :
    |chance (fun w : Seed CS × Table CS × Digests CS => ∃ k : CS.Scalar, w.1.newKey w.2.1 mode = .ok k ∧
        T.Accepts w.2.1 w.2.2 (out k w.2.1 w.2.2)) -
      chance (fun w : Table CS × Digests CS × I => T.Accepts w.1 w.2.1 (ideal w.1 w.2.2))| ≤
      b + ((h + c * m : Nat) / 256 ^ CS.group.scalarLen + (1 / Nat.card CS.Scalar) ^ 256) := by
  have : Finite CS.Scalar := VGroup.Lawful.finite_scalar
  have : Nonempty (Table CS) := ⟨fun _ => 0⟩
  have : Nonempty (Nonce CS) := ⟨⟨1, one_ne_zero⟩⟩
  let J : Digests CS → KeyJudge CS := fun D k => T.collapse D (sim k D)
  have h1 : chance (fun w : Seed CS × Table CS × Digests CS => ∃ k : CS.Scalar, w.1.newKey w.2.1 mode = .ok k ∧
        T.Accepts w.2.1 w.2.2 (out k w.2.1 w.2.2)) = average fun D => (J D).real mode := by
    refine (chance_equiv (Equiv.prodAssoc _ _ _).symm _ (fun w : (Seed CS × Table CS) × Digests CS =>
      ∃ k : CS.Scalar, w.1.1.newKey w.1.2 mode = .ok k ∧ T.Accepts w.1.2 w.2 (out k w.1.2 w.2)) fun _ => Iff.rfl).trans ?_
    rw [chance_prod']
    refine congrArg average (funext fun D => chance_iff fun w => ?_)
    simp only [J, OutputJudge.collapse_run w.2 D (sim _ D) _ (fun x => hs _ D w.2 x), OutputJudge.Accepts]
  have h2 : (average fun D => (J D).ideal) =
      average fun f : Table CS => chance (fun w : Nonce CS × Digests CS => (T.fixed f).run w.2 (out w.1.1 f w.2) = true) := by
    have h3 : ∀ D, (J D).ideal = average fun f : Table CS => chance fun k : Nonce CS =>
        T.Accepts f D (out k.1 f D) := by
      intro D
      unfold KeyJudge.ideal
      rw [chance_prod']
      refine congrArg average (funext fun f => chance_iff fun k => ?_)
      simp only [J, OutputJudge.collapse_run f D (sim _ D) _ (fun x => hs _ D f x), OutputJudge.Accepts]
    simp only [h3]
    rw [average_comm]
    refine congrArg average (funext fun f => ?_)
    rw [chance_prod']
    refine congrArg average (funext fun D => chance_iff fun k => ?_)
    rw [OutputJudge.fixed_run]
    rfl
  have h4 : chance (fun w : Table CS × Digests CS × I => T.Accepts w.1 w.2.1 (ideal w.1 w.2.2)) =
      average fun f : Table CS => chance (fun w : Digests CS × I => (T.fixed f).run w.1 (ideal f w.2) = true) := by
    rw [chance_prod]
    refine congrArg average (funext fun f => chance_iff fun w => ?_)
    rw [OutputJudge.fixed_run]
    rfl
  have e1 := abs_average_sub_le (fun D => (J D).real mode) (fun D => (J D).ideal) _ fun D =>
    C62_new wf hl mode (h + c * m) (J D) fun k => T.collapse_within D (sim k D) c (hc k D) hT
  have e2 := abs_average_sub_le _ _ b hb
  rw [h1, h4]
  rw [← h2] at e2
  have := abs_sub_le (average fun D => (J D).real mode) (average fun D => (J D).ideal)
    (average fun f : Table CS => chance (fun w : Digests CS × I => (T.fixed f).run w.1 (ideal f w.2) = true))
  linarith

/-! ## The server made by `new` -/

omit L in
theorem deriveKeyLoop_digest (D : Digests CS) (seed infoLen info : Bytes) (dst : Dst) : ∀ fuel counter,
    (deriveKeyLoop (digestSuite CS D) seed infoLen info dst fuel counter : Res CS.Scalar) =
      deriveKeyLoop CS seed infoLen info dst fuel counter
  | 0, _ => rfl
  | fuel + 1, counter => by
    have ih := deriveKeyLoop_digest D seed infoLen info dst fuel (counter + 1)
    unfold deriveKeyLoop
    refine bind_congr fun k => ?_
    show (if (!CS.group.isZeroScalar k) = true then _ else _) = _
    split
    · rfl
    · exact ih

omit L in
theorem deriveKey_digest (D : Digests CS) (seed info : Bytes) (mode : Mode) :
    (deriveKey (digestSuite CS D) seed info mode : Res CS.Scalar) = deriveKey CS seed info mode := by
  unfold deriveKey deriveKeyInternal
  refine bind_congr fun dst => bind_congr fun l => ?_
  exact deriveKeyLoop_digest D seed l info dst 256 0

omit L in
theorem tape_fill (b : Bytes) (n : Nat) (hb : b.length = n) : RngCore.fillBytes (⟨b⟩ : Tape) n = (b, ⟨[]⟩) := by
  have := fill_block b [] n hb
  rwa [List.append_nil] at this

theorem oprf_new_iff (b : Bytes) (hb : b.length = CS.group.scalarLen) (P : OprfServer CS → Prop) :
    (∃ s g, OprfServer.new CS (⟨b⟩ : Tape) = .ok (s, g) ∧ P s) ↔ ∃ k : CS.Scalar, deriveKey CS b [] .Oprf = .ok k ∧ P ⟨k⟩ := by
  unfold OprfServer.new
  rw [tape_fill b _ hb]
  show (∃ s g, (OprfServer.newFromSeed CS b [] >>= _) = _ ∧ _) ↔ _
  rw [(C46_derive_key (CS := CS) b []).1]
  cases deriveKey CS b [] .Oprf <;> simp

theorem voprf_new_iff (b : Bytes) (hb : b.length = CS.group.scalarLen) (P : VoprfServer CS → Prop) :
    (∃ s g, VoprfServer.new CS (⟨b⟩ : Tape) = .ok (s, g) ∧ P s) ↔
      ∃ k : CS.Scalar, deriveKey CS b [] .Voprf = .ok k ∧ P ⟨k, k • CS.group.baseElem⟩ := by
  unfold VoprfServer.new
  rw [tape_fill b _ hb]
  show (∃ s g, (VoprfServer.newFromSeed CS b [] >>= _) = _ ∧ _) ↔ _
  rw [(C46_derive_key (CS := CS) b []).2.1]
  cases deriveKey CS b [] .Voprf <;> simp

theorem poprf_new_iff (b : Bytes) (hb : b.length = CS.group.scalarLen) (P : PoprfServer CS → Prop) :
    (∃ s g, PoprfServer.new CS (⟨b⟩ : Tape) = .ok (s, g) ∧ P s) ↔
      ∃ k : CS.Scalar, deriveKey CS b [] .Poprf = .ok k ∧ P ⟨k, k • CS.group.baseElem⟩ := by
  unfold PoprfServer.new
  rw [tape_fill b _ hb]
  show (∃ s g, (PoprfServer.newFromSeed CS b [] >>= _) = _ ∧ _) ↔ _
  rw [(C46_derive_key (CS := CS) b []).2.2.1]
  cases deriveKey CS b [] .Poprf <;> simp

theorem newKey_derive (f : Table CS) (mode : Mode) (s : Seed CS) :
    s.newKey f mode = deriveKey (oracleSuite CS f) s.1 [] mode := by
  rw [newKey_eq, KeyRequest.key_eq]

theorem oprfFresh_iff (T : OutputJudge CS Bytes) (s : Seed CS) (f : Table CS) (D : Digests CS) :
    oprfFresh T s f D ↔ ∃ k : CS.Scalar, s.newKey f .Oprf = .ok k ∧
      T.Accepts f D (oprfOutput (CS := oracleSuite CS f) k D) := by
  unfold oprfFresh
  rw [newKey_derive, ← deriveKey_digest (CS := oracleSuite CS f) D]
  exact oprf_new_iff (CS := digestSuite (oracleSuite CS f) D) (L := digestLawful (CS := oracleSuite CS f) D) s.1 s.2 _

theorem voprfFresh_iff (T : OutputJudge CS Bytes) (s : Seed CS) (f : Table CS) (D : Digests CS) :
    voprfFresh T s f D ↔ ∃ k : CS.Scalar, s.newKey f .Voprf = .ok k ∧
      T.Accepts f D (voprfOutput (CS := oracleSuite CS f) k (k • CS.group.baseElem) D) := by
  unfold voprfFresh
  rw [newKey_derive, ← deriveKey_digest (CS := oracleSuite CS f) D]
  exact voprf_new_iff (CS := digestSuite (oracleSuite CS f) D) (L := digestLawful (CS := oracleSuite CS f) D) s.1 s.2 _

theorem poprfFresh_iff (T : OutputJudge CS (Bytes × Option Bytes)) (s : Seed CS) (f : Table CS) (D : Digests CS) :
    poprfFresh T s f D ↔ ∃ k : CS.Scalar, s.newKey f .Poprf = .ok k ∧
      T.Accepts f D (poprfOutput (CS := oracleSuite CS f) k (k • CS.group.baseElem) D) := by
  unfold poprfFresh
  rw [newKey_derive, ← deriveKey_digest (CS := oracleSuite CS f) D]
  exact poprf_new_iff (CS := digestSuite (oracleSuite CS f) D) (L := digestLawful (CS := oracleSuite CS f) D) s.1 s.2 _

/-! ## The three modes -/

/-- C64, OPRF: a party of unlimited computing power that asks for `d` digests, for `h` values of `hash_to_scalar` and for any
outputs tells a server made by `OprfServer::new` from uniform bytes from a random function with an advantage of at most
`d / (|scalars| - 1) + h / 256^ScalarLen + |scalars|^-256`. -/
theorem C64_oprf (wf : CS.WF) (hl : CS.group.scalarLen ≤ 65533) (T : OutputJudge CS Bytes) (d h m : Nat)
    (hT : T.Within d h m) :
    |chance (fun w : Seed CS × Table CS × Digests CS => oprfFresh T w.1 w.2.1 w.2.2) -
      chance (fun w : Table CS × Digests CS × Outputs CS => T.Accepts w.1 w.2.1 (w.2.2.answer .Oprf))| ≤
      d / (Nat.card CS.Scalar - 1) + (h / 256 ^ CS.group.scalarLen + (1 / Nat.card CS.Scalar) ^ 256) := by
  rw [chance_iff fun w : Seed CS × Table CS × Digests CS => oprfFresh_iff T w.1 w.2.1 w.2.2]
  have key := fresh_bound wf hl .Oprf T hT (fun k f D => oprfOutput (CS := oracleSuite CS f) k D)
    (fun f (F : Outputs CS) => F.answer .Oprf) (fun k D x => .done (oprfOutput k D x)) 0 (fun _ _ _ => trivial)
    (fun k D f x => rfl) (d / (Nat.card CS.Scalar - 1)) fun f => C63_oprf_prf wf (T.fixed f) d fun D out => (T.fixed_count f hT D out).1
  simpa using key

/-- C64, VOPRF: the same for `VoprfServer::new`, for a party that does not see the public key. -/
theorem C64_voprf (wf : CS.WF) (hl : CS.group.scalarLen ≤ 65533) (T : OutputJudge CS Bytes) (d h m : Nat)
    (hT : T.Within d h m) :
    |chance (fun w : Seed CS × Table CS × Digests CS => voprfFresh T w.1 w.2.1 w.2.2) -
      chance (fun w : Table CS × Digests CS × Outputs CS => T.Accepts w.1 w.2.1 (w.2.2.answer .Voprf))| ≤
      d / (Nat.card CS.Scalar - 1) + (h / 256 ^ CS.group.scalarLen + (1 / Nat.card CS.Scalar) ^ 256) := by
  rw [chance_iff fun w : Seed CS × Table CS × Digests CS => voprfFresh_iff T w.1 w.2.1 w.2.2]
  have key := fresh_bound wf hl .Voprf T hT (fun k f D => voprfOutput (CS := oracleSuite CS f) k (k • CS.group.baseElem) D)
    (fun f (F : Outputs CS) => F.answer .Voprf) (fun k D x => .done (voprfOutput k (k • CS.group.baseElem) D x)) 0
    (fun _ _ _ => trivial) (fun k D f x => rfl) (d / (Nat.card CS.Scalar - 1)) fun f =>
      C63_voprf_prf wf (T.fixed f) d fun D out => (T.fixed_count f hT D out).1
  simpa using key

theorem respond_eq (f : Table CS) (F : InfoOutputs CS) (x : Bytes × Option Bytes) :
    F.respond x = InfoOutputs.answer (CS := oracleSuite CS f) F x := by
  have ht : ∃ t, TweaksBy (oracleSuite CS f) x.2 t := ⟨_, hashToScalar_tweakOf f (x.2.getD [])⟩
  unfold InfoOutputs.respond InfoOutputs.answer
  split_ifs with h1 h2 h2
  · rfl
  · exact absurd ⟨h1.1, h1.2.1, h1.2.2, ht⟩ h2
  · exact absurd ⟨h2.1, h2.2.1, h2.2.2.1⟩ h1
  · rfl

omit L in
theorem success_iff {α : Type} (r : Res α) (y : α) : success r = some y ↔ r = .ok y := by
  cases r <;> simp [success]

theorem poprfOutput_congr (wf : CS.WF) (k : CS.Scalar) (pk : CS.Elem) (D : Digests CS) (x : Bytes × Option Bytes)
    {f g : Table CS} (h : tweakOf f x.2 = tweakOf g x.2) :
    poprfOutput (CS := oracleSuite CS f) k pk D x = poprfOutput (CS := oracleSuite CS g) k pk D x := by
  have hT : ∀ t : CS.Scalar, Spec.hashToScalar (oracleSuite CS f) .Poprf (infoInput (x.2.getD [])) = .ok t ↔
      Spec.hashToScalar (oracleSuite CS g) .Poprf (infoInput (x.2.getD [])) = .ok t := by
    intro t
    rw [hashToScalar_tweakOf, hashToScalar_tweakOf]
    show Except.ok (tweakOf f x.2) = Except.ok t ↔ Except.ok (tweakOf g x.2) = Except.ok t
    rw [h]
  unfold poprfOutput
  refine success_eq fun y => ?_
  rw [poprf_digest_iff (CS := oracleSuite CS f) (oracle_wf wf f) D k pk x.1 y x.2, success_iff]
  refine Iff.trans ?_ (poprf_digest_iff (CS := oracleSuite CS g) (oracle_wf wf g) D k pk x.1 y x.2).symm
  exact exists_congr fun P => exists_congr fun t => and_congr_right fun _ => and_congr_right fun _ => and_congr_right fun _ =>
    and_congr_right fun _ => and_congr_left fun _ => hT t

/-- The question `evaluate` of a `PoprfServer` asks `hash_to_scalar`, and the output computed from the answer. -/
def poprfSim (k : CS.Scalar) (D : Digests CS) (x : Bytes × Option Bytes) : Strategy Question CS.Scalar (Option Bytes) :=
  if h : (ascii "HashToScalar-" ++ contextString CS .Poprf).length ≤ 131071 ∧ (infoInput (x.2.getD [])).length ≤ 131071 then
    .ask ⟨(ascii "HashToScalar-" ++ contextString CS .Poprf, infoInput (x.2.getD [])), h⟩ fun a =>
      .done (poprfOutput (CS := oracleSuite CS fun _ => a) k (k • CS.group.baseElem) D x)
  else .done (poprfOutput (CS := oracleSuite CS fun _ => 0) k (k • CS.group.baseElem) D x)

theorem poprfSim_within (k : CS.Scalar) (D : Digests CS) (x : Bytes × Option Bytes) : (poprfSim k D x).Within 1 := by
  unfold poprfSim
  split
  · exact fun _ => trivial
  · trivial

theorem poprfSim_run (wf : CS.WF) (k : CS.Scalar) (D : Digests CS) (f : Table CS) (x : Bytes × Option Bytes) :
    (poprfSim k D x).run f = poprfOutput (CS := oracleSuite CS f) k (k • CS.group.baseElem) D x := by
  unfold poprfSim
  split
  · next h =>
    refine poprfOutput_congr wf k _ D x ?_
    unfold tweakOf Table.answer
    rw [dif_pos h]
  · next h =>
    refine poprfOutput_congr wf k _ D x ?_
    unfold tweakOf Table.answer
    rw [dif_neg h, dif_neg h]

/-- C64, POPRF: the same for `PoprfServer::new`, outputs being asked for pairs of an input and an info; the bound for `m` outputs is
`(d + m) / (|scalars| - 1) + (h + m) / 256^ScalarLen + |scalars|^-256`. -/
theorem C64_poprf (wf : CS.WF) (hl : CS.group.scalarLen ≤ 65533) (T : OutputJudge CS (Bytes × Option Bytes)) (d h m : Nat)
    (hT : T.Within d h m) :
    |chance (fun w : Seed CS × Table CS × Digests CS => poprfFresh T w.1 w.2.1 w.2.2) -
      chance (fun w : Table CS × Digests CS × InfoOutputs CS => T.Accepts w.1 w.2.1 w.2.2.respond)| ≤
      (d + m : Nat) / (Nat.card CS.Scalar - 1) +
        ((h + m : Nat) / 256 ^ CS.group.scalarLen + (1 / Nat.card CS.Scalar) ^ 256) := by
  rw [chance_iff fun w : Seed CS × Table CS × Digests CS => poprfFresh_iff T w.1 w.2.1 w.2.2]
  have key := fresh_bound wf hl .Poprf T hT (fun k f D => poprfOutput (CS := oracleSuite CS f) k (k • CS.group.baseElem) D)
    (fun f (F : InfoOutputs CS) => F.respond) poprfSim 1 poprfSim_within (fun k D f x => poprfSim_run wf k D f x)
    ((d + m : Nat) / (Nat.card CS.Scalar - 1)) fun f => by
      have h63 := C63_poprf_prf (CS := oracleSuite CS f) (oracle_wf wf f) (OutputJudge.fixed (CS := CS) f T) d m
        (fun D out => (T.fixed_count f hT D out).1) fun D out => (T.fixed_count f hT D out).2
      have he : (fun F : InfoOutputs CS => F.respond) = fun F => InfoOutputs.answer (CS := oracleSuite CS f) F :=
        funext fun F => funext fun x => respond_eq f F x
      rw [chance_iff fun w : Digests CS × InfoOutputs CS => by rw [congrFun he w.2]]
      exact h63
  rw [one_mul] at key
  exact key

/-! ## Examples -/

section examples
open Toy

/-- A party asking two outputs, one value of `hash_to_scalar` and one digest. -/
def freshParty : OutputJudge suite Bytes :=
  .request (.inr [1]) fun v => .request (.inl ⟨([], [7]), by decide⟩) fun _ => .request (.inr [2]) fun w =>
    .ask ⟨[], by decide⟩ fun a => .done (match v, w with
      | .inr (some y), .inr (some z) => decide (y = z ∨ y = a.1)
      | _, _ => false)

theorem freshParty_within : freshParty.Within 1 1 2 :=
  .output _ _ fun _ => .scalar _ _ fun _ => .output _ _ fun _ => .digest _ _ fun _ => .done _

/-- Over the toy suite, with 251 scalars of one byte, its advantage is below one in a hundred. -/
example : |chance (fun w : Seed suite × Table suite × Digests suite => oprfFresh freshParty w.1 w.2.1 w.2.2) -
    chance (fun w : Table suite × Digests suite × Outputs suite => freshParty.Accepts w.1 w.2.1 (w.2.2.answer .Oprf))| ≤
    1 / 100 := by
  have h := C64_oprf Toy.wf (by decide) freshParty 1 1 2 freshParty_within
  have hc : Nat.card suite.Scalar = 251 := show Nat.card (ZMod 251) = 251 by simp
  have hl : suite.group.scalarLen = 1 := rfl
  rw [hc, hl] at h
  refine h.trans ?_
  norm_num

/-- Inputs of the party are hashed to elements other than the identity, so that the outputs asked for exist. -/
example : Spec.hashToGroup suite .Oprf [1] = .ok (exampleHash 1) ∧ exampleHash 1 ≠ (0 : F) := example_mapped

/-- A party for `C64_poprf`: the outputs of one input under two infos. -/
def freshInfoParty : OutputJudge suite (Bytes × Option Bytes) :=
  .request (.inr ([1], none)) fun v => .request (.inr ([1], some [9])) fun w => .done (match v, w with
    | .inr (some y), .inr (some z) => decide (y = z)
    | _, _ => false)

example : freshInfoParty.Within 0 0 2 := .output _ _ fun _ => .output _ _ fun _ => .done _

end examples

end Voprf
