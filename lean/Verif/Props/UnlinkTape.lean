import Verif.Spec.UnlinkTape
import Verif.Props.Unlink
import Verif.Props.Drawer
import Verif.Props.Fresh
import Verif.Props.DerivedKeys

/-!
# C70: outputs cannot be linked to sessions, with blinds from uniform bytes
-/

namespace Voprf

open Spec

variable {CS : CipherSuite} [L : CS.group.Lawful]

/-- Draw `n` scalars one after the other. -/
def drawAll {X R : Type} : (n : Nat) → ((Fin n → X) → R) → Drawer X R
  | 0, k => .done (k Fin.elim0)
  | n + 1, k => .draw fun x => drawAll n fun xs => k (Fin.cons x xs)

theorem drawAll_atMost {X R : Type} : (n : Nat) → (k : (Fin n → X) → R) → (drawAll n k).AtMost n
  | 0, _ => trivial
  | n + 1, _ => fun _ => drawAll_atMost n _

omit L in
theorem drawAll_run {R σ : Type} [RngCore σ] (n : Nat) : ∀ (k : (Fin n → CS.Scalar) → R) (t : σ) (r : R),
    (drawAll n k).run CS.group t = some r ↔ ∃ (xs : Fin n → CS.Scalar) (g : Nat → σ), g 0 = t ∧
      (∀ i : Fin n, CS.group.randomScalar (g i) = some (xs i, g (i + 1))) ∧ r = k xs := by
  induction n with
  | zero =>
    intro k t r
    constructor
    · intro h
      exact ⟨Fin.elim0, fun _ => t, rfl, fun i => i.elim0, (Option.some.inj h).symm⟩
    · rintro ⟨xs, g, -, -, rfl⟩
      exact congrArg some (congrArg k (Subsingleton.elim _ _))
  | succ n ih =>
    intro k t r
    rw [drawAll, Drawer.run]
    constructor
    · intro h
      cases hc : CS.group.randomScalar t with
      | none => rw [hc] at h; cases h
      | some p =>
        obtain ⟨x, t'⟩ := p
        rw [hc] at h
        obtain ⟨xs, g, hg0, hg, rfl⟩ := (ih _ t' r).1 h
        refine ⟨Fin.cons x xs, fun i => Nat.casesOn i t g, rfl, fun i => ?_, rfl⟩
        refine Fin.cases ?_ (fun i => ?_) i
        · show CS.group.randomScalar t = some (x, g 0)
          rw [hc, hg0]
        · exact hg i
    · rintro ⟨xs, g, rfl, hg, rfl⟩
      have h0 := hg 0
      rw [show g ((0 : Fin (n + 1)) : Nat) = g 0 from rfl] at h0
      rw [h0]
      refine (ih _ _ _).2 ⟨Fin.tail xs, fun i => g (i + 1), rfl, fun i => hg i.succ, ?_⟩
      rw [show (Fin.cons (xs 0) (Fin.tail xs) : Fin (n + 1) → CS.Scalar) = xs from Fin.cons_self_tail xs]

theorem drawAll_prob {R : Type} (n : Nat) : ∀ (k : (Fin n → CS.Scalar) → R) (event : R → Prop),
    (drawAll n k).prob CS.group event = chance fun ρ : Fin n → Nonce CS => event (k fun i => (ρ i).1) := by
  induction n with
  | zero =>
    intro k event
    have : ∀ ρ : Fin 0 → Nonce CS, k (fun i => (ρ i).1) = k Fin.elim0 := fun ρ => congrArg k (Subsingleton.elim _ _)
    by_cases he : event (k Fin.elim0)
    · rw [chance_certain fun ρ => by rw [this]; exact he]
      exact if_pos he
    · rw [chance_false fun ρ => by rw [this]; exact he]
      exact if_neg he
  | succ n ih =>
    intro k event
    show (average fun x : {x : CS.Scalar // x ≠ 0} => (drawAll n fun xs => k (Fin.cons x.1 xs)).prob CS.group event) = _
    simp only [ih]
    refine (chance_prod (α := Nonce CS) (β := Fin n → Nonce CS)
      (fun p => event (k (Fin.cons p.1.1 fun i => (p.2 i).1)))).symm.trans ?_
    refine chance_equiv (Fin.consEquiv fun _ : Fin (n + 1) => Nonce CS) _ _ fun p => ?_
    refine iff_of_eq (congrArg event (congrArg k (funext fun i => ?_)))
    refine Fin.cases rfl (fun i => rfl) i

/-- Calls that draw one scalar each, made one after the other on uniform bytes and with uniform scalars. -/
theorem inTurn_close {block p q : Nat} (hp : 0 < p) (hpq : p ≤ q) (hu : NearlyUniform CS.group block p q) (N : Nat)
    {n : Nat} {B : Type} {call : Fin n → ∀ (σ : Type) [RngCore σ], σ → Res (B × σ)} (v : Fin n → CS.Scalar → B)
    (hc : ∀ i (σ : Type) [RngCore σ] (rng : σ), call i σ rng = match CS.group.randomScalar rng with
      | none => .diverge
      | some (x, rng') => .ok (v i x, rng')) {σ : Type} [RngCore σ] (draw : Nonce CS → σ) (hd : Draws draw)
    (E : (Fin n → B) → Prop) :
    |tapeChance (N * block) (fun t => ∃ b, InTurn (fun i => call i Tape) t b ∧ E b) -
      chance (fun ρ : Fin n → Nonce CS => ∃ b : Fin n → B × σ, (∀ i, call i σ (draw (ρ i)) = .ok (b i)) ∧ E fun i => (b i).1)| ≤
      (((q : ℚ) / p) ^ n - 1) + tapeChance (N * block) (RunsDry CS.group n) := by
  have h := C61_programs hp hpq hu N n (drawAll n id) (drawAll_atMost n _) fun xs => E fun i => v i (xs i)
  rw [drawAll_prob] at h
  choose g hg using hd
  have e1 : (fun t : Tape => ∃ b, InTurn (fun i => call i Tape) t b ∧ E b) =
      fun t => ∃ r, (drawAll n id).run CS.group t = some r ∧ E fun i => v i (r i) := by
    funext t
    refine propext ⟨?_, ?_⟩
    · rintro ⟨b, ⟨g, hg0, hgs⟩, hE⟩
      have : ∀ i : Fin n, ∃ x, CS.group.randomScalar (g i) = some (x, g (i + 1)) ∧ v i x = b i := by
        intro i
        have : call i Tape (g i) = _ := hgs i
        rw [hc] at this
        cases hr : CS.group.randomScalar (g i) with
        | none => rw [hr] at this; cases this
        | some p =>
          rw [hr] at this
          have := Res.ok.inj this
          exact ⟨p.1, by rw [← (Prod.mk.inj this).2], (Prod.mk.inj this).1⟩
      choose xs hx hv using this
      refine ⟨xs, (drawAll_run n _ _ _).2 ⟨xs, g, hg0, hx, rfl⟩, ?_⟩
      rwa [show (fun i => v i (xs i)) = b from funext hv]
    · rintro ⟨r, hr, hE⟩
      obtain ⟨xs, g, hg0, hx, rfl⟩ := (drawAll_run n _ _ _).1 hr
      refine ⟨_, ⟨g, hg0, fun i => ?_⟩, hE⟩
      show call i Tape (g i) = _
      rw [hc, hx]
  have e2 : (chance fun ρ : Fin n → Nonce CS =>
      ∃ b : Fin n → B × σ, (∀ i, call i σ (draw (ρ i)) = .ok (b i)) ∧ E fun i => (b i).1) =
      chance fun ρ : Fin n → Nonce CS => E fun i => v i (ρ i).1 := by
    refine chance_congr fun ρ => exists_blinds (fun i => (v i (ρ i).1, g (ρ i))) (fun i => ?_) (fun b => E fun i => (b i).1)
    rw [hc, hg]
  rw [e1, e2]
  exact h

theorem oprf_inTurn (wf : CS.WF) {block p q : Nat} (hp : 0 < p) (hpq : p ≤ q) (hu : NearlyUniform CS.group block p q)
    (N : Nat) {n : Nat} (x : Fin n → Bytes) (h : ∀ j, Hidable CS .Oprf (x j)) (π : Equiv.Perm (Fin n)) {σ : Type} [RngCore σ]
    (draw : Nonce CS → σ) (hd : Draws draw) (E : (Fin n → OprfClientBlindResult CS) → Prop) :
    |tapeChance (N * block) (fun t => ∃ b, InTurn (fun i => OprfClient.blindInput CS (x (π i))) t b ∧ E b) -
      chance (fun ρ : Fin n → Nonce CS => ∃ b : Fin n → OprfClientBlindResult CS × σ,
        (∀ i, OprfClient.blindInput CS (x (π i)) (draw (ρ i)) = .ok (b i)) ∧ E fun i => (b i).1)| ≤
      (((q : ℚ) / p) ^ n - 1) + tapeChance (N * block) (RunsDry CS.group n) := by
  choose hl P hP hP0 using h
  refine inTurn_close hp hpq hu N (call := fun i _ _ rng => OprfClient.blindInput CS (x (π i)) rng)
    (fun i r => ⟨⟨r⟩, ⟨r • P (π i)⟩⟩) (fun i σ _ rng => ?_) draw hd E
  rw [OprfClient.blindInput_eq wf]
  cases CS.group.randomScalar rng with
  | none => rfl
  | some p => simp only [hP]

theorem voprf_inTurn (wf : CS.WF) {block p q : Nat} (hp : 0 < p) (hpq : p ≤ q) (hu : NearlyUniform CS.group block p q)
    (N : Nat) {n : Nat} (x : Fin n → Bytes) (h : ∀ j, Hidable CS .Voprf (x j)) (π : Equiv.Perm (Fin n)) {σ : Type} [RngCore σ]
    (draw : Nonce CS → σ) (hd : Draws draw) (E : (Fin n → VoprfClientBlindResult CS) → Prop) :
    |tapeChance (N * block) (fun t => ∃ b, InTurn (fun i => VoprfClient.blindInput CS (x (π i))) t b ∧ E b) -
      chance (fun ρ : Fin n → Nonce CS => ∃ b : Fin n → VoprfClientBlindResult CS × σ,
        (∀ i, VoprfClient.blindInput CS (x (π i)) (draw (ρ i)) = .ok (b i)) ∧ E fun i => (b i).1)| ≤
      (((q : ℚ) / p) ^ n - 1) + tapeChance (N * block) (RunsDry CS.group n) := by
  choose hl P hP hP0 using h
  refine inTurn_close hp hpq hu N (call := fun i _ _ rng => VoprfClient.blindInput CS (x (π i)) rng)
    (fun i r => ⟨⟨r, r • P (π i)⟩, ⟨r • P (π i)⟩⟩) (fun i σ _ rng => ?_) draw hd E
  rw [VoprfClient.blindInput_eq wf]
  cases CS.group.randomScalar rng with
  | none => rfl
  | some p => simp only [hP]

theorem poprf_inTurn (wf : CS.WF) {block p q : Nat} (hp : 0 < p) (hpq : p ≤ q) (hu : NearlyUniform CS.group block p q)
    (N : Nat) {n : Nat} (x : Fin n → Bytes) (h : ∀ j, Hidable CS .Poprf (x j)) (π : Equiv.Perm (Fin n)) {σ : Type} [RngCore σ]
    (draw : Nonce CS → σ) (hd : Draws draw) (E : (Fin n → PoprfClientBlindResult CS) → Prop) :
    |tapeChance (N * block) (fun t => ∃ b, InTurn (fun i => PoprfClient.blindInput CS (x (π i))) t b ∧ E b) -
      chance (fun ρ : Fin n → Nonce CS => ∃ b : Fin n → PoprfClientBlindResult CS × σ,
        (∀ i, PoprfClient.blindInput CS (x (π i)) (draw (ρ i)) = .ok (b i)) ∧ E fun i => (b i).1)| ≤
      (((q : ℚ) / p) ^ n - 1) + tapeChance (N * block) (RunsDry CS.group n) := by
  choose hl P hP hP0 using h
  refine inTurn_close hp hpq hu N (call := fun i _ _ rng => PoprfClient.blindInput CS (x (π i)) rng)
    (fun i r => ⟨⟨r, r • P (π i)⟩, ⟨r • P (π i)⟩⟩) (fun i σ _ rng => ?_) draw hd E
  rw [PoprfClient.blindInput_eq wf]
  cases CS.group.randomScalar rng with
  | none => rfl
  | some p => simp only [hP]

theorem three_way {a b c d e ε : ℚ} (h1 : |a - b| ≤ ε) (h2 : |b - c| ≤ e) (h3 : |d - c| ≤ ε) : |a - d| ≤ e + 2 * ε := by
  rw [abs_le] at *
  constructor <;> linarith [h1.1, h1.2, h2.1, h2.2, h3.1, h3.2]

theorem average_near {α : Type} [Finite α] [Nonempty α] {F G : α → ℚ} {c : ℚ} (h : ∀ a, |F a - G a| ≤ c) :
    |average F - average G| ≤ c := by
  refine (average_close h).trans (le_of_eq ?_)
  exact average_const c

/-- C70, VOPRF, with blinds drawn from uniform bytes: the bound of `C70_voprf` and, twice, what `random_scalar` on uniform bytes
adds: its deviation from uniform, and the probability that the bytes do not suffice for `n` blinds. -/
theorem C70_voprf_tape (wf : CS.WF) {block p q : Nat} (hp : 0 < p) (hpq : p ≤ q) (hu : NearlyUniform CS.group block p q)
    {σ : Type} [RngCore σ] (draw : Nonce CS → σ) (hd : Draws draw) (len : Nat) {n : Nat} (x : Fin n → Bytes)
    (h : ∀ j, Hidable CS .Voprf (x j)) (π π' : Equiv.Perm (Fin n)) (pk : CS.Elem) (Q D : Nat)
    (S : (Fin n → CS.Elem) → Linker CS n (Answer CS n) (Res Unit)) (hS : ∀ es, (S es).Within (fun _ => True) Q D) :
    |voprfTapeLink (len * block) pk x π S - voprfTapeLink (len * block) pk x π' S| ≤
      (Q + 2 * D) / Nat.card CS.Scalar + 2 * (((q : ℚ) / p) ^ n - 1 + tapeChance (len * block) (RunsDry CS.group n)) :=
  three_way (average_near fun f => voprf_inTurn wf hp hpq hu len x h π draw hd fun b => voprfGuess pk x π S f b = true)
    (C70_voprf wf draw hd x h π π' pk Q D S hS)
    (average_near fun f => voprf_inTurn wf hp hpq hu len x h π' draw hd fun b => voprfGuess pk x π' S f b = true)

/-- C70, POPRF, with blinds drawn from uniform bytes. -/
theorem C70_poprf_tape (wf : CS.WF) {block p q : Nat} (hp : 0 < p) (hpq : p ≤ q) (hu : NearlyUniform CS.group block p q)
    {σ : Type} [RngCore σ] (draw : Nonce CS → σ) (hd : Draws draw) (len : Nat) {n : Nat} (x : Fin n → Bytes)
    (h : ∀ j, Hidable CS .Poprf (x j)) (π π' : Equiv.Perm (Fin n)) (pk : CS.Elem) (info : Option Bytes) (Q D : Nat)
    (S : (Fin n → CS.Elem) → Linker CS n (Answer CS n) (Res Unit)) (hS : ∀ es, (S es).Within (fun _ => True) Q D) :
    |poprfTapeLink (len * block) pk info x π S - poprfTapeLink (len * block) pk info x π' S| ≤
      (Q + 3 * D) / Nat.card CS.Scalar + 2 * (((q : ℚ) / p) ^ n - 1 + tapeChance (len * block) (RunsDry CS.group n)) :=
  three_way (average_near fun f => poprf_inTurn wf hp hpq hu len x h π draw hd fun b => poprfGuess pk info x π S f b = true)
    (C70_poprf wf draw hd x h π π' pk info Q D S hS)
    (average_near fun f => poprf_inTurn wf hp hpq hu len x h π' draw hd fun b => poprfGuess pk info x π' S f b = true)

/-- C70, VOPRF batches, with blinds drawn from uniform bytes. -/
theorem C70_voprf_batch_tape (wf : CS.WF) {block p q : Nat} (hp : 0 < p) (hpq : p ≤ q) (hu : NearlyUniform CS.group block p q)
    {σ : Type} [RngCore σ] (draw : Nonce CS → σ) (hd : Draws draw) (len : Nat) {n : Nat} (x : Fin n → Bytes)
    (h : ∀ j, Hidable CS .Voprf (x j)) (π π' : Equiv.Perm (Fin n)) (pk : CS.Elem) (Q D M : Nat)
    (S : (Fin n → CS.Elem) → Linker CS n (BatchAnswer CS n) (Res (List (Res Unit))))
    (hS : ∀ es, (S es).Within (fun a => a.clients.length ≤ M) Q D) :
    |voprfBatchTapeLink (len * block) pk x π S - voprfBatchTapeLink (len * block) pk x π' S| ≤
      (Q + (M + 1) * D) ^ M / Nat.card CS.Scalar + 2 * (((q : ℚ) / p) ^ n - 1 + tapeChance (len * block) (RunsDry CS.group n)) :=
  three_way (average_near fun f => voprf_inTurn wf hp hpq hu len x h π draw hd fun b => voprfBatchGuess pk x π S f b = true)
    (C70_voprf_batch wf draw hd x h π π' pk Q D M S hS)
    (average_near fun f => voprf_inTurn wf hp hpq hu len x h π' draw hd fun b => voprfBatchGuess pk x π' S f b = true)

/-- C70, POPRF batches, with blinds drawn from uniform bytes. -/
theorem C70_poprf_batch_tape (wf : CS.WF) {block p q : Nat} (hp : 0 < p) (hpq : p ≤ q) (hu : NearlyUniform CS.group block p q)
    {σ : Type} [RngCore σ] (draw : Nonce CS → σ) (hd : Draws draw) (len : Nat) {n : Nat} (x : Fin n → Bytes)
    (h : ∀ j, Hidable CS .Poprf (x j)) (π π' : Equiv.Perm (Fin n)) (pk : CS.Elem) (info : Option Bytes) (Q D M : Nat)
    (S : (Fin n → CS.Elem) → Linker CS n (BatchAnswer CS n) (Res (List (Res Unit))))
    (hS : ∀ es, (S es).Within (fun a => a.clients.length ≤ M) Q D) :
    |poprfBatchTapeLink (len * block) pk info x π S - poprfBatchTapeLink (len * block) pk info x π' S| ≤
      (Q + (M + 1) * D + 1) ^ M / Nat.card CS.Scalar + 2 * (((q : ℚ) / p) ^ n - 1 + tapeChance (len * block) (RunsDry CS.group n)) :=
  three_way (average_near fun f => poprf_inTurn wf hp hpq hu len x h π draw hd fun b => poprfBatchGuess pk info x π S f b = true)
    (C70_poprf_batch wf draw hd x h π π' pk info Q D M S hS)
    (average_near fun f => poprf_inTurn wf hp hpq hu len x h π' draw hd fun b => poprfBatchGuess pk info x π' S f b = true)

/-- C70, OPRF with a server that answers with one key, with blinds drawn from uniform bytes. -/
theorem C70_oprf_tape (wf : CS.WF) {block p q : Nat} (hp : 0 < p) (hpq : p ≤ q) (hu : NearlyUniform CS.group block p q)
    {σ : Type} [RngCore σ] (draw : Nonce CS → σ) (hd : Draws draw) (len : Nat) {n : Nat} (x : Fin n → Bytes)
    (h : ∀ j, Hidable CS .Oprf (x j)) (π π' : Equiv.Perm (Fin n)) (key : OprfServer CS)
    (D : (Fin n → CS.Elem) → (Fin n → Bytes) → Bool) :
    |oprfTapeLink (len * block) (fun _ => key) x π D - oprfTapeLink (len * block) (fun _ => key) x π' D| ≤
      2 * (((q : ℚ) / p) ^ n - 1 + tapeChance (len * block) (RunsDry CS.group n)) := by
  have h0 : |oprfLink draw (fun _ => key) x π D - oprfLink draw (fun _ => key) x π' D| ≤ 0 := by
    rw [C70_oprf wf draw hd x h π π' key D, sub_self, abs_zero]
  refine (three_way (oprf_inTurn wf hp hpq hu len x h π draw hd (oprfGuess (fun _ => key) x π D)) h0
    (oprf_inTurn wf hp hpq hu len x h π' draw hd (oprfGuess (fun _ => key) x π' D))).trans (le_of_eq (zero_add _))

end Voprf
