import Verif.Spec.Party
import Verif.Lemmas.Distinguisher
import Verif.Lemmas.Predict

/-!
# Sessions of a party as players and as distinguishers
-/

namespace Voprf

open Spec

/-! ## Averages -/

theorem average_comm {α β : Type} [Finite α] [Finite β] (F : α → β → ℚ) :
    (average fun x => average fun y => F x y) = average fun y => average fun x => F x y := by
  have := Fintype.ofFinite α
  have := Fintype.ofFinite β
  rw [average_eq, average_eq]
  simp only [average_eq]
  exact Finset.expect_comm _ _ _

theorem average_mono {α : Type} [Finite α] {F G : α → ℚ} (h : ∀ x, F x ≤ G x) : average F ≤ average G := by
  have := Fintype.ofFinite α
  rw [average_eq, average_eq]
  exact Finset.expect_le_expect fun x _ => h x

theorem average_add_const {α : Type} [Finite α] [Nonempty α] (F : α → ℚ) (c : ℚ) :
    (average fun x => F x + c) = average F + c := by
  have := Fintype.ofFinite α
  rw [average_eq, average_eq, Finset.expect_add_distrib, Fintype.expect_const]

theorem abs_average_sub_le {α : Type} [Finite α] [Nonempty α] (F G : α → ℚ) (b : ℚ)
    (h : ∀ x, |F x - G x| ≤ b) : |average F - average G| ≤ b := by
  have := Fintype.ofFinite α
  rw [average_eq, average_eq]
  exact abs_expect_sub_le F G b h

/-- The average over a sequence of `m` independent choices. -/
noncomputable def avgSeq {N : Type} : Nat → (List N → ℚ) → ℚ
  | 0, F => F []
  | m + 1, F => average fun ρ => avgSeq m fun l => F (ρ :: l)

section
variable {N : Type} [Finite N] [Nonempty N]

theorem avgSeq_const (m : Nat) (a : ℚ) : avgSeq m (fun _ : List N => a) = a := by
  induction m with
  | zero => rfl
  | succ m ih =>
    show (average fun _ => avgSeq m fun _ => a) = a
    rw [ih, average_const]

omit [Nonempty N] in
theorem avgSeq_mono (m : Nat) {F G : List N → ℚ} (h : ∀ l, F l ≤ G l) : avgSeq m F ≤ avgSeq m G := by
  induction m generalizing F G with
  | zero => exact h []
  | succ m ih => exact average_mono fun ρ => ih fun l => h _

theorem avgSeq_add_const (m : Nat) (F : List N → ℚ) (c : ℚ) : (avgSeq m fun l => F l + c) = avgSeq m F + c := by
  induction m generalizing F with
  | zero => rfl
  | succ m ih =>
    show (average fun ρ => avgSeq m fun l => F (ρ :: l) + c) = _
    rw [show (fun ρ => avgSeq m fun l => F (ρ :: l) + c) = fun ρ => (avgSeq m fun l => F (ρ :: l)) + c from
      funext fun ρ => ih _, average_add_const]
    rfl

omit [Nonempty N] in
theorem average_avgSeq {α : Type} [Finite α] (m : Nat) (F : α → List N → ℚ) :
    (average fun x => avgSeq m (F x)) = avgSeq m fun l => average fun x => F x l := by
  induction m generalizing F with
  | zero => rfl
  | succ m ih =>
    show (average fun x => average fun ρ => avgSeq m fun l => F x (ρ :: l)) =
      average fun ρ => avgSeq m fun l => average fun x => F x (ρ :: l)
    rw [average_comm]
    exact congrArg average (funext fun ρ => ih _)

end

/-! ## Players -/

namespace Spec.Player
variable {Q A R V O X : Type}

/-- The questions a player asks. -/
def asked (f : Q → A) (answer : R → V) : Player Q A R V O → List Q
  | done _ => []
  | ask q next => q :: asked f answer (next (f q))
  | request r next => asked f answer (next (answer r))

theorem run_readOff (read : Q → List X) (found : List X) (T : Player Q A R V O) (f : Q → A) (answer : R → V) :
    (T.readOff read found).run f answer = found ++ (T.asked f answer).flatMap read := by
  induction T generalizing found with
  | done o => simp [readOff, run, asked]
  | ask q next ih =>
    show ((next (f q)).readOff read (found ++ read q)).run f answer = _
    rw [ih]
    simp [asked]
  | request r next ih => exact ih _ _

end Spec.Player

namespace Spec.Party
variable {CS : CipherSuite} {R R' N O : Type}

/-- The player that the party is for a fixed table of `hash_to_scalar` and fixed random choices of the server. -/
def toPlayer [Inhabited O] (f : Table CS) (mk : R → N → R') :
    Party CS R O → List N → Player DigestQuestion (DigestValue CS) R' (EvalResponse CS) O
  | done o, _ => .done o
  | scalar q next, l => toPlayer f mk (next (f q)) l
  | digest q next, l => .ask q fun a => toPlayer f mk (next a) l
  | evaluate _ _, [] => .done default
  | evaluate r next, ρ :: l => .request (mk r ρ) fun v => toPlayer f mk (next v) l

open Classical in
theorem real_eq_avgSeq [Inhabited O] [Finite N] [Nonempty N] (f : Table CS) (D : Digests CS) (mk : R → N → R')
    (answer : R → N → EvalResponse CS) (ans : R' → EvalResponse CS) (ha : ∀ r ρ, answer r ρ = ans (mk r ρ))
    (size : R → Nat) (size' : R' → Nat) (hs : ∀ r ρ, size r = size' (mk r ρ))
    (wins : Nat → List DigestQuestion → O → Prop) (good : O → Prop) (T : Party CS R O) (n d m : Nat)
    (hT : T.Within good n d m) (s : Nat) (qs : List DigestQuestion) :
    T.real f D answer size wins s qs = avgSeq m fun l =>
      if wins (s + (T.toPlayer f mk l).spent size' D ans) (qs ++ (T.toPlayer f mk l).asked D ans)
        ((T.toPlayer f mk l).run D ans) then 1 else 0 := by
  induction T generalizing n d m s qs with
  | done o =>
    simp only [real, toPlayer, Player.spent, Player.asked, Player.run, Nat.add_zero, List.append_nil]
    rw [avgSeq_const]
  | scalar q next ih =>
    cases n with
    | zero => exact hT.elim
    | succ n => exact ih _ n d m (hT _) s qs
  | digest q next ih =>
    cases d with
    | zero => cases n <;> exact hT.elim
    | succ d =>
      have hT' : ∀ a, (next a).Within good n d m := by cases n <;> exact hT
      refine (ih _ n d m (hT' _) s (qs ++ [q])).trans ?_
      simp only [toPlayer, Player.spent, Player.asked, Player.run, List.append_assoc, List.singleton_append]
  | evaluate r next ih =>
    cases m with
    | zero => cases n <;> cases d <;> exact hT.elim
    | succ m =>
      have hT' : ∀ v, (next v).Within good n d m := by cases n <;> cases d <;> exact hT
      show (average fun ρ => (next (answer r ρ)).real f D answer size wins (s + size r) qs) = average fun ρ => avgSeq m _
      refine congrArg average (funext fun ρ => ?_)
      rw [ih _ n d m (hT' _) (s + size r) qs, ha r ρ]
      refine congrArg (avgSeq m) (funext fun l => ?_)
      simp only [toPlayer, Player.spent, Player.asked, Player.run]
      rw [hs r ρ, Nat.add_assoc, Nat.add_comm (size' (mk r ρ))]

/-- A bound for players is a bound for parties. -/
theorem real_le [Inhabited O] [Finite N] [Nonempty N] [Finite (Digests CS)] [Nonempty (Digests CS)] (f : Table CS)
    (mk : R → N → R') (answer : Digests CS → R → N → EvalResponse CS) (ans : Digests CS → R' → EvalResponse CS)
    (ha : ∀ D r ρ, answer D r ρ = ans D (mk r ρ)) (size : R → Nat) (size' : R' → Nat)
    (hs : ∀ r ρ, size r = size' (mk r ρ)) (wins wins' : Digests CS → Nat → List DigestQuestion → O → Prop)
    (good : O → Prop) (T : Party CS R O) (n d m : Nat) (hT : T.Within good n d m) (ε : ℚ)
    (h : ∀ l : List N,
      chance (fun D => wins D ((T.toPlayer f mk l).spent size' D (ans D)) ((T.toPlayer f mk l).asked D (ans D))
        ((T.toPlayer f mk l).run D (ans D))) ≤
      chance (fun D => wins' D ((T.toPlayer f mk l).spent size' D (ans D)) ((T.toPlayer f mk l).asked D (ans D))
        ((T.toPlayer f mk l).run D (ans D))) + ε) :
    (average fun D => T.real f D (answer D) size (wins D) 0 []) ≤
      (average fun D => T.real f D (answer D) size (wins' D) 0 []) + ε := by
  classical
  have e : ∀ w : Digests CS → Nat → List DigestQuestion → O → Prop,
      (average fun D => T.real f D (answer D) size (w D) 0 []) = avgSeq m fun l =>
        chance (fun D => w D ((T.toPlayer f mk l).spent size' D (ans D)) ((T.toPlayer f mk l).asked D (ans D))
          ((T.toPlayer f mk l).run D (ans D))) := by
    intro w
    rw [show (fun D => T.real f D (answer D) size (w D) 0 []) = fun D => avgSeq m fun l =>
      if w D ((T.toPlayer f mk l).spent size' D (ans D)) ((T.toPlayer f mk l).asked D (ans D))
        ((T.toPlayer f mk l).run D (ans D)) then 1 else 0 from funext fun D => by
          rw [real_eq_avgSeq f D mk (answer D) (ans D) (ha D) size size' hs (w D) good T n d m hT 0 []]
          simp only [Nat.zero_add, List.nil_append], average_avgSeq]
    rfl
  rw [e wins, e wins', ← avgSeq_add_const]
  exact avgSeq_mono m h

/-- What a party ends with is good. -/
theorem run_good [Inhabited O] (f : Table CS) (D : Digests CS) (mk : R → N → R') (ans : R' → EvalResponse CS)
    (good : O → Prop) (h0 : good default) (T : Party CS R O) (n d m : Nat) (hT : T.Within good n d m) (l : List N) :
    good ((T.toPlayer f mk l).run D ans) := by
  induction T generalizing n d m l with
  | done o => exact hT
  | scalar q next ih =>
    cases n with
    | zero => exact hT.elim
    | succ n => exact ih _ n d m (hT _) l
  | digest q next ih =>
    cases d with
    | zero => cases n <;> exact hT.elim
    | succ d =>
      have hT' : ∀ a, (next a).Within good n d m := by cases n <;> exact hT
      exact ih _ n d m (hT' _) l
  | evaluate r next ih =>
    cases m with
    | zero => cases n <;> cases d <;> exact hT.elim
    | succ m =>
      have hT' : ∀ v, (next v).Within good n d m := by cases n <;> cases d <;> exact hT
      cases l with
      | nil => exact h0
      | cons ρ l => exact ih _ n d m (hT' _) l

/-! ## Sessions -/

/-- The session of a party for a fixed table of digests, ending with the session `fin`. -/
def session (D : Digests CS) (size : R → Nat)
    (fin : Nat → List DigestQuestion → O → Distinguisher Question CS.Scalar R (EvalResponse CS)) :
    Party CS R O → Nat → List DigestQuestion → Distinguisher Question CS.Scalar R (EvalResponse CS)
  | done o, s, qs => fin s qs o
  | scalar q next, s, qs => .ask q fun a => session D size fin (next a) s qs
  | digest q next, s, qs => session D size fin (next (D q)) s (qs ++ [q])
  | evaluate r next, s, qs => .request r fun v => session D size fin (next v) (s + size r) qs

open Classical in
theorem session_real (f : Table CS) (D : Digests CS) (answer : R → N → EvalResponse CS) (size : R → Nat)
    (fin : Nat → List DigestQuestion → O → Distinguisher Question CS.Scalar R (EvalResponse CS))
    (wins : Nat → List DigestQuestion → O → Prop)
    (h : ∀ s qs o, (fin s qs o).real f answer = if wins s qs o then 1 else 0) (T : Party CS R O) (s : Nat)
    (qs : List DigestQuestion) : (T.session D size fin s qs).real f answer = T.real f D answer size wins s qs := by
  induction T generalizing s qs with
  | done o => exact h s qs o
  | scalar q next ih => exact ih _ s qs
  | digest q next ih => exact ih _ s _
  | evaluate r next ih => exact congrArg average (funext fun ρ => ih _ _ qs)

open Classical in
theorem session_ideal (D : Digests CS) (Coins : R → Table CS → Type)
    (step : ∀ r f, Coins r f → EvalResponse CS × Table CS) (size : R → Nat)
    (fin : Nat → List DigestQuestion → O → Distinguisher Question CS.Scalar R (EvalResponse CS))
    (wins : Table CS → Nat → List DigestQuestion → O → Prop)
    (h : ∀ f s qs o, (fin s qs o).ideal Coins step f = if wins f s qs o then 1 else 0) (T : Party CS R O)
    (f : Table CS) (s : Nat) (qs : List DigestQuestion) :
    (T.session D size fin s qs).ideal Coins step f = T.ideal D Coins step size wins f s qs := by
  induction T generalizing f s qs with
  | done o => exact h f s qs o
  | scalar q next ih => exact ih _ f s qs
  | digest q next ih => exact ih _ f s _
  | evaluate r next ih => exact congrArg average (funext fun x => ih _ _ _ qs)

end Spec.Party

theorem Spec.Distinguisher.Within.mono {Q A R V : Type} {S : Distinguisher Q A R V} {n m n' m' : Nat}
    (h : S.Within n m) (hn : n ≤ n') (hm : m ≤ m') : S.Within n' m' := by
  induction S generalizing n m n' m' with
  | done g => cases n' <;> cases m' <;> trivial
  | ask q next ih =>
    cases n with
    | zero => exact h.elim
    | succ n =>
      obtain ⟨n', rfl⟩ : ∃ x, n' = x + 1 := ⟨n' - 1, by omega⟩
      intro a
      exact ih a (h a) (by omega) hm
  | request r next ih =>
    cases m with
    | zero => cases n <;> exact h.elim
    | succ m =>
      obtain ⟨m', rfl⟩ : ∃ x, m' = x + 1 := ⟨m' - 1, by omega⟩
      have h' : ∀ v, (next v).Within n m := by cases n <;> exact h
      have : ∀ v, (next v).Within n' m' := fun v => ih v (h' v) hn (by omega)
      cases n' <;> exact this

theorem Spec.Party.session_within {CS : CipherSuite} {R O : Type} (D : Digests CS) (size : R → Nat)
    (fin : Nat → List DigestQuestion → O → Distinguisher Question CS.Scalar R (EvalResponse CS)) (c : Nat)
    (hf : ∀ s qs o, (fin s qs o).Within (c * qs.length) 0) (good : O → Prop) (T : Party CS R O) (n d m : Nat)
    (hT : T.Within good n d m) (s : Nat) (qs : List DigestQuestion) :
    (T.session D size fin s qs).Within (n + c * (qs.length + d)) m := by
  induction T generalizing n d m s qs with
  | done o => exact (hf s qs o).mono (by nlinarith [Nat.zero_le (c * d)]) (Nat.zero_le _)
  | scalar q next ih =>
    cases n with
    | zero => exact hT.elim
    | succ n =>
      have : ∀ a, (Party.session D size fin (next a) s qs).Within (n + c * (qs.length + d)) m :=
        fun a => ih a n d m (hT a) s qs
      rw [show n + 1 + c * (qs.length + d) = (n + c * (qs.length + d)) + 1 by omega]
      exact this
  | digest q next ih =>
    cases d with
    | zero => cases n <;> exact hT.elim
    | succ d =>
      have hT' : ∀ a, (next a).Within good n d m := by cases n <;> exact hT
      have := ih (D q) n d m (hT' _) s (qs ++ [q])
      rw [List.length_append, List.length_singleton] at this
      rw [show qs.length + (d + 1) = qs.length + 1 + d by omega]
      exact this
  | evaluate r next ih =>
    cases m with
    | zero => cases n <;> cases d <;> exact hT.elim
    | succ m =>
      have hT' : ∀ v, (next v).Within good n d m := by cases n <;> cases d <;> exact hT
      have : ∀ v, (Party.session D size fin (next v) (s + size r) qs).Within (n + c * (qs.length + d)) m :=
        fun v => ih v n d m (hT' v) _ qs
      show Distinguisher.Within (.request r _) _ _
      generalize n + c * (qs.length + d) = x at this ⊢
      cases x <;> exact this

end Voprf
