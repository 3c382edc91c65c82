import Verif.Model.Leak
import Mathlib.Data.List.Forall2

/-!
# Lemmas on instrumented computations: forgetting the record, and comparing two runs
-/

namespace Voprf.Leak

variable {α β γ δ : Type}

namespace T

@[simp] theorem val_pure (a : α) : (pure a : T α).val = .ok a := rfl
@[simp] theorem trace_pure (a : α) : (pure a : T α).trace = [] := rfl

@[simp] theorem val_bind (x : T α) (f : α → T β) : (x >>= f).val = x.val >>= fun a => (f a).val := by
  show (T.bind x f).val = _
  unfold T.bind
  cases x.val <;> rfl

@[simp] theorem val_call (o : Op) (l : List Nat) (a : α) : (call o l a).val = .ok a := rfl
@[simp] theorem val_callRes (o : Op) (l : List Nat) (r : Res α) : (callRes o l r).val = r := rfl
@[simp] theorem val_check (r : Res α) : (check r).val = r := rfl
@[simp] theorem val_test (o : Op) (b : Bool) : (test o b).val = .ok b := rfl
@[simp] theorem val_unwrap (x : T α) : (unwrap x).val = Res.unwrap x.val := rfl

theorem val_collect (xs : List (T α)) : (collect xs).val = Res.collect (xs.map T.val) := by
  induction xs with
  | nil => rfl
  | cons x xs ih =>
    simp only [collect, val_bind, ih, List.map_cons, Res.collect, val_pure]
    rfl

end T

/-- In any two successful runs the records are the same, and the results are related by `R`. -/
def Rel (R : α → β → Prop) (x : T α) (y : T β) : Prop :=
  ∀ a b, x.val = .ok a → y.val = .ok b → x.trace = y.trace ∧ R a b

namespace Rel

theorem bind {R : α → β → Prop} {S : γ → δ → Prop} {x : T α} {y : T β} {f : α → T γ} {g : β → T δ}
    (h : Rel R x y) (hf : ∀ a b, R a b → Rel S (f a) (g b)) : Rel S (x >>= f) (y >>= g) := by
  intro c d hc hd
  rw [T.val_bind] at hc hd
  cases hx : x.val with
  | ok a =>
    cases hy : y.val with
    | ok b =>
      rw [hx] at hc; rw [hy] at hd
      obtain ⟨ht, hR⟩ := h a b hx hy
      obtain ⟨ht', hS⟩ := hf a b hR c d hc hd
      refine ⟨?_, hS⟩
      show (T.bind x f).trace = (T.bind y g).trace
      simp only [T.bind, hx, hy, ht, ht']
    | _ => rw [hy] at hd; simp at hd
  | _ => rw [hx] at hc; simp at hc

theorem pure {R : α → β → Prop} {a : α} {b : β} (h : R a b) : Rel R (Pure.pure a) (Pure.pure b) := by
  intro a' b' ha hb
  simp only [T.val_pure, Res.ok.injEq] at ha hb
  subst ha hb
  exact ⟨rfl, h⟩

theorem call {R : α → β → Prop} (o : Op) {l l' : List Nat} (hl : l = l') {a : α} {b : β} (h : R a b) :
    Rel R (T.call o l a) (T.call o l' b) := by
  intro a' b' ha hb
  simp only [T.val_call, Res.ok.injEq] at ha hb
  subst ha hb hl
  exact ⟨rfl, h⟩

theorem callRes {R : α → β → Prop} (o : Op) {l l' : List Nat} (hl : l = l') {r : Res α} {r' : Res β}
    (h : ∀ a b, r = .ok a → r' = .ok b → R a b) : Rel R (T.callRes o l r) (T.callRes o l' r') := by
  intro a b ha hb
  simp only [T.val_callRes] at ha hb
  subst hl
  exact ⟨by simp [T.callRes, ha, hb, outcome], h a b ha hb⟩

theorem check {R : α → β → Prop} {r : Res α} {r' : Res β}
    (h : ∀ a b, r = .ok a → r' = .ok b → R a b) : Rel R (T.check r) (T.check r') := by
  intro a b ha hb
  simp only [T.val_check] at ha hb
  exact ⟨by simp [T.check, ha, hb, outcome], h a b ha hb⟩

theorem unwrap {R : α → β → Prop} {x : T α} {y : T β} (h : Rel R x y) :
    Rel R (T.unwrap x) (T.unwrap y) := by
  intro a b ha hb
  simp only [T.val_unwrap] at ha hb
  cases hx : x.val <;> rw [hx] at ha <;> simp at ha
  cases hy : y.val <;> rw [hy] at hb <;> simp at hb
  subst ha hb
  obtain ⟨ht, hR⟩ := h _ _ hx hy
  exact ⟨by simp [T.unwrap, hx, hy, ht, outcome], hR⟩

/-- A test one of whose outcomes is an error: in two successful runs it came out the same way. -/
theorem testErr {S : γ → δ → Prop} (o : Op) (bad : Bool) {b b' : Bool} {e : Error} {x : T γ} {y : T δ}
    {f : Bool → T γ} {g : Bool → T δ} (hf : f bad = T.check (.err e)) (hg : g bad = T.check (.err e))
    (hx : f (!bad) = x) (hy : g (!bad) = y) (h : Rel S x y) :
    Rel S (T.test o b >>= f) (T.test o b' >>= g) := by
  intro c d hc hd
  rw [T.val_bind, T.val_test, Res.ok_bind] at hc hd
  have key : ∀ {ε : Type} (k : Bool → T ε) (b : Bool) (v : ε), k bad = T.check (.err e) → (k b).val = .ok v →
      b = !bad := by
    intro ε k b v hk hv
    cases b <;> cases bad <;> first | rfl | (rw [hk] at hv; simp at hv)
  have hb := key f b c hf hc
  have hb' := key g b' d hg hd
  subst hb hb'
  rw [hx] at hc; rw [hy] at hd
  obtain ⟨ht, hS⟩ := h c d hc hd
  refine ⟨?_, hS⟩
  show (T.bind _ _).trace = (T.bind _ _).trace
  simp only [T.bind, T.test, hx, hy, ht]

theorem mono {R S : α → β → Prop} {x : T α} {y : T β} (h : Rel R x y) (hRS : ∀ a b, R a b → S a b) :
    Rel S x y := fun a b ha hb => ⟨(h a b ha hb).1, hRS a b (h a b ha hb).2⟩

theorem collect {R : α → β → Prop} {xs : List (T α)} {ys : List (T β)}
    (h : List.Forall₂ (Rel R) xs ys) : Rel (List.Forall₂ R) (T.collect xs) (T.collect ys) := by
  induction h with
  | nil => exact Rel.pure .nil
  | cons h _ ih => exact h.bind fun a b hab => ih.bind fun as bs hs => Rel.pure (.cons hab hs)

end Rel

end Voprf.Leak
