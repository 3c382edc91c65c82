import Verif.Model.Loops
import Mathlib.Logic.Function.Iterate
import Mathlib.Tactic.Ring
import Mathlib.Data.List.Induction

/-!
# Facts about byte encodings of numbers and about sampling loops
-/

namespace Voprf

/-! ## Bytes -/

theorem ofBeBytes_append (xs : Bytes) (b : UInt8) :
    ofBeBytes (xs ++ [b]) = ofBeBytes xs * 256 + b.toNat := by
  simp [ofBeBytes]

theorem ofBeBytes_lt (xs : Bytes) : ofBeBytes xs < 256 ^ xs.length := by
  induction xs using List.reverseRecOn with
  | nil => simp [ofBeBytes]
  | append_singleton xs b ih =>
      rw [ofBeBytes_append, List.length_append, List.length_singleton, pow_succ]
      have := b.toNat_lt
      omega

theorem toBeBytes_length' : ∀ len n, (toBeBytes len n).length = len
  | 0, _ => rfl
  | len + 1, n => by simp [toBeBytes, toBeBytes_length' len]

theorem ofBeBytes_toBeBytes : ∀ len n, n < 256 ^ len → ofBeBytes (toBeBytes len n) = n
  | 0, n, h => by
      have : n = 0 := by simpa using h
      subst this; rfl
  | len + 1, n, h => by
      rw [toBeBytes, ofBeBytes_append, ofBeBytes_toBeBytes len (n / 256)
        (by rw [Nat.div_lt_iff_lt_mul (by norm_num)]; rwa [pow_succ] at h)]
      have : (UInt8.ofNat (n % 256)).toNat = n % 256 := by
        simp
      rw [this]
      omega

theorem toBeBytes_ofBeBytes (xs : Bytes) : toBeBytes xs.length (ofBeBytes xs) = xs := by
  induction xs using List.reverseRecOn with
  | nil => rfl
  | append_singleton xs b ih =>
      rw [ofBeBytes_append, List.length_append, List.length_singleton, toBeBytes]
      have hb := b.toNat_lt
      have h1 : (ofBeBytes xs * 256 + b.toNat) / 256 = ofBeBytes xs := by omega
      have h2 : (ofBeBytes xs * 256 + b.toNat) % 256 = b.toNat := by omega
      rw [h1, h2, ih]
      simp

theorem ofBeBytes_replicate_zero (k : Nat) (xs : Bytes) :
    ofBeBytes (List.replicate k 0 ++ xs) = ofBeBytes xs := by
  unfold ofBeBytes
  rw [List.foldl_append]
  congr 1
  induction k with
  | zero => rfl
  | succ k ih => rw [List.replicate_succ, List.foldl_cons]; simpa using ih

theorem ofLeBytes_lt : ∀ xs : Bytes, ofLeBytes xs < 256 ^ xs.length
  | [] => by simp [ofLeBytes]
  | c :: cs => by
      have := ofLeBytes_lt cs
      have := c.toNat_lt
      rw [ofLeBytes, List.length_cons, pow_succ]
      omega

theorem toLeBytes_length : ∀ len n, (toLeBytes len n).length = len
  | 0, _ => rfl
  | len + 1, n => by simp [toLeBytes, toLeBytes_length len]

theorem ofLeBytes_toLeBytes : ∀ len n, n < 256 ^ len → ofLeBytes (toLeBytes len n) = n
  | 0, n, h => by
      have : n = 0 := by simpa using h
      subst this; rfl
  | len + 1, n, h => by
      rw [toLeBytes, ofLeBytes, ofLeBytes_toLeBytes len (n / 256)
        (by rw [Nat.div_lt_iff_lt_mul (by norm_num)]; rwa [pow_succ] at h)]
      have : (UInt8.ofNat (n % 256)).toNat = n % 256 := by
        simp
      rw [this]
      omega

theorem toLeBytes_ofLeBytes : ∀ xs : Bytes, toLeBytes xs.length (ofLeBytes xs) = xs
  | [] => rfl
  | c :: cs => by
      have hb := c.toNat_lt
      rw [ofLeBytes, List.length_cons, toLeBytes]
      have h1 : (c.toNat + 256 * ofLeBytes cs) / 256 = ofLeBytes cs := by omega
      have h2 : (c.toNat + 256 * ofLeBytes cs) % 256 = c.toNat := by omega
      rw [h1, h2, toLeBytes_ofLeBytes cs]
      simp

/-! ## Loops -/

/-- The loop started in `s` ends with result `r`. -/
inductive Run {σ α : Type} (draw : σ → Option α × σ) : σ → α × σ → Prop
  | stop {s s' : σ} {a : α} : draw s = (some a, s') → Run draw s (a, s')
  | again {s s' : σ} {r : α × σ} : draw s = (none, s') → Run draw s' r → Run draw s r

theorem sampleLoop_iff {σ α : Type} (draw : σ → Option α × σ) (s : σ) (r : α × σ) :
    sampleLoop draw s = some r ↔ Run draw s r := by
  constructor
  · intro h
    refine sampleLoop.partial_correctness draw (motive := fun s r => Run draw s r) ?_ s r h
    intro f ih s r hs
    cases hd : draw s with
    | mk o s' =>
        cases o with
        | some a =>
            simp only [hd, Option.some.injEq] at hs
            exact hs ▸ Run.stop hd
        | none =>
            simp only [hd] at hs
            exact Run.again hd (ih s' r hs)
  · intro h
    induction h with
    | stop hd => rw [sampleLoop, hd]
    | again hd _ ih => rw [sampleLoop, hd]; exact ih

/-- The state of the RNG after `i` draws. -/
def after {σ α : Type} (draw : σ → Option α × σ) (s : σ) (i : Nat) : σ := (fun s => (draw s).2)^[i] s

theorem run_iff_first {σ α : Type} (draw : σ → Option α × σ) (s : σ) (a : α) (s' : σ) :
    Run draw s (a, s') ↔
      ∃ i, (∀ j < i, (draw (after draw s j)).1 = none) ∧ draw (after draw s i) = (some a, s') := by
  constructor
  · intro h
    generalize hr : (a, s') = r at h
    induction h with
    | stop hd =>
        injection hr with h1 h2
        subst h1; subst h2
        exact ⟨0, by simp, hd⟩
    | @again s s1 r hd _ ih =>
        obtain ⟨i, h1, h2⟩ := ih hr
        have hshift : ∀ j, after draw s (j + 1) = after draw s1 j := by
          intro j
          rw [after, Function.iterate_succ_apply, hd]
          rfl
        refine ⟨i + 1, ?_, by rw [hshift]; exact h2⟩
        intro j hj
        cases j with
        | zero => show (draw s).1 = none; rw [hd]
        | succ j => rw [hshift]; exact h1 j (by omega)
  · rintro ⟨i, h1, h2⟩
    induction i generalizing s with
    | zero => exact Run.stop h2
    | succ i ih =>
        have h0 : (draw s).1 = none := h1 0 (by omega)
        have hd : draw s = (none, (draw s).2) := by rw [← h0]
        refine Run.again hd (ih _ ?_ ?_)
        · intro j hj
          have := h1 (j + 1) (by omega)
          rwa [after, Function.iterate_succ_apply] at this
        · rwa [after, Function.iterate_succ_apply] at h2

/-- A rejection loop inside a rejection loop is one rejection loop. -/
theorem nested_iff {σ α : Type} (draw : σ → Option α × σ) (p : α → Option α) (s : σ) (r : α × σ) :
    sampleLoop' (fun s => (sampleLoop draw s).map fun r => (p r.1, r.2)) s = some r ↔
      Run (fun s => ((draw s).1.bind p, (draw s).2)) s r := by
  constructor
  · intro h
    refine sampleLoop'.partial_correctness _
      (motive := fun s r => Run (fun s => ((draw s).1.bind p, (draw s).2)) s r) ?_ s r h
    intro f ih s r hs
    cases hl : sampleLoop draw s with
    | none => rw [hl] at hs; simp at hs
    | some x =>
        obtain ⟨k, s1⟩ := x
        have hrun := (sampleLoop_iff draw s (k, s1)).mp hl
        simp only [hl, Option.map_some] at hs
        -- the rest of the run, from the point where the inner loop stopped
        have key : ∀ (s : σ) (x : α × σ), Run draw s x →
            (∀ a, p x.1 = some a → Run (fun s => ((draw s).1.bind p, (draw s).2)) s (a, x.2)) ∧
            (p x.1 = none → ∀ r, Run (fun s => ((draw s).1.bind p, (draw s).2)) x.2 r →
              Run (fun s => ((draw s).1.bind p, (draw s).2)) s r) := by
          intro s x hx
          induction hx with
          | @stop s s' a hd =>
              constructor
              · intro b hb
                exact Run.stop (by simp only [hd, Option.bind_some]; rw [hb])
              · intro hb r hr
                exact Run.again (s' := s') (by simp only [hd, Option.bind_some]; rw [hb]) hr
          | @again s s' x hd _ ih =>
              constructor
              · intro b hb
                exact Run.again (s' := s') (by simp only [hd, Option.bind_none]) (ih.1 b hb)
              · intro hb r hr
                exact Run.again (s' := s') (by simp only [hd, Option.bind_none]) (ih.2 hb r hr)
        cases hp : p k with
        | some a =>
            simp only [hp] at hs
            have hs' : (a, s1) = r := by simpa using hs
            rw [← hs']
            exact (key s _ hrun).1 a hp
        | none =>
            simp only [hp] at hs
            exact (key s _ hrun).2 hp r (ih s1 r (by simpa using hs))
  · intro h
    induction h with
    | @stop s s' a hd =>
        simp only [Prod.mk.injEq] at hd
        obtain ⟨h1, h2⟩ := hd
        obtain ⟨k, hk, hp⟩ := Option.bind_eq_some_iff.mp h1
        have hds : draw s = (some k, s') := by rw [← hk, ← h2]
        rw [sampleLoop', sampleLoop, hds]
        simp [hp]
    | @again s s' r hd _ ih =>
        simp only [Prod.mk.injEq] at hd
        obtain ⟨h1, h2⟩ := hd
        cases hk : (draw s).1 with
        | none =>
            have hds : draw s = (none, s') := by rw [← hk, ← h2]
            rw [← ih]
            conv_lhs => rw [sampleLoop', sampleLoop, hds]
            conv_rhs => rw [sampleLoop']
        | some k =>
            have hds : draw s = (some k, s') := by rw [← hk, ← h2]
            rw [hk, Option.bind_some] at h1
            rw [← ih]
            conv_lhs => rw [sampleLoop', sampleLoop, hds]
            simp [h1]

/-- A loop that never stops is one that rejects every sample. -/
theorem run_none_iff {σ α : Type} (draw : σ → Option α × σ) (s : σ) (x : Option (α × σ))
    (hx : ∀ r, x = some r ↔ Run draw s r) :
    x = none ↔ ∀ i, (draw (after draw s i)).1 = none := by
  constructor
  · intro h
    by_contra hne
    push Not at hne
    classical
    have hP : ∃ i, (draw (after draw s i)).1 ≠ none := hne
    obtain ⟨a, ha⟩ := Option.ne_none_iff_exists'.mp (Nat.find_spec hP)
    have hrun : Run draw s (a, (draw (after draw s (Nat.find hP))).2) := by
      rw [run_iff_first]
      refine ⟨Nat.find hP, fun j hj => ?_, by rw [← ha]⟩
      exact not_not.mp (Nat.find_min hP hj)
    rw [← hx, h] at hrun
    simp at hrun
  · intro h
    cases hr : x with
    | none => rfl
    | some r =>
        obtain ⟨a, s'⟩ := r
        obtain ⟨i, -, hi⟩ := (run_iff_first draw s a s').mp ((hx _).mp hr)
        have := h i
        rw [hi] at this
        simp at this

end Voprf
