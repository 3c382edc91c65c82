import Verif.Spec.SpyTape
import Verif.Props.Blindness
import Verif.Props.Uniform

/-!
# C66: a malicious server learns nothing about the inputs of clients that draw their blinds from uniform bytes
-/

namespace Voprf

open Spec

variable {CS : CipherSuite} [L : CS.group.Lawful]

/-- What blinding an input that hashes to `P` gives: the next random scalar and `P` multiplied by it. -/
def drawn {σ : Type} [RngCore σ] (P : CS.Elem) (rng : σ) : Res ((CS.Scalar × CS.Elem × CS.Elem) × σ) :=
  match CS.group.randomScalar rng with
  | none => .diverge
  | some (x, rng') => .ok ((x, x • P, x • P), rng')

/-- The game on given blinds, all of which must be used. -/
def runOn {A W : Type} (verdict : List (Waiting CS) → A → W) (inputs : Nat → Bytes) (P : Nat → CS.Elem) :
    Spy CS.Elem A W → List CS.Scalar → List (Waiting CS) → Option Bool
  | .done g, [], _ => some g
  | .done _, _ :: _, _ => none
  | .start _, [], _ => none
  | .start next, x :: xs, st =>
      runOn verdict inputs P (next (x • P st.length)) xs (st ++ [⟨inputs st.length, x, x • P st.length⟩])
  | .deliver a next, xs, st => runOn verdict inputs P (next (verdict st a)) xs st

/-- The game on a generator is the game on the blinds drawn. -/
theorem run_iff {σ A W : Type} [RngCore σ] (blind : Bytes → σ → Res ((CS.Scalar × CS.Elem × CS.Elem) × σ))
    (verdict : List (Waiting CS) → A → W) (inputs : Nat → Bytes) (P : Nat → CS.Elem)
    (hb : ∀ i rng, blind (inputs i) rng = drawn (P i) rng) (g : Bool)
    (S : Spy CS.Elem A W) (rng : σ) (st : List (Waiting CS)) :
    S.run blind verdict inputs rng st = some g ↔
      ∃ xs, (∃ rest, Consecutive CS.group rng xs rest) ∧ runOn verdict inputs P S xs st = some g := by
  induction S generalizing rng st with
  | done g' =>
    constructor
    · intro h
      exact ⟨[], ⟨rng, rfl⟩, h⟩
    · rintro ⟨xs, -, h⟩
      cases xs with
      | nil => exact h
      | cons x xs => simp [runOn] at h
  | start next ih =>
    simp only [Spy.run, hb, drawn]
    cases hr : CS.group.randomScalar rng with
    | none =>
      simp only [reduceCtorEq, false_iff]
      rintro ⟨xs, ⟨rest, hc⟩, h⟩
      cases xs with
      | nil => simp [runOn] at h
      | cons x xs =>
        obtain ⟨n, hn, -⟩ := hc
        rw [hr] at hn
        simp at hn
    | some p =>
      obtain ⟨x, rng'⟩ := p
      simp only
      rw [ih]
      constructor
      · rintro ⟨xs, ⟨rest, hc⟩, h⟩
        exact ⟨x :: xs, ⟨rest, rng', hr, hc⟩, h⟩
      · rintro ⟨xs, ⟨rest, hc⟩, h⟩
        cases xs with
        | nil => simp [runOn] at h
        | cons y xs =>
          obtain ⟨n, hn, hc⟩ := hc
          rw [hr] at hn
          obtain ⟨rfl, rfl⟩ := Prod.mk.inj (Option.some.inj hn)
          exact ⟨xs, ⟨rest, hc⟩, h⟩
  | deliver a next ih =>
    simp only [Spy.run, runOn]
    exact ih _ _ _

/-- One generator cannot supply two different sequences of blinds that finish the game. -/
theorem runOn_unique {σ A W : Type} [RngCore σ] (verdict : List (Waiting CS) → A → W) (inputs : Nat → Bytes)
    (P : Nat → CS.Elem) (g g' : Bool) (S : Spy CS.Elem A W) (rng a b : σ) (xs ys : List CS.Scalar) (st : List (Waiting CS))
    (hx : Consecutive CS.group rng xs a) (hy : Consecutive CS.group rng ys b)
    (h : runOn verdict inputs P S xs st = some g) (h' : runOn verdict inputs P S ys st = some g') : xs = ys := by
  induction S generalizing rng xs ys st with
  | done g₀ =>
    cases xs with
    | cons x xs => simp [runOn] at h
    | nil =>
      cases ys with
      | cons y ys => simp [runOn] at h'
      | nil => rfl
  | start next ih =>
    cases xs with
    | nil => simp [runOn] at h
    | cons x xs =>
      cases ys with
      | nil => simp [runOn] at h'
      | cons y ys =>
        obtain ⟨n, hn, hx⟩ := hx
        obtain ⟨m, hm, hy⟩ := hy
        rw [hn] at hm
        obtain ⟨rfl, rfl⟩ := Prod.mk.inj (Option.some.inj hm)
        rw [ih _ _ _ _ _ hx hy h h']
  | deliver a next ih => exact ih _ _ _ _ _ hx hy h h'

/-- A server that starts at most `m` clients needs at most `m` blinds. -/
theorem runOn_length {A W : Type} (verdict : List (Waiting CS) → A → W) (inputs : Nat → Bytes)
    (P : Nat → CS.Elem) (g : Bool) (S : Spy CS.Elem A W) (m : Nat) (hm : S.StartsAtMost m) (xs : List CS.Scalar)
    (st : List (Waiting CS)) (h : runOn verdict inputs P S xs st = some g) : xs.length ≤ m := by
  induction S generalizing m xs st with
  | done g₀ =>
    cases xs with
    | cons x xs => simp [runOn] at h
    | nil => simp
  | start next ih =>
    cases xs with
    | nil => simp
    | cons x xs =>
      cases m with
      | zero => simp [Spy.StartsAtMost] at hm
      | succ m =>
        have := ih _ m (hm _) xs _ h
        simp only [List.length_cons]
        omega
  | deliver a next ih =>
    refine ih _ m ?_ xs _ h
    cases m <;> exact hm _

/-- Multiplying the blinds by factors, the first by that of client `i`. -/
def twist (c : Nat → CS.Scalar) : Nat → List CS.Scalar → List CS.Scalar
  | _, [] => []
  | i, x :: xs => x * c i :: twist c (i + 1) xs

theorem twist_length (c : Nat → CS.Scalar) : ∀ (i : Nat) (xs : List CS.Scalar), (twist c i xs).length = xs.length
  | _, [] => rfl
  | i, _ :: xs => by simp [twist, twist_length c (i + 1) xs]

theorem twist_ne_zero (c : Nat → CS.Scalar) (hc : ∀ i, c i ≠ 0) :
    ∀ (i : Nat) (xs : List CS.Scalar), (∀ x ∈ xs, x ≠ 0) → ∀ x ∈ twist c i xs, x ≠ 0
  | _, [], _ => by simp [twist]
  | i, y :: xs, h => by
      intro x hx
      rcases List.mem_cons.mp hx with rfl | hx
      · exact mul_ne_zero (h y List.mem_cons_self) (hc i)
      · exact twist_ne_zero c hc (i + 1) xs (fun x hx => h x (List.mem_cons_of_mem _ hx)) x hx

theorem twist_injective (c : Nat → CS.Scalar) (hc : ∀ i, c i ≠ 0) :
    ∀ (i : Nat) (xs ys : List CS.Scalar), twist c i xs = twist c i ys → xs = ys
  | _, [], [], _ => rfl
  | _, [], _ :: _, h => by simp [twist] at h
  | _, _ :: _, [], h => by simp [twist] at h
  | i, x :: xs, y :: ys, h => by
      simp only [twist, List.cons.injEq] at h
      rw [mul_right_cancel₀ (hc i) h.1, twist_injective c hc (i + 1) xs ys h.2]

/-- The game on other inputs with blinds changed accordingly. -/
theorem runOn_twist {A W : Type} (verdict : List (Waiting CS) → A → W)
    (hv : ∀ st st', AllGood st → AllGood st' → st.map (·.elem) = st'.map (·.elem) → ∀ a, verdict st a = verdict st' a)
    (inputs inputs' : Nat → Bytes) (P P' : Nat → CS.Elem) (c : Nat → CS.Scalar)
    (hl : ∀ i, (inputs i).length ≤ 65535) (hl' : ∀ i, (inputs' i).length ≤ 65535)
    (hc : ∀ i, c i ≠ 0) (hP : ∀ i, c i • P' i = P i)
    (S : Spy CS.Elem A W) (xs : List CS.Scalar) (hx : ∀ x ∈ xs, x ≠ 0) (st st' : List (Waiting CS))
    (hg : AllGood st) (hg' : AllGood st') (he : st.map (·.elem) = st'.map (·.elem)) :
    runOn verdict inputs' P' S (twist c st.length xs) st' = runOn verdict inputs P S xs st := by
  induction S generalizing xs st st' with
  | done g => cases xs <;> rfl
  | start next ih =>
    have hlen : st.length = st'.length := by simpa using congrArg List.length he
    cases xs with
    | nil => rfl
    | cons x xs =>
      have hx0 := hx x List.mem_cons_self
      have e : (x * c st.length) • P' st.length = x • P st.length := by rw [mul_smul, hP]
      simp only [twist, runOn, ← hlen, e]
      have := ih (x • P st.length) xs (fun y hy => hx y (List.mem_cons_of_mem _ hy))
        (st ++ [⟨inputs st.length, x, x • P st.length⟩]) (st' ++ [⟨inputs' st.length, x * c st.length, x • P st.length⟩])
        ?_ ?_ ?_
      · simpa only [List.length_append, List.length_singleton] using this
      · intro w hw
        rcases List.mem_append.mp hw with hw | hw
        · exact hg w hw
        · rw [List.mem_singleton.mp hw]; exact ⟨hx0, hl _⟩
      · intro w hw
        rcases List.mem_append.mp hw with hw | hw
        · exact hg' w hw
        · rw [List.mem_singleton.mp hw]; exact ⟨mul_ne_zero hx0 (hc _), hl' _⟩
      · simp [he]
  | deliver a next ih =>
    simp only [runOn]
    rw [← hv st st' hg hg' he a]
    exact ih _ _ hx _ _ hg hg' he

/-- Tapes on which one of several incompatible sequences is drawn. -/
theorem ncard_families {G : VGroup} (len : Nat) (F : Finset (List G.Scalar))
    (hF : ∀ t, ∀ xs ∈ F, ∀ ys ∈ F, Drawing G xs t → Drawing G ys t → xs = ys) :
    (tapes len fun t => ∃ xs ∈ F, Drawing G xs t).ncard = ∑ xs ∈ F, (tapes len (Drawing G xs)).ncard := by
  classical
  induction F using Finset.induction_on with
  | empty =>
    rw [Finset.sum_empty, Set.ncard_eq_zero (tapes_finite _ _), Set.eq_empty_iff_forall_notMem]
    rintro t ⟨-, xs, hxs, -⟩
    simp at hxs
  | insert x F hx ih =>
    rw [Finset.sum_insert hx, ← ih fun t xs h ys h' => hF t xs (Finset.mem_insert_of_mem h) ys (Finset.mem_insert_of_mem h'),
      ← Set.ncard_union_eq ?_ (tapes_finite _ _) (tapes_finite _ _)]
    · congr 1
      ext t
      simp only [tapes, Set.mem_ofPred_eq, Set.mem_union, Finset.exists_mem_insert]
      tauto
    · rw [Set.disjoint_left]
      rintro t ⟨-, a⟩ ⟨-, y, hy, b⟩
      exact hx (hF ⟨t⟩ x (Finset.mem_insert_self _ _) y (Finset.mem_insert_of_mem hy) a b ▸ hy)

theorem consecutive_ne_zero {G : VGroup} [L : G.Lawful] {σ : Type} [RngCore σ] :
    ∀ (xs : List G.Scalar) (s a : σ), Consecutive G s xs a → ∀ x ∈ xs, x ≠ 0
  | [], _, _, _ => by simp
  | y :: xs, s, a, ⟨n, hn, h⟩ => by
      intro x hx
      rcases List.mem_cons.mp hx with rfl | hx
      · exact L.randomScalar_ne_zero _ _ _ hn
      · exact consecutive_ne_zero xs n a h x hx

/-- The games on two families of inputs, compared on the tapes. -/
theorem run_ratio {A W : Type} {block p q : Nat} (hu : NearlyUniform CS.group block p q) (hpq : p ≤ q)
    (blind : Bytes → Tape → Res ((CS.Scalar × CS.Elem × CS.Elem) × Tape)) (verdict : List (Waiting CS) → A → W)
    (hv : ∀ st st', AllGood st → AllGood st' → st.map (·.elem) = st'.map (·.elem) → ∀ a, verdict st a = verdict st' a)
    (inputs inputs' : Nat → Bytes) (P P' : Nat → CS.Elem)
    (hl : ∀ i, (inputs i).length ≤ 65535) (hl' : ∀ i, (inputs' i).length ≤ 65535)
    (hb : ∀ i rng, blind (inputs i) rng = drawn (P i) rng) (hP : ∀ i, P i ≠ 0)
    (hb' : ∀ i rng, blind (inputs' i) rng = drawn (P' i) rng) (hP' : ∀ i, P' i ≠ 0)
    (n m : Nat) (S : Spy CS.Elem A W) (hS : S.StartsAtMost m) (g : Bool) :
    (tapes (n * block) fun t => S.run blind verdict inputs t [] = some g).ncard * p ^ m ≤
      (tapes (n * block) fun t => S.run blind verdict inputs' t [] = some g).ncard * q ^ m := by
  classical
  have hfin := L.finite_scalar
  -- The factors.
  have hc : ∀ i, ∃ c : CS.Scalar, c ≠ 0 ∧ c • P' i = P i := by
    intro i
    obtain ⟨a, ha⟩ := VGroup.Lawful.base_generates (G := CS.group) (P i)
    obtain ⟨b, hb⟩ := VGroup.Lawful.base_generates (G := CS.group) (P' i)
    have ha0 : a ≠ 0 := fun h => hP i (by rw [ha, h, zero_smul])
    have hb0 : b ≠ 0 := fun h => hP' i (by rw [hb, h, zero_smul])
    refine ⟨a * b⁻¹, mul_ne_zero ha0 (inv_ne_zero hb0), ?_⟩
    rw [ha, hb, ← mul_smul, mul_assoc, inv_mul_cancel₀ hb0, mul_one]
  choose c hc0 hcP using hc
  -- The sequences of blinds on which the guess is `g`.
  have fin : ∀ (inputs : Nat → Bytes) (P : Nat → CS.Elem),
      {xs : List CS.Scalar | (∀ x ∈ xs, x ≠ 0) ∧ runOn verdict inputs P S xs [] = some g}.Finite := by
    intro inputs P
    exact (List.finite_length_le CS.Scalar m).subset fun xs h => runOn_length verdict inputs P g S m hS xs [] h.2
  have count : ∀ (inputs : Nat → Bytes) (P : Nat → CS.Elem), (∀ i rng, blind (inputs i) rng = drawn (P i) rng) →
      (tapes (n * block) fun t => S.run blind verdict inputs t [] = some g).ncard =
        ∑ xs ∈ (fin inputs P).toFinset, (tapes (n * block) (Drawing CS.group xs)).ncard := by
    intro inputs P hb
    rw [← ncard_families]
    · congr 1
      ext t
      refine and_congr_right fun _ => ?_
      refine (run_iff blind verdict inputs P hb g S _ _).trans ?_
      constructor
      · rintro ⟨xs, ⟨rest, hc⟩, h⟩
        exact ⟨xs, (fin inputs P).mem_toFinset.mpr ⟨consecutive_ne_zero _ _ _ hc, h⟩, rest, hc⟩
      · rintro ⟨xs, hxs, hd⟩
        exact ⟨xs, hd, ((fin inputs P).mem_toFinset.mp hxs).2⟩
    · rintro t xs hxs ys hys ⟨a, ha⟩ ⟨b, hb⟩
      exact runOn_unique verdict inputs P g g S t a b xs ys [] ha hb
        ((fin inputs P).mem_toFinset.mp hxs).2 ((fin inputs P).mem_toFinset.mp hys).2
  rw [count inputs P hb, count inputs' P' hb', Finset.sum_mul, Finset.sum_mul]
  calc _ ≤ ∑ xs ∈ (fin inputs P).toFinset, (tapes (n * block) (Drawing CS.group (twist c 0 xs))).ncard * q ^ m := by
        refine Finset.sum_le_sum fun xs hxs => ?_
        obtain ⟨h0, hr⟩ := (fin inputs P).mem_toFinset.mp hxs
        have hk := runOn_length verdict inputs P g S m hS xs [] hr
        have := hu n xs (twist c 0 xs) h0 (twist_ne_zero c hc0 0 xs h0) (twist_length c 0 xs).symm
        obtain ⟨d, rfl⟩ := Nat.exists_eq_add_of_le hk
        rw [pow_add, pow_add, ← mul_assoc, ← mul_assoc]
        exact Nat.mul_le_mul this (Nat.pow_le_pow_left hpq d)
    _ = ∑ ys ∈ (fin inputs P).toFinset.image (twist c 0), (tapes (n * block) (Drawing CS.group ys)).ncard * q ^ m := by
        rw [Finset.sum_image]
        intro a _ b _ h
        exact twist_injective c hc0 0 a b h
    _ ≤ _ := by
        refine Finset.sum_le_sum_of_subset ?_
        intro ys hys
        obtain ⟨xs, hxs, rfl⟩ := Finset.mem_image.mp hys
        obtain ⟨h0, hr⟩ := (fin inputs P).mem_toFinset.mp hxs
        refine (fin inputs' P').mem_toFinset.mpr ⟨twist_ne_zero c hc0 0 xs h0, ?_⟩
        exact (runOn_twist verdict hv inputs inputs' P P' c hl hl' hc0 hcP S xs h0 [] [] (by simp [AllGood])
          (by simp [AllGood]) rfl).trans hr

/-- C66, OPRF: clients take their blinds one after the other from uniform bytes; whatever the server does and whatever it
guesses, no choice of the inputs makes this guess more than `(q / p) ^ m` times as likely as another choice, if at most `m`
clients start.  With `p = q = 1` the guess does not depend on the inputs at all. -/
theorem C66_oprf (wf : CS.WF) {block p q : Nat} (hu : NearlyUniform CS.group block p q) (hpq : p ≤ q) (n m : Nat)
    (inputs inputs' : Nat → Bytes) (h : ∀ i, Hidable CS .Oprf (inputs i)) (h' : ∀ i, Hidable CS .Oprf (inputs' i))
    (S : Spy CS.Elem (Nat × CS.Elem) (Option (Res Unit))) (hS : S.StartsAtMost m) (g : Bool) :
    oprfGuesses CS (n * block) inputs S g * p ^ m ≤ oprfGuesses CS (n * block) inputs' S g * q ^ m := by
  choose hl P hP hP0 using h
  choose hl' P' hP' hP0' using h'
  have key : ∀ (x : Bytes) (Q : CS.Elem), Spec.hashToGroup CS .Oprf x = .ok Q → ∀ rng : Tape,
      oprfBlindWith CS x rng = drawn Q rng := by
    intro x Q hx rng
    unfold oprfBlindWith drawn
    rw [OprfClient.blindInput_eq wf]
    cases CS.group.randomScalar rng with
    | none => rfl
    | some p => simp only [hx]; rfl
  exact run_ratio hu hpq (oprfBlindWith CS) oprfVerdict oprfVerdict_congr inputs inputs' P P' hl hl'
    (fun i => key _ _ (hP i)) hP0 (fun i => key _ _ (hP' i)) hP0' n m S hS g

/-- C66, VOPRF: the same, including how every `finalize` and `batch_finalize` ends. -/
theorem C66_voprf (wf : CS.WF) {block p q : Nat} (hu : NearlyUniform CS.group block p q) (hpq : p ≤ q) (n m : Nat)
    (inputs inputs' : Nat → Bytes) (h : ∀ i, Hidable CS .Voprf (inputs i)) (h' : ∀ i, Hidable CS .Voprf (inputs' i))
    (S : Spy CS.Elem (Delivery CS) (Option (Res (List (Res Unit))))) (hS : S.StartsAtMost m) (g : Bool) :
    voprfGuesses CS (n * block) inputs S g * p ^ m ≤ voprfGuesses CS (n * block) inputs' S g * q ^ m := by
  choose hl P hP hP0 using h
  choose hl' P' hP' hP0' using h'
  have key : ∀ (x : Bytes) (Q : CS.Elem), Spec.hashToGroup CS .Voprf x = .ok Q → ∀ rng : Tape,
      voprfBlindWith CS x rng = drawn Q rng := by
    intro x Q hx rng
    unfold voprfBlindWith drawn
    rw [VoprfClient.blindInput_eq wf]
    cases CS.group.randomScalar rng with
    | none => rfl
    | some p => simp only [hx]; rfl
  exact run_ratio hu hpq (voprfBlindWith CS) voprfVerdict voprfVerdict_congr inputs inputs' P P' hl hl'
    (fun i => key _ _ (hP i)) hP0 (fun i => key _ _ (hP' i)) hP0' n m S hS g

/-- C66, POPRF: the same. -/
theorem C66_poprf (wf : CS.WF) {block p q : Nat} (hu : NearlyUniform CS.group block p q) (hpq : p ≤ q) (n m : Nat)
    (inputs inputs' : Nat → Bytes) (h : ∀ i, Hidable CS .Poprf (inputs i)) (h' : ∀ i, Hidable CS .Poprf (inputs' i))
    (S : Spy CS.Elem (Delivery CS) (Option (Res (List (Res Unit))))) (hS : S.StartsAtMost m) (g : Bool) :
    poprfGuesses CS (n * block) inputs S g * p ^ m ≤ poprfGuesses CS (n * block) inputs' S g * q ^ m := by
  choose hl P hP hP0 using h
  choose hl' P' hP' hP0' using h'
  have key : ∀ (x : Bytes) (Q : CS.Elem), Spec.hashToGroup CS .Poprf x = .ok Q → ∀ rng : Tape,
      poprfBlindWith CS x rng = drawn Q rng := by
    intro x Q hx rng
    unfold poprfBlindWith drawn
    rw [PoprfClient.blindInput_eq wf]
    cases CS.group.randomScalar rng with
    | none => rfl
    | some p => simp only [hx]; rfl
  exact run_ratio hu hpq (poprfBlindWith CS) poprfVerdict (poprfVerdict_congr wf) inputs inputs' P P' hl hl'
    (fun i => key _ _ (hP i)) hP0 (fun i => key _ _ (hP' i)) hP0' n m S hS g

/-- C66: all modes together. -/
theorem C66_ratio (wf : CS.WF) {block p q : Nat} (hu : NearlyUniform CS.group block p q) (hpq : p ≤ q) (n m : Nat) :
    Blindness CS (n * block) m fun a b => a * p ^ m ≤ b * q ^ m :=
  fun inputs inputs' g =>
    ⟨fun h h' S hS => C66_oprf wf hu hpq n m inputs inputs' h h' S hS g,
     fun h h' S hS => C66_voprf wf hu hpq n m inputs inputs' h h' S hS g,
     fun h h' S hS => C66_poprf wf hu hpq n m inputs inputs' h h' S hS g⟩

theorem tapes_ncard_le (len : Nat) (event : Tape → Prop) : (tapes len event).ncard ≤ 256 ^ len := by
  rw [← ncard_tapes_true len]
  exact Set.ncard_le_ncard (fun t h => ⟨h.1, trivial⟩) (tapes_finite _ _)

omit L in
/-- A relation proved in both directions and of small numbers. -/
theorem blindness_mono [CS.group.Lawful] {len m : Nat} {R R' : Nat → Nat → Prop} (h : Blindness CS len m R)
    (hR : ∀ a b, a ≤ 256 ^ len → b ≤ 256 ^ len → R a b → R b a → R' a b) : Blindness CS len m R' :=
  fun inputs inputs' g =>
    ⟨fun h1 h2 S hS => hR _ _ (tapes_ncard_le _ _) (tapes_ncard_le _ _) ((h inputs inputs' g).1 h1 h2 S hS)
      ((h inputs' inputs g).1 h2 h1 S hS),
     fun h1 h2 S hS => hR _ _ (tapes_ncard_le _ _) (tapes_ncard_le _ _) ((h inputs inputs' g).2.1 h1 h2 S hS)
      ((h inputs' inputs g).2.1 h2 h1 S hS),
     fun h1 h2 S hS => hR _ _ (tapes_ncard_le _ _) (tapes_ncard_le _ _) ((h inputs inputs' g).2.2 h1 h2 S hS)
      ((h inputs' inputs g).2.2 h2 h1 S hS)⟩

/-- `(1 + 1/P)^m ≤ 1 + 2m/P` as long as `2m ≤ P`. -/
theorem pow_succ_le (P : Nat) : ∀ m, 2 * m ≤ P → (P + 1) ^ m * P ≤ P ^ m * (P + 2 * m)
  | 0, _ => by simp
  | m + 1, h => by
      have ih := pow_succ_le P m (by omega)
      have h1 : (P + 1) * (P + 2 * m) ≤ P * (P + 2 * (m + 1)) := by nlinarith
      calc (P + 1) ^ (m + 1) * P = (P + 1) * ((P + 1) ^ m * P) := by ring
        _ ≤ (P + 1) * (P ^ m * (P + 2 * m)) := Nat.mul_le_mul_left _ ih
        _ = P ^ m * ((P + 1) * (P + 2 * m)) := by ring
        _ ≤ P ^ m * (P * (P + 2 * (m + 1))) := Nat.mul_le_mul_left _ h1
        _ = _ := by ring

/-- From a ratio to a difference. -/
theorem sub_of_ratio {P m T a b : Nat} (hP : 0 < P) (hm : 2 * m ≤ P) (hb : b ≤ T)
    (h : a * P ^ m ≤ b * (P + 1) ^ m) : (a - b) * P ≤ 2 * m * T := by
  have h1 := pow_succ_le P m hm
  have h2 : a * P * P ^ m ≤ b * (P + 2 * m) * P ^ m := by
    calc a * P * P ^ m = a * P ^ m * P := by ring
      _ ≤ b * (P + 1) ^ m * P := Nat.mul_le_mul_right _ h
      _ = b * ((P + 1) ^ m * P) := by ring
      _ ≤ b * (P ^ m * (P + 2 * m)) := Nat.mul_le_mul_left _ h1
      _ = _ := by ring
  have h3 := Nat.le_of_mul_le_mul_right h2 (Nat.pow_pos hP)
  rw [Nat.sub_mul]
  have h4 : b * (2 * m) ≤ T * (2 * m) := Nat.mul_le_mul_right _ hb
  have h5 : b * (P + 2 * m) = b * P + b * (2 * m) := by ring
  have h6 : T * (2 * m) = 2 * m * T := by ring
  omega

/-- From ratios to a difference of probabilities. -/
theorem prob_of_ratio {P m T a b : Nat} (hP : 0 < P) (hm : 2 * m ≤ P) (hT : 0 < T) (ha : a ≤ T) (hb : b ≤ T)
    (h : a * P ^ m ≤ b * (P + 1) ^ m) (h' : b * P ^ m ≤ a * (P + 1) ^ m) :
    |(a / T - b / T : ℚ)| ≤ 2 * m / P := by
  have hP' : (0 : ℚ) < P := by exact_mod_cast hP
  have hT' : (0 : ℚ) < T := by exact_mod_cast hT
  have go : ∀ {a b : Nat}, b ≤ T → a * P ^ m ≤ b * (P + 1) ^ m → (a / T - b / T : ℚ) ≤ 2 * m / P := by
    intro a b hb h
    rw [← sub_div, div_le_div_iff₀ hT' hP']
    have := sub_of_ratio hP hm hb h
    rcases le_total b a with hab | hab
    · have hq : (((a - b) * P : Nat) : ℚ) ≤ ((2 * m * T : Nat) : ℚ) := by exact_mod_cast this
      push_cast [Nat.cast_sub hab] at hq
      exact hq
    · have : ((a : ℚ) - b) * P ≤ 0 := mul_nonpos_of_nonpos_of_nonneg (sub_nonpos.mpr (by exact_mod_cast hab)) hP'.le
      exact this.trans (by positivity)
  rw [abs_le]
  constructor
  · have := go ha h'
    linarith
  · exact go hb h

end Voprf
