import Verif.Spec.Party
import Verif.Lemmas.Party
import Verif.Props.OneMore

/-!
# C56: the proofs of the server do not help to get more outputs than evaluations
-/

namespace Voprf

open Spec

variable {CS : CipherSuite} [L : CS.group.Lawful]

theorem rom_comm (f : Table CS) (D : Digests CS) :
    romSuite CS f D = oracleSuite (digestSuite CS D) f := rfl

/-- The same request, for the ciphersuite with another `hash_to_scalar`. -/
def Spec.EvalRequest.withTable (f : Table CS) : EvalRequest CS → EvalRequest (oracleSuite CS f)
  | .one b => .one b
  | .batch bs h => .batch bs h

instance : Finite (Digests CS) := inferInstanceAs (Finite (DigestQuestion → DigestValue CS))

theorem voprfRespond_serve {σ : Type} [RngCore σ] (k : CS.Scalar) (pk : CS.Elem) (f : Table CS) (D : Digests CS)
    (r : EvalRequest CS) (rng : σ) :
    voprfRespond k pk f D r rng = voprfServe (CS := oracleSuite CS f) k pk D (r.withTable f, rng) := by
  cases r <;> rfl

theorem voprfRespond_answer {σ : Type} [RngCore σ] (k : CS.Scalar) (pk : CS.Elem) (f : Table CS) (D : Digests CS)
    (r : EvalRequest CS) (rng : σ) :
    voprfRespond k pk f D r rng = voprfAnswer (CS := digestSuite CS D) k pk (r.withDigests D) f rng := by
  cases r <;> rfl

/-- `C55_voprf` in terms of the questions asked. -/
theorem voprf_claims_asked (wf : CS.WF) (k : CS.Scalar) (hk : k ≠ 0) (pk : CS.Elem) {σ : Type} [RngCore σ]
    (T : Player DigestQuestion (DigestValue CS) (EvalRequest CS × σ) (EvalResponse CS) (List (Bytes × Bytes)))
    (m : Nat) (hm : ∀ D, (T.run D (voprfServe k pk D)).length ≤ m) :
    chance (fun D : Digests CS => T.spent (fun r => r.1.elems.length) D (voprfServe k pk D) <
        rightCount (fun x y => VoprfServer.evaluate (CS := digestSuite CS D) ⟨k, pk⟩ x = .ok y)
          (T.run D (voprfServe k pk D))) ≤
      chance (fun D : Digests CS => VoprfFindsMore k (T.spent (fun r => r.1.elems.length) D (voprfServe k pk D))
        (T.asked D (voprfServe k pk D))) +
      m / (256 : ℚ) ^ CS.hash.outputSize := by
  refine le_trans (C55_voprf wf k hk pk T m hm) (le_of_eq ?_)
  refine congrArg (· + _) (chance_congr fun D => ?_)
  unfold solver VoprfFindsMore
  rw [Player.spent_readOff, Player.run_readOff]
  simp

/-- The party's claims come from its digest questions, whatever the table of `hash_to_scalar`. -/
theorem voprf_real_le (wf : CS.WF) (k : CS.Scalar) (hk : k ≠ 0) (pk : CS.Elem) {σ : Type} [RngCore σ] (draw : Nonce CS → σ)
    (T : Party CS (EvalRequest CS) (List (Bytes × Bytes))) (n d m M : Nat)
    (hT : T.Within (fun claims => claims.length ≤ M) n d m) (f : Table CS) :
    (average fun D : Digests CS => T.real f D (fun r ρ => voprfRespond k pk f D r (draw ρ)) (fun r => r.elems.length)
        (fun s _ claims => VoprfClaimsMore k pk f D s claims) 0 []) ≤
      (average fun D : Digests CS => T.real f D (fun r ρ => voprfRespond k pk f D r (draw ρ)) (fun r => r.elems.length)
        (fun s qs _ => VoprfFindsMore k s qs) 0 []) + M / (256 : ℚ) ^ CS.hash.outputSize := by
  have : Finite CS.Scalar := VGroup.Lawful.finite_scalar
  have : Nonempty (Nonce CS) := ⟨⟨1, one_ne_zero⟩⟩
  refine Party.real_le (O := List (Bytes × Bytes)) f (fun r ρ => (r.withTable f, draw ρ)) _
    (fun D => voprfServe (CS := oracleSuite CS f) k pk D)
    (fun D r ρ => voprfRespond_serve k pk f D r (draw ρ)) _ (fun r => r.1.elems.length) (fun r ρ => by cases r <;> rfl)
    (fun D s _ claims => VoprfClaimsMore k pk f D s claims) (fun _ s qs _ => VoprfFindsMore k s qs)
    (fun claims => claims.length ≤ M) T n d m hT _ fun l => ?_
  set P := T.toPlayer f (fun r ρ => (r.withTable f, draw ρ)) l with hP
  have key := voprf_claims_asked (CS := oracleSuite CS f) (oracle_wf wf f) k hk pk P M
    fun D => Party.run_good f D _ _ (fun claims : List (Bytes × Bytes) => claims.length ≤ M) (Nat.zero_le _) T n d m hT l
  exact key

/-- The simulator of C52 for a fixed table of digests. -/
theorem voprf_simulate_bound (wf : CS.WF) (k : CS.Scalar) {σ : Type} [RngCore σ] (draw : Nonce CS → σ) (hd : Draws draw)
    (D : Digests CS) (S : Distinguisher Question CS.Scalar (EvalRequest CS) (EvalResponse CS)) (n m : Nat)
    (hS : S.Within n m) :
    |(average fun f : Table CS => S.real f fun r ρ => voprfRespond k (k • CS.group.baseElem) f D r (draw ρ)) -
      (average fun f : Table CS => S.ideal (fun _ _ => SimCoins (k • CS.group.baseElem))
        (voprfSimulate (fun P => k • P) (k • CS.group.baseElem) D) f)| ≤
      (m * (n + m) : ℚ) / Nat.card (Nonce CS) := by
  have : Finite CS.Scalar := VGroup.Lawful.finite_scalar
  have H : Simulates (fun (r : EvalRequest CS) f (ρ : Nonce CS) => voprfRespond k (k • CS.group.baseElem) f D r (draw ρ))
      (fun _ _ => SimCoins (k • CS.group.baseElem))
      (voprfSimulate (fun P => k • P) (k • CS.group.baseElem) D) (chalSet (digest_wf wf D) .Voprf) := by
    rw [show (fun (r : EvalRequest CS) f (ρ : Nonce CS) => voprfRespond k (k • CS.group.baseElem) f D r (draw ρ)) =
      fun r f ρ => voprfAnswer (CS := digestSuite CS D) k (k • CS.group.baseElem) (r.withDigests D) f (draw ρ) from
        funext fun r => funext fun f => funext fun ρ => voprfRespond_answer k _ f D r (draw ρ)]
    exact fun r f => voprf_simulates (CS := digestSuite CS D) (digest_wf wf D) k draw hd (r.withDigests D) f
  exact session_bound H S n m hS

/-- C56, VOPRF: with both hashes random, a client that has elements evaluated by a `VoprfServer` is right for
more inputs than it had elements evaluated with at most the probability, up to `M / 256^Nh + m (n + m) / (q - 1)`, that the
digest questions of the same client, talking to a simulator that is only handed evaluations `k·P`, contain
`k·HashToGroup(x)` for more inputs `x` than it had elements evaluated. -/
theorem C56_voprf (wf : CS.WF) (k : CS.Scalar) (hk : k ≠ 0) {σ : Type} [RngCore σ] (draw : Nonce CS → σ)
    (hd : Draws draw) (T : Party CS (EvalRequest CS) (List (Bytes × Bytes))) (n d m M : Nat)
    (hT : T.Within (fun claims => claims.length ≤ M) n d m) :
    (average fun f : Table CS => average fun D : Digests CS =>
        T.real f D (fun r ρ => voprfRespond k (k • CS.group.baseElem) f D r (draw ρ)) (fun r => r.elems.length)
          (fun spent _ claims => VoprfClaimsMore k (k • CS.group.baseElem) f D spent claims) 0 []) ≤
      (average fun f : Table CS => average fun D : Digests CS =>
        T.ideal D (fun _ _ => SimCoins (k • CS.group.baseElem))
          (voprfSimulate (fun P => k • P) (k • CS.group.baseElem) D) (fun r => r.elems.length)
          (fun _ spent asked _ => VoprfFindsMore k spent asked) f 0 []) +
      (M / (256 : ℚ) ^ CS.hash.outputSize + (m * (n + m) : ℚ) / Nat.card (Nonce CS)) := by
  classical
  have : Finite CS.Scalar := VGroup.Lawful.finite_scalar
  have : Nonempty (Table CS) := ⟨fun _ => 0⟩
  rw [← add_assoc]
  refine le_trans (average_mono fun f => voprf_real_le wf k hk _ draw T n d m M hT f) ?_
  rw [average_add_const, add_right_comm]
  refine add_le_add_left ?_ _
  rw [average_comm (fun (f : Table CS) (D : Digests CS) => Party.ideal D _ _ _ _ T f 0 []),
    average_comm (fun (f : Table CS) (D : Digests CS) => Party.real f D _ _ _ T 0 [])]
  rw [← average_add_const]
  refine average_mono fun D => ?_
  have hb := voprf_simulate_bound wf k draw hd D
    (T.session D (fun r => r.elems.length) (fun s qs _ => .done (decide (VoprfFindsMore k s qs))) 0 []) n m (by
      have := Party.session_within D (fun r : EvalRequest CS => r.elems.length)
        (fun s qs (_ : List (Bytes × Bytes)) => .done (decide (VoprfFindsMore (CS := CS) k s qs))) 0
        (fun s qs o => by simp [Distinguisher.Within]) _ T n d m hT 0 []
      simpa using this)
  rw [show (fun f : Table CS => Distinguisher.real f _ _) = fun f => _ from funext fun f =>
      Party.session_real f D _ _ _ (fun s qs _ => VoprfFindsMore k s qs)
        (fun s qs o => by simp [Distinguisher.real]) T 0 [],
    show (fun f : Table CS => Distinguisher.ideal _ _ _ f) = fun f => _ from funext fun f =>
      Party.session_ideal D _ _ _ _ (fun _ s qs _ => VoprfFindsMore k s qs)
        (fun f s qs o => by simp [Distinguisher.ideal]) T f 0 []] at hb
  linarith [(abs_le.mp hb).2]

/-! ## POPRF -/

theorem poprfRespond_serve {σ : Type} [RngCore σ] (k : CS.Scalar) (pk : CS.Elem) (f : Table CS) (D : Digests CS)
    (r : EvalRequest CS × Option Bytes) (rng : σ) :
    poprfRespond k pk f D r rng = poprfServe (CS := oracleSuite CS f) k pk D (r.1.withTable f, r.2, rng) := by
  obtain ⟨r, info⟩ := r
  cases r <;> rfl

theorem poprfRespond_answer {σ : Type} [RngCore σ] (k : CS.Scalar) (pk : CS.Elem) (f : Table CS) (D : Digests CS)
    (r : EvalRequest CS × Option Bytes) (rng : σ) :
    poprfRespond k pk f D r rng = poprfAnswer (CS := digestSuite CS D) k pk (r.1.withDigests D, r.2) f rng := by
  obtain ⟨r, info⟩ := r
  cases r <;> rfl

theorem hashToScalar_tweakOf (f : Table CS) (i : Bytes) :
    Spec.hashToScalar (oracleSuite CS f) .Poprf (infoInput i) = .ok (tweakOf f (some i)) := by
  show Except.ok (f.answer ([_].flatten) ([_].flatten)) = _
  simp only [List.flatten_cons, List.flatten_nil, List.append_nil]
  rfl

/-- `C55_poprf` in terms of the questions asked. -/
theorem poprf_claims_asked (wf : CS.WF) (k : CS.Scalar) (pk : CS.Elem) {σ : Type} [RngCore σ]
    (T : Player DigestQuestion (DigestValue CS) (EvalRequest CS × Option Bytes × σ) (EvalResponse CS)
      (List (Bytes × Option Bytes × Bytes)))
    (m : Nat) (hm : ∀ D, (T.run D (poprfServe k pk D)).length ≤ m) :
    chance (fun D : Digests CS => T.spent (fun r => r.1.elems.length) D (poprfServe k pk D) <
        rightCount (fun xi iy => PoprfServer.evaluate (CS := digestSuite CS D) ⟨k, pk⟩ xi.1 iy.1 = .ok iy.2)
          ((T.run D (poprfServe k pk D)).map fun c => ((c.1, c.2.1.getD []), (c.2.1, c.2.2)))) ≤
      chance (fun D : Digests CS => T.spent (fun r => r.1.elems.length) D (poprfServe k pk D) <
        rightCount (fun xi E => ∃ P t, Spec.hashToGroup CS .Poprf xi.1 = .ok P ∧
            Spec.hashToScalar CS .Poprf (infoInput xi.2) = .ok t ∧ k + t ≠ 0 ∧ E = (k + t)⁻¹ • P)
          (((T.asked D (poprfServe k pk D)).flatMap (readTriple CS)).map fun c => ((c.1, c.2.1), c.2.2))) +
      m / (256 : ℚ) ^ CS.hash.outputSize := by
  refine le_trans (C55_poprf wf k pk T m hm) (le_of_eq ?_)
  refine congrArg (· + _) (chance_congr fun D => ?_)
  unfold solverInfo
  rw [Player.spent_readOff, Player.run_readOff]
  simp

theorem poprf_real_le (wf : CS.WF) (k : CS.Scalar) (pk : CS.Elem) {σ : Type} [RngCore σ] (draw : Nonce CS → σ)
    (T : Party CS (EvalRequest CS × Option Bytes) (List (Bytes × Option Bytes × Bytes))) (n d m M : Nat)
    (hT : T.Within (fun claims => claims.length ≤ M) n d m) (f : Table CS) :
    (average fun D : Digests CS => T.real f D (fun r ρ => poprfRespond k pk f D r (draw ρ)) (fun r => r.1.elems.length)
        (fun s _ claims => PoprfClaimsMore k pk f D s claims) 0 []) ≤
      (average fun D : Digests CS => T.real f D (fun r ρ => poprfRespond k pk f D r (draw ρ)) (fun r => r.1.elems.length)
        (fun s qs _ => PoprfFindsMore k f s qs) 0 []) + M / (256 : ℚ) ^ CS.hash.outputSize := by
  have : Finite CS.Scalar := VGroup.Lawful.finite_scalar
  have : Nonempty (Nonce CS) := ⟨⟨1, one_ne_zero⟩⟩
  refine Party.real_le (O := List (Bytes × Option Bytes × Bytes)) f (fun r ρ => (r.1.withTable f, r.2, draw ρ)) _
    (fun D => poprfServe (CS := oracleSuite CS f) k pk D)
    (fun D r ρ => poprfRespond_serve k pk f D r (draw ρ)) _ (fun r => r.1.elems.length)
    (fun r ρ => by obtain ⟨r, i⟩ := r; cases r <;> rfl)
    (fun D s _ claims => PoprfClaimsMore k pk f D s claims) (fun _ s qs _ => PoprfFindsMore k f s qs)
    (fun claims => claims.length ≤ M) T n d m hT _ fun l => ?_
  set P := T.toPlayer f (fun r ρ => (r.1.withTable f, r.2, draw ρ)) l with hP
  have key := poprf_claims_asked (CS := oracleSuite CS f) (oracle_wf wf f) k pk P M
    fun D => Party.run_good f D _ _ (fun claims : List (Bytes × Option Bytes × Bytes) => claims.length ≤ M)
      (Nat.zero_le _) T n d m hT l
  refine le_trans key (add_le_add_left (chance_mono fun D h => lt_of_lt_of_le h (rightCount_le ?_)) _)
  rintro ⟨x, i⟩ E hm ⟨P, t, hP, ht, h1, h2⟩
  have e : t = tweakOf f (some i) := Except.ok.inj (ht.symm.trans (hashToScalar_tweakOf f i))
  cases e
  exact ⟨E, hm, P, hP, h1, h2⟩

theorem poprf_simulate_bound (wf : CS.WF) (k : CS.Scalar) {σ : Type} [RngCore σ] (draw : Nonce CS → σ) (hd : Draws draw)
    (D : Digests CS) (S : Distinguisher Question CS.Scalar (EvalRequest CS × Option Bytes) (EvalResponse CS)) (n m : Nat)
    (hS : S.Within n m) :
    |(average fun f : Table CS => S.real f fun r ρ => poprfRespond k (k • CS.group.baseElem) f D r (draw ρ)) -
      (average fun f : Table CS => S.ideal (PoprfCoins (k • CS.group.baseElem))
        (poprfSimulate (fun t P => (k + t)⁻¹ • P) (k • CS.group.baseElem) D) f)| ≤
      (m * (n + m) : ℚ) / Nat.card (Nonce CS) := by
  have : Finite CS.Scalar := VGroup.Lawful.finite_scalar
  have H : Simulates (fun (r : EvalRequest CS × Option Bytes) f (ρ : Nonce CS) =>
        poprfRespond k (k • CS.group.baseElem) f D r (draw ρ))
      (PoprfCoins (k • CS.group.baseElem))
      (poprfSimulate (fun t P => (k + t)⁻¹ • P) (k • CS.group.baseElem) D) (chalSet (digest_wf wf D) .Poprf) := by
    rw [show (fun (r : EvalRequest CS × Option Bytes) f (ρ : Nonce CS) =>
        poprfRespond k (k • CS.group.baseElem) f D r (draw ρ)) =
      fun r f ρ => poprfAnswer (CS := digestSuite CS D) k (k • CS.group.baseElem) (r.1.withDigests D, r.2) f (draw ρ) from
        funext fun r => funext fun f => funext fun ρ => poprfRespond_answer k _ f D r (draw ρ)]
    exact fun r f => poprf_simulates (CS := digestSuite CS D) (digest_wf wf D) k draw hd (r.1.withDigests D, r.2) f
  exact session_bound H S n m hS

/-- Asks for all of a list of questions and ends with a guess computed from the answers. -/
noncomputable def askAll {Q A R V : Type} (guess : (Q → A) → Bool) : List Q → (Q → A) → Distinguisher Q A R V
  | [], g => .done (guess g)
  | q :: l, g => .ask q fun a => askAll guess l (open Classical in Function.update g q a)

section askAll
variable {Q A R V N : Type} (guess : (Q → A) → Bool) (f : Q → A)

theorem askAll_within (l : List Q) (g : Q → A) : (askAll (R := R) (V := V) guess l g).Within l.length 0 := by
  induction l generalizing g with
  | nil => trivial
  | cons q l ih => exact fun a => ih _

/-- The answers collected from `f`. -/
noncomputable def collect (f : Q → A) : List Q → (Q → A) → Q → A
  | [], g => g
  | q :: l, g => collect f l (open Classical in Function.update g q (f q))

theorem collect_eq (l : List Q) (g : Q → A) (q : Q) (h : q ∈ l ∨ g q = f q) : collect f l g q = f q := by
  classical
  induction l generalizing g with
  | nil => simpa [collect] using h
  | cons q' l ih =>
    refine ih _ ?_
    by_cases e : q = q'
    · subst e; right; simp
    · rcases h with h | h
      · rcases List.mem_cons.mp h with h | h
        · exact absurd h e
        · exact .inl h
      · right; rw [Function.update_of_ne e]; exact h

theorem askAll_real (answer : R → N → V) (l : List Q) (g : Q → A) :
    (askAll guess l g).real f answer = if guess (collect f l g) then 1 else 0 := by
  induction l generalizing g with
  | nil => rfl
  | cons q l ih => exact ih _

theorem askAll_ideal (Coins : R → (Q → A) → Type) (step : ∀ r f, Coins r f → V × (Q → A)) (l : List Q) (g : Q → A) :
    (askAll guess l g).ideal Coins step f = if guess (collect f l g) then 1 else 0 := by
  induction l generalizing g with
  | nil => rfl
  | cons q l ih => exact ih _

end askAll

/-- The questions for the tweaks of the infos among the digest questions `qs`. -/
def tweakQuestions (CS : CipherSuite) (qs : List DigestQuestion) : List Question :=
  (qs.flatMap (readTriple CS)).filterMap fun c =>
    if h : (ascii "HashToScalar-" ++ contextString CS .Poprf).length ≤ 131071 ∧ (infoInput c.2.1).length ≤ 131071 then
      some ⟨(ascii "HashToScalar-" ++ contextString CS .Poprf, infoInput c.2.1), h⟩ else none

omit L in
theorem tweakQuestions_length (qs : List DigestQuestion) : (tweakQuestions CS qs).length ≤ 2 * qs.length := by
  refine le_trans (List.length_filterMap_le _ _) ?_
  induction qs with
  | nil => simp
  | cons q qs ih =>
    have h : ∀ {X : Type} (o : Option X), o.toList.length ≤ 1 := fun o => by cases o <;> simp
    have : (readTriple CS q).length ≤ 2 := by
      unfold readTriple
      rw [List.length_append, List.length_map]
      exact Nat.add_le_add (h _) (h _)
    rw [List.flatMap_cons, List.length_append, List.length_cons]
    omega

theorem findsMore_congr (k : CS.Scalar) {f g : Table CS} (s : Nat) (qs : List DigestQuestion)
    (h : ∀ q ∈ tweakQuestions CS qs, g q = f q) : PoprfFindsMore k g s qs ↔ PoprfFindsMore k f s qs := by
  have key : ∀ c ∈ qs.flatMap (readTriple CS), tweakOf g (some c.2.1) = tweakOf f (some c.2.1) := by
    intro c hc
    unfold tweakOf Table.answer
    split
    · rename_i hl
      exact h _ (List.mem_filterMap.mpr ⟨c, hc, dif_pos hl⟩)
    · rfl
  unfold PoprfFindsMore
  have : ∀ {f g : Table CS}, (∀ c ∈ qs.flatMap (readTriple CS), tweakOf g (some c.2.1) = tweakOf f (some c.2.1)) →
      rightCount (fun xi E => ∃ P, Spec.hashToGroup CS .Poprf xi.1 = .ok P ∧ k + tweakOf g (some xi.2) ≠ 0 ∧
        E = (k + tweakOf g (some xi.2))⁻¹ • P) ((qs.flatMap (readTriple CS)).map fun c => ((c.1, c.2.1), c.2.2)) ≤
      rightCount (fun xi E => ∃ P, Spec.hashToGroup CS .Poprf xi.1 = .ok P ∧ k + tweakOf f (some xi.2) ≠ 0 ∧
        E = (k + tweakOf f (some xi.2))⁻¹ • P) ((qs.flatMap (readTriple CS)).map fun c => ((c.1, c.2.1), c.2.2)) := by
    intro f g hk
    refine rightCount_le ?_
    rintro ⟨x, i⟩ E hm ⟨P, hP, h1, h2⟩
    obtain ⟨c, hc, e⟩ := List.mem_map.mp hm
    simp only [Prod.mk.injEq] at e
    obtain ⟨⟨_, e⟩, _⟩ := e
    have := hk c hc
    rw [e] at this
    exact ⟨E, hm, P, hP, this ▸ h1, this ▸ h2⟩
  rw [le_antisymm (this key) (this fun c hc => (key c hc).symm)]

/-- C56, POPRF: the same for pairs of an input and an info; the simulator is only handed evaluations `(k + t)⁻¹·P` under the
tweaks `t` of the infos it is asked for, and what the digest questions contain is `(k + t)⁻¹·HashToGroup(x)`. -/
theorem C56_poprf (wf : CS.WF) (k : CS.Scalar) {σ : Type} [RngCore σ] (draw : Nonce CS → σ)
    (hd : Draws draw) (T : Party CS (EvalRequest CS × Option Bytes) (List (Bytes × Option Bytes × Bytes)))
    (n d m M : Nat) (hT : T.Within (fun claims => claims.length ≤ M) n d m) :
    (average fun f : Table CS => average fun D : Digests CS =>
        T.real f D (fun r ρ => poprfRespond k (k • CS.group.baseElem) f D r (draw ρ)) (fun r => r.1.elems.length)
          (fun spent _ claims => PoprfClaimsMore k (k • CS.group.baseElem) f D spent claims) 0 []) ≤
      (average fun f : Table CS => average fun D : Digests CS =>
        T.ideal D (PoprfCoins (k • CS.group.baseElem))
          (poprfSimulate (fun t P => (k + t)⁻¹ • P) (k • CS.group.baseElem) D) (fun r => r.1.elems.length)
          (fun f spent asked _ => PoprfFindsMore k f spent asked) f 0 []) +
      (M / (256 : ℚ) ^ CS.hash.outputSize + (m * (n + 2 * d + m) : ℚ) / Nat.card (Nonce CS)) := by
  classical
  have : Finite CS.Scalar := VGroup.Lawful.finite_scalar
  have : Nonempty (Table CS) := ⟨fun _ => 0⟩
  rw [← add_assoc]
  refine le_trans (average_mono fun f => poprf_real_le wf k _ draw T n d m M hT f) ?_
  rw [average_add_const, add_right_comm]
  refine add_le_add_left ?_ _
  rw [average_comm (fun (f : Table CS) (D : Digests CS) => Party.ideal D _ _ _ _ T f 0 []),
    average_comm (fun (f : Table CS) (D : Digests CS) => Party.real f D _ _ _ T 0 [])]
  rw [← average_add_const]
  refine average_mono fun D => ?_
  have hfin : ∀ (f : Table CS) s qs, decide (PoprfFindsMore k (collect f (tweakQuestions CS qs) fun _ => 0) s qs) = true ↔
      PoprfFindsMore k f s qs := fun f s qs => by
    rw [decide_eq_true_iff]
    exact findsMore_congr k s qs fun q hq => collect_eq f _ _ q (.inl hq)
  have hb := poprf_simulate_bound wf k draw hd D
    (T.session D (fun r => r.1.elems.length)
      (fun s qs _ => askAll (fun g => decide (PoprfFindsMore k g s qs)) (tweakQuestions CS qs) fun _ => 0) 0 [])
    (n + 2 * d) m (by
      have := Party.session_within D (fun r : EvalRequest CS × Option Bytes => r.1.elems.length)
        (fun s qs (_ : List (Bytes × Option Bytes × Bytes)) =>
          askAll (fun g => decide (PoprfFindsMore (CS := CS) k g s qs)) (tweakQuestions CS qs) fun _ => 0) 2
        (fun s qs o => (askAll_within _ _ _).mono (tweakQuestions_length qs) le_rfl) _ T n d m hT 0 []
      simpa using this)
  rw [show (fun f : Table CS => Distinguisher.real f _ _) = fun f => _ from funext fun f =>
      Party.session_real f D _ _ _ (fun s qs _ => PoprfFindsMore k f s qs)
        (fun s qs o => by rw [askAll_real]; simp only [hfin]) T 0 [],
    show (fun f : Table CS => Distinguisher.ideal _ _ _ f) = fun f => _ from funext fun f =>
      Party.session_ideal D _ _ _ _ (fun f s qs _ => PoprfFindsMore k f s qs)
        (fun f s qs o => by rw [askAll_ideal]; simp only [hfin]) T f 0 []] at hb
  push_cast at hb
  linarith [(abs_le.mp hb).2]

section examples
open Toy

/-- The hash of the input `[1]` in VOPRF mode. -/
def exampleVoprfHash : F := match Spec.hashToGroup suite .Voprf [1] with
  | .ok P => P
  | .error _ => (0 : F)

theorem exampleVoprfHash_eq : Spec.hashToGroup suite .Voprf [1] = .ok exampleVoprfHash ∧ exampleVoprfHash ≠ 0 :=
  ⟨by decide +kernel, by decide +kernel⟩

/-- The digest question for the output of the input `[1]` with the evaluated element `E`. -/
def exampleFinal (E : suite.Elem) : DigestQuestion :=
  ⟨finalizeInput [1] (suite.group.serializeElem E), by
    rw [finalizeInput, List.length_append, List.length_append, framed, framed, List.length_append, List.length_append,
      suite.group.serializeElem_length]
    decide⟩

/-- A client that sends the hashed input itself, checks nothing, and claims the output for its input. -/
def honestParty : Party suite (EvalRequest suite) (List (Bytes × Bytes)) :=
  .evaluate (.one exampleVoprfHash) fun v => match v with
    | .ok (E :: _, _, _) => .digest (exampleFinal E) fun y => .done [([1], y.1)]
    | _ => .done []

/-- It meets the hypothesis of `C56_voprf` with one evaluation, one digest and no scalar asked for, and one claim. -/
example : honestParty.Within (fun claims => claims.length ≤ 1) 0 1 1 := by
  intro v
  match v with
  | .ok (E :: _, _, _) => exact fun y => le_rfl
  | .ok ([], _, _) => exact Nat.zero_le _
  | .err _ => exact Nat.zero_le _
  | .panic => exact Nat.zero_le _
  | .diverge => exact Nat.zero_le _

/-- The evaluated element of the input `[1]` under the key 7. -/
def exampleVoprfEval : suite.Elem := ((7 : F) * exampleVoprfHash : F)

/-- A client that knows the key (7) and has nothing evaluated. -/
def knowingClient : Party suite (EvalRequest suite) (List (Bytes × Bytes)) :=
  .digest (exampleFinal exampleVoprfEval) fun y => .done [([1], y.1)]

/-- It always wins the first game of `C56_voprf`. -/
example (f : Table suite) (D : Digests suite) (pk : suite.Elem) (draw : Nonce suite → Rng) :
    knowingClient.real f D (fun r ρ => voprfRespond (7 : suite.Scalar) pk f D r (draw ρ)) (fun r => r.elems.length)
      (fun spent _ claims => VoprfClaimsMore (7 : suite.Scalar) pk f D spent claims) 0 [] = 1 := by
  refine if_pos ?_
  refine (Set.ncard_pos ((List.finite_toSet [([1] : Bytes)]).subset ?_)).mpr ⟨[1], _, List.mem_singleton.mpr rfl, ?_⟩
  · rintro x ⟨y, hy, _⟩
    exact List.mem_singleton.mpr (congrArg Prod.fst (List.mem_singleton.mp hy))
  · refine (voprf_digest_iff (CS := oracleSuite suite f) (oracle_wf Toy.wf f) D _ _ _ _).mpr
      ⟨exampleVoprfHash, exampleVoprfHash_eq.1, exampleVoprfHash_eq.2, by decide, ?_⟩
    exact dif_pos (exampleFinal exampleVoprfEval).2

end examples

end Voprf
