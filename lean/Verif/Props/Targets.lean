import Verif.Spec.Targets
import Verif.Props.Fresh

/-!
# C74: outputs beyond the evaluations solve one-more Diffie-Hellman for random targets
-/

namespace Voprf

open Spec

variable {CS : CipherSuite} [L : CS.group.Lawful]

theorem point_wf (wf : CS.WF) (H : Points CS) : (pointSuite CS H).WF := ⟨wf.1, wf.2⟩

instance : Finite CS.Elem := by
  have := L.finite_scalar
  refine Finite.of_surjective (fun k : CS.Scalar => k • CS.group.baseElem) fun P => ?_
  obtain ⟨k, hk⟩ := L.base_generates P
  exact ⟨k, hk.symm⟩

instance : Nonempty CS.Elem := ⟨0⟩

omit L in
theorem pointTag_length (wf : CS.WF) (mode : Mode) : (pointTag CS mode).length ≤ 131071 := by
  have := wf.id_length
  unfold pointTag
  rw [List.length_append, contextString_length, ascii_len_h2g]
  omega

/-- What `HashToGroup` is with the table. -/
theorem point_hashToGroup (H : Points CS) (mode : Mode) (x : Bytes) :
    Spec.hashToGroup (pointSuite CS H) mode x = .ok (H.answer (pointTag CS mode) x) := by
  show Except.ok (H.answer [_].flatten [x].flatten) = _
  simp only [List.flatten_cons, List.flatten_nil, List.append_nil]
  rfl

omit L in
theorem pointQuestion_eq (wf : CS.WF) (mode : Mode) (x : Bytes) (hx : x.length ≤ 65535) :
    ∃ q : Question, pointQuestion CS mode x = some q ∧ q.1 = (pointTag CS mode, x) := by
  have hx' : x.length ≤ 131071 := by omega
  refine ⟨⟨(pointTag CS mode, x), pointTag_length wf mode, hx'⟩, ?_, rfl⟩
  exact dif_pos _

theorem answer_pointQuestion (H : Points CS) (mode : Mode) (x : Bytes) (q : Question)
    (hq : q.1 = (pointTag CS mode, x)) : H.answer (pointTag CS mode) x = H q := by
  obtain ⟨q, h⟩ := q
  cases hq
  exact dif_pos h

theorem rightCount_le_of_map {X X' Y Z : Type} {right : X → Y → Prop} {right' : X' → Z → Prop} {l : List (X × Y)}
    {l' : List (X' × Z)} (name : X → X' → Prop)
    (hn : ∀ x x' q, name x q → name x' q → x = x')
    (h : ∀ x y, (x, y) ∈ l → right x y → ∃ q z, name x q ∧ (q, z) ∈ l' ∧ right' q z) :
    rightCount right l ≤ rightCount right' l' := by
  classical
  set A : Set X := {x | ∃ y, (x, y) ∈ l ∧ right x y} with hA
  have h' : ∀ x : A, ∃ q z, name x.1 q ∧ (q, z) ∈ l' ∧ right' q z := fun x => by
    obtain ⟨x, y, hy, hr⟩ := x
    exact h x y hy hr
  choose f g hf using h'
  have hfin : {q | ∃ z, (q, z) ∈ l' ∧ right' q z}.Finite :=
    (l'.map Prod.fst).finite_toSet.subset fun q ⟨z, hz, _⟩ => List.mem_map.mpr ⟨_, hz, rfl⟩
  refine le_trans (le_of_eq ?_) (Set.ncard_le_ncard (s := Set.range f) ?_ hfin)
  · rw [← Set.image_univ, Set.ncard_image_of_injective]
    · exact (Set.ncard_univ A).symm
    · exact fun a b hab => Subtype.ext (hn _ _ _ (hf a).1 (hab ▸ (hf b).1))
  · rintro _ ⟨a, rfl⟩
    exact ⟨g a, (hf a).2⟩

namespace Spec.Attacker
variable {O : Type}

/-- The attacker with the table of the hash to the group at hand. -/
def toPlayer (H : Points CS) : Attacker CS O → Player DigestQuestion (DigestValue CS) CS.Elem CS.Elem O
  | done o => .done o
  | point q next => (next (H q)).toPlayer H
  | digest q next => .ask q fun y => (next y).toPlayer H
  | evaluate b next => .request b fun V => (next V).toPlayer H

omit L in
theorem run_toPlayer (H : Points CS) (D : Digests CS) (serve : CS.Elem → CS.Elem) (T : Attacker CS O) :
    (T.toPlayer H).run D serve = T.run H D serve := by
  induction T with
  | done o => rfl
  | point q next ih => exact ih _
  | digest q next ih => exact ih _
  | evaluate b next ih => exact ih _

omit L in
theorem requests_solver (H : Points CS) (D : Digests CS) (serve : CS.Elem → CS.Elem) (T : Attacker CS O)
    (found : List (Question × CS.Elem)) : (T.solver D found).requests H serve = T.evaluations H D serve := by
  induction T generalizing found with
  | done o => rfl
  | point q next ih => exact ih _ _
  | digest q next ih => exact ih _ _
  | evaluate b next ih => exact congrArg (· + 1) (ih _ _)

omit L in
theorem mem_solver (H : Points CS) (D : Digests CS) (serve : CS.Elem → CS.Elem) (T : Attacker CS O)
    (found : List (Question × CS.Elem)) (name : Question) (E : CS.Elem)
    (h : (name, E) ∈ found ∨ ∃ q x, (T.toPlayer H).Asks D serve q ∧ (x, E) ∈ readPair CS q ∧
      pointQuestion CS .Oprf x = some name) : (name, E) ∈ (T.solver D found).run H serve := by
  induction T generalizing found with
  | done o =>
    rcases h with h | ⟨q, x, h, _⟩
    · exact h
    · exact h.elim
  | point q next ih =>
    refine ih _ _ ?_
    rcases h with h | h
    · exact .inl h
    · exact .inr h
  | digest q next ih =>
    refine ih _ _ ?_
    rcases h with h | ⟨q', x, h | h, hr, hx⟩
    · exact .inl (List.mem_append_left _ h)
    · refine .inl (List.mem_append_right _ (List.mem_filterMap.mpr ⟨(x, E), h ▸ hr, ?_⟩))
      show (pointQuestion CS .Oprf x).map _ = _
      rw [hx]
      rfl
    · exact .inr ⟨q', x, h, hr, hx⟩
  | evaluate b next ih =>
    refine ih _ _ ?_
    rcases h with h | h
    · exact .inl h
    · exact .inr h

end Spec.Attacker

/-- The event of `C54_oprf`. -/
def OprfGuess (k : CS.Scalar) (T : Player DigestQuestion (DigestValue CS) CS.Elem CS.Elem (List (Bytes × Bytes)))
    (D : Digests CS) : Prop :=
  ∃ c ∈ T.run D (oprfServe k D), OprfServer.evaluate (CS := digestSuite CS D) ⟨k⟩ c.1 = .ok c.2 ∧
    ∀ P, Spec.hashToGroup CS .Oprf c.1 = .ok P → ¬ Presents D (oprfServe k D) T c.1 none (k • P)

/-- C74, OPRF: an attacker that asks the hash to the group and the digest, both random tables, has elements evaluated by an
`OprfServer` and claims at most `m` outputs is right for more inputs than it had elements evaluated with at most the
probability, up to `m / 256^Nh`, that the solver made from it wins the one-more Diffie-Hellman problem. -/
theorem C74_oprf (wf : CS.WF) (k : CS.Scalar) (hk : k ≠ 0) (T : Attacker CS (List (Bytes × Bytes))) (m : Nat)
    (hm : ∀ H D serve, (T.run H D serve).length ≤ m) :
    chance (fun w : Points CS × Digests CS =>
        T.evaluations w.1 w.2 (oprfServe (CS := pointSuite CS w.1) k w.2) <
          rightCount (fun x y => OprfServer.evaluate (CS := digestSuite (pointSuite CS w.1) w.2) ⟨k⟩ x = .ok y)
            (T.run w.1 w.2 (oprfServe (CS := pointSuite CS w.1) k w.2))) ≤
      (average fun D : Digests CS => oneMoreDH k (T.solver D [])) + m / (256 : ℚ) ^ CS.hash.outputSize := by
  have hserve : ∀ (H : Points CS) (D : Digests CS), oprfServe (CS := pointSuite CS H) k D =
      (fun P => k • P : CS.Elem → CS.Elem) :=
    fun H D => funext fun P => L.elemMul_eq P k
  have h54 : ∀ H : Points CS, _ := fun H => C54_oprf (CS := pointSuite CS H) (point_wf wf H) k
    (Attacker.toPlayer (CS := CS) H T) m
    (fun D => le_trans (le_of_eq (congrArg List.length (Attacker.run_toPlayer H D _ T))) (hm H D _))
  refine le_trans (chance_mono (P' := fun w : Points CS × Digests CS =>
    (T.solver w.2 []).requests w.1 (fun P => k • P) <
      rightCount (fun name E => E = k • w.1 name) ((T.solver w.2 []).run w.1 fun P => k • P) ∨
    OprfGuess (CS := pointSuite CS w.1) k (Attacker.toPlayer (CS := CS) w.1 T) w.2) ?_)
    (le_trans (chance_or _ _) (add_le_add ?_ ?_))
  · rintro ⟨H, D⟩ h
    by_contra hcon
    push Not at hcon
    obtain ⟨h1, h2⟩ := hcon
    refine absurd (lt_of_lt_of_le h ?_) (lt_irrefl _)
    refine le_trans (rightCount_le_of_map (fun x q => q.1 = (pointTag CS .Oprf, x)) ?_ ?_)
      (le_trans h1 (le_of_eq ((Attacker.requests_solver H D _ T []).trans ?_)))
    · intro x x' q hq hq'
      exact (Prod.mk.inj (hq.symm.trans hq')).2
    · intro x y hc he
      have h3 : ∃ P : CS.Elem, Spec.hashToGroup (pointSuite CS H) .Oprf x = .ok P ∧
          Presents (CS := pointSuite CS H) D (oprfServe (CS := pointSuite CS H) k D) (Attacker.toPlayer (CS := CS) H T) x none
            (show CS.Elem from k • P) := by
        by_contra hno
        refine h2 ⟨(x, y), ?_, he, fun P hP hp => hno ⟨P, hP, hp⟩⟩
        refine Eq.subst (motive := fun l => (x, y) ∈ l) (Attacker.run_toPlayer H D _ T).symm hc
      obtain ⟨P, hP, hp⟩ := h3
      obtain ⟨P', hP', h0, hl, _⟩ := (oprf_digest_iff (CS := pointSuite CS H) (point_wf wf H) D k x y).mp he
      cases Except.ok.inj (hP.symm.trans hP')
      obtain ⟨q, ha, hq⟩ := hp
      obtain ⟨name, hname, hn⟩ := pointQuestion_eq wf .Oprf x hl
      have hPH : P = H name := (Except.ok.inj (hP.symm.trans (point_hashToGroup H .Oprf x))).trans
        (answer_pointQuestion H .Oprf x name hn)
      refine ⟨name, k • P, hn, Attacker.mem_solver H D _ T [] name _ (.inr ⟨q, x, ?_, ?_, hname⟩), by rw [hPH]⟩
      · rw [← hserve H D]
        exact ha
      · exact readPair_eq wf q x (k • P) hl (smul_ne_zero hk h0) hq
    · rw [hserve]
  · rw [chance_prod']
    exact le_of_eq rfl
  · rw [chance_prod]
    refine le_trans (average_mono fun H => h54 H) (le_of_eq ?_)
    exact average_const (α := Points CS) ((m : ℚ) / (256 : ℚ) ^ CS.hash.outputSize)

/-! ## VOPRF -/

omit L in
theorem readPair_length (q : DigestQuestion) (x : Bytes) (E : CS.Elem) (h : (x, E) ∈ readPair CS q) : x.length ≤ 65535 := by
  unfold readPair at h
  rw [Option.mem_toList] at h
  simp only [Option.bind_eq_bind, Option.bind_eq_some_iff, Option.pure_def, Option.some.injEq,
    Prod.mk.injEq] at h
  obtain ⟨⟨y, s⟩, hu, E', _, rfl, _⟩ := h
  unfold unframe at hu
  split at hu
  · next a b rest _ =>
    dsimp only at hu
    split_ifs at hu with hl
    cases hu
    have ha := a.toNat_lt
    have hb := b.toNat_lt
    simp only [List.length_take]
    omega
  · cases hu

theorem wins_multiplyEach (k : CS.Scalar) (target : Question → CS.Elem) (Ps : List CS.Elem)
    (next : List CS.Elem → Solver CS) (s : Nat) : (Solver.multiplyEach Ps next).wins k target s =
      (next (Ps.map fun P => k • P)).wins k target (s + Ps.length) := by
  induction Ps generalizing next s with
  | nil => rfl
  | cons P Ps ih =>
    refine (ih _ _).trans ?_
    rw [List.length_cons, Nat.add_assoc, Nat.add_comm 1]
    rfl

theorem point_weightsIn (wf : CS.WF) (H : Points CS) (D : Digests (pointSuite CS H)) (D' : Digests CS) (h : D = D')
    (f : Table CS) (mode : Mode) (B : CS.Elem) (Cs Ds : List CS.Elem) :
    weightsIn (CS := digestSuite (pointSuite CS H) D) f mode B Cs Ds = weightsIn (CS := digestSuite CS D') f mode B Cs Ds := by
  subst h
  exact (weightsIn_eq (CS := digestSuite (pointSuite CS H) D) (digest_wf (point_wf wf H) D) f mode B Cs Ds).trans
    (weightsIn_eq (CS := digestSuite CS D) (L := digestLawful (CS := CS) D) (digest_wf (CS := CS) wf D) f mode B Cs Ds).symm

/-- The simulator does not use the hash to the group. -/
theorem point_simulateProof (wf : CS.WF) (H : Points CS) (D : Digests (pointSuite CS H)) (D' : Digests CS) (h : D = D')
    (f : Table CS) (mode : Mode) (B : CS.Elem)
    (Cs Ds : List CS.Elem) (c s : CS.Scalar) : simulateProof (CS := digestSuite (pointSuite CS H) D) mode B Cs Ds f c s =
      simulateProof (CS := digestSuite CS D') mode B Cs Ds f c s := by
  have h1 := point_weightsIn wf H D D' h f mode B Cs Ds
  have h2 := weightsIn_eq (CS := digestSuite CS D') (digest_wf wf D') f mode B Cs Ds
  subst h
  have h3 := h1.trans h2
  unfold simulateProof
  rw [h2, h3]
  rfl

namespace Spec.VerifiedAttacker
variable {O : Type}

theorem within_toParty (H : Points CS) (good : O → Prop) (T : VerifiedAttacker CS O) (n d m : Nat)
    (h : T.Within good n d m) : (T.toParty H).Within good n d m := by
  induction T generalizing n d m with
  | done o => exact h
  | point q next ih => exact ih _ _ _ _ (h (H q))
  | scalar q next ih =>
    cases n with
    | zero => exact h.elim
    | succ n => exact fun a => ih a _ _ _ (h a)
  | digest q next ih =>
    cases d with
    | zero => exact h.elim
    | succ d => exact fun a => ih a _ _ _ (h a)
  | evaluate r next ih =>
    cases m with
    | zero => exact h.elim
    | succ m => exact fun a => ih a _ _ _ (h a)

theorem ideal_le_wins (wf : CS.WF) (k : CS.Scalar) (pk : CS.Elem) (H : Points CS) (D : Digests CS) (T : VerifiedAttacker CS O)
    (f : Table CS) (spent : Nat) (asked : List DigestQuestion) (found : List (Question × CS.Elem))
    (hf : ∀ q ∈ asked, ∀ x E name, (x, E) ∈ readPair CS q → pointQuestion CS .Voprf x = some name → (name, E) ∈ found) :
    Party.ideal (CS := pointSuite CS H) D (fun _ _ => SimCoins (CS := CS) pk)
      (voprfSimulate (CS := pointSuite CS H) (fun P : CS.Elem => (k • P : CS.Elem)) pk D) (fun r => r.elems.length)
      (fun _ spent asked _ => VoprfFindsMore (CS := pointSuite CS H) k spent asked) (T.toParty H) f spent asked ≤
    (T.solver pk D f found).wins k H spent := by
  induction T generalizing f spent asked found with
  | done o =>
    classical
    simp only [toParty, solver, Party.ideal, Solver.wins]
    split_ifs with h1 h2
    · exact le_rfl
    · refine absurd (lt_of_lt_of_le h1 ?_) h2
      refine rightCount_le_of_map (fun x q => q.1 = (pointTag CS .Voprf, x))
        (fun x x' q hq hq' => (Prod.mk.inj (hq.symm.trans hq')).2) ?_
      rintro x E hx ⟨P, hP, hE⟩
      obtain ⟨q, hq, hr⟩ := List.mem_flatMap.mp hx
      obtain ⟨name, hname, hn⟩ := pointQuestion_eq wf .Voprf x (readPair_length (CS := CS) q x E hr)
      have hPH : P = H name := (Except.ok.inj (hP.symm.trans (point_hashToGroup H .Voprf x))).trans
        (answer_pointQuestion H .Voprf x name hn)
      exact ⟨name, E, hn, hf q hq x E name hr hname, hE.trans (congrArg (fun P : CS.Elem => k • P) hPH)⟩
    · exact zero_le_one
    · exact le_rfl
  | point q next ih => exact ih _ _ _ _ _ hf
  | scalar q next ih => exact ih _ _ _ _ _ hf
  | digest q next ih =>
    refine ih _ _ _ _ _ ?_
    intro q' hq' x E name hr hname
    rcases List.mem_append.mp hq' with h | h
    · exact List.mem_append_left _ (hf q' h x E name hr hname)
    · cases List.mem_singleton.mp h
      refine List.mem_append_right _ (List.mem_filterMap.mpr ⟨(x, E), hr, ?_⟩)
      show (pointQuestion CS .Voprf x).map _ = _
      rw [hname]
      rfl
  | evaluate r next ih =>
    have hlen : (EvalRequest.withPoints H r).elems.length = r.elems.length := by cases r <;> rfl
    have := VGroup.Lawful.finite_scalar (G := CS.group)
    have hw : (solver pk D (evaluate r next) f found).wins k H spent = average fun x : SimCoins pk =>
        ((next (.ok (r.elems.map fun P : CS.Elem => (k • P : CS.Elem), x.1.1, x.1.2))).solver pk D
          (simulateProof (CS := digestSuite CS D) .Voprf pk r.elems (r.elems.map fun P : CS.Elem => (k • P : CS.Elem)) f
            x.1.1 x.1.2)
          found).wins k H (spent + r.elems.length) := wins_multiplyEach k H r.elems _ spent
    rw [hw]
    refine le_trans (le_of_eq ?_) (average_mono fun x : SimCoins pk =>
      ih (.ok (r.elems.map fun P : CS.Elem => (k • P : CS.Elem), x.1.1, x.1.2))
        (simulateProof (CS := digestSuite CS D) .Voprf pk r.elems (r.elems.map fun P : CS.Elem => (k • P : CS.Elem)) f
            x.1.1 x.1.2) (spent + r.elems.length) asked found hf)
    rw [← hlen]
    simp only [toParty, Party.ideal]
    have hs : ∀ x : SimCoins pk, voprfSimulate (CS := pointSuite CS H) (fun P : CS.Elem => (k • P : CS.Elem)) pk D
        (r.withPoints H) f x = (.ok (r.elems.map fun P : CS.Elem => (k • P : CS.Elem), x.1.1, x.1.2),
          simulateProof (CS := digestSuite CS D) .Voprf pk r.elems (r.elems.map fun P : CS.Elem => (k • P : CS.Elem)) f
            x.1.1 x.1.2) := fun x => by
      refine Eq.trans ?_ (congrArg (Prod.mk _) (point_simulateProof wf H D D rfl f .Voprf pk r.elems _ x.1.1 x.1.2))
      cases r <;> rfl
    refine congrArg average (funext fun x : SimCoins pk => ?_)
    exact congrArg (fun p : EvalResponse CS × Table CS => Party.ideal (CS := pointSuite CS H) D
      (fun _ _ => SimCoins (CS := CS) pk)
      (voprfSimulate (CS := pointSuite CS H) (fun P : CS.Elem => (k • P : CS.Elem)) pk D) (fun r => r.elems.length)
      (fun _ spent asked _ => VoprfFindsMore (CS := pointSuite CS H) k spent asked) ((next p.1).toParty H) p.2
      (spent + (r.withPoints H).elems.length) asked) (hs x)

end Spec.VerifiedAttacker

/-- C74, VOPRF: with the hash to the group, `hash_to_scalar` and the digest random tables, a client that sends requests to a
`VoprfServer` (single and batched, with proofs) is right for more inputs than it had elements evaluated with at most the
probability that the solver made from it, which knows the public key, wins the one-more Diffie-Hellman problem, up to
`M / 256^Nh + m (n + m) / (q - 1)` for `M` claims, `m` requests and `n` questions to `hash_to_scalar`. -/
theorem C74_voprf (wf : CS.WF) (k : CS.Scalar) (hk : k ≠ 0) {σ : Type} [RngCore σ] (draw : Nonce CS → σ)
    (hd : Draws draw) (T : VerifiedAttacker CS (List (Bytes × Bytes))) (n d m M : Nat)
    (hT : T.Within (fun claims => claims.length ≤ M) n d m) :
    (average fun H : Points CS => average fun f : Table CS => average fun D : Digests CS =>
      Party.real (CS := pointSuite CS H) f D
        (fun r ρ => voprfRespond (CS := pointSuite CS H) k (k • CS.group.baseElem : CS.Elem) f D r (draw ρ))
        (fun r => r.elems.length)
        (fun spent _ claims => VoprfClaimsMore (CS := pointSuite CS H) k (k • CS.group.baseElem : CS.Elem) f D spent claims)
        (T.toParty H) 0 []) ≤
      (average fun f : Table CS => average fun D : Digests CS =>
        (T.solver (k • CS.group.baseElem) D f []).oneMoreDH k) +
      (M / (256 : ℚ) ^ CS.hash.outputSize + (m * (n + m) : ℚ) / Nat.card (Nonce CS)) := by
  have := VGroup.Lawful.finite_scalar (G := CS.group)
  have hc := average_comm (fun (H : Points CS) (f : Table CS) => average fun D : Digests CS =>
    (T.solver (k • CS.group.baseElem) D f []).wins k H 0)
  have hc' : (average fun f : Table CS => average fun D : Digests CS =>
      (T.solver (k • CS.group.baseElem) D f []).oneMoreDH k) = average fun H : Points CS => average fun f : Table CS =>
        average fun D : Digests CS => (T.solver (k • CS.group.baseElem) D f []).wins k H 0 := by
    rw [hc]
    refine congrArg average (funext fun f => ?_)
    exact average_comm (fun (D : Digests CS) (H : Points CS) => (T.solver (k • CS.group.baseElem) D f []).wins k H 0)
  rw [hc', ← average_add_const]
  refine average_mono fun H => ?_
  refine le_trans (C56_voprf (CS := pointSuite CS H) (point_wf wf H) k hk draw hd (T.toParty H) n d m M
    (T.within_toParty H _ n d m hT)) (add_le_add_left ?_ _)
  exact average_mono fun f => average_mono fun D => T.ideal_le_wins wf k _ H D f 0 [] [] (by simp)

section examples
open Toy

/-- An attacker that knows the key (7) and has nothing evaluated: it asks for the hash of `[1]`, multiplies it itself, asks
for the digest and claims the output. -/
def knowingAttacker : Attacker suite (List (Bytes × Bytes)) :=
  .point ⟨(pointTag suite .Oprf, [1]), by decide +kernel⟩ fun P =>
    .digest ⟨finalizeInput [1] (suite.group.serializeElem ((7 : suite.Scalar) • P)), by
      rw [finalizeInput, List.length_append, List.length_append, framed, framed, List.length_append, List.length_append,
        suite.group.serializeElem_length]
      decide⟩ fun y => .done [([1], y.1)]

/-- It meets the hypothesis of `C74_oprf` with one claim. -/
example (H : Points suite) (D : Digests suite) (serve : suite.Elem → suite.Elem) :
    (knowingAttacker.run H D serve).length ≤ 1 := le_rfl

/-- It is right unless the hash is the identity, with nothing evaluated: the first event of `C74_oprf`. -/
example (H : Points suite) (D : Digests suite) (hH : H ⟨(pointTag suite .Oprf, [1]), by decide +kernel⟩ ≠ 0) :
    knowingAttacker.evaluations H D (oprfServe (CS := pointSuite suite H) (7 : suite.Scalar) D) <
      rightCount (fun x y => OprfServer.evaluate (CS := digestSuite (pointSuite suite H) D) ⟨(7 : suite.Scalar)⟩ x = .ok y)
        (knowingAttacker.run H D (oprfServe (CS := pointSuite suite H) (7 : suite.Scalar) D)) := by
  refine (Set.ncard_pos ((List.finite_toSet [([1] : Bytes)]).subset ?_)).mpr ⟨[1], _, List.mem_singleton.mpr rfl, ?_⟩
  · rintro x ⟨y, hy, _⟩
    exact List.mem_singleton.mpr (congrArg Prod.fst (List.mem_singleton.mp hy))
  · refine (oprf_digest_iff (CS := pointSuite suite H) (point_wf Toy.wf H) D _ _ _).mpr
      ⟨_, point_hashToGroup H .Oprf [1], ?_, by decide, ?_⟩
    · rw [answer_pointQuestion H .Oprf [1] ⟨(pointTag suite .Oprf, [1]), by decide +kernel⟩ rfl]
      exact hH
    · rw [answer_pointQuestion H .Oprf [1] ⟨(pointTag suite .Oprf, [1]), by decide +kernel⟩ rfl]
      exact dif_pos _

/-- The solver made from it lists the product of the key with the target, with no multiplication: it has won. -/
example (H : Points suite) (D : Digests suite) (hH : H ⟨(pointTag suite .Oprf, [1]), by decide +kernel⟩ ≠ 0) :
    (⟨(pointTag suite .Oprf, [1]), by decide +kernel⟩,
      (7 : suite.Scalar) • H ⟨(pointTag suite .Oprf, [1]), by decide +kernel⟩) ∈
        (knowingAttacker.solver D []).run H (fun P => (7 : suite.Scalar) • P) :=
  Attacker.mem_solver H D _ knowingAttacker [] _ _ (.inr ⟨_, [1], .inl rfl,
    readPair_eq Toy.wf _ [1] _ (by decide) (smul_ne_zero (show (7 : F) ≠ 0 by decide) hH) rfl,
    dif_pos (by decide +kernel)⟩)

/-- A client that knows the key (7) and sends no request, against the VOPRF server. -/
def knowingVerified : VerifiedAttacker suite (List (Bytes × Bytes)) :=
  .point ⟨(pointTag suite .Voprf, [1]), by decide +kernel⟩ fun P =>
    .digest ⟨finalizeInput [1] (suite.group.serializeElem ((7 : suite.Scalar) • P)), by
      rw [finalizeInput, List.length_append, List.length_append, framed, framed, List.length_append, List.length_append,
        suite.group.serializeElem_length]
      decide⟩ fun y => .done [([1], y.1)]

/-- It meets the hypothesis of `C74_voprf`. -/
example : knowingVerified.Within (fun claims => claims.length ≤ 1) 0 1 0 := fun _ _ => le_rfl

/-- It wins the first game of `C74_voprf` unless the hash is the identity. -/
example (H : Points suite) (f : Table (pointSuite suite H)) (D : Digests suite) (draw : Nonce suite → Rng)
    (hH : H ⟨(pointTag suite .Voprf, [1]), by decide +kernel⟩ ≠ 0) :
    Party.real (CS := pointSuite suite H) f D
      (fun r ρ => voprfRespond (CS := pointSuite suite H) (7 : suite.Scalar) ((7 : suite.Scalar) • suite.group.baseElem :
        suite.Elem) f D r (draw ρ)) (fun r => r.elems.length)
      (fun spent _ claims => VoprfClaimsMore (CS := pointSuite suite H) (7 : suite.Scalar)
        ((7 : suite.Scalar) • suite.group.baseElem : suite.Elem) f D spent claims)
      (knowingVerified.toParty H) 0 [] = 1 := by
  refine if_pos ?_
  refine (Set.ncard_pos ((List.finite_toSet [([1] : Bytes)]).subset ?_)).mpr ⟨[1], _, List.mem_singleton.mpr rfl, ?_⟩
  · rintro x ⟨y, hy, _⟩
    exact List.mem_singleton.mpr (congrArg Prod.fst (List.mem_singleton.mp hy))
  · refine (voprf_digest_iff (CS := oracleSuite (pointSuite suite H) f) (oracle_wf (CS := pointSuite suite H)
      (point_wf Toy.wf H) f) D _ _ _ _).mpr ⟨_, point_hashToGroup H .Voprf [1], ?_, by decide, ?_⟩
    · rw [answer_pointQuestion H .Voprf [1] ⟨(pointTag suite .Voprf, [1]), by decide +kernel⟩ rfl]
      exact hH
    · rw [answer_pointQuestion H .Voprf [1] ⟨(pointTag suite .Voprf, [1]), by decide +kernel⟩ rfl]
      exact dif_pos _

/-- The solver made from it wins with every table of targets whose target of that name is not the identity. -/
example (H : Points suite) (f : Table suite) (D : Digests suite) (pk : suite.Elem)
    (hH : H ⟨(pointTag suite .Voprf, [1]), by decide +kernel⟩ ≠ 0) :
    (knowingVerified.solver pk D f []).wins (7 : suite.Scalar) H 0 = 1 := by
  refine if_pos ?_
  refine (Set.ncard_pos ((List.finite_toSet (List.map Prod.fst _)).subset fun q (h : ∃ E, (q, E) ∈ _ ∧ _) =>
    h.elim fun E h => List.mem_map.mpr ⟨(q, E), h.1, rfl⟩)).mpr
    ⟨⟨(pointTag suite .Voprf, [1]), by decide +kernel⟩, (7 : suite.Scalar) • H ⟨(pointTag suite .Voprf, [1]), by decide +kernel⟩,
      List.mem_append_right _ (List.mem_filterMap.mpr ⟨([1], (7 : suite.Scalar) • H ⟨(pointTag suite .Voprf, [1]), by
        decide +kernel⟩), ?_, ?_⟩), rfl⟩
  · exact readPair_eq Toy.wf _ [1] _ (by decide) (smul_ne_zero (show (7 : F) ≠ 0 by decide) hH) rfl
  · exact congrArg (Option.map _) (dif_pos (show (pointTag suite .Voprf).length ≤ 131071 ∧ ([1] : Bytes).length ≤ 131071 by
      decide +kernel))

end examples

end Voprf
