import Verif.Spec.PartyTape
import Verif.Props.Party
import Verif.Props.ZeroKnowledgeTape

/-!
# C68: no more outputs than evaluations when the server's generator yields uniform bytes
-/

namespace Voprf

open Spec

variable {CS : CipherSuite} [L : CS.group.Lawful]

/-- A session as a computation that draws scalars. -/
theorem exists_party_drawer {R O : Type} (f : Table CS) (D : Digests CS)
    (serve : R → Tape → Res ((List CS.Elem × CS.Scalar × CS.Scalar) × Tape)) (answer : R → Nonce CS → EvalResponse CS)
    (h : ∀ r, Serves (serve r) (answer r)) (size : R → Nat) (wins : Nat → List DigestQuestion → O → Prop) (good : O → Prop)
    (S : Party CS R O) (n d m : Nat) (hS : S.Within good n d m) (spent : Nat) (asked : List DigestQuestion) :
    ∃ T : Drawer CS.Scalar (Nat × List DigestQuestion × O), T.AtMost m ∧
      (∀ t : Tape, T.run CS.group t = S.run f D serve size t spent asked) ∧
      T.prob CS.group (fun x => wins x.1 x.2.1 x.2.2) = S.real f D answer size wins spent asked := by
  induction S generalizing n d m spent asked with
  | done o =>
    refine ⟨.done (spent, asked, o), ?_, fun _ => rfl, rfl⟩
    cases m <;> trivial
  | scalar q next ih =>
    cases n with
    | zero => exact absurd hS (by simp [Party.Within])
    | succ n => exact ih (f q) n d m (by simp only [Party.Within] at hS; exact hS _) spent asked
  | digest q next ih =>
    cases d with
    | zero => exact absurd hS (by simp [Party.Within])
    | succ d => exact ih (D q) n d m (by simp only [Party.Within] at hS; exact hS _) spent (asked ++ [q])
  | evaluate r next ih =>
    cases m with
    | zero => exact absurd hS (by simp [Party.Within])
    | succ m =>
      have hS' : ∀ v, (next v).Within good n d m := by simp only [Party.Within] at hS; exact hS
      have : Finite CS.Scalar := VGroup.Lawful.finite_scalar
      have : Nonempty (Nonce CS) := ⟨⟨1, one_ne_zero⟩⟩
      rcases h r with ⟨e, h1, h2⟩ | ⟨v, h1, h2⟩
      · obtain ⟨T, hT, hr, hp⟩ := ih (.err e) n d m (hS' _) (spent + size r) asked
        refine ⟨T, atMost_succ T m hT, fun t => ?_, ?_⟩
        · simp only [Party.run, h1, hr]
        · simp only [Party.real, h2, hp, average_const]
      · choose T hT hr hp using fun x => ih (.ok (v x)) n d m (hS' _) (spent + size r) asked
        refine ⟨.draw T, hT, fun t => ?_, ?_⟩
        · simp only [Party.run, Drawer.run, h1]
          cases CS.group.randomScalar t with
          | none => rfl
          | some p => exact hr p.1 p.2
        · simp only [Party.real, Drawer.prob, h2, hp]

/-- On the tapes a party wins hardly more often than with uniform nonces. -/
theorem party_tape {R O : Type} {block p q : Nat} (hp : 0 < p) (hpq : p ≤ q) (hu : NearlyUniform CS.group block p q)
    (serve : Table CS → Digests CS → R → Tape → Res ((List CS.Elem × CS.Scalar × CS.Scalar) × Tape))
    (answer : Table CS → Digests CS → R → Nonce CS → EvalResponse CS)
    (h : ∀ f D r, Serves (serve f D r) (answer f D r)) (size : R → Nat)
    (wins : Table CS → Digests CS → Nat → List DigestQuestion → O → Prop) (good : O → Prop)
    (S : Party CS R O) (n d m : Nat) (hS : S.Within good n d m) (N : Nat) {b : ℚ}
    (hb : (average fun f : Table CS => average fun D : Digests CS =>
      S.real f D (answer f D) size (wins f D) 0 []) ≤ b) :
    (average fun f : Table CS => average fun D : Digests CS =>
      tapeChance (N * block) fun t => ∃ x, S.run f D (serve f D) size t 0 [] = some x ∧ wins f D x.1 x.2.1 x.2.2) ≤
      b + (((q : ℚ) / p) ^ m - 1 + tapeChance (N * block) (RunsDry CS.group m)) := by
  have : Finite CS.Scalar := VGroup.Lawful.finite_scalar
  have : Nonempty (Table CS) := ⟨fun _ => 0⟩
  have : Nonempty (Digests CS) := ⟨fun _ => ⟨List.replicate CS.hash.outputSize 0, List.length_replicate⟩⟩
  refine le_trans ?_ (add_le_add_left hb _)
  rw [← average_add_const]
  refine average_mono fun f => ?_
  rw [← average_add_const]
  refine average_mono fun D => ?_
  obtain ⟨T, hT, hr, hpr⟩ := exists_party_drawer f D (serve f D) (answer f D) (h f D) size (wins f D) good S n d m hS 0 []
  have := C61_programs hp hpq hu N m T hT (fun x => wins f D x.1 x.2.1 x.2.2)
  simp only [hr] at this
  rw [hpr] at this
  linarith [(abs_le.mp this).2]

theorem serves_digest {D : Digests CS} {call : Tape → Res ((List CS.Elem × CS.Scalar × CS.Scalar) × Tape)}
    {answer : Nonce CS → EvalResponse CS} (h : Serves (CS := digestSuite CS D) call answer) : Serves (CS := CS) call answer := by
  rcases h with ⟨e, h1, h2⟩ | ⟨v, h1, h2⟩
  · exact .inl ⟨e, h1, h2⟩
  · refine .inr ⟨v, fun rng => ?_, h2⟩
    have h := h1 rng
    cases hs : CS.group.randomScalar rng with
    | none =>
      have hs' : (digestSuite CS D).group.randomScalar rng = none := hs
      rw [hs'] at h
      exact h
    | some p =>
      have hs' : (digestSuite CS D).group.randomScalar rng = some p := hs
      rw [hs'] at h
      exact h

theorem voprfRespond_serves (wf : CS.WF) (k : CS.Scalar) {σ : Type} [RngCore σ] (draw : Nonce CS → σ) (hd : Draws draw)
    (f : Table CS) (D : Digests CS) (r : EvalRequest CS) :
    Serves (CS := CS) (fun rng => voprfRespondWith k (k • CS.group.baseElem) f D r rng)
      fun ρ => voprfRespond k (k • CS.group.baseElem) f D r (draw ρ) := by
  have := voprf_serves (CS := digestSuite CS D) (digest_wf wf D) k draw hd (r.withDigests D) f
  cases r <;> exact serves_digest this

theorem poprfRespond_serves (wf : CS.WF) (k : CS.Scalar) {σ : Type} [RngCore σ] (draw : Nonce CS → σ) (hd : Draws draw)
    (f : Table CS) (D : Digests CS) (r : EvalRequest CS × Option Bytes) :
    Serves (CS := CS) (fun rng => poprfRespondWith k (k • CS.group.baseElem) f D r rng)
      fun ρ => poprfRespond k (k • CS.group.baseElem) f D r (draw ρ) := by
  have := poprf_serves (CS := digestSuite CS D) (digest_wf wf D) k draw hd (r.1.withDigests D, r.2) f
  obtain ⟨r, info⟩ := r
  cases r <;> exact serves_digest this

/-- C68, VOPRF: with both hashes random and the server's nonces taken from uniform bytes, a client is right for more inputs than it
had elements evaluated with at most the probability that the digest questions of the same client, talking to a simulator that is
only handed evaluations `k·P`, contain `k·HashToGroup(x)` for more inputs `x` than that, up to the error of C56, the deviation of
`random_scalar` from uniform, and the probability that the bytes run out. -/
theorem C68_voprf (wf : CS.WF) {block p q : Nat} (hp : 0 < p) (hpq : p ≤ q) (hu : NearlyUniform CS.group block p q)
    (k : CS.Scalar) (hk : k ≠ 0) {σ : Type} [RngCore σ] (draw : Nonce CS → σ) (hd : Draws draw)
    (T : Party CS (EvalRequest CS) (List (Bytes × Bytes))) (n d m M : Nat)
    (hT : T.Within (fun claims => claims.length ≤ M) n d m) (N : Nat) :
    (average fun f : Table CS => average fun D : Digests CS => tapeChance (N * block) fun t =>
        ∃ x, T.run f D (voprfRespondWith k (k • CS.group.baseElem) f D) (fun r => r.elems.length) t 0 [] = some x ∧
          VoprfClaimsMore k (k • CS.group.baseElem) f D x.1 x.2.2) ≤
      (average fun f : Table CS => average fun D : Digests CS =>
        T.ideal D (fun _ _ => SimCoins (k • CS.group.baseElem))
          (voprfSimulate (fun P => k • P) (k • CS.group.baseElem) D) (fun r => r.elems.length)
          (fun _ spent asked _ => VoprfFindsMore k spent asked) f 0 []) +
      (M / (256 : ℚ) ^ CS.hash.outputSize + (m * (n + m) : ℚ) / Nat.card (Nonce CS)) +
      (((q : ℚ) / p) ^ m - 1 + tapeChance (N * block) (RunsDry CS.group m)) :=
  party_tape hp hpq hu (fun f D => voprfRespondWith k (k • CS.group.baseElem) f D)
    (fun f D r ρ => voprfRespond k (k • CS.group.baseElem) f D r (draw ρ)) (voprfRespond_serves wf k draw hd) _
    (fun f D spent _ claims => VoprfClaimsMore k (k • CS.group.baseElem) f D spent claims) _ T n d m hT N
    (C56_voprf wf k hk draw hd T n d m M hT)

/-- C68, POPRF: the same for pairs of an input and an info. -/
theorem C68_poprf (wf : CS.WF) {block p q : Nat} (hp : 0 < p) (hpq : p ≤ q) (hu : NearlyUniform CS.group block p q)
    (k : CS.Scalar) {σ : Type} [RngCore σ] (draw : Nonce CS → σ) (hd : Draws draw)
    (T : Party CS (EvalRequest CS × Option Bytes) (List (Bytes × Option Bytes × Bytes))) (n d m M : Nat)
    (hT : T.Within (fun claims => claims.length ≤ M) n d m) (N : Nat) :
    (average fun f : Table CS => average fun D : Digests CS => tapeChance (N * block) fun t =>
        ∃ x, T.run f D (poprfRespondWith k (k • CS.group.baseElem) f D) (fun r => r.1.elems.length) t 0 [] = some x ∧
          PoprfClaimsMore k (k • CS.group.baseElem) f D x.1 x.2.2) ≤
      (average fun f : Table CS => average fun D : Digests CS =>
        T.ideal D (PoprfCoins (k • CS.group.baseElem))
          (poprfSimulate (fun t P => (k + t)⁻¹ • P) (k • CS.group.baseElem) D) (fun r => r.1.elems.length)
          (fun f spent asked _ => PoprfFindsMore k f spent asked) f 0 []) +
      (M / (256 : ℚ) ^ CS.hash.outputSize + (m * (n + 2 * d + m) : ℚ) / Nat.card (Nonce CS)) +
      (((q : ℚ) / p) ^ m - 1 + tapeChance (N * block) (RunsDry CS.group m)) :=
  party_tape hp hpq hu (fun f D => poprfRespondWith k (k • CS.group.baseElem) f D)
    (fun f D r ρ => poprfRespond k (k • CS.group.baseElem) f D r (draw ρ)) (poprfRespond_serves wf k draw hd) _
    (fun f D spent _ claims => PoprfClaimsMore k (k • CS.group.baseElem) f D spent claims) _ T n d m hT N
    (C56_poprf wf k draw hd T n d m M hT)

end Voprf
