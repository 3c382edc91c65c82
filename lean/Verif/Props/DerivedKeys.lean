import Verif.Spec.DerivedKeys
import Verif.Props.KeyBinding
import Verif.Props.Uniform

/-!
# C62: keys made from seeds are uniform and independent
-/

namespace Voprf

open Spec Finset
open scoped BigOperators

variable {CS : CipherSuite} [L : CS.group.Lawful]

/-! ## One derivation -/

theorem KeyRequest.key_eq (f : Table CS) (r : KeyRequest) :
    r.key f = deriveKey (oracleSuite CS f) r.seed r.info r.mode := by
  obtain ⟨mode, seed, info⟩ := r
  have h := C46_derive_key (CS := oracleSuite CS f) seed info
  cases mode
  · show (OprfServer.newFromSeed (oracleSuite CS f) seed info >>= fun s => Res.ok s.sk) = _
    rw [h.1]
    cases deriveKey (oracleSuite CS f) seed info .Oprf <;> rfl
  · show (VoprfServer.newFromSeed (oracleSuite CS f) seed info >>= fun s => Res.ok s.sk) = _
    rw [h.2.1]
    cases deriveKey (oracleSuite CS f) seed info .Voprf <;> rfl
  · show (PoprfServer.newFromSeed (oracleSuite CS f) seed info >>= fun s => Res.ok s.sk) = _
    rw [h.2.2.1]
    cases deriveKey (oracleSuite CS f) seed info .Poprf <;> rfl

omit L in
theorem KeyRequest.asks_iff (r : KeyRequest) (q : Question) :
    r.Asks CS q ↔ q ∈ keyQuestions CS r.mode r.seed r.info := by
  constructor
  · rintro ⟨c, hc⟩
    refine ⟨c.toNat, hc.trans ?_⟩
    rw [keyInput, UInt8.ofNat_toNat]
    rfl
  · rintro ⟨n, hn⟩
    exact ⟨_, hn⟩

omit L in
theorem keyTag_length (wf : CS.WF) (mode : Mode) : (keyTag CS mode).length ≤ 131071 := by
  have := wf.1
  simp only [keyTag, contextString, List.length_append]
  have h1 : (ascii "DeriveKeyPair").length = 13 := by decide
  have h2 : (ascii "OPRFV1-").length = 7 := by decide
  have h3 : (ascii "-").length = 1 := by decide
  simp only [List.length_singleton]
  omega

/-- The question for one counter value. -/
def keyQ (wf : CS.WF) (r : KeyRequest) (hr : r.Sized) (n : Nat) : Question :=
  ⟨(keyTag CS r.mode, keyInput r.seed r.info n), keyTag_length wf _, by
    have := hr.1
    have := hr.2
    simp only [keyInput, framed, List.length_append, List.length_singleton]
    have : (be16 r.info.length).length = 2 := rfl
    omega⟩

omit L in
theorem keyQ_inj (wf : CS.WF) (r : KeyRequest) (hr : r.Sized) {i j : Nat} (hi : i < 256) (hj : j < 256)
    (h : keyQ wf r hr i = keyQ wf r hr j) : i = j := by
  have h1 : keyInput r.seed r.info i = keyInput r.seed r.info j := congrArg (fun q : Question => q.1.2) h
  have h2 := (List.append_inj' h1 rfl).2
  have h3 : UInt8.ofNat i = UInt8.ofNat j := List.singleton_inj.mp h2
  have h4 := congrArg UInt8.toNat h3
  rw [UInt8.toNat_ofNat', UInt8.toNat_ofNat'] at h4
  omega

theorem answer_keyQ (wf : CS.WF) (f : Table CS) (r : KeyRequest) (hr : r.Sized) (n : Nat) :
    f.answer (keyTag CS r.mode) (keyInput r.seed r.info n) = f (keyQ wf r hr n) :=
  dif_pos (keyQ wf r hr n).2

/-- The questions of a derivation. -/
noncomputable def keyQs (wf : CS.WF) (r : KeyRequest) (hr : r.Sized) : Finset Question :=
  (range 256).image (keyQ wf r hr)

omit L in
theorem keyQs_card (wf : CS.WF) (r : KeyRequest) (hr : r.Sized) : (keyQs wf r hr).card = 256 := by
  rw [keyQs, card_image_of_injOn, card_range]
  intro i hi j hj h
  exact keyQ_inj wf r hr (mem_range.mp hi) (mem_range.mp hj) h

omit L in
theorem mem_keyQs (wf : CS.WF) (r : KeyRequest) (hr : r.Sized) (q : Question) : q ∈ keyQs wf r hr ↔ r.Asks CS q := by
  rw [keyQs, mem_image]
  constructor
  · rintro ⟨n, -, rfl⟩
    exact (KeyRequest.asks_iff r _).mpr ⟨n, rfl⟩
  · rintro ⟨c, hc⟩
    refine ⟨c.toNat, mem_range.mpr (UInt8.toNat_lt c), Subtype.ext (Eq.trans ?_ hc.symm)⟩
    show (keyTag CS r.mode, keyInput r.seed r.info c.toNat) = _
    rw [keyInput, UInt8.ofNat_toNat]
    rfl

theorem key_fails (wf : CS.WF) (f : Table CS) (r : KeyRequest) (hr : r.Sized) :
    (r.key f = .err .Protocol ↔ ∀ q ∈ keyQs wf r hr, f q = 0) ∧
    ((∃ k : CS.Scalar, k ≠ 0 ∧ r.key f = .ok k) ∨ r.key f = .err .Protocol) := by
  have key : ∀ n, keyCandidate (oracleSuite CS f) r.mode r.seed r.info n =
      .ok (f.answer (keyTag CS r.mode) (keyInput r.seed r.info n)) := by
    intro n
    show Except.ok (f.answer [_].flatten [_].flatten) = _
    simp only [List.flatten_cons, List.flatten_nil, List.append_nil]
    rfl
  obtain ⟨h1, h2, h3⟩ := C24_errors (CS := oracleSuite CS f) (oracle_wf wf f) r.seed r.info r.mode
  rw [KeyRequest.key_eq]
  constructor
  · refine h2.trans ⟨fun ⟨_, h⟩ q hq => ?_, fun h => ⟨hr.2, fun j hj => ?_⟩⟩
    · obtain ⟨n, hn, rfl⟩ := mem_image.mp hq
      rw [← answer_keyQ wf f r hr n]
      exact Except.ok.inj ((key n).symm.trans (h n (mem_range.mp hn)))
    · rw [key, answer_keyQ wf f r hr, h _ (mem_image_of_mem _ (mem_range.mpr hj))]
      rfl
  · rcases h3 with ⟨k, hk⟩ | h3 | h3
    · exact .inl ⟨k, ((oracle_deriveKey wf f _ _ _ k).mp hk).2.1, hk⟩
    · rcases h1.mp h3 with h | ⟨n, -, ⟨e, he⟩, -⟩
      · exact absurd hr.2 (by omega)
      · rw [key] at he; cases he
    · exact .inr h3

/-! ## Probabilities -/

theorem chance_expect {α : Type} [Fintype α] (P : α → Prop) :
    chance P = 𝔼 x, (open Classical in if P x then 1 else 0 : ℚ) := by
  rw [chance, average_eq]

theorem chance_iff {α : Type} {P P' : α → Prop} (h : ∀ x, P x ↔ P' x) : chance P = chance P' := by
  rw [funext fun x => propext (h x)]

theorem chance_equiv {α β : Type} (e : α ≃ β) (P : α → Prop) (P' : β → Prop) (h : ∀ x, P x ↔ P' (e x)) :
    chance P = chance P' := by
  refine average_equiv e _ _ fun x => ?_
  by_cases hx : P x
  · rw [if_pos hx, if_pos ((h x).mp hx)]
  · rw [if_neg hx, if_neg fun h' => hx ((h x).mpr h')]

/-- The chance of an event is the sum of the chances of its cases. -/
theorem chance_cases {α ι : Type} [Fintype α] [Fintype ι] (E : α → Prop) (P : ι → α → Prop)
    (h : ∀ x, E x → ∃! i, P i x) : chance E = ∑ i, chance fun x => E x ∧ P i x := by
  classical
  simp only [chance_expect]
  rw [← expect_sum_comm]
  refine expect_congr rfl fun x _ => ?_
  by_cases hx : E x
  · obtain ⟨i, hi, hu⟩ := h x hx
    rw [if_pos hx, sum_eq_single i]
    · rw [if_pos ⟨hx, hi⟩]
    · intro j _ hj
      rw [if_neg fun hh => hj (hu j hh.2)]
    · intro hi; exact absurd (mem_univ i) hi
  · rw [if_neg hx, sum_eq_zero]
    intro i _
    rw [if_neg fun hh => hx hh.1]

/-- An event about other entries holds or not whatever a set of entries is. -/
theorem chance_zero_on {Q A : Type} [DecidableEq Q] [Fintype Q] [Fintype A] [Zero A] (K : Finset Q)
    (E : (Q → A) → Prop) (hE : ∀ f f' : Q → A, (∀ q, q ∉ K → f q = f' q) → E f → E f') :
    chance (fun f => E f ∧ ∀ q ∈ K, f q = 0) = chance E * (1 / Nat.card A) ^ K.card := by
  classical
  have hn : Nonempty A := ⟨0⟩
  have hz : chance (fun f : Q → A => ∀ q ∈ K, f q = 0) = (1 / Nat.card A) ^ K.card := by
    have hs : (∑ f : Q → A, (@ite ℚ (∀ q ∈ K, f q = 0) (Classical.propDecidable _) 1 0)) =
        ((univ.filter fun f : Q → A => ∀ q ∈ K, f q = 0).card : ℚ) := by
      rw [← sum_boole]
      exact sum_congr rfl fun f _ => by congr
    rw [chance_expect, Fintype.expect_eq_sum_div_card, hs]
    have h := Strategy.card_agreeing K (fun _ => (0 : A))
    have h' : (Strategy.agreeing K fun _ => (0 : A)) = univ.filter fun f : Q → A => ∀ q ∈ K, f q = 0 := by
      ext f
      rw [Strategy.mem_agreeing, mem_filter]
      simp
    rw [h'] at h
    have hc : (Fintype.card (Q → A)) = Fintype.card A ^ Fintype.card Q := by rw [Fintype.card_fun]
    rw [hc, ← h, Nat.card_eq_fintype_card]
    have ha : (Fintype.card A : ℚ) ≠ 0 := Nat.cast_ne_zero.mpr Fintype.card_ne_zero
    have hf : ((univ.filter fun f : Q → A => ∀ q ∈ K, f q = 0).card : ℚ) ≠ 0 := by
      refine Nat.cast_ne_zero.mpr (card_ne_zero_of_mem (a := fun _ => 0) ?_)
      simp
    push_cast
    rw [one_div, inv_pow]
    field_simp
  rw [← hz, chance_expect, ← expect_over _ K, chance_expect E, chance_expect fun f : Q → A => ∀ q ∈ K, f q = 0, mul_comm, expect_mul]
  refine expect_congr rfl fun g _ => ?_
  rw [mul_expect]
  refine expect_congr rfl fun f _ => ?_
  have h1 : E (over K g f) ↔ E f :=
    ⟨hE _ _ fun q hq => if_neg hq, hE _ _ fun q hq => (if_neg hq).symm⟩
  have h2 : (∀ q ∈ K, over K g f q = 0) ↔ ∀ q ∈ K, g q = 0 := by
    refine forall₂_congr fun q hq => ?_
    rw [over, if_pos hq]
  by_cases hf : E f <;> by_cases hg : ∀ q ∈ K, g q = 0 <;> simp [h1, h2, hf, hg]

theorem card_scalar_eq : Nat.card CS.Scalar = Nat.card (Nonce CS) + 1 := by
  classical
  have : Finite CS.Scalar := VGroup.Lawful.finite_scalar
  have : Fintype CS.Scalar := Fintype.ofFinite _
  rw [Nat.card_eq_fintype_card, Nat.card_eq_fintype_card, Fintype.card_subtype_compl, Fintype.card_subtype_eq]
  have : 0 < Fintype.card CS.Scalar := Fintype.card_pos
  omega

theorem unrelated_scale {E : Table CS → Prop} {r : KeyRequest} (hE : Unrelated E (r.Asks CS)) (u : Nonce CS) (f : Table CS) :
    E (scale (keyQuestions CS r.mode r.seed r.info) u f) ↔ E f := by
  have h : ∀ q, ¬ r.Asks CS q → scale (keyQuestions CS r.mode r.seed r.info) u f q = f q := fun q hq =>
    if_neg fun h => hq ((KeyRequest.asks_iff r q).mpr h)
  exact ⟨hE _ _ h, hE _ _ fun q hq => (h q hq).symm⟩

/-- The probability that a derivation gives a certain key. -/
noncomputable def keyChance (CS : CipherSuite) : ℚ :=
  (1 - (1 / Nat.card CS.Scalar) ^ 256) / (Nat.card CS.Scalar - 1)

theorem key_chance (wf : CS.WF) (r : KeyRequest) (hr : r.Sized) (E : Table CS → Prop) (hE : Unrelated E (r.Asks CS)) :
    (∀ k : CS.Scalar, k ≠ 0 → chance (fun f => E f ∧ r.key f = .ok k) = chance E * keyChance CS) ∧
    chance (fun f => E f ∧ r.key f = .err .Protocol) = chance E * (1 / Nat.card CS.Scalar) ^ 256 := by
  classical
  have : Finite CS.Scalar := VGroup.Lawful.finite_scalar
  have : Fintype CS.Scalar := Fintype.ofFinite _
  have : Fintype Question := Fintype.ofFinite _
  have : Fintype (Table CS) := Fintype.ofFinite _
  have : Fintype (Nonce CS) := Fintype.ofFinite _
  have hfail : chance (fun f => E f ∧ r.key f = .err .Protocol) = chance E * (1 / Nat.card CS.Scalar) ^ 256 := by
    have h := chance_zero_on (A := CS.Scalar) (keyQs wf r hr) E fun f f' h => hE f f' fun q hq =>
      h q fun h' => hq ((mem_keyQs wf r hr q).mp h')
    rw [keyQs_card] at h
    rw [← h]
    exact chance_iff fun f => and_congr_right fun _ => (key_fails wf f r hr).1
  have hsame : ∀ k : Nonce CS, chance (fun f => E f ∧ r.key f = .ok k.1) = chance (fun f => E f ∧ r.key f = .ok (1 : CS.Scalar)) := by
    intro k
    refine (chance_equiv (scaleEquiv (keyQuestions CS r.mode r.seed r.info) k) _ _ fun f => ?_).symm
    refine and_congr (unrelated_scale hE k f).symm ?_
    rw [KeyRequest.key_eq, KeyRequest.key_eq]
    have h := derive_scale_self wf k f r.seed r.info r.mode 1
    rw [mul_one] at h
    exact h.symm
  have htotal := chance_cases (ι := Option (Nonce CS)) E (fun i f => match i with
    | none => r.key f = .err .Protocol
    | some k => r.key f = .ok k.1) fun f _ => by
      rcases (key_fails wf f r hr).2 with ⟨k, hk, h⟩ | h
      · refine ⟨some ⟨k, hk⟩, h, ?_⟩
        rintro (_ | k') h'
        · exact absurd (h.symm.trans h') (by simp)
        · exact congrArg some (Subtype.ext (Res.ok.inj (h'.symm.trans h)))
      · refine ⟨none, h, ?_⟩
        rintro (_ | k') h'
        · rfl
        · exact absurd (h.symm.trans h') (by simp)
  refine ⟨fun k hk => ?_, hfail⟩
  rw [Fintype.sum_option] at htotal
  simp only at htotal
  rw [hfail, sum_congr rfl fun k _ => (hsame k).trans (hsame ⟨_, hk⟩).symm, sum_const, card_univ, nsmul_eq_mul] at htotal
  have hc : (Nat.card CS.Scalar : ℚ) - 1 = Fintype.card (Nonce CS) := by
    rw [card_scalar_eq, Nat.card_eq_fintype_card]
    push_cast
    ring
  have : Nonempty (Nonce CS) := ⟨⟨k, hk⟩⟩
  have hne : (Fintype.card (Nonce CS) : ℚ) ≠ 0 := Nat.cast_ne_zero.mpr Fintype.card_ne_zero
  rw [keyChance, hc, mul_div_assoc', eq_div_iff hne]
  linear_combination -htotal

theorem key_local (wf : CS.WF) (r : KeyRequest) (f f' : Table CS) (h : ∀ q, r.Asks CS q → f q = f' q) (k : CS.Scalar)
    (hk : r.key f = .ok k) : r.key f' = .ok k := by
  have ha : ∀ n, f'.answer (keyTag CS r.mode) (keyInput r.seed r.info n) =
      f.answer (keyTag CS r.mode) (keyInput r.seed r.info n) := by
    intro n
    unfold Table.answer
    split
    · next hl => exact (h _ ((KeyRequest.asks_iff r _).mpr ⟨n, rfl⟩)).symm
    · rfl
  rw [KeyRequest.key_eq] at hk ⊢
  refine (oracle_deriveKey wf f' r.seed r.info r.mode k).mpr ?_
  simp only [ha]
  exact (oracle_deriveKey wf f r.seed r.info r.mode k).mp hk

/-! ## C62 -/

/-- C62: the keys of servers made by `new_from_seed` from any number of seeds and infos that are hashed differently (other mode,
or other `seed ‖ ⟨info⟩`) are independent and uniform on the non-zero scalars, and independent of every event that does not
depend on the answers to these derivations' own questions: each combination of keys has the probability
`((1 - |scalars|^-256) / (|scalars| - 1)) ^ n`. -/
theorem C62_uniform (wf : CS.WF) (n : Nat) (r : Fin n → KeyRequest) (hr : ∀ i, (r i).Sized)
    (hd : ∀ i j, i ≠ j → (r i).mode ≠ (r j).mode ∨ (r i).hashed ≠ (r j).hashed)
    (E : Table CS → Prop) (hE : Unrelated E fun q => ∃ i, (r i).Asks CS q)
    (k : Fin n → CS.Scalar) (hk : ∀ i, k i ≠ 0) :
    chance (fun f => E f ∧ ∀ i, (r i).key f = .ok (k i)) =
      chance E * ((1 - (1 / Nat.card CS.Scalar) ^ 256) / (Nat.card CS.Scalar - 1)) ^ n := by
  classical
  have main : ∀ s : Finset (Fin n), chance (fun f => E f ∧ ∀ i ∈ s, (r i).key f = .ok (k i)) =
      chance E * keyChance CS ^ s.card := by
    intro s
    induction s using Finset.induction_on with
    | empty => simp
    | insert i s hi ih =>
      have hu : Unrelated (fun f => E f ∧ ∀ i ∈ s, (r i).key f = .ok (k i)) ((r i).Asks CS) := by
        intro f f' hff ⟨h1, h2⟩
        refine ⟨hE f f' (fun q hq => hff q fun h => hq ⟨i, h⟩) h1, fun j hj => ?_⟩
        refine key_local wf (r j) f f' (fun q hq => hff q fun hq' => ?_) (k j) (h2 j hj)
        exact keyQuestions_disjoint (CS := CS) (hd j i fun h => hi (h ▸ hj)) q ((KeyRequest.asks_iff _ q).mp hq')
          ((KeyRequest.asks_iff _ q).mp hq)
      rw [card_insert_of_notMem hi, pow_succ, ← mul_assoc, ← ih, ← (key_chance wf (r i) (hr i) _ hu).1 (k i) (hk i)]
      refine chance_iff fun f => ?_
      rw [forall_mem_insert]
      tauto
  have h := main univ
  rw [card_univ, Fintype.card_fin] at h
  rw [show (1 - (1 / (Nat.card CS.Scalar : ℚ)) ^ 256) / (Nat.card CS.Scalar - 1) = keyChance CS from rfl, ← h]
  exact chance_iff fun f => by simp

/-- C62: a derivation fails only with `Error::Protocol`, and that with probability `|scalars|^-256`, whatever the other entries
of the table are. -/
theorem C62_failure (wf : CS.WF) (r : KeyRequest) (hr : r.Sized) (E : Table CS → Prop) (hE : Unrelated E (r.Asks CS)) :
    (∀ f : Table CS, (∃ k : CS.Scalar, r.key f = .ok k) ∨ r.key f = .err .Protocol) ∧
    chance (fun f => E f ∧ r.key f = .err .Protocol) = chance E * (1 / Nat.card CS.Scalar) ^ 256 :=
  ⟨fun f => (key_fails wf f r hr).2.imp_left fun ⟨k, _, h⟩ => ⟨k, h⟩, (key_chance wf r hr E hE).2⟩

/-! ### Secret seeds -/

namespace Spec.Strategy
variable {Q A O : Type} [DecidableEq Q]

theorem run_congr {f f' : Q → A} : ∀ (S : Strategy Q A O), (∀ q ∈ S.asked f, f q = f' q) → S.run f = S.run f'
  | done _, _ => rfl
  | ask q next, h => by
    have hq : f q = f' q := h q (mem_insert_self _ _)
    show (next (f q)).run f = (next (f' q)).run f'
    rw [← hq]
    exact run_congr (next (f q)) fun q' hq' => h q' (mem_insert_of_mem hq')

theorem asked_card_le {f : Q → A} : ∀ (n : Nat) (S : Strategy Q A O), S.Within n → (S.asked f).card ≤ n
  | _, done _, _ => by simp [asked]
  | 0, ask _ _, h => h.elim
  | n + 1, ask q next, h => by
    refine (card_insert_le _ _).trans ?_
    have := asked_card_le (f := f) n (next (f q)) (h (f q))
    omega

end Spec.Strategy

theorem newKey_eq (f : Table CS) (mode : Mode) (s : Seed CS) :
    s.newKey f mode =
      (⟨mode, s.1, []⟩ : KeyRequest).key f := by
  have hf : RngCore.fillBytes (⟨s.1⟩ : Tape) (oracleSuite CS f).group.scalarLen = (s.1, ⟨[]⟩) := by
    have := fill_block s.1 [] CS.group.scalarLen s.2
    rwa [List.append_nil] at this
  cases mode
  · show (OprfServer.new (oracleSuite CS f) (⟨s.1⟩ : Tape) >>= fun s => Res.ok s.1.sk) =
      (OprfServer.newFromSeed (oracleSuite CS f) s.1 [] >>= fun s => Res.ok s.sk)
    unfold OprfServer.new
    rw [hf]
    show ((OprfServer.newFromSeed (oracleSuite CS f) s.1 [] >>= _) >>= _) = _
    cases OprfServer.newFromSeed (oracleSuite CS f) s.1 [] <;> rfl
  · show (VoprfServer.new (oracleSuite CS f) (⟨s.1⟩ : Tape) >>= fun s => Res.ok s.1.sk) =
      (VoprfServer.newFromSeed (oracleSuite CS f) s.1 [] >>= fun s => Res.ok s.sk)
    unfold VoprfServer.new
    rw [hf]
    show ((VoprfServer.newFromSeed (oracleSuite CS f) s.1 [] >>= _) >>= _) = _
    cases VoprfServer.newFromSeed (oracleSuite CS f) s.1 [] <;> rfl
  · show (PoprfServer.new (oracleSuite CS f) (⟨s.1⟩ : Tape) >>= fun s => Res.ok s.1.sk) =
      (PoprfServer.newFromSeed (oracleSuite CS f) s.1 [] >>= fun s => Res.ok s.sk)
    unfold PoprfServer.new
    rw [hf]
    show ((PoprfServer.newFromSeed (oracleSuite CS f) s.1 [] >>= _) >>= _) = _
    cases PoprfServer.newFromSeed (oracleSuite CS f) s.1 [] <;> rfl

instance : Finite (Seed CS) := (lists_finite CS.group.scalarLen fun _ => True).subset (fun _ h => ⟨h, trivial⟩) |>.to_subtype

omit L in
theorem card_seed : Nat.card (Seed CS) = 256 ^ CS.group.scalarLen := by
  rw [← ncard_tapes_true, ← Nat.card_coe_set_eq]
  exact Nat.card_congr (Equiv.subtypeEquivRight fun b => ⟨fun h => ⟨h, trivial⟩, fun h => h.1⟩)

/-- An event as a number. -/
noncomputable def ind (P : Prop) : ℚ := open Classical in if P then 1 else 0

theorem ind_mem (P : Prop) : 0 ≤ ind P ∧ ind P ≤ 1 := by
  unfold ind; split <;> norm_num

theorem chance_ind {α : Type} [Fintype α] (P : α → Prop) : chance P = 𝔼 x, ind (P x) := chance_expect P

/-- Some question of the judge is one of the derivation from `s`. -/
def Hit (mode : Mode) (J : KeyJudge CS) (s : Seed CS) (v : Nonce CS) (f : Table CS) : Prop :=
  ∃ q ∈ (J v.1).asked f, (⟨mode, s.1, []⟩ : KeyRequest).Asks CS q

/-- One seed, one table: averaged over multiples of the derived key. -/
theorem judge_pointwise (wf : CS.WF) [Fintype (Nonce CS)] (mode : Mode) (J : KeyJudge CS) (s : Seed CS)
    (hs : (⟨mode, s.1, []⟩ : KeyRequest).Sized) (f : Table CS) :
    |(𝔼 u : Nonce CS, ind (∃ k : CS.Scalar, (⟨mode, s.1, []⟩ : KeyRequest).key (scale (keyQuestions CS mode s.1 []) u f) = .ok k ∧
        (J k).run (scale (keyQuestions CS mode s.1 []) u f) = true)) - 𝔼 v : Nonce CS, ind ((J v.1).run f = true)| ≤
      (𝔼 v : Nonce CS, ind (Hit mode J s v f)) + ind ((⟨mode, s.1, []⟩ : KeyRequest).key f = .err .Protocol) := by
  classical
  have : Nonempty (Nonce CS) := ⟨⟨1, one_ne_zero⟩⟩
  rcases (key_fails wf f _ hs).2 with ⟨k, hk, hkey⟩ | hkey
  · have hmul : ∀ u : Nonce CS, u.1 * k ≠ 0 := fun u => mul_ne_zero u.2 hk
    let e : Nonce CS ≃ Nonce CS := ⟨fun u => ⟨u.1 * k, hmul u⟩, fun v => ⟨v.1 * k⁻¹, mul_ne_zero v.2 (inv_ne_zero hk)⟩,
      fun u => Subtype.ext (mul_inv_cancel_right₀ hk u.1), fun v => Subtype.ext (inv_mul_cancel_right₀ hk v.1)⟩
    have he : (𝔼 v : Nonce CS, ind ((J v.1).run f = true)) = 𝔼 u : Nonce CS, ind ((J (u.1 * k)).run f = true) :=
      (Fintype.expect_equiv e (fun u => ind ((J (u.1 * k)).run f = true)) (fun v => ind ((J v.1).run f = true))
        fun _ => rfl).symm
    have hh : (𝔼 v : Nonce CS, ind (Hit mode J s v f)) = 𝔼 u : Nonce CS, ind (Hit mode J s (e u) f) :=
      (Fintype.expect_equiv e _ _ fun _ => rfl).symm
    rw [he, hh, ← expect_sub_distrib]
    refine (abs_expect_le _ _).trans (le_trans (expect_le_expect fun u _ => ?_) (le_add_of_nonneg_right (ind_mem _).1))
    have h1 : (∃ k' : CS.Scalar, (⟨mode, s.1, []⟩ : KeyRequest).key (scale (keyQuestions CS mode s.1 []) u f) = .ok k' ∧
        (J k').run (scale (keyQuestions CS mode s.1 []) u f) = true) ↔
        (J (u.1 * k)).run (scale (keyQuestions CS mode s.1 []) u f) = true := by
      have h2 : (⟨mode, s.1, []⟩ : KeyRequest).key (scale (keyQuestions CS mode s.1 []) u f) = .ok (u.1 * k) := by
        rw [KeyRequest.key_eq] at hkey ⊢
        exact (derive_scale_self wf u f s.1 [] mode k).mpr hkey
      constructor
      · rintro ⟨k', h, h'⟩
        rw [Res.ok.inj (h2.symm.trans h)]
        exact h'
      · exact fun h => ⟨_, h2, h⟩
    rw [propext h1]
    by_cases hit : Hit mode J s (e u) f
    · have a := ind_mem ((J (u.1 * k)).run (scale (keyQuestions CS mode s.1 []) u f) = true)
      have b := ind_mem ((J (u.1 * k)).run f = true)
      have c : ind (Hit mode J s (e u) f) = 1 := if_pos hit
      rw [c, abs_le]
      constructor <;> linarith [a.1, a.2, b.1, b.2]
    · have : (J (u.1 * k)).run f = (J (u.1 * k)).run (scale (keyQuestions CS mode s.1 []) u f) := by
        refine Strategy.run_congr _ fun q hq => ?_
        refine (if_neg fun h => hit ⟨q, hq, ?_⟩).symm
        exact (KeyRequest.asks_iff _ q).mpr h
      rw [← this, sub_self, abs_zero]
      exact (ind_mem _).1
  · have h0 : ind ((⟨mode, s.1, []⟩ : KeyRequest).key f = .err .Protocol) = 1 := if_pos hkey
    have hA : ∀ P : Nonce CS → Prop, 0 ≤ 𝔼 u, ind (P u) ∧ 𝔼 u, ind (P u) ≤ 1 := fun P =>
      ⟨expect_nonneg fun u _ => (ind_mem _).1, expect_le univ_nonempty fun u _ => (ind_mem _).2⟩
    have a := hA fun u => ∃ k : CS.Scalar, (⟨mode, s.1, []⟩ : KeyRequest).key (scale (keyQuestions CS mode s.1 []) u f) = .ok k ∧
        (J k).run (scale (keyQuestions CS mode s.1 []) u f) = true
    have b := hA fun v => (J v.1).run f = true
    have c := hA fun v => Hit mode J s v f
    rw [h0, abs_le]
    constructor <;> linarith [a.1, a.2, b.1, b.2, c.1]

/-- The seed is found with probability at most the number of questions over the number of seeds. -/
theorem hit_bound (mode : Mode) (J : KeyJudge CS) (n : Nat) (v : Nonce CS) (hJ : (J v.1).Within n) [Fintype (Seed CS)]
    (f : Table CS) : 𝔼 s : Seed CS, ind (Hit mode J s v f) ≤ (n : ℚ) / 256 ^ CS.group.scalarLen := by
  classical
  rw [Fintype.expect_eq_sum_div_card, ← Nat.card_eq_fintype_card, card_seed]
  push_cast
  refine div_le_div_of_nonneg_right ?_ (by positivity)
  have h1 : ∑ s : Seed CS, ind (Hit mode J s v f) = ((univ.filter fun s => Hit mode J s v f).card : ℚ) := by
    rw [← sum_boole]
    refine sum_congr rfl fun s _ => ?_
    unfold ind
    congr
  rw [h1]
  refine Nat.cast_le.mpr (le_trans ?_ (Strategy.asked_card_le n (J v.1) hJ (f := f)))
  have h2 : (univ.filter fun s => Hit mode J s v f) ⊆ ((J v.1).asked f).biUnion fun q =>
      univ.filter fun s : Seed CS => (⟨mode, s.1, []⟩ : KeyRequest).Asks CS q := by
    intro s hs
    obtain ⟨q, hq, ha⟩ := (mem_filter.mp hs).2
    exact mem_biUnion.mpr ⟨q, hq, mem_filter.mpr ⟨mem_univ _, ha⟩⟩
  refine (card_le_card h2).trans (card_biUnion_le.trans ?_)
  refine (sum_le_card_nsmul _ _ 1 fun q _ => ?_).trans (by simp)
  refine card_le_one.mpr fun s hs s' hs' => ?_
  obtain ⟨c, hc⟩ := (mem_filter.mp hs).2
  obtain ⟨c', hc'⟩ := (mem_filter.mp hs').2
  have h3 := congrArg Prod.snd (hc.symm.trans hc')
  have h4 := (List.append_inj' h3 rfl).1
  exact Subtype.ext (List.append_inj h4 (s.2.trans s'.2.symm)).1

/-- C62: a server made by `new` from uniform bytes is as good as one with a uniformly chosen non-zero key: a party that is
given the private key and asks the oracle at most `n` questions, of any computing power, tells the two apart with advantage at
most `n / 256^ScalarLen + |scalars|^-256`. -/
theorem C62_new (wf : CS.WF) (hl : CS.group.scalarLen ≤ 65533) (mode : Mode) (n : Nat) (J : KeyJudge CS)
    (hJ : ∀ k, (J k).Within n) :
    |J.real mode - J.ideal| ≤ (n : ℚ) / 256 ^ CS.group.scalarLen + (1 / Nat.card CS.Scalar) ^ 256 := by
  classical
  have : Finite CS.Scalar := VGroup.Lawful.finite_scalar
  have : Fintype CS.Scalar := Fintype.ofFinite _
  have : Fintype Question := Fintype.ofFinite _
  have : Fintype (Table CS) := Fintype.ofFinite _
  have : Fintype (Nonce CS) := Fintype.ofFinite _
  have : Fintype (Seed CS) := Fintype.ofFinite _
  have : Nonempty (Nonce CS) := ⟨⟨1, one_ne_zero⟩⟩
  have : Nonempty (Table CS) := ⟨fun _ => 0⟩
  have : Nonempty (Seed CS) := ⟨⟨List.replicate CS.group.scalarLen 0, List.length_replicate⟩⟩
  have hsz : ∀ s : Seed CS, (⟨mode, s.1, []⟩ : KeyRequest).Sized := fun s => ⟨s.2.trans_le hl, by simp⟩
  set a : Seed CS → Table CS → ℚ := fun s f =>
    ind (∃ k : CS.Scalar, (⟨mode, s.1, []⟩ : KeyRequest).key f = .ok k ∧ (J k).run f = true) with ha
  have hreal : J.real mode = 𝔼 s, 𝔼 f, a s f := by
    unfold KeyJudge.real
    rw [chance_ind, ← univ_product_univ, expect_product]
    refine expect_congr rfl fun s _ => expect_congr rfl fun f _ => ?_
    simp only [newKey_eq, ha]
  have hideal : J.ideal = 𝔼 f, 𝔼 v : Nonce CS, ind ((J v.1).run f = true) := by
    unfold KeyJudge.ideal
    rw [chance_ind, ← univ_product_univ, expect_product, expect_comm]
  have hscale : ∀ s, 𝔼 f, a s f = 𝔼 f, 𝔼 u : Nonce CS, a s (scale (keyQuestions CS mode s.1 []) u f) := by
    intro s
    rw [expect_comm]
    have h1 : ∀ u : Nonce CS, 𝔼 f, a s (scale (keyQuestions CS mode s.1 []) u f) = 𝔼 f, a s f := fun u =>
      Fintype.expect_equiv (scaleEquiv (keyQuestions CS mode s.1 []) u) _ _ fun f => rfl
    rw [expect_congr rfl fun u _ => h1 u]
    exact (Fintype.expect_const _).symm
  have hone : ∀ s, |𝔼 f, a s f - J.ideal| ≤
      (𝔼 f, 𝔼 v : Nonce CS, ind (Hit mode J s v f)) + (1 / Nat.card CS.Scalar) ^ 256 := by
    intro s
    rw [hscale s, hideal, ← expect_sub_distrib]
    refine (abs_expect_le _ _).trans ((expect_le_expect fun f _ => judge_pointwise wf mode J s (hsz s) f).trans ?_)
    rw [expect_add_distrib, ← chance_ind]
    have h2 := (C62_failure wf (⟨mode, s.1, []⟩ : KeyRequest) (hsz s) (fun _ => True) fun _ _ _ h => h).2
    have h3 : chance (fun _ : Table CS => True) = 1 := by
      rw [chance_expect]
      simp
    rw [h3, one_mul] at h2
    rw [← h2]
    simp
  have hc : J.ideal = 𝔼 _s : Seed CS, J.ideal := (Fintype.expect_const _).symm
  rw [hreal, hc, ← expect_sub_distrib]
  refine (abs_expect_le _ _).trans ((expect_le_expect fun s _ => hone s).trans ?_)
  rw [expect_add_distrib, Fintype.expect_const]
  refine add_le_add_left ?_ _
  rw [expect_comm]
  refine expect_le univ_nonempty fun f _ => ?_
  rw [expect_comm]
  exact expect_le univ_nonempty fun v _ => hit_bound mode J n v (hJ v.1) f

section examples
open Toy

/-- Two calls with the same seed and info, in two modes. -/
def exampleRequests : Fin 2 → KeyRequest := fun i => ⟨if i = 0 then .Voprf else .Poprf, [1, 2], [3]⟩

/-- An event about another tag: the entry for an empty message is 7. -/
def exampleEvent (f : Table suite) : Prop := f ⟨([], []), by decide⟩ = (7 : F)

example : (∀ i, (exampleRequests i).Sized) ∧
    (∀ i j, i ≠ j → (exampleRequests i).mode ≠ (exampleRequests j).mode ∨
      (exampleRequests i).hashed ≠ (exampleRequests j).hashed) ∧
    (Unrelated exampleEvent fun q => ∃ i, (exampleRequests i).Asks suite q) ∧
    (∃ f, exampleEvent f) ∧ ∃ f, ¬ exampleEvent f := by
  refine ⟨fun _ => ⟨show 2 ≤ 65533 by decide, show 1 ≤ 65535 by decide⟩, ?_, ?_, ⟨fun _ => (7 : F), rfl⟩, ⟨fun _ => (8 : F), ?_⟩⟩
  · intro i j h
    refine .inl ?_
    unfold exampleRequests
    fin_cases i <;> fin_cases j <;> simp_all
  · intro f f' h e
    refine (h _ ?_).symm.trans e
    rintro ⟨i, c, hc⟩
    exact absurd (congrArg Prod.snd hc) (by simp)
  · exact show (8 : F) ≠ 7 by decide

/-- The two derivations give the keys 5 and 6 with probability `((1 - 251^-256) / 250)²`. -/
example : chance (fun f : Table suite => ∀ i, (exampleRequests i).key f = .ok ((if i = 0 then 5 else 6 : F))) =
    ((1 - (1 / 251) ^ 256) / 250) ^ 2 := by
  have h := C62_uniform Toy.wf 2 exampleRequests (fun _ => ⟨show 2 ≤ 65533 by decide, show 1 ≤ 65535 by decide⟩)
    (fun i j h => .inl (by unfold exampleRequests; fin_cases i <;> fin_cases j <;> simp_all))
    (fun _ => True) (fun _ _ _ h => h) (fun i => (if i = 0 then 5 else 6 : F))
    (fun i => by fin_cases i <;> exact show (_ : F) ≠ 0 by decide)
  have hc : Nat.card suite.Scalar = 251 := show Nat.card (ZMod 251) = 251 by simp
  have ht : chance (fun _ : Table suite => True) = 1 := by
    let _ := Fintype.ofFinite (Table suite)
    rw [chance_expect]
    simp
  simp only [true_and, hc, ht, one_mul] at h
  rw [h]
  norm_num

/-- A party that asks for one entry and compares it with the key it is given. -/
def exampleJudge : KeyJudge suite := fun k =>
  .ask ⟨([], []), by decide⟩ fun a => .done (decide ((a : F) = k))

example : suite.group.scalarLen ≤ 65533 ∧ ∀ k, (exampleJudge k).Within 1 := ⟨by decide, fun _ _ => trivial⟩

end examples

end Voprf
