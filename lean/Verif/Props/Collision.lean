import Verif.Props.Predict
import Verif.Lemmas.Collision

/-!
# C73: outputs commit to the key, the input and the info
-/

namespace Voprf

open Spec

variable {CS : CipherSuite} [L : CS.group.Lawful]

omit L in
open Classical in
/-- What the crate hashes for two entries is a collision of the table, unless the strings are the same. -/
theorem clash_bound {X : Type} (S : Strategy DigestQuestion (DigestValue CS) (List X)) (n m : Nat) (hS : S.Within n)
    (hm : ∀ D, (S.run D).length ≤ m) (str : X → Option Bytes) (P : Digests CS → Prop)
    (hP : ∀ D, P D → ∃ a ∈ S.run D, ∃ b ∈ S.run D, ∃ s t, str a = some s ∧ str b = some t ∧ s.length ≤ 262143 ∧
      t.length ≤ 262143 ∧ s ≠ t ∧ D.answer s = D.answer t) :
    chance P ≤ ((n + m).choose 2 : ℚ) / (256 : ℚ) ^ CS.hash.outputSize := by
  have hcard : (256 : ℚ) ^ CS.hash.outputSize = (Nat.card (DigestValue CS) : ℚ) := by
    rw [card_digestValue]; push_cast; rfl
  rw [hcard]
  let g : List X → List DigestQuestion := fun l =>
    l.filterMap fun c => (str c).bind fun s => if h : s.length ≤ 262143 then some ⟨s, h⟩ else none
  have hg : ∀ l : List X, ∀ c ∈ l, ∀ s, str c = some s → ∀ h : s.length ≤ 262143, (⟨s, h⟩ : DigestQuestion) ∈ g l := by
    intro l c hc s hs h
    exact List.mem_filterMap.mpr ⟨c, hc, by rw [hs]; exact dif_pos h⟩
  refine le_trans (chance_mono ?_) (Strategy.collision_bound S n m hS g fun D =>
    le_trans (List.length_filterMap_le _ _) (hm D))
  intro D h
  obtain ⟨a, ha, b, hb, s, t, hs, ht, hls, hlt, hne, he⟩ := hP D h
  refine ⟨⟨s, hls⟩, hg _ a ha s hs hls, ⟨t, hlt⟩, hg _ b hb t ht hlt, fun h => hne (congrArg Subtype.val h), ?_⟩
  exact Subtype.ext ((dif_pos hls).symm.trans (he.trans (dif_pos hlt)))

/-- C73, OPRF: a party of unlimited computing power asks at most `n` digests and names at most `m` pairs of a private
key and an input, all of its own choice. The probability that two different pairs have the same output is at most
`(n+m)(n+m-1)/2 / 256^Nh`. -/
theorem C73_oprf (wf : CS.WF) (S : Strategy DigestQuestion (DigestValue CS) (List (CS.Scalar × Bytes))) (n m : Nat)
    (hS : S.Within n) (hm : ∀ D, (S.run D).length ≤ m) :
    chance (fun D : Digests CS => ∃ a ∈ S.run D, ∃ b ∈ S.run D, a ≠ b ∧ ∃ y,
      OprfServer.evaluate (CS := digestSuite CS D) ⟨a.1⟩ a.2 = .ok y ∧
      OprfServer.evaluate (CS := digestSuite CS D) ⟨b.1⟩ b.2 = .ok y) ≤
      ((n + m).choose 2 : ℚ) / (256 : ℚ) ^ CS.hash.outputSize := by
  refine clash_bound S n m hS hm (fun c => match Spec.hashToGroup CS .Oprf c.2 with
    | .ok P => some (outString CS c.2 none (c.1 • P))
    | .error _ => none) _ ?_
  rintro D ⟨a, ha, b, hb, hne, y, h1, h2⟩
  obtain ⟨P, hP, h0, hl, h⟩ := (oprf_digest_iff wf D a.1 a.2 y).mp h1
  obtain ⟨P', hP', h0', hl', h'⟩ := (oprf_digest_iff wf D b.1 b.2 y).mp h2
  refine ⟨a, ha, b, hb, _, _, by rw [hP], by rw [hP'], outString_length wf _ _ _ hl (by simp),
    outString_length wf _ _ _ hl' (by simp), fun he => hne ?_, h.trans h'.symm⟩
  obtain ⟨hx, _, hE⟩ := outString_inj wf hl hl' (by simp) (by simp) he
  rw [hx] at hP
  cases Except.ok.inj (hP.symm.trans hP')
  exact Prod.ext (smul_left_injective CS.Scalar h0 hE) hx

/-- C73, VOPRF: the same for `VoprfServer::evaluate`; the public keys do not matter. -/
theorem C73_voprf (wf : CS.WF) (S : Strategy DigestQuestion (DigestValue CS) (List ((CS.Scalar × Bytes) × CS.Elem)))
    (n m : Nat) (hS : S.Within n) (hm : ∀ D, (S.run D).length ≤ m) :
    chance (fun D : Digests CS => ∃ a ∈ S.run D, ∃ b ∈ S.run D, a.1 ≠ b.1 ∧ ∃ y,
      VoprfServer.evaluate (CS := digestSuite CS D) ⟨a.1.1, a.2⟩ a.1.2 = .ok y ∧
      VoprfServer.evaluate (CS := digestSuite CS D) ⟨b.1.1, b.2⟩ b.1.2 = .ok y) ≤
      ((n + m).choose 2 : ℚ) / (256 : ℚ) ^ CS.hash.outputSize := by
  refine clash_bound S n m hS hm (fun c => match Spec.hashToGroup CS .Voprf c.1.2 with
    | .ok P => some (outString CS c.1.2 none (c.1.1 • P))
    | .error _ => none) _ ?_
  rintro D ⟨a, ha, b, hb, hne, y, h1, h2⟩
  obtain ⟨P, hP, h0, hl, h⟩ := (voprf_digest_iff wf D a.1.1 a.2 a.1.2 y).mp h1
  obtain ⟨P', hP', h0', hl', h'⟩ := (voprf_digest_iff wf D b.1.1 b.2 b.1.2 y).mp h2
  refine ⟨a, ha, b, hb, _, _, by rw [hP], by rw [hP'], outString_length wf _ _ _ hl (by simp),
    outString_length wf _ _ _ hl' (by simp), fun he => hne ?_, h.trans h'.symm⟩
  obtain ⟨hx, _, hE⟩ := outString_inj wf hl hl' (by simp) (by simp) he
  rw [hx] at hP
  cases Except.ok.inj (hP.symm.trans hP')
  exact Prod.ext (smul_left_injective CS.Scalar h0 hE) hx

/-- C73, POPRF: the same for triples of a private key, an input and an info; omitted info counts as different
from every info. -/
theorem C73_poprf (wf : CS.WF)
    (S : Strategy DigestQuestion (DigestValue CS) (List ((CS.Scalar × Bytes × Option Bytes) × CS.Elem)))
    (n m : Nat) (hS : S.Within n) (hm : ∀ D, (S.run D).length ≤ m) :
    chance (fun D : Digests CS => ∃ a ∈ S.run D, ∃ b ∈ S.run D, a.1 ≠ b.1 ∧ ∃ y,
      PoprfServer.evaluate (CS := digestSuite CS D) ⟨a.1.1, a.2⟩ a.1.2.1 a.1.2.2 = .ok y ∧
      PoprfServer.evaluate (CS := digestSuite CS D) ⟨b.1.1, b.2⟩ b.1.2.1 b.1.2.2 = .ok y) ≤
      ((n + m).choose 2 : ℚ) / (256 : ℚ) ^ CS.hash.outputSize := by
  refine clash_bound S n m hS hm (fun c =>
    match Spec.hashToGroup CS .Poprf c.1.2.1, Spec.hashToScalar CS .Poprf (infoInput (c.1.2.2.getD [])) with
    | .ok P, .ok t => some (outString CS c.1.2.1 c.1.2.2 ((c.1.1 + t)⁻¹ • P))
    | _, _ => none) _ ?_
  rintro D ⟨a, ha, b, hb, hne, y, h1, h2⟩
  obtain ⟨P, t, hP, h0, hl, hi, ht, hk, h⟩ := (poprf_digest_iff wf D a.1.1 a.2 a.1.2.1 y a.1.2.2).mp h1
  obtain ⟨P', t', hP', h0', hl', hi', ht', hk', h'⟩ := (poprf_digest_iff wf D b.1.1 b.2 b.1.2.1 y b.1.2.2).mp h2
  refine ⟨a, ha, b, hb, _, _, by rw [hP, ht], by rw [hP', ht'], outString_length wf _ _ _ hl hi,
    outString_length wf _ _ _ hl' hi', fun he => hne ?_, h.trans h'.symm⟩
  obtain ⟨hx, hinfo, hE⟩ := outString_inj wf hl hl' hi hi' he
  rw [hx] at hP
  rw [hinfo] at ht
  cases Except.ok.inj (hP.symm.trans hP')
  cases Except.ok.inj (ht.symm.trans ht')
  have := inv_injective (smul_left_injective CS.Scalar h0 hE)
  exact Prod.ext (add_right_cancel this) (Prod.ext hx hinfo)

/-- C73, OPRF client: whatever the server answers, `finalize` gives the same output for two different inputs with at
most that probability, even if the party chooses the blinds, the inputs and the responses. -/
theorem C73_oprf_finalize (wf : CS.WF)
    (S : Strategy DigestQuestion (DigestValue CS) (List (CS.Scalar × Bytes × CS.Elem)))
    (n m : Nat) (hS : S.Within n) (hm : ∀ D, (S.run D).length ≤ m) :
    chance (fun D : Digests CS => ∃ a ∈ S.run D, ∃ b ∈ S.run D, a.1 ≠ 0 ∧ b.1 ≠ 0 ∧ a.2.1 ≠ b.2.1 ∧ ∃ y,
      OprfClient.finalize (CS := digestSuite CS D) ⟨a.1⟩ a.2.1 ⟨a.2.2⟩ = .ok y ∧
      OprfClient.finalize (CS := digestSuite CS D) ⟨b.1⟩ b.2.1 ⟨b.2.2⟩ = .ok y) ≤
      ((n + m).choose 2 : ℚ) / (256 : ℚ) ^ CS.hash.outputSize := by
  have key : ∀ (D : Digests CS) (b : CS.Scalar) (x : Bytes) (E : CS.Elem) (y : Bytes), b ≠ 0 →
      OprfClient.finalize (CS := digestSuite CS D) ⟨b⟩ x ⟨E⟩ = .ok y →
      x.length ≤ 65535 ∧ D.answer (outString CS x none (b⁻¹ • E)) = y := by
    intro D b x E y hb h
    have h := (OprfClient.finalize_eq (CS := digestSuite CS D) ⟨b⟩ hb x ⟨E⟩).symm.trans h
    split at h
    · next hl => exact ⟨hl, Res.ok.inj h⟩
    · exact nomatch h
  refine clash_bound S n m hS hm (fun c => some (outString CS c.2.1 none (c.1⁻¹ • c.2.2))) _ ?_
  rintro D ⟨a, ha, b, hb, ha0, hb0, hne, y, h1, h2⟩
  obtain ⟨hl, h⟩ := key D _ _ _ _ ha0 h1
  obtain ⟨hl', h'⟩ := key D _ _ _ _ hb0 h2
  exact ⟨a, ha, b, hb, _, _, rfl, rfl, outString_length wf _ _ _ hl (by simp), outString_length wf _ _ _ hl' (by simp),
    fun he => hne (outString_inj wf hl hl' (by simp) (by simp) he).1, h.trans h'.symm⟩

/-- C73, VOPRF client: the same, even if the party chooses everything the calls look at: key, proofs, messages. -/
theorem C73_voprf_finalize (wf : CS.WF) (S : Strategy DigestQuestion (DigestValue CS) (List (VoprfAttempt CS)))
    (n m : Nat) (hS : S.Within n) (hm : ∀ D, (S.run D).length ≤ m) :
    chance (fun D : Digests CS => ∃ a ∈ S.run D, ∃ b ∈ S.run D, a.blind ≠ 0 ∧ b.blind ≠ 0 ∧ a.input ≠ b.input ∧ ∃ y,
      VoprfClient.finalize (CS := digestSuite CS D) ⟨a.blind, a.blindedElement⟩ a.input ⟨a.message⟩ ⟨a.c, a.s⟩ a.pk =
        .ok y ∧
      VoprfClient.finalize (CS := digestSuite CS D) ⟨b.blind, b.blindedElement⟩ b.input ⟨b.message⟩ ⟨b.c, b.s⟩ b.pk =
        .ok y) ≤
      ((n + m).choose 2 : ℚ) / (256 : ℚ) ^ CS.hash.outputSize := by
  have key : ∀ (D : Digests CS) (a : VoprfAttempt CS) (y : Bytes), a.blind ≠ 0 →
      VoprfClient.finalize (CS := digestSuite CS D) ⟨a.blind, a.blindedElement⟩ a.input ⟨a.message⟩ ⟨a.c, a.s⟩ a.pk =
        .ok y →
      a.input.length ≤ 65535 ∧ D.answer (outString CS a.input none (a.blind⁻¹ • a.message)) = y := by
    intro D a y hb h
    have h := (VoprfClient.finalize_eq (CS := digestSuite CS D) ⟨a.blind, a.blindedElement⟩ hb a.input ⟨a.message⟩
      ⟨a.c, a.s⟩ a.pk).symm.trans h
    obtain ⟨_, _, h⟩ := (Res.bind_eq_ok ..).mp h
    unfold itemResult at h
    split at h
    · next hl => exact ⟨hl, Res.ok.inj h⟩
    · exact nomatch h
  refine clash_bound S n m hS hm (fun c => some (outString CS c.input none (c.blind⁻¹ • c.message))) _ ?_
  rintro D ⟨a, ha, b, hb, ha0, hb0, hne, y, h1, h2⟩
  obtain ⟨hl, h⟩ := key D _ _ ha0 h1
  obtain ⟨hl', h'⟩ := key D _ _ hb0 h2
  exact ⟨a, ha, b, hb, _, _, rfl, rfl, outString_length wf _ _ _ hl (by simp), outString_length wf _ _ _ hl' (by simp),
    fun he => hne (outString_inj wf hl hl' (by simp) (by simp) he).1, h.trans h'.symm⟩

/-- C73, POPRF client: the same for two different inputs or two different infos (omitted info is empty info). -/
theorem C73_poprf_finalize (wf : CS.WF) (S : Strategy DigestQuestion (DigestValue CS) (List (PoprfAttempt CS)))
    (n m : Nat) (hS : S.Within n) (hm : ∀ D, (S.run D).length ≤ m) :
    chance (fun D : Digests CS => ∃ a ∈ S.run D, ∃ b ∈ S.run D, a.blind ≠ 0 ∧ b.blind ≠ 0 ∧
      (a.input ≠ b.input ∨ a.info.getD [] ≠ b.info.getD []) ∧ ∃ y,
      PoprfClient.finalize (CS := digestSuite CS D) ⟨a.blind, a.blindedElement⟩ a.input ⟨a.message⟩ ⟨a.c, a.s⟩ a.pk
        a.info = .ok y ∧
      PoprfClient.finalize (CS := digestSuite CS D) ⟨b.blind, b.blindedElement⟩ b.input ⟨b.message⟩ ⟨b.c, b.s⟩ b.pk
        b.info = .ok y) ≤
      ((n + m).choose 2 : ℚ) / (256 : ℚ) ^ CS.hash.outputSize := by
  have key : ∀ (D : Digests CS) (a : PoprfAttempt CS) (y : Bytes), a.blind ≠ 0 →
      PoprfClient.finalize (CS := digestSuite CS D) ⟨a.blind, a.blindedElement⟩ a.input ⟨a.message⟩ ⟨a.c, a.s⟩ a.pk
        a.info = .ok y →
      a.input.length ≤ 65535 ∧ (a.info.getD []).length ≤ 65535 ∧
        D.answer (outString CS a.input (some (a.info.getD [])) (a.blind⁻¹ • a.message)) = y := by
    intro D a y hb h
    have h := (PoprfClient.finalize_eq (CS := digestSuite CS D) (digest_wf wf D) ⟨a.blind, a.blindedElement⟩ hb a.input
      ⟨a.message⟩ ⟨a.c, a.s⟩ a.pk a.info).symm.trans h
    obtain ⟨_, _, h⟩ := (Res.bind_eq_ok ..).mp h
    obtain ⟨_, _, h⟩ := (Res.bind_eq_ok ..).mp h
    unfold itemResultInfo at h
    split at h
    · next hl =>
      split at h
      · next hi => exact ⟨hl, hi, Res.ok.inj h⟩
      · exact nomatch h
    · exact nomatch h
  refine clash_bound S n m hS hm
    (fun c => some (outString CS c.input (some (c.info.getD [])) (c.blind⁻¹ • c.message))) _ ?_
  rintro D ⟨a, ha, b, hb, ha0, hb0, hne, y, h1, h2⟩
  obtain ⟨hl, hi, h⟩ := key D _ _ ha0 h1
  obtain ⟨hl', hi', h'⟩ := key D _ _ hb0 h2
  refine ⟨a, ha, b, hb, _, _, rfl, rfl, outString_length wf _ _ _ hl (by simpa using hi),
    outString_length wf _ _ _ hl' (by simpa using hi'), fun he => ?_, h.trans h'.symm⟩
  obtain ⟨hx, hinfo, _⟩ := outString_inj wf hl hl' (by simpa using hi) (by simpa using hi') he
  rcases hne with h | h
  · exact h hx
  · exact h (Option.some.inj hinfo)

/-- C73, without questions: among the outputs of one server (OPRF) for `m` inputs there are two equal ones for
different inputs with probability at most `m(m-1)/2 / 256^Nh`. -/
theorem C73_distinct (wf : CS.WF) (k : CS.Scalar) (inputs : List Bytes) :
    chance (fun D : Digests CS => ∃ x ∈ inputs, ∃ x' ∈ inputs, x ≠ x' ∧ ∃ y,
      OprfServer.evaluate (CS := digestSuite CS D) ⟨k⟩ x = .ok y ∧
      OprfServer.evaluate (CS := digestSuite CS D) ⟨k⟩ x' = .ok y) ≤
      (inputs.length.choose 2 : ℚ) / (256 : ℚ) ^ CS.hash.outputSize := by
  have h := C73_oprf wf (.done (inputs.map fun x => (k, x))) 0 inputs.length trivial fun _ => by
    simp [Strategy.run]
  rw [Nat.zero_add] at h
  refine le_trans (chance_mono ?_) h
  rintro D ⟨x, hx, x', hx', hne, hy⟩
  exact ⟨(k, x), List.mem_map.mpr ⟨x, hx, rfl⟩, (k, x'), List.mem_map.mpr ⟨x', hx', rfl⟩,
    fun h => hne (congrArg Prod.snd h), hy⟩

section examples
open Toy

/-- A party on the toy suite: asks one digest, then names two pairs with the same key, or with the same input,
depending on the answer. -/
def picky : Strategy DigestQuestion (DigestValue suite) (List (suite.Scalar × Bytes)) :=
  .ask ⟨[1], by simp⟩ fun a => .done
    (if a.1 = [] then [((7 : F), [1, 2]), ((7 : F), [3])] else [((7 : F), [1, 2]), ((8 : F), [1, 2])])

/-- It asks at most one question and names two pairs: the hypotheses of `C73_oprf` hold with `n = 1`, `m = 2`. -/
example : picky.Within 1 ∧ ∀ D, (picky.run D).length ≤ 2 := by
  refine ⟨fun _ => trivial, fun D => ?_⟩
  simp only [picky, Strategy.run]
  split <;> simp

/-- Its bound. -/
example : chance (fun D : Digests suite => ∃ a ∈ picky.run D, ∃ b ∈ picky.run D, a ≠ b ∧ ∃ y,
      OprfServer.evaluate (CS := digestSuite suite D) ⟨a.1⟩ a.2 = .ok y ∧
      OprfServer.evaluate (CS := digestSuite suite D) ⟨b.1⟩ b.2 = .ok y) ≤
      ((1 + 2).choose 2 : ℚ) / (256 : ℚ) ^ suite.hash.outputSize := by
  refine C73_oprf wf picky 1 2 (fun _ => trivial) fun D => ?_
  simp only [picky, Strategy.run]
  split <;> simp

/-- The event is not empty: under the table that answers zeros the two keys give the same output. -/
example : ∃ D : Digests suite, ∃ y,
    OprfServer.evaluate (CS := digestSuite suite D) ⟨(7 : F)⟩ [1, 2] = .ok y ∧
    OprfServer.evaluate (CS := digestSuite suite D) ⟨(8 : F)⟩ [1, 2] = .ok y := by
  refine ⟨fun _ => ⟨List.replicate suite.hash.outputSize 0, by simp⟩, List.replicate suite.hash.outputSize 0, ?_, ?_⟩
  · refine (oprf_digest_iff wf _ _ _ _).mpr ?_
    refine ⟨_, rfl, (by decide +kernel : Toy.suite.group.isIdentityElem _ = false) |> (isIdentityElem_eq_false _).mp, by simp, ?_⟩
    unfold Digests.answer
    split <;> rfl
  · refine (oprf_digest_iff wf _ _ _ _).mpr ?_
    refine ⟨_, rfl, (by decide +kernel : Toy.suite.group.isIdentityElem _ = false) |> (isIdentityElem_eq_false _).mp, by simp, ?_⟩
    unfold Digests.answer
    split <;> rfl

end examples

end Voprf
