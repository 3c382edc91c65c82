import Verif.Model.Expand
import Verif.Spec.Rfc9380
import Verif.Lemmas.Core

/-!
# The message expander computes RFC 9380 `expand_message_xmd`
-/

namespace Voprf.H2C

open Rfc9380

variable (H : HashAlg)

theorem i2osp_zero : ∀ n, i2osp 0 n = List.replicate n 0
  | 0 => rfl
  | n + 1 => by
      rw [i2osp, Nat.zero_div, i2osp_zero n, List.replicate_succ']
      rfl

theorem ofNat_mod (n : Nat) : UInt8.ofNat (n % 256) = UInt8.ofNat n := by
  apply UInt8.toNat_inj.mp
  simp

theorem i2osp_one (n : Nat) : i2osp n 1 = [UInt8.ofNat n] := by
  simp only [i2osp, List.nil_append, ofNat_mod]

theorem i2osp_two (n : Nat) (h : n < 65536) : i2osp n 2 = u16ToBeBytes n := by
  simp [i2osp, u16ToBeBytes, Nat.mod_eq_of_lt h, ofNat_mod]

theorem chainUpdateMulti_absorbed (ds : List Bytes) :
    ∀ d : Digest, (d.chainUpdateMulti ds).absorbed = d.absorbed ++ ds.flatten := by
  induction ds with
  | nil => intro d; simp [Digest.chainUpdateMulti]
  | cons x xs ih =>
      intro d
      have := ih (d.chainUpdate x)
      simp only [Digest.chainUpdateMulti, List.foldl_cons] at this ⊢
      rw [this]
      simp [Digest.chainUpdate]

theorem sum_length (ds : List Bytes) : (ds.map List.length).sum = ds.flatten.length := by
  simp [List.length_flatten]

/-- The bytes a domain contributes. -/
def Domain.data : Domain → Bytes
  | .hashed data => data
  | .array dsts => dsts.flatten

theorem updateHash_absorbed (d : Domain) (h : Digest) :
    (d.updateHash h).absorbed = h.absorbed ++ d.data := by
  cases d <;> simp [Domain.updateHash, Domain.data, chainUpdateMulti_absorbed, Digest.chainUpdate]

theorem len_eq (d : Domain) : [d.len] = i2osp d.data.length 1 := by
  rw [i2osp_one]
  cases d with
  | hashed d => rfl
  | array ds => simp only [Domain.len, Domain.data, sum_length]

theorem xmd_eq (dsts : List Bytes) :
    (Domain.xmd H dsts).map Domain.data =
      if dsts.flatten.length = 0 then none else some (shortDst H.digest dsts.flatten) := by
  unfold Domain.xmd
  rw [sum_length]
  by_cases h0 : dsts.flatten.length = 0
  · simp only [h0, if_true, Option.map_none]
  · by_cases h1 : dsts.flatten.length > 255
    · simp only [h0, h1, if_true, if_false, Option.map_some, shortDst]
      simp only [Domain.data, Digest.finalize, chainUpdateMulti_absorbed, Digest.chainUpdate,
        Digest.new, List.nil_append]
      rfl
    · simp only [h0, h1, if_false, Option.map_some, shortDst, Domain.data]

/-- Bytes an expander can still produce. -/
def ExpanderXmd.rest (e : ExpanderXmd) : Bytes :=
  e.bVals.drop e.offset ++
    (List.range (e.ell - e.index)).flatMap fun j => block H.digest e.b0 e.domain.data (e.index + 1 + j)

/-- The state of an expander in use. -/
structure ExpanderXmd.Inv (e : ExpanderXmd) : Prop where
  bVals : e.bVals = block H.digest e.b0 e.domain.data e.index
  index : 1 ≤ e.index
  offset : e.offset ≤ e.bVals.length

theorem block_length (b d : Bytes) : ∀ i, 1 ≤ i → (block H.digest b d i).length = H.outputSize
  | 1, _ => by rw [block]; exact H.digest_length _
  | i + 2, _ => by rw [block]; exact H.digest_length _

variable {H}

theorem next_some {e e' : ExpanderXmd} (he : e.Inv H) (h : e.next H = some e') :
    e'.Inv H ∧ e'.offset = 0 ∧ e.rest H = e.bVals.drop e.offset ++ e'.rest H := by
  unfold ExpanderXmd.next at h
  split at h
  · next hlt =>
    injection h with h
    have hb : e'.bVals = block H.digest e.b0 e.domain.data (e.index + 1) := by
      obtain ⟨k, hk⟩ : ∃ k, e.index = k + 1 := ⟨e.index - 1, by have := he.index; omega⟩
      rw [← h, hk]
      simp only [block]
      rw [← hk, ← he.bVals]
      simp only [Digest.finalize, Digest.chainUpdate, updateHash_absorbed, Digest.new,
        List.nil_append, len_eq, dstPrime, i2osp_one, List.append_assoc, strxor, hk]
    have e1 : e'.b0 = e.b0 := by rw [← h]
    have e2 : e'.domain = e.domain := by rw [← h]
    have e3 : e'.index = e.index + 1 := by rw [← h]
    have e4 : e'.offset = 0 := by rw [← h]
    have e5 : e'.ell = e.ell := by rw [← h]
    refine ⟨⟨?_, ?_, ?_⟩, e4, ?_⟩
    · rw [e1, e2, e3]; exact hb
    · omega
    · omega
    · unfold ExpanderXmd.rest
      rw [e1, e2, e3, e4, e5]
      congr 1
      obtain ⟨k, hk⟩ : ∃ k, e.ell - e.index = k + 1 := ⟨e.ell - e.index - 1, by omega⟩
      have hk' : e.ell - (e.index + 1) = k := by omega
      rw [hk, hk', List.range_succ_eq_map, List.flatMap_cons, List.flatMap_map, hb]
      simp only [Nat.add_zero, List.drop_zero]
      congr 1
      apply congrArg (fun f => List.flatMap f (List.range k))
      funext j
      rw [show e.index + 1 + j.succ = e.index + 1 + 1 + j by omega]
  · simp at h

theorem next_none {e : ExpanderXmd} (h : e.next H = none) : e.rest H = e.bVals.drop e.offset := by
  unfold ExpanderXmd.next at h
  split at h
  · simp at h
  · next hlt =>
    unfold ExpanderXmd.rest
    rw [show e.ell - e.index = 0 by omega]
    simp

theorem fillBytes_eq : ∀ (n : Nat) (e : ExpanderXmd), e.Inv H → n ≤ (e.rest H).length →
    (e.fillBytes H n).1 = (e.rest H).take n ∧ (e.fillBytes H n).2.Inv H ∧
    (e.fillBytes H n).2.rest H = (e.rest H).drop n := by
  intro n
  induction n with
  | zero => intro e he _; simp [ExpanderXmd.fillBytes, he]
  | succ n ih =>
      intro e he hn
      -- one iteration from a state with a byte available
      have step : ∀ e : ExpanderXmd, e.Inv H → e.offset < e.bVals.length →
          n + 1 ≤ (e.rest H).length →
          let r := ExpanderXmd.fillBytes H n { e with offset := e.offset + 1 }
          e.bVals.getD e.offset 0 :: r.1 = (e.rest H).take (n + 1) ∧ r.2.Inv H ∧
            r.2.rest H = (e.rest H).drop (n + 1) := by
        intro e he ho hn
        have hr : e.rest H = e.bVals.getD e.offset 0 ::
            ExpanderXmd.rest H { e with offset := e.offset + 1 } := by
          unfold ExpanderXmd.rest
          rw [List.drop_eq_getElem_cons ho, List.getD_eq_getElem?_getD, List.getElem?_eq_getElem ho]
          rfl
        have hi : ExpanderXmd.Inv H { e with offset := e.offset + 1 } :=
          ⟨he.bVals, he.index, ho⟩
        obtain ⟨h1, h2, h3⟩ := ih _ hi (by rw [hr] at hn; simpa using hn)
        refine ⟨?_, h2, ?_⟩
        · rw [hr, List.take_succ_cons, h1]
        · rw [hr, List.drop_succ_cons, h3]
      unfold ExpanderXmd.fillBytes
      by_cases ho : e.offset = e.bVals.length
      · simp only [ho, if_true]
        cases hnx : e.next H with
        | none =>
            rw [next_none hnx, ho] at hn
            simp at hn
        | some e' =>
            obtain ⟨hi, h0, hrest⟩ := next_some he hnx
            rw [ho] at hrest
            simp only [List.drop_length, List.nil_append] at hrest
            have hlen : e'.bVals.length = H.outputSize := by
              rw [hi.bVals]; exact block_length H _ _ _ hi.index
            have := step e' hi (by have := H.outputSize_pos; omega) (by rw [← hrest]; exact hn)
            rw [hrest]
            simpa using this
      · simp only [ho, if_false]
        exact step e he (by have := he.offset; omega) hn

theorem fillMany_eq (L : Nat) : ∀ (count : Nat) (e : ExpanderXmd), e.Inv H →
    L * count ≤ (e.rest H).length →
    fillMany H L count e = (List.range count).map fun i => ((e.rest H).drop (i * L)).take L := by
  intro count
  induction count with
  | zero => intro e _ _; rfl
  | succ count ih =>
      intro e he hn
      have hL : L ≤ (e.rest H).length :=
        le_trans (Nat.le_mul_of_pos_right L (Nat.succ_pos count)) hn
      obtain ⟨h1, h2, h3⟩ := fillBytes_eq L e he hL
      simp only [fillMany]
      rw [h1, ih _ h2 (by rw [h3, List.length_drop]; rw [Nat.mul_succ] at hn; omega), h3,
        List.range_succ_eq_map, List.map_cons, List.map_map]
      simp only [Nat.zero_mul, List.drop_zero, List.cons.injEq, true_and]
      apply List.map_congr_left
      intro i _
      simp only [Function.comp, List.drop_drop]
      rw [show L + i * L = i.succ * L by rw [Nat.succ_mul]; omega]

theorem flatMap_length_const {α : Type} (f : α → Bytes) (n : Nat) :
    ∀ l : List α, (∀ a ∈ l, (f a).length = n) → (l.flatMap f).length = l.length * n := by
  intro l
  induction l with
  | nil => intro _; simp
  | cons a l ih =>
      intro h
      rw [List.flatMap_cons, List.length_append, ih (fun x hx => h x (List.mem_cons_of_mem _ hx)),
        h a List.mem_cons_self, List.length_cons, Nat.succ_mul]
      omega

/-- The shape of a successful `expand_message`. -/
theorem expandMessage_eq (msgs dsts : List Bytes) (len : Nat) :
    (len = 0 ∨ len > 65535 ∨ (len + H.outputSize - 1) / H.outputSize > 255 ∨
      dsts.flatten.length = 0) ∧ expandMessage H msgs dsts len = none ∨
    ∃ e, expandMessage H msgs dsts len = some e ∧
      0 < len ∧ len ≤ 65535 ∧ (len + H.outputSize - 1) / H.outputSize ≤ 255 ∧
      0 < dsts.flatten.length ∧
      e.Inv H ∧ e.index = 1 ∧ e.offset = 0 ∧ e.ell = (len + H.outputSize - 1) / H.outputSize ∧
      e.domain.data = shortDst H.digest dsts.flatten ∧
      e.b0 = b0 H.digest H.blockSize msgs.flatten (shortDst H.digest dsts.flatten) len := by
  unfold expandMessage
  by_cases h0 : len = 0
  · left; exact ⟨.inl h0, by simp [h0]⟩
  by_cases h1 : len > 65535
  · left
    refine ⟨.inr (.inl h1), ?_⟩
    simp [h0, u16TryFrom, show ¬ len ≤ 65535 by omega]
  have h1' : len ≤ 65535 := by omega
  by_cases h2 : (len + H.outputSize - 1) / H.outputSize > 255
  · left
    refine ⟨.inr (.inr (.inl h2)), ?_⟩
    simp [h0, u16TryFrom, h1', h2]
  have hx := xmd_eq H dsts
  by_cases h3 : dsts.flatten.length = 0
  · left
    refine ⟨.inr (.inr (.inr h3)), ?_⟩
    rw [if_pos h3] at hx
    have : Domain.xmd H dsts = none := by
      cases hd : Domain.xmd H dsts with
      | none => rfl
      | some d => rw [hd] at hx; simp at hx
    simp [h0, u16TryFrom, h1', h2, this]
  · right
    rw [if_neg h3] at hx
    obtain ⟨d, hd, hdd⟩ : ∃ d, Domain.xmd H dsts = some d ∧
        d.data = shortDst H.digest dsts.flatten := by
      cases hd : Domain.xmd H dsts with
      | none => rw [hd] at hx; simp at hx
      | some d => rw [hd] at hx; exact ⟨d, rfl, by simpa using hx⟩
    simp only [h0, u16TryFrom, h1', h2, hd, if_true, if_false]
    refine ⟨_, rfl, by omega, trivial, by omega, by omega, ⟨?_, le_refl 1, Nat.zero_le _⟩, rfl, rfl, rfl,
      hdd, ?_⟩
    · simp only [block, Digest.finalize, Digest.chainUpdate, updateHash_absorbed, Digest.new,
        List.nil_append, len_eq, dstPrime, i2osp_one, List.append_assoc]
      rfl
    · simp only [b0, Digest.finalize, Digest.chainUpdate, updateHash_absorbed, Digest.new,
        List.nil_append, chainUpdateMulti_absorbed, len_eq, dstPrime, i2osp_zero,
        i2osp_two len (by omega), List.append_assoc, hdd]
      rfl

/-- `hash_to_field` produces the consecutive `L`-byte chunks of `expand_message_xmd`. -/
theorem hashToFieldBytes_eq (msgs dsts : List Bytes) (L count : Nat) :
    hashToFieldBytes H msgs dsts L count =
      (expandMessageXmd H.digest H.outputSize H.blockSize msgs.flatten dsts.flatten (L * count)).map
        fun u => (List.range count).map fun i => (u.drop (i * L)).take L := by
  unfold hashToFieldBytes expandMessageXmd
  rcases expandMessage_eq (H := H) msgs dsts (L * count) with ⟨hc, hn⟩ | ⟨e, he, h0, h1, h2, h3, hi,
    hix, ho, hell, hd, hb⟩
  · rw [hn]
    have : (L * count + H.outputSize - 1) / H.outputSize > 255 ∨ L * count > 65535 ∨
        L * count = 0 ∨ dsts.flatten.length = 0 := by tauto
    rw [if_pos this]
    rfl
  · rw [he]
    have : ¬ ((L * count + H.outputSize - 1) / H.outputSize > 255 ∨ L * count > 65535 ∨
        L * count = 0 ∨ dsts.flatten.length = 0) := by omega
    rw [if_neg this]
    have hell1 : 1 ≤ e.ell := by
      rw [hell, Nat.one_le_div_iff H.outputSize_pos]
      have := H.outputSize_pos
      omega
    have hrest : e.rest H = (List.range e.ell).flatMap fun i =>
        block H.digest e.b0 e.domain.data (i + 1) := by
      unfold ExpanderXmd.rest
      rw [hi.bVals, ho, hix, List.drop_zero]
      obtain ⟨k, hk⟩ : ∃ k, e.ell = k + 1 := ⟨e.ell - 1, by omega⟩
      rw [hk, List.range_succ_eq_map, List.flatMap_cons, List.flatMap_map, Nat.zero_add,
        Nat.add_sub_cancel]
      congr 1
      apply congrArg (fun f => List.flatMap f (List.range k))
      funext j
      rw [show 1 + 1 + j = j.succ + 1 by omega]
    have hlen : L * count ≤ (e.rest H).length := by
      rw [hrest, flatMap_length_const _ H.outputSize _ (fun i _ => block_length H _ _ _ (by omega)),
        List.length_range, hell]
      have hp := H.outputSize_pos
      have h := Nat.div_add_mod (L * count + H.outputSize - 1) H.outputSize
      have h' := Nat.mod_lt (L * count + H.outputSize - 1) hp
      rw [Nat.mul_comm] at h
      omega
    show some (fillMany H L count e) = _
    rw [fillMany_eq L count e hi hlen, Option.map_some]
    congr 1
    apply List.map_congr_left
    intro i hir
    rw [List.mem_range] at hir
    rw [← hell, ← hb, ← hd, ← hrest, List.drop_take, List.take_take]
    congr 1
    have : (i + 1) * L ≤ count * L := Nat.mul_le_mul_right L hir
    rw [Nat.succ_mul, Nat.mul_comm count L] at this
    omega

end Voprf.H2C
