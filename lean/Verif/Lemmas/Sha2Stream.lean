import Verif.Model.Sha2Stream
import Mathlib.Tactic.Ring
import Mathlib.Tactic.Set
import Mathlib.Tactic.Linarith

/-!
# The incremental hashers compute the hash of the concatenation
-/

namespace Sha2.Stream

open Voprf (Bytes)

theorem chunks_length (n : Nat) : ∀ a (x : Bytes), (chunks n a x).length = a
  | 0, _ => rfl
  | a + 1, x => by simp [chunks, chunks_length n a]

theorem chunks_add (n : Nat) : ∀ a b (x : Bytes), chunks n (a + b) x = chunks n a x ++ chunks n b (x.drop (a * n))
  | 0, b, x => by simp [chunks]
  | a + 1, b, x => by
      rw [show a + 1 + b = (a + b) + 1 by omega, chunks, chunks, chunks_add n a b, List.drop_drop,
        List.cons_append, show n + a * n = (a + 1) * n by ring]

theorem chunks_append (n : Nat) : ∀ a (x y : Bytes), a * n ≤ x.length → chunks n a (x ++ y) = chunks n a x
  | 0, _, _, _ => rfl
  | a + 1, x, y, h => by
      have h1 : n ≤ x.length := le_trans (by rw [Nat.succ_mul]; omega) h
      rw [chunks, chunks, List.take_append_of_le_length h1, List.drop_append_of_le_length h1,
        chunks_append n a _ y (by rw [List.length_drop]; rw [Nat.succ_mul] at h; omega)]

theorem chunks_one (n : Nat) (x : Bytes) (h : x.length = n) : chunks n 1 x = [x] := by
  rw [chunks, chunks, ← h, List.take_length]

theorem compressBlocks_append (v : Variant) (s : State) (a b : List Bytes) :
    compressBlocks v s (a ++ b) = compressBlocks v (compressBlocks v s a) b := List.foldl_append

/-- What the hasher knows about the bytes absorbed so far. -/
structure Inv (v : Variant) (iv : State) (h : Hasher) (msg : Bytes) : Prop where
  length : msg.length = h.blockLen * blockSize v + h.buffer.length
  short : h.buffer.length < blockSize v
  buffer : msg.drop (h.blockLen * blockSize v) = h.buffer
  state : h.state = compressBlocks v iv (chunks (blockSize v) h.blockLen msg)

theorem inv_new {v : Variant} (hv : 0 < blockSize v) (iv : State) : Inv v iv (.new iv) [] where
  length := by simp [Hasher.new]
  short := hv
  buffer := by simp [Hasher.new]
  state := rfl

/-- Complete blocks appended to a message of complete blocks. -/
theorem inv_blocks {v : Variant} {iv : State} {h : Hasher} {msg input : Bytes} (hi : Inv v iv h msg)
    (hb : h.buffer = []) (hv : 0 < blockSize v) :
    Inv v iv { (h.updateBlocks v (chunks (blockSize v) (input.length / blockSize v) input)) with
      buffer := input.drop (input.length / blockSize v * blockSize v) } (msg ++ input) := by
  have hl := hi.length
  rw [hb, List.length_nil, add_zero] at hl
  have hd := Nat.div_add_mod' input.length (blockSize v)
  have hm := Nat.mod_lt input.length hv
  set q := input.length / blockSize v with hq
  clear_value q
  refine ⟨?_, ?_, ?_, ?_⟩
  · simp only [Hasher.updateBlocks, chunks_length, List.length_append, List.length_drop, hl, add_mul]
    omega
  · simp only [List.length_drop]
    omega
  · simp only [Hasher.updateBlocks, chunks_length, add_mul]
    rw [← hl, List.drop_length_add_append]
  · simp only [Hasher.updateBlocks, chunks_length]
    rw [chunks_add, compressBlocks_append, chunks_append _ _ _ _ hl.ge, ← hi.state, ← hl, List.drop_left]

theorem inv_update {v : Variant} {iv : State} {h : Hasher} {msg : Bytes} (hi : Inv v iv h msg)
    (hv : 0 < blockSize v) (input : Bytes) : Inv v iv (h.update v input) (msg ++ input) := by
  unfold Hasher.update
  simp only
  split
  · next hlt =>
    have hl := hi.length
    refine ⟨?_, ?_, ?_, ?_⟩
    · simp only [List.length_append, hl]; omega
    · simp only [List.length_append]; omega
    · simp only
      rw [List.drop_append_of_le_length (by omega), hi.buffer]
    · simp only
      rw [chunks_append _ _ _ _ (by omega)]
      exact hi.state
  · next hge =>
    have finish : ∀ (h' : Hasher) (msg' rest : Bytes), Inv v iv { h' with buffer := [] } msg' →
        Inv v iv { (if rest.length / blockSize v ≠ 0 then
          h'.updateBlocks v (chunks (blockSize v) (rest.length / blockSize v) rest) else h') with
          buffer := rest.drop (rest.length / blockSize v * blockSize v) } (msg' ++ rest) := by
      intro h' msg' rest hi'
      have := inv_blocks hi' rfl hv (input := rest)
      split
      · exact this
      · next h0 =>
        have h0 : rest.length / blockSize v = 0 := not_not.mp h0
        rw [h0] at this ⊢
        exact this
    by_cases hpos : h.buffer.length = 0
    · have hb : h.buffer = [] := List.length_eq_zero_iff.mp hpos
      simp only [hpos, ne_eq, not_true_eq_false, if_false]
      refine finish h msg input ?_
      rw [← hb]
      exact hi
    · simp only [ne_eq, hpos, not_false_eq_true, if_true]
      have hs := hi.short
      have hl := hi.length
      set rem := blockSize v - h.buffer.length with hrem
      clear_value rem
      have hblk : (h.buffer ++ input.take rem).length = blockSize v := by
        simp only [List.length_append, List.length_take]
        omega
      have := finish (h.updateBlocks v [h.buffer ++ input.take rem]) (msg ++ input.take rem) (input.drop rem) ?_
      · rw [List.append_assoc, List.take_append_drop] at this
        exact this
      · have hc : chunks (blockSize v) 1 (h.buffer ++ input.take rem) = [h.buffer ++ input.take rem] :=
          chunks_one _ _ hblk
        refine ⟨?_, hv, ?_, ?_⟩
        · simp only [Hasher.updateBlocks, List.length_append, List.length_take, List.length_nil,
            List.length_singleton, add_mul, hl]
          omega
        · simp only [Hasher.updateBlocks, List.length_singleton]
          apply List.drop_eq_nil_of_le
          simp only [List.length_append, List.length_take, add_mul, hl]
          omega
        · simp only [Hasher.updateBlocks, List.length_singleton]
          rw [chunks_add, compressBlocks_append, chunks_append _ _ _ _ (by omega), ← hi.state,
            List.drop_append_of_le_length (by omega), hi.buffer, hc]

theorem inv_foldl {v : Variant} {iv : State} (hv : 0 < blockSize v) :
    ∀ (parts : List Bytes) (h : Hasher) (msg : Bytes), Inv v iv h msg →
      Inv v iv (parts.foldl (Hasher.update v) h) (msg ++ parts.flatten)
  | [], _, _, hi => by simpa using hi
  | d :: ds, h, msg, hi => by
      have := inv_foldl hv ds _ _ (inv_update hi hv d)
      rwa [List.append_assoc] at this

theorem pad_chunks {v : Variant} {iv : State} {h : Hasher} {msg : Bytes} (hi : Inv v iv h msg)
    (hw : 0 < v.w / 8) :
    compressBlocks v iv (chunks (blockSize v) ((pad v msg).length / blockSize v) (pad v msg)) =
      digestPad v h.state h.buffer (bytesOf (2 * (v.w / 8)) (8 * (h.buffer.length + blockSize v * h.blockLen))) := by
  have hs := hi.short
  have hl := hi.length
  have hlen : h.buffer.length + blockSize v * h.blockLen = msg.length := by rw [hl]; ring
  rw [hlen]
  set suffix := bytesOf (2 * (v.w / 8)) (8 * msg.length) with hsuf
  have hsl : suffix.length = 2 * (v.w / 8) := bytesOf_length _ _
  have hB : blockSize v = 16 * (v.w / 8) := rfl
  have hpad : pad v msg = msg ++ ([0x80] ++ List.replicate
      ((blockSize v - (msg.length + 1 + 2 * (v.w / 8)) % blockSize v) % blockSize v) 0 ++ suffix) := by
    unfold pad
    simp only [← hB, ← hsuf, List.append_assoc]
  clear_value suffix
  rw [hpad, hi.state]
  set B := blockSize v with hBdef
  clear_value B
  have hmod : (msg.length + 1 + 2 * (v.w / 8)) % B = (h.buffer.length + 1 + 2 * (v.w / 8)) % B := by
    rw [hl, show h.blockLen * B + h.buffer.length + 1 + 2 * (v.w / 8) =
      h.buffer.length + 1 + 2 * (v.w / 8) + h.blockLen * B by ring, Nat.add_mul_mod_self_right]
  rw [hmod]
  set tail := [0x80] ++ List.replicate ((B - (h.buffer.length + 1 + 2 * (v.w / 8)) % B) % B) (0 : UInt8) ++ suffix
    with htail
  have key : ∀ m, (h.buffer ++ tail).length = m * B →
      compressBlocks v iv (chunks B ((msg ++ tail).length / B) (msg ++ tail)) =
        compressBlocks v (compressBlocks v iv (chunks B h.blockLen msg)) (chunks B m (h.buffer ++ tail)) := by
    intro m hm
    have : (msg ++ tail).length / B = h.blockLen + m := by
      rw [List.length_append] at hm ⊢
      rw [hl, show h.blockLen * B + h.buffer.length + tail.length = (h.blockLen + m) * B by rw [add_mul]; omega]
      exact Nat.mul_div_cancel _ (by omega)
    rw [this, chunks_add, compressBlocks_append, chunks_append _ _ _ _ (by omega),
      List.drop_append_of_le_length (by omega), hBdef, hi.buffer]
  unfold digestPad
  simp only [← hBdef]
  rw [hsl]
  split
  · next hlt =>
    have hz : (B - (h.buffer.length + 1 + 2 * (v.w / 8)) % B) % B =
        (B - (h.buffer.length + 1)) + (B - 2 * (v.w / 8)) := by
      have e1 : (h.buffer.length + 1 + 2 * (v.w / 8)) % B = h.buffer.length + 1 + 2 * (v.w / 8) - B := by
        rw [Nat.mod_eq_sub_mod (by omega), Nat.mod_eq_of_lt (by omega)]
      rw [e1, Nat.mod_eq_of_lt (by omega)]
      omega
    rw [hz] at htail
    have e : h.buffer ++ tail = (h.buffer ++ [0x80] ++ List.replicate (B - (h.buffer.length + 1)) 0) ++
        (List.replicate (B - 2 * (v.w / 8)) 0 ++ suffix) := by
      rw [htail, ← List.replicate_append_replicate]
      simp only [List.append_assoc]
    have l1 : (h.buffer ++ [0x80] ++ List.replicate (B - (h.buffer.length + 1)) (0 : UInt8)).length = B := by
      simp only [List.length_append, List.length_singleton, List.length_replicate]
      omega
    have l2 : (List.replicate (B - 2 * (v.w / 8)) (0 : UInt8) ++ suffix).length = B := by
      simp only [List.length_append, List.length_replicate, hsl]
      omega
    rw [key 2 (by rw [e, List.length_append, l1, l2]; ring), e, show 2 = 1 + 1 from rfl, chunks_add,
      chunks_append _ _ _ _ (by omega), chunks_one _ _ l1, one_mul, List.drop_append_of_le_length (by omega),
      List.drop_eq_nil_of_le (by omega), List.nil_append, chunks_one _ _ l2, compressBlocks_append]
  · next hge =>
    have hz : (B - (h.buffer.length + 1 + 2 * (v.w / 8)) % B) % B = B - 2 * (v.w / 8) - (h.buffer.length + 1) := by
      rcases Nat.lt_or_ge (h.buffer.length + 1 + 2 * (v.w / 8)) B with hc | hc
      · rw [Nat.mod_eq_of_lt hc, Nat.mod_eq_of_lt (by omega)]
        omega
      · have : h.buffer.length + 1 + 2 * (v.w / 8) = B := by omega
        rw [this, Nat.mod_self, Nat.sub_zero, Nat.mod_self]
        omega
    rw [hz] at htail
    have e : h.buffer ++ tail =
        (h.buffer ++ [0x80] ++ List.replicate (B - (h.buffer.length + 1)) 0).take (B - 2 * (v.w / 8)) ++ suffix := by
      rw [htail]
      have : List.replicate (B - (h.buffer.length + 1)) (0 : UInt8) =
          List.replicate (B - 2 * (v.w / 8) - (h.buffer.length + 1)) 0 ++ List.replicate (2 * (v.w / 8)) 0 := by
        rw [List.replicate_append_replicate]
        congr 1
        omega
      rw [this, ← List.append_assoc (h.buffer ++ [0x80]), List.take_left' (by
        simp only [List.length_append, List.length_singleton, List.length_replicate]; omega)]
      simp only [List.append_assoc]
    have l : ((h.buffer ++ [0x80] ++ List.replicate (B - (h.buffer.length + 1)) (0 : UInt8)).take
        (B - 2 * (v.w / 8)) ++ suffix).length = B := by
      simp only [List.length_append, List.length_take, List.length_singleton, List.length_replicate, hsl]
      omega
    rw [key 1 (by rw [e, l]; ring), e, chunks_one _ _ l]

/-- The incremental hasher is the hash of the concatenation. -/
theorem stream_eq {v : Variant} (hw : 0 < v.w / 8) (iv : State) (parts : List Bytes) :
    (parts.foldl (Hasher.update v) (.new iv)).finalize v = hash v iv parts.flatten := by
  have hv : 0 < blockSize v := by unfold blockSize; omega
  have hi := inv_foldl (iv := iv) hv parts _ _ (inv_new hv iv)
  rw [List.nil_append] at hi
  have := pad_chunks hi hw
  unfold Hasher.finalize hash
  simp only
  rw [← this]
  rfl

end Sha2.Stream
