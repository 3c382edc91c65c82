import Verif.Spec.Tape
import Verif.Props.Groups
import Verif.Props.Keys
import Verif.Props.Randomness
import Mathlib.Data.Set.Card
import Mathlib.Data.Set.Finite.List
import Mathlib.Data.Int.CardIntervalMod

/-!
# C61: scalars drawn from uniform bytes are uniform, and so are blinded messages
-/

namespace Voprf

open Spec

/-! ## Counting tapes -/

/-- A `random_scalar` that reads the tape in blocks of `len` bytes until one is accepted. -/
structure BlockSampler (G : VGroup) (len : Nat) (acc : Bytes → Option G.Scalar) : Prop where
  block : ∀ b t : Bytes, b.length = len → G.randomScalar (⟨b ++ t⟩ : Tape) =
    match acc b with
    | some x => some (x, ⟨t⟩)
    | none => G.randomScalar (⟨t⟩ : Tape)
  empty : G.randomScalar (⟨[]⟩ : Tape) = none

/-- The blocks on which a sampler gives a certain answer. -/
def blocks {α : Type} (len : Nat) (acc : Bytes → Option α) (x : Option α) : Set Bytes :=
  {b | b.length = len ∧ acc b = x}

instance : Finite UInt8 := Finite.of_injective UInt8.toFin fun _ _ h => UInt8.toFin_inj.mp h

theorem lists_finite (len : Nat) (p : Bytes → Prop) : {t : Bytes | t.length = len ∧ p t}.Finite :=
  (List.finite_length_eq UInt8 len).subset fun _ h => h.1

theorem blocks_finite {α : Type} (len : Nat) (acc : Bytes → Option α) (x : Option α) : (blocks len acc x).Finite :=
  lists_finite len _

theorem tapes_finite (len : Nat) (e : Tape → Prop) : (tapes len e).Finite := lists_finite len _

theorem append_ncard {len : Nat} {A B : Set Bytes} (hA : ∀ b ∈ A, b.length = len) :
    ((fun p : Bytes × Bytes => p.1 ++ p.2) '' (A ×ˢ B)).ncard = A.ncard * B.ncard := by
  rw [Set.InjOn.ncard_image, Set.ncard_prod]
  rintro ⟨a, b⟩ ⟨ha, -⟩ ⟨a', b'⟩ ⟨ha', -⟩ h
  have := List.append_inj h ((hA a ha).trans (hA a' ha').symm)
  exact Prod.ext this.1 this.2

/-- The number of ways to interleave `k` accepted blocks with rejected ones. -/
def ways (rejected total : Nat) : (n k : Nat) → Nat
  | n, 0 => total ^ n
  | 0, _ + 1 => 0
  | n + 1, k + 1 => rejected * ways rejected total n (k + 1) + ways rejected total n k

theorem ncard_tapes_true (len : Nat) : (tapes len fun _ => True).ncard = 256 ^ len := by
  induction len with
  | zero =>
      have : (tapes 0 fun _ => True) = {[]} := by ext t; simp [tapes]
      rw [this]; simp
  | succ n ih =>
      have h : (tapes (n + 1) fun _ => True) =
          (fun p : Bytes × Bytes => p.1 ++ p.2) '' (((fun b : UInt8 => [b]) '' Set.univ) ×ˢ tapes n fun _ => True) := by
        ext t
        simp only [tapes, and_true, Set.mem_ofPred_eq, Set.mem_image, Set.mem_prod, Set.image_univ, Set.mem_range,
          Prod.exists]
        constructor
        · intro h
          cases t with
          | nil => simp at h
          | cons b t => exact ⟨[b], t, ⟨⟨b, rfl⟩, by simpa using h⟩, rfl⟩
        · rintro ⟨_, t, ⟨⟨b, rfl⟩, h⟩, rfl⟩
          simp [h]
      rw [h, append_ncard (len := 1) (by rintro _ ⟨b, -, rfl⟩; rfl), ih,
        Set.ncard_image_of_injective _ (fun _ _ h => by simpa using h), Set.ncard_univ, Nat.card_eq_of_bijective
          (fun b : UInt8 => b.toFin) ⟨fun a b h => UInt8.toFin_inj.mp h, fun f => ⟨UInt8.ofFin f, rfl⟩⟩]
      rw [Nat.card_fin, pow_succ, mul_comm]

variable {G : VGroup} {len : Nat} {acc : Bytes → Option G.Scalar}

theorem draws_nil (t : Tape) : Drawing G [] t := ⟨t, rfl⟩

theorem draws_block (hs : BlockSampler G len acc) (x : G.Scalar) (xs : List G.Scalar) (b t : Bytes) (hb : b.length = len) :
    Drawing G (x :: xs) ⟨b ++ t⟩ ↔ (acc b = none ∧ Drawing G (x :: xs) ⟨t⟩) ∨ (acc b = some x ∧ Drawing G xs ⟨t⟩) := by
  simp only [Drawing, Consecutive, hs.block b t hb]
  cases h : acc b with
  | none => simp
  | some y =>
      simp only [Option.some.injEq, Prod.mk.injEq, reduceCtorEq, false_and, false_or]
      constructor
      · rintro ⟨rest, next, ⟨rfl, rfl⟩, h⟩
        exact ⟨rfl, rest, h⟩
      · rintro ⟨rfl, rest, h⟩
        exact ⟨rest, _, ⟨rfl, rfl⟩, h⟩

theorem tapes_succ (hs : BlockSampler G len acc) (n : Nat) (x : G.Scalar) (xs : List G.Scalar) :
    tapes ((n + 1) * len) (Drawing G (x :: xs)) =
      (fun p : Bytes × Bytes => p.1 ++ p.2) '' (blocks len acc none ×ˢ tapes (n * len) (Drawing G (x :: xs))) ∪
      (fun p : Bytes × Bytes => p.1 ++ p.2) '' (blocks len acc (some x) ×ˢ tapes (n * len) (Drawing G xs)) := by
  ext t
  simp only [tapes, blocks, Set.mem_ofPred_eq, Set.mem_union, Set.mem_image, Set.mem_prod, Prod.exists]
  constructor
  · rintro ⟨hl, hd⟩
    have hb : (t.take len).length = len := by rw [List.length_take, hl, Nat.succ_mul]; omega
    have ht : (t.drop len).length = n * len := by rw [List.length_drop, hl, Nat.succ_mul]; omega
    rw [← List.take_append_drop len t, draws_block hs _ _ _ _ hb] at hd
    rcases hd with ⟨ha, hd⟩ | ⟨ha, hd⟩
    · exact .inl ⟨_, _, ⟨⟨hb, ha⟩, ht, hd⟩, List.take_append_drop len t⟩
    · exact .inr ⟨_, _, ⟨⟨hb, ha⟩, ht, hd⟩, List.take_append_drop len t⟩
  · rintro (⟨b, t, ⟨⟨hb, ha⟩, ht, hd⟩, rfl⟩ | ⟨b, t, ⟨⟨hb, ha⟩, ht, hd⟩, rfl⟩)
    · exact ⟨by rw [List.length_append, hb, ht, Nat.succ_mul, Nat.add_comm],
        (draws_block hs _ _ _ _ hb).mpr (.inl ⟨ha, hd⟩)⟩
    · exact ⟨by rw [List.length_append, hb, ht, Nat.succ_mul, Nat.add_comm],
        (draws_block hs _ _ _ _ hb).mpr (.inr ⟨ha, hd⟩)⟩

theorem ncard_draws (hs : BlockSampler G len acc) (n : Nat) (xs : List G.Scalar) :
    (tapes (n * len) (Drawing G xs)).ncard =
      (xs.map fun x => (blocks len acc (some x)).ncard).prod *
        ways (blocks len acc none).ncard (256 ^ len) n xs.length := by
  induction n generalizing xs with
  | zero =>
      cases xs with
      | nil =>
          have : tapes (0 * len) (Drawing G []) = tapes (0 * len) fun _ => True := by
            ext t; simp [tapes, draws_nil]
          rw [this, ncard_tapes_true]
          simp [ways]
      | cons x xs =>
          have : tapes (0 * len) (Drawing G (x :: xs)) = ∅ := by
            ext t
            simp only [tapes, Set.mem_ofPred_eq, Set.mem_empty_iff_false, iff_false, not_and]
            intro ht
            have : t = [] := List.length_eq_zero_iff.mp (by simpa using ht)
            subst this
            rintro ⟨rest, next, h, -⟩
            rw [hs.empty] at h
            simp at h
          rw [this]
          simp [ways]
  | succ n ih =>
      cases xs with
      | nil =>
          have : tapes ((n + 1) * len) (Drawing G []) = tapes ((n + 1) * len) fun _ => True := by
            ext t; simp [tapes, draws_nil]
          rw [this, ncard_tapes_true]
          simp only [List.map_nil, List.prod_nil, one_mul, ways, List.length_nil]
          rw [← pow_mul, mul_comm]
      | cons x xs =>
          rw [tapes_succ hs, Set.ncard_union_eq ?_ (((blocks_finite _ _ _).prod (tapes_finite _ _)).image _)
            (((blocks_finite _ _ _).prod (tapes_finite _ _)).image _), append_ncard (fun b hb => hb.1),
            append_ncard (fun b hb => hb.1), ih, ih]
          · simp only [List.map_cons, List.prod_cons, List.length_cons, ways]
            ring
          · rw [Set.disjoint_left]
            rintro _ ⟨⟨b, t⟩, ⟨⟨hb, ha⟩, -⟩, rfl⟩ ⟨⟨b', t'⟩, ⟨⟨hb', ha'⟩, -⟩, h⟩
            have := (List.append_inj h (hb'.trans hb.symm)).1
            simp only at this hb ha hb' ha'
            rw [this, ha] at ha'
            simp at ha'

/-- A sampler finds nothing on a tape exactly if it rejects every block. -/
theorem ncard_none (hs : BlockSampler G len acc) (n : Nat) :
    (tapes (n * len) fun t => G.randomScalar t = none).ncard = (blocks len acc none).ncard ^ n := by
  induction n with
  | zero =>
      have : (tapes (0 * len) fun t => G.randomScalar t = none) = {[]} := by
        ext t
        simp only [tapes, Set.mem_ofPred_eq, zero_mul, List.length_eq_zero_iff, Set.mem_singleton_iff]
        exact ⟨fun h => h.1, fun h => ⟨h, h ▸ hs.empty⟩⟩
      rw [this]; simp
  | succ n ih =>
      have : (tapes ((n + 1) * len) fun t => G.randomScalar t = none) =
          (fun p : Bytes × Bytes => p.1 ++ p.2) '' (blocks len acc none ×ˢ
            tapes (n * len) fun t => G.randomScalar t = none) := by
        ext t
        simp only [tapes, blocks, Set.mem_ofPred_eq, Set.mem_image, Set.mem_prod, Prod.exists]
        constructor
        · rintro ⟨hl, hd⟩
          have hb : (t.take len).length = len := by rw [List.length_take, hl, Nat.succ_mul]; omega
          have ht : (t.drop len).length = n * len := by rw [List.length_drop, hl, Nat.succ_mul]; omega
          rw [← List.take_append_drop len t, hs.block _ _ hb] at hd
          refine ⟨_, _, ⟨⟨hb, ?_⟩, ht, ?_⟩, List.take_append_drop len t⟩ <;>
          · cases ha : acc (t.take len) with
            | none => simp [ha] at hd ⊢ <;> exact hd
            | some x => simp [ha] at hd
        · rintro ⟨b, t, ⟨⟨hb, ha⟩, ht, hd⟩, rfl⟩
          refine ⟨by rw [List.length_append, hb, ht, Nat.succ_mul, Nat.add_comm], ?_⟩
          rw [hs.block _ _ hb, ha]
          exact hd
      rw [this, append_ncard (fun b hb => hb.1), ih, pow_succ, mul_comm]

theorem ways_pos (rejected total : Nat) (h : 0 < total) : ∀ n k, k ≤ n → 0 < ways rejected total n k
  | n, 0, _ => by cases n <;> exact Nat.pow_pos h
  | n + 1, k + 1, hk => by
      rw [ways]
      have := ways_pos rejected total h n k (by omega)
      omega

/-! ## Counting blocks -/

theorem ncard_be (len : Nat) (p : Nat → Prop) :
    {b : Bytes | b.length = len ∧ p (ofBeBytes b)}.ncard = {n | n < 256 ^ len ∧ p n}.ncard := by
  refine Set.ncard_congr (fun b _ => ofBeBytes b) ?_ ?_ ?_
  · rintro b ⟨h, hp⟩
    exact ⟨h ▸ ofBeBytes_lt b, hp⟩
  · rintro a b ⟨ha, -⟩ ⟨hb, -⟩ h
    rw [← toBeBytes_ofBeBytes a, ← toBeBytes_ofBeBytes b, ha, hb, h]
  · rintro n ⟨hn, hp⟩
    exact ⟨toBeBytes len n, ⟨toBeBytes_length' _ _, by rwa [ofBeBytes_toBeBytes _ _ hn]⟩, ofBeBytes_toBeBytes _ _ hn⟩

theorem ncard_le (len : Nat) (p : Nat → Prop) :
    {b : Bytes | b.length = len ∧ p (ofLeBytes b)}.ncard = {n | n < 256 ^ len ∧ p n}.ncard := by
  refine Set.ncard_congr (fun b _ => ofLeBytes b) ?_ ?_ ?_
  · rintro b ⟨h, hp⟩
    exact ⟨h ▸ ofLeBytes_lt b, hp⟩
  · rintro a b ⟨ha, -⟩ ⟨hb, -⟩ h
    rw [← toLeBytes_ofLeBytes a, ← toLeBytes_ofLeBytes b, ha, hb, h]
  · rintro n ⟨hn, hp⟩
    exact ⟨toLeBytes len n, ⟨toLeBytes_length _ _, by rwa [ofLeBytes_toLeBytes _ _ hn]⟩, ofLeBytes_toLeBytes _ _ hn⟩

theorem fill_block (b t : Bytes) (len : Nat) (hb : b.length = len) :
    RngCore.fillBytes (⟨b ++ t⟩ : Tape) len = (b, ⟨t⟩) := by
  subst hb
  show ((b ++ t ++ List.replicate b.length 0).take b.length, (⟨(b ++ t).drop b.length⟩ : Tape)) = _
  rw [List.append_assoc, List.take_left, List.drop_left]

theorem fill_empty (len : Nat) : RngCore.fillBytes (⟨[]⟩ : Tape) len = (List.replicate len 0, ⟨[]⟩) := by
  show ((([] : Bytes) ++ List.replicate len 0).take len, (⟨([] : Bytes).drop len⟩ : Tape)) = _
  simp

/-- A loop around a one-block draw is a block sampler. -/
theorem sampler_of_run {G : VGroup} (len : Nat) (acc : Bytes → Option G.Scalar) (draw : Tape → Option G.Scalar × Tape)
    (hd : ∀ t, draw t = (acc (RngCore.fillBytes t len).1, (RngCore.fillBytes t len).2))
    (hr : ∀ (t : Tape) r, G.randomScalar t = some r ↔ Run draw t r)
    (h0 : acc (List.replicate len 0) = none) : BlockSampler G len acc := by
  constructor
  · intro b t hb
    have hdt : draw ⟨b ++ t⟩ = (acc b, ⟨t⟩) := by rw [hd, fill_block b t len hb]
    cases ha : acc b with
    | some x =>
        simp only
        rw [hr]
        exact .stop (by rw [hdt, ha])
    | none =>
        simp only
        apply Option.ext
        intro r
        rw [hr, hr]
        constructor
        · intro h
          cases h with
          | stop h => rw [hdt, ha] at h; simp at h
          | again h h' =>
              rw [hdt] at h
              injection h with _ h
              rwa [h]
        · exact .again (by rw [hdt, ha])
  · rw [run_none_iff draw _ _ (hr _)]
    intro i
    have hfix : draw ⟨[]⟩ = (none, ⟨[]⟩) := by rw [hd, fill_empty, h0]
    have : after draw ⟨[]⟩ i = ⟨[]⟩ := by
      induction i with
      | zero => rfl
      | succ i ih => rw [after, Function.iterate_succ_apply, hfix]; exact ih
    rw [this, hfix]

/-! ## The shipped groups -/

section nist
open Nist

/-- What `random_scalar` makes of one block. -/
def nistAcc (c : Params) (b : Bytes) : Option (Nist.group c).Scalar :=
  if 0 < ofBeBytes b ∧ ofBeBytes b < c.n then some (ofBeBytes b : c.Fn) else none

theorem nist_sampler (c : Params) : BlockSampler (Nist.group c) c.fieldLen (nistAcc c) := by
  refine sampler_of_run c.fieldLen _ (draw c) ?_ (fun t r => randomScalar_iff t r) ?_
  · intro t
    simp only [draw, drawScalar, scalarFromRepr, RngCore.fillBytes_length, true_and]
    refine congrArg (·, _) ?_
    rw [nistAcc]
    by_cases hlt : ofBeBytes (RngCore.fillBytes t c.fieldLen).1 < c.n
    · rw [if_pos hlt, Option.bind_some, nonZero]
      have hz : ((ofBeBytes (RngCore.fillBytes t c.fieldLen).1 : Nat) : c.Fn) = 0 ↔
          ofBeBytes (RngCore.fillBytes t c.fieldLen).1 = 0 := by
        rw [ZMod.natCast_eq_zero_iff]
        exact ⟨fun h => Nat.eq_zero_of_dvd_of_lt h hlt, fun h => h ▸ dvd_zero _⟩
      by_cases h0 : ofBeBytes (RngCore.fillBytes t c.fieldLen).1 = 0
      · rw [if_pos (hz.mpr h0), if_neg (by omega)]; rfl
      · rw [if_neg (fun h => h0 (hz.mp h)), if_pos ⟨by omega, hlt⟩]; rfl
    · rw [if_neg hlt, Option.bind_none, if_neg (by tauto)]; rfl
  · have : ofBeBytes (List.replicate c.fieldLen 0) = 0 := by
      have := ofBeBytes_replicate_zero c.fieldLen []
      rwa [List.append_nil] at this
    rw [nistAcc, this, if_neg (by omega)]

theorem nist_blocks (c : Params) (x : c.Fn) (hx : x ≠ 0) : (blocks c.fieldLen (nistAcc c) (some x)).ncard = 1 := by
  have h := ncard_be c.fieldLen (fun m => (if 0 < m ∧ m < c.n then some (m : c.Fn) else none) = some x)
  refine Eq.trans h ?_
  rw [Set.ncard_eq_one]
  refine ⟨x.val, ?_⟩
  have hpos : 0 < x.val := Nat.pos_of_ne_zero fun h => hx ((ZMod.val_eq_zero x).mp h)
  have hlt : x.val < c.n := ZMod.val_lt x
  ext m
  simp only [Set.mem_ofPred_eq, Set.mem_singleton_iff]
  constructor
  · rintro ⟨-, h⟩
    split at h
    · next hm =>
      injection h with h
      rw [← h, ZMod.val_natCast_of_lt hm.2]
    · simp at h
  · rintro rfl
    refine ⟨lt_trans hlt c.n_lt, ?_⟩
    rw [if_pos ⟨hpos, hlt⟩, ZMod.natCast_zmod_val]

theorem nist_rejected (c : Params) :
    (blocks c.fieldLen (nistAcc c) none).ncard = 256 ^ c.fieldLen - (c.n - 1) := by
  have h := ncard_be c.fieldLen (fun m => (if 0 < m ∧ m < c.n then some (m : c.Fn) else none) = none)
  refine Eq.trans h ?_
  have he : {m | m < 256 ^ c.fieldLen ∧ (if 0 < m ∧ m < c.n then some (m : c.Fn) else none) = none} =
      ↑(Finset.range (256 ^ c.fieldLen) \ Finset.Ico 1 c.n) := by
    ext m
    simp only [Set.mem_ofPred_eq, Finset.coe_sdiff, Finset.coe_range, Finset.coe_Ico, Set.mem_sdiff, Set.mem_Iio,
      Set.mem_Ico]
    refine and_congr_right fun _ => ?_
    by_cases h : 0 < m ∧ m < c.n
    · rw [if_pos h]; simp; omega
    · rw [if_neg h]; simp; omega
  rw [he, Set.ncard_coe_finset, Finset.card_sdiff_of_subset, Finset.card_range, Nat.card_Ico]
  intro m hm
  rw [Finset.mem_Ico] at hm
  exact Finset.mem_range.mpr (lt_trans hm.2 c.n_lt)

/-- C61, NIST curves: scalars drawn one after the other from uniform bytes are exactly uniform and independent on the
non-zero scalars. -/
theorem C61_nist_scalars (c : Params) [PrimeOrder c] : NearlyUniform (Nist.group c) c.fieldLen 1 1 := by
  intro n xs ys hx hy hl
  have h1 : ∀ zs : List (Nist.group c).Scalar, (∀ z ∈ zs, z ≠ 0) →
      (tapes (n * c.fieldLen) (Drawing (Nist.group c) zs)).ncard =
        ways (256 ^ c.fieldLen - (c.n - 1)) (256 ^ c.fieldLen) n zs.length := by
    intro zs hz
    rw [ncard_draws (nist_sampler c), nist_rejected]
    have : (zs.map fun x => (blocks c.fieldLen (nistAcc c) (some x)).ncard).prod = 1 := by
      refine List.prod_eq_one fun m hm => ?_
      obtain ⟨x, hx, rfl⟩ := List.mem_map.mp hm
      exact nist_blocks c x (hz x hx)
    rw [this, one_mul]
  rw [h1 xs hx, h1 ys hy, hl]

/-- C61, NIST curves: every sequence of non-zero scalars is drawn from some tape long enough, and a tape of `n` blocks is too
short for one scalar with probability `(1 - (order - 1) / 256 ^ len) ^ n`. -/
theorem C61_nist_supply (c : Params) [PrimeOrder c] (n : Nat) :
    (∀ xs : List (Nist.group c).Scalar, (∀ x ∈ xs, x ≠ 0) → xs.length ≤ n →
      (tapes (n * c.fieldLen) (Drawing (Nist.group c) xs)).Nonempty) ∧
    (tapes (n * c.fieldLen) fun t => (Nist.group c).randomScalar t = none).ncard =
      (256 ^ c.fieldLen - (c.n - 1)) ^ n := by
  refine ⟨fun xs hx hn => ?_, by rw [ncard_none (nist_sampler c), nist_rejected]⟩
  rw [← Set.ncard_pos (tapes_finite _ _), ncard_draws (nist_sampler c)]
  refine Nat.mul_pos (Nat.pos_of_ne_zero (List.prod_ne_zero ?_)) (ways_pos _ _ (by positivity) _ _ hn)
  intro h0
  obtain ⟨x, hm, h0⟩ := List.mem_map.mp h0
  rw [nist_blocks c x (hx x hm)] at h0
  simp at h0

end nist

section ristretto
open Ristretto

/-- What `random_scalar` makes of one block. -/
def ristrettoAcc (D : Dalek) (b : Bytes) : Option (Ristretto.group D).Scalar :=
  if (ofLeBytes b : Scalar) ≠ 0 then some (ofLeBytes b : Scalar) else none

theorem ristretto_sampler (D : Dalek) : BlockSampler (Ristretto.group D) 64 (ristrettoAcc D) :=
  sampler_of_run 64 _ drawScalar (fun _ => rfl) (fun t r => sampleLoop_iff drawScalar t r) (by
    have : ofLeBytes (List.replicate 64 0) = 0 := by decide
    rw [ristrettoAcc, this, Nat.cast_zero, if_neg (not_not.mpr rfl)])

theorem ell_count (v : Nat) : {m : Nat | m < 256 ^ 64 ∧ (m : Scalar) = (v : Scalar)}.ncard =
    256 ^ 64 / ell + if v % ell < 256 ^ 64 % ell then 1 else 0 := by
  rw [← Nat.count_modEq_card _ (Nat.Prime.pos (Fact.out (p := ell.Prime))), Nat.count_eq_card_filter_range,
    ← Set.ncard_coe_finset]
  congr 1
  ext m
  simp only [Set.mem_ofPred_eq, Finset.coe_filter, Finset.mem_range, ZMod.natCast_eq_natCast_iff]

theorem ristretto_blocks (D : Dalek) (x : Scalar) (hx : x ≠ 0) :
    let k := (blocks 64 (ristrettoAcc D) (some x)).ncard
    256 ^ 64 / ell ≤ k ∧ k ≤ 256 ^ 64 / ell + 1 := by
  have h := ncard_le 64 (fun m => (if (m : Scalar) ≠ 0 then some (m : Scalar) else none) = some x)
  have h' := ell_count x.val
  have he : {m : Nat | m < 256 ^ 64 ∧ (if (m : Scalar) ≠ 0 then some (m : Scalar) else none) = some x} =
      {m : Nat | m < 256 ^ 64 ∧ (m : Scalar) = (x.val : Scalar)} := by
    ext m
    simp only [Set.mem_ofPred_eq, ZMod.natCast_zmod_val]
    refine and_congr_right fun _ => ?_
    constructor
    · intro h
      split at h
      · injection h
      · simp at h
    · intro h
      rw [if_pos (h ▸ hx), h]
  rw [he, h'] at h
  intro k
  have hk : k = 256 ^ 64 / ell + if x.val % ell < 256 ^ 64 % ell then 1 else 0 := h
  rw [hk]
  split <;> omega

theorem ell_quotient : 2 ^ 259 ≤ 256 ^ 64 / ell ∧ 256 ^ 64 / ell + 1 ≤ 2 ^ 260 := by
  rw [ell_val]
  constructor <;> decide +kernel

theorem prod_ratio {α : Type} (a : α → Nat) (p q : Nat) : ∀ xs ys : List α, xs.length = ys.length →
    (∀ x ∈ xs, ∀ y ∈ ys, a x * p ≤ a y * q) → (xs.map a).prod * p ^ xs.length ≤ (ys.map a).prod * q ^ xs.length
  | [], [], _, _ => by simp
  | x :: xs, y :: ys, hl, h => by
      have ih := prod_ratio a p q xs ys (by simpa using hl)
        fun x hx y hy => h x (List.mem_cons_of_mem _ hx) y (List.mem_cons_of_mem _ hy)
      have h0 := h x List.mem_cons_self y List.mem_cons_self
      simp only [List.map_cons, List.prod_cons, List.length_cons, pow_succ]
      calc a x * (xs.map a).prod * (p ^ xs.length * p) = (a x * p) * ((xs.map a).prod * p ^ xs.length) := by ring
        _ ≤ (a y * q) * ((ys.map a).prod * q ^ xs.length) := Nat.mul_le_mul h0 ih
        _ = a y * (ys.map a).prod * (q ^ xs.length * q) := by ring

/-- C61, Ristretto255: scalars drawn one after the other from uniform bytes are independent, and uniform on the non-zero
scalars up to a factor of `1 + 2⁻²⁵⁹` each. -/
theorem C61_ristretto_scalars (D : Dalek) [D.Lawful] :
    NearlyUniform (Ristretto.group D) 64 (2 ^ 259) (2 ^ 259 + 1) := by
  intro n xs ys hx hy hl
  rw [ncard_draws (ristretto_sampler D), ncard_draws (ristretto_sampler D), ← hl, mul_right_comm,
    mul_right_comm _ _ ((2 ^ 259 + 1) ^ xs.length)]
  refine Nat.mul_le_mul_right _ (prod_ratio _ _ _ xs ys hl fun x hmx y hmy => ?_)
  have h1 := (ristretto_blocks D x (hx x hmx)).2
  have h2 := (ristretto_blocks D y (hy y hmy)).1
  have h3 := ell_quotient.1
  generalize 256 ^ 64 / ell = F at h1 h2 h3
  calc _ ≤ (F + 1) * 2 ^ 259 := Nat.mul_le_mul_right _ h1
    _ ≤ F * (2 ^ 259 + 1) := by rw [Nat.add_mul, Nat.mul_add]; omega
    _ ≤ _ := Nat.mul_le_mul_right _ h2

/-- C61, Ristretto255: every sequence of non-zero scalars is drawn from some tape long enough, and a tape of `n` blocks is too
short for one scalar with probability at most `2 ^ (-252 n)`. -/
theorem C61_ristretto_supply (D : Dalek) [D.Lawful] (n : Nat) :
    (∀ xs : List (Ristretto.group D).Scalar, (∀ x ∈ xs, x ≠ 0) → xs.length ≤ n →
      (tapes (n * 64) (Drawing (Ristretto.group D) xs)).Nonempty) ∧
    (tapes (n * 64) fun t => (Ristretto.group D).randomScalar t = none).ncard * 2 ^ (252 * n) ≤ 256 ^ (n * 64) := by
  constructor
  · intro xs hx hn
    rw [← Set.ncard_pos (tapes_finite _ _), ncard_draws (ristretto_sampler D)]
    refine Nat.mul_pos (Nat.pos_of_ne_zero (List.prod_ne_zero ?_)) (ways_pos _ _ (by positivity) _ _ hn)
    intro h0
    obtain ⟨x, hm, h0⟩ := List.mem_map.mp h0
    have h1 := (ristretto_blocks D x (hx x hm)).1
    have h2 := ell_quotient.1
    have h3 : 0 < 2 ^ 259 := by positivity
    omega
  · rw [ncard_none (ristretto_sampler D)]
    have h := ncard_le 64 (fun m => (if (m : Scalar) ≠ 0 then some (m : Scalar) else none) = none)
    have h' := ell_count 0
    have he : {m : Nat | m < 256 ^ 64 ∧ (if (m : Scalar) ≠ 0 then some (m : Scalar) else none) = none} =
        {m : Nat | m < 256 ^ 64 ∧ (m : Scalar) = ((0 : Nat) : Scalar)} := by
      ext m
      simp only [Set.mem_ofPred_eq, Nat.cast_zero]
      refine and_congr_right fun _ => ?_
      constructor
      · intro h
        by_contra h0
        rw [if_pos h0] at h
        simp at h
      · intro h
        rw [if_neg (not_not.mpr h)]
    rw [he, h'] at h
    have hk : (blocks 64 (ristrettoAcc D) none).ncard ≤ 2 ^ 260 := by
      refine le_trans (le_of_eq h) ?_
      have := ell_quotient.2
      split <;> omega
    calc _ ≤ (2 ^ 260) ^ n * 2 ^ (252 * n) := Nat.mul_le_mul_right _ (Nat.pow_le_pow_left hk n)
      _ = 256 ^ (n * 64) := by
          rw [← pow_mul, ← pow_add, show (256 : Nat) = 2 ^ 8 by norm_num, ← pow_mul]
          congr 1
          omega

end ristretto

/-! ## Blinded messages -/

section blind
variable {CS : CipherSuite} [L : CS.group.Lawful]

/-- Calls that return a multiple of a known element by the next random scalar. -/
theorem returning_iff {R : Type} (view : R → CS.Elem) :
    ∀ (calls : List (Randomized R)) (Ps Qs : List CS.Elem) (xs : List CS.Scalar),
      List.Forall₂ (fun call P => ∃ mk : CS.Scalar → R, (∀ x, view (mk x) = x • P) ∧
        ∀ t : Tape, call Tape t = match CS.group.randomScalar t with
          | none => .diverge
          | some (x, t') => .ok (mk x, t')) calls Ps →
      (∀ P ∈ Ps, P ≠ 0) →
      Qs = List.zipWith (fun x P => x • P) xs Ps → xs.length = Ps.length →
      ∀ t, Returning calls view Qs t ↔ Drawing CS.group xs t := by
  intro calls Ps Qs xs hc
  induction hc generalizing Qs xs with
  | nil =>
      intro _ hQ hl t
      have : xs = [] := List.length_eq_zero_iff.mp hl
      subst this
      subst hQ
      simp [Returning, runAll, Drawing, Consecutive]
  | @cons call P calls Ps hcall _ ih =>
      intro hP hQ hl t
      cases xs with
      | nil => simp at hl
      | cons x xs =>
          subst hQ
          obtain ⟨mk, hmk, hcall⟩ := hcall
          have ih := ih _ xs (fun P h => hP P (List.mem_cons_of_mem _ h)) rfl (by simpa using hl)
          have hP0 : P ≠ 0 := hP P List.mem_cons_self
          have hinj : ∀ y : CS.Scalar, y • P = x • P → y = x := by
            intro y hy
            have : (y - x) • P = 0 := by rw [sub_smul, hy, sub_self]
            exact sub_eq_zero.mp ((smul_eq_zero.mp this).resolve_right hP0)
          simp only [Drawing, Consecutive]
          constructor
          · rintro ⟨rs, rest, hr, hv⟩
            simp only [runAll, hcall] at hr
            cases hs : CS.group.randomScalar t with
            | none => rw [hs] at hr; simp at hr
            | some p =>
                obtain ⟨y, t'⟩ := p
                rw [hs] at hr
                simp only [Res.ok_bind] at hr
                obtain ⟨⟨rs', rest'⟩, hr', hr⟩ := Res.bind_eq_ok.mp hr
                simp only [Res.ok.injEq, Prod.mk.injEq] at hr
                obtain ⟨rfl, rfl⟩ := hr
                simp only [List.map_cons, List.zipWith_cons_cons, List.cons.injEq, hmk] at hv
                have hy := hinj y hv.1
                subst hy
                obtain ⟨rest, hd⟩ := (ih t').mp ⟨rs', rest', hr', hv.2⟩
                exact ⟨rest, t', rfl, hd⟩
          · rintro ⟨rest, t', hs, hd⟩
            obtain ⟨rs, rest', hr, hv⟩ := (ih t').mpr ⟨rest, hd⟩
            refine ⟨mk x :: rs, rest', ?_, ?_⟩
            · simp only [runAll, hcall, hs, Res.ok_bind, hr]
            · simp only [List.map_cons, List.zipWith_cons_cons, hmk, hv]

/-- The discrete logarithms of non-identity elements to non-identity bases. -/
theorem exists_logs : ∀ (Ps Qs : List CS.Elem), (∀ P ∈ Ps, P ≠ 0) → (∀ Q ∈ Qs, Q ≠ 0) → Qs.length = Ps.length →
    ∃ xs : List CS.Scalar, xs.length = Ps.length ∧ (∀ x ∈ xs, x ≠ 0) ∧ Qs = List.zipWith (fun x P => x • P) xs Ps
  | [], [], _, _, _ => ⟨[], rfl, by simp, rfl⟩
  | P :: Ps, Q :: Qs, hP, hQ, hl => by
      obtain ⟨xs, h1, h2, h3⟩ := exists_logs Ps Qs (fun P h => hP P (List.mem_cons_of_mem _ h))
        (fun Q h => hQ Q (List.mem_cons_of_mem _ h)) (by simpa using hl)
      obtain ⟨p, hp⟩ := VGroup.Lawful.base_generates (G := CS.group) P
      obtain ⟨q, hq⟩ := VGroup.Lawful.base_generates (G := CS.group) Q
      have hp0 : p ≠ 0 := fun h => hP P List.mem_cons_self (by rw [hp, h, zero_smul])
      have hq0 : q ≠ 0 := fun h => hQ Q List.mem_cons_self (by rw [hq, h, zero_smul])
      refine ⟨q * p⁻¹ :: xs, by simp [h1], ?_, ?_⟩
      · intro x hx
        rcases List.mem_cons.mp hx with rfl | hx
        · exact mul_ne_zero hq0 (inv_ne_zero hp0)
        · exact h2 x hx
      · rw [List.zipWith_cons_cons, ← h3, hp, hq, ← mul_smul, mul_assoc, inv_mul_cancel₀ hp0, mul_one]

theorem blind_ratio {R : Type} {block p q : Nat} (hu : NearlyUniform CS.group block p q) (view : R → CS.Elem)
    (calls calls' : List (Randomized R)) (Ps Ps' Qs Qs' : List CS.Elem)
    (hc : List.Forall₂ (fun call P => ∃ mk : CS.Scalar → R, (∀ x, view (mk x) = x • P) ∧
        ∀ t : Tape, call Tape t = match CS.group.randomScalar t with
          | none => .diverge
          | some (x, t') => .ok (mk x, t')) calls Ps)
    (hc' : List.Forall₂ (fun call P => ∃ mk : CS.Scalar → R, (∀ x, view (mk x) = x • P) ∧
        ∀ t : Tape, call Tape t = match CS.group.randomScalar t with
          | none => .diverge
          | some (x, t') => .ok (mk x, t')) calls' Ps')
    (hP : ∀ P ∈ Ps, P ≠ 0) (hP' : ∀ P ∈ Ps', P ≠ 0) (hQ : ∀ Q ∈ Qs, Q ≠ 0) (hQ' : ∀ Q ∈ Qs', Q ≠ 0)
    (hl : Qs.length = Ps.length) (hl' : Qs'.length = Ps'.length) (hll : Ps.length = Ps'.length) (n : Nat) :
    (tapes (n * block) (Returning calls view Qs)).ncard * p ^ Ps.length ≤
      (tapes (n * block) (Returning calls' view Qs')).ncard * q ^ Ps.length := by
  obtain ⟨xs, h1, h2, h3⟩ := exists_logs Ps Qs hP hQ hl
  obtain ⟨xs', h1', h2', h3'⟩ := exists_logs Ps' Qs' hP' hQ' hl'
  have e : tapes (n * block) (Returning calls view Qs) = tapes (n * block) (Drawing CS.group xs) := by
    ext t
    exact and_congr_right fun _ => returning_iff view calls Ps Qs xs hc hP h3 h1 _
  have e' : tapes (n * block) (Returning calls' view Qs') = tapes (n * block) (Drawing CS.group xs') := by
    ext t
    exact and_congr_right fun _ => returning_iff view calls' Ps' Qs' xs' hc' hP' h3' h1' _
  rw [e, e', ← h1]
  exact hu n xs xs' h2 h2' (by omega)

/-- Blinding inputs one after the other, in each mode. -/
abbrev oprfBlinds (CS : CipherSuite) (inputs : List Bytes) : List (Randomized (OprfClientBlindResult CS)) :=
  inputs.map fun input => fun _ _ rng => OprfClient.blindInput CS input rng
abbrev voprfBlinds (CS : CipherSuite) (inputs : List Bytes) : List (Randomized (VoprfClientBlindResult CS)) :=
  inputs.map fun input => fun _ _ rng => VoprfClient.blindInput CS input rng
abbrev poprfBlinds (CS : CipherSuite) (inputs : List Bytes) : List (Randomized (PoprfClientBlindResult CS)) :=
  inputs.map fun input => fun _ _ rng => PoprfClient.blindInput CS input rng

omit L in
/-- None of the inputs hashes to the identity. -/
def Hashable (CS : CipherSuite) [CS.group.Lawful] (mode : Mode) (inputs : List Bytes) : Prop :=
  ∀ input ∈ inputs, ∃ P, Spec.hashToGroup CS mode input = .ok P ∧ P ≠ 0

omit L in
theorem Hashable.elems [CS.group.Lawful] {mode : Mode} : ∀ {inputs : List Bytes}, Hashable CS mode inputs →
    ∃ Ps : List CS.Elem, List.Forall₂ (fun i P => Spec.hashToGroup CS mode i = .ok P) inputs Ps ∧ ∀ P ∈ Ps, P ≠ 0
  | [], _ => ⟨[], .nil, by simp⟩
  | i :: is, h => by
      obtain ⟨P, hP, h0⟩ := h i List.mem_cons_self
      obtain ⟨Ps, h1, h2⟩ := Hashable.elems (inputs := is) fun i hi => h i (List.mem_cons_of_mem _ hi)
      refine ⟨P :: Ps, .cons hP h1, ?_⟩
      intro R hR
      rcases List.mem_cons.mp hR with rfl | hR
      · exact h0
      · exact h2 R hR

/-- C61: on uniform bytes the messages of `blind`, for any sequence of inputs, are independent of the inputs and nearly uniform
on the sequences of non-identity elements: no sequence of messages for some inputs is more than `(q / p) ^ k` times as likely
as any other sequence of messages for any other inputs. -/
theorem C61_blind (wf : CS.WF) {block p q : Nat} (hu : NearlyUniform CS.group block p q) (n : Nat)
    (inputs inputs' : List Bytes) (Qs Qs' : List CS.Elem) (hQ : ∀ Q ∈ Qs, Q ≠ 0) (hQ' : ∀ Q ∈ Qs', Q ≠ 0)
    (h1 : Qs.length = inputs.length) (h2 : Qs'.length = inputs'.length) (h3 : inputs.length = inputs'.length) :
    (Hashable CS .Oprf inputs → Hashable CS .Oprf inputs' →
      (tapes (n * block) (Returning (oprfBlinds CS inputs) (fun r => r.message.value) Qs)).ncard * p ^ inputs.length ≤
      (tapes (n * block) (Returning (oprfBlinds CS inputs') (fun r => r.message.value) Qs')).ncard *
        q ^ inputs.length) ∧
    (Hashable CS .Voprf inputs → Hashable CS .Voprf inputs' →
      (tapes (n * block) (Returning (voprfBlinds CS inputs) (fun r => r.message.value) Qs)).ncard * p ^ inputs.length ≤
      (tapes (n * block) (Returning (voprfBlinds CS inputs') (fun r => r.message.value) Qs')).ncard *
        q ^ inputs.length) ∧
    (Hashable CS .Poprf inputs → Hashable CS .Poprf inputs' →
      (tapes (n * block) (Returning (poprfBlinds CS inputs) (fun r => r.message.value) Qs)).ncard * p ^ inputs.length ≤
      (tapes (n * block) (Returning (poprfBlinds CS inputs') (fun r => r.message.value) Qs')).ncard *
        q ^ inputs.length) := by
  have go : ∀ {R : Type} (mode : Mode) (view : R → CS.Elem) (call : Bytes → Randomized R),
      (∀ input P, Spec.hashToGroup CS mode input = .ok P → ∃ mk : CS.Scalar → R, (∀ x, view (mk x) = x • P) ∧
        ∀ t : Tape, call input Tape t = match CS.group.randomScalar t with
          | none => .diverge
          | some (x, t') => .ok (mk x, t')) →
      Hashable CS mode inputs → Hashable CS mode inputs' →
      (tapes (n * block) (Returning (inputs.map call) view Qs)).ncard * p ^ inputs.length ≤
      (tapes (n * block) (Returning (inputs'.map call) view Qs')).ncard * q ^ inputs.length := by
    intro R mode view call hcall hi hi'
    obtain ⟨Ps, hf, hP⟩ := hi.elems
    obtain ⟨Ps', hf', hP'⟩ := hi'.elems
    have hl := hf.length_eq
    have hl' := hf'.length_eq
    rw [hl]
    refine blind_ratio hu view _ _ Ps Ps' Qs Qs' ?_ ?_ hP hP' hQ hQ' (by omega) (by omega) (by omega) n
    · rw [List.forall₂_map_left_iff]
      exact hf.imp fun i P h => hcall i P h
    · rw [List.forall₂_map_left_iff]
      exact hf'.imp fun i P h => hcall i P h
  refine ⟨go .Oprf _ (fun input => fun _ _ rng => OprfClient.blindInput CS input rng) ?_,
    go .Voprf _ (fun input => fun _ _ rng => VoprfClient.blindInput CS input rng) ?_,
    go .Poprf _ (fun input => fun _ _ rng => PoprfClient.blindInput CS input rng) ?_⟩
  · intro input P hP
    refine ⟨fun x => ⟨⟨x⟩, ⟨x • P⟩⟩, fun _ => rfl, fun t => ?_⟩
    simp only [(C46_blind_is_deterministic input t).1, (C46_deterministic_value wf input _).1 P hP, Res.ok_bind]
    cases CS.group.randomScalar t <;> rfl
  · intro input P hP
    refine ⟨fun x => ⟨⟨x, x • P⟩, ⟨x • P⟩⟩, fun _ => rfl, fun t => ?_⟩
    simp only [(C46_blind_is_deterministic input t).2.1, (C46_deterministic_value wf input _).2.1 P hP, Res.ok_bind]
    cases CS.group.randomScalar t <;> rfl
  · intro input P hP
    refine ⟨fun x => ⟨⟨x, x • P⟩, ⟨x • P⟩⟩, fun _ => rfl, fun t => ?_⟩
    simp only [(C46_blind_is_deterministic input t).2.2, (C46_deterministic_value wf input _).2.2.1 P hP, Res.ok_bind]
    cases CS.group.randomScalar t <;> rfl

end blind

/-! ## Events -/

section events
variable {G : VGroup} [L : G.Lawful]

omit L in
theorem consecutive_unique {σ : Type} [RngCore σ] : ∀ (xs ys : List G.Scalar) (s a b : σ), xs.length = ys.length →
    Consecutive G s xs a → Consecutive G s ys b → xs = ys
  | [], [], _, _, _, _, _, _ => rfl
  | x :: xs, y :: ys, s, a, b, hl, ⟨n, hn, hx⟩, ⟨m, hm, hy⟩ => by
      rw [hn] at hm
      obtain ⟨rfl, rfl⟩ := Prod.mk.inj (Option.some.inj hm)
      rw [consecutive_unique xs ys n a b (by simpa using hl) hx hy]

omit L in
theorem ncard_events (len k : Nat) (F : Finset (List G.Scalar)) (hF : ∀ xs ∈ F, xs.length = k) :
    (tapes len fun t => ∃ xs ∈ F, Drawing G xs t).ncard = ∑ xs ∈ F, (tapes len (Drawing G xs)).ncard := by
  classical
  induction F using Finset.induction_on with
  | empty =>
    rw [Finset.sum_empty, Set.ncard_eq_zero (tapes_finite _ _), Set.eq_empty_iff_forall_notMem]
    rintro t ⟨-, xs, hxs, -⟩
    simp at hxs
  | insert x F hx ih =>
    rw [Finset.sum_insert hx, ← ih fun xs h => hF xs (Finset.mem_insert_of_mem h),
      ← Set.ncard_union_eq ?_ (tapes_finite _ _) (tapes_finite _ _)]
    · congr 1
      ext t
      simp only [tapes, Set.mem_ofPred_eq, Set.mem_union, Finset.exists_mem_insert]
      tauto
    · rw [Set.disjoint_left]
      rintro t ⟨-, a, ha⟩ ⟨-, y, hy, b, hb⟩
      have := consecutive_unique x y ⟨t⟩ a b
        (by rw [hF x (Finset.mem_insert_self _ _), hF y (Finset.mem_insert_of_mem hy)]) ha hb
      exact hx (this ▸ hy)

/-- The sequences of `k` non-zero scalars. -/
def sequences (G : VGroup) [G.Lawful] (k : Nat) : Set (List G.Scalar) := {xs | xs.length = k ∧ ∀ x ∈ xs, x ≠ 0}

theorem sequences_finite (k : Nat) : (sequences G k).Finite := by
  have := L.finite_scalar
  exact (List.finite_length_eq G.Scalar k).subset fun _ h => h.1

/-- C61: the probability over the tapes that `k` consecutive draws fall into a set `S`, given that the tape is long enough for
them, is that of a uniformly chosen sequence of `k` non-zero scalars, up to `(q / p) ^ k`; exactly that for `p = q = 1`.  So
what is proved of uniformly chosen blinds and nonces (C51, C52, C56) holds of those drawn from uniform bytes. -/
theorem C61_events {block p q : Nat} (hu : NearlyUniform G block p q) (n k : Nat) (S : Set (List G.Scalar))
    (hS : S ⊆ sequences G k) :
    (sequences G k).ncard * (tapes (n * block) fun t => ∃ xs ∈ S, Drawing G xs t).ncard * p ^ k ≤
      S.ncard * (tapes (n * block) fun t => ∃ xs ∈ sequences G k, Drawing G xs t).ncard * q ^ k ∧
    S.ncard * (tapes (n * block) fun t => ∃ xs ∈ sequences G k, Drawing G xs t).ncard * p ^ k ≤
      (sequences G k).ncard * (tapes (n * block) fun t => ∃ xs ∈ S, Drawing G xs t).ncard * q ^ k := by
  have hA := sequences_finite (G := G) k
  have hSf := hA.subset hS
  have key : ∀ (S T : Finset (List G.Scalar)), (∀ xs ∈ S, xs ∈ sequences G k) → (∀ xs ∈ T, xs ∈ sequences G k) →
      T.card * (tapes (n * block) fun t => ∃ xs ∈ S, Drawing G xs t).ncard * p ^ k ≤
      S.card * (tapes (n * block) fun t => ∃ xs ∈ T, Drawing G xs t).ncard * q ^ k := by
    intro S T hS hT
    rw [ncard_events _ k S fun xs h => (hS xs h).1, ncard_events _ k T fun xs h => (hT xs h).1]
    have h1 : T.card * (∑ xs ∈ S, (tapes (n * block) (Drawing G xs)).ncard) * p ^ k =
        ∑ xs ∈ S, ∑ _ys ∈ T, (tapes (n * block) (Drawing G xs)).ncard * p ^ k := by
      simp only [Finset.sum_const, smul_eq_mul, ← Finset.mul_sum, ← Finset.sum_mul]
      ring
    have h2 : S.card * (∑ ys ∈ T, (tapes (n * block) (Drawing G ys)).ncard) * q ^ k =
        ∑ _xs ∈ S, ∑ ys ∈ T, (tapes (n * block) (Drawing G ys)).ncard * q ^ k := by
      simp only [Finset.sum_const, smul_eq_mul, ← Finset.sum_mul]
      ring
    rw [h1, h2]
    refine Finset.sum_le_sum fun xs hx => Finset.sum_le_sum fun ys hy => ?_
    have := hu n xs ys (hS xs hx).2 (hT ys hy).2 ((hS xs hx).1.trans (hT ys hy).1.symm)
    rwa [(hS xs hx).1] at this
  rw [Set.ncard_eq_toFinset_card _ hA, Set.ncard_eq_toFinset_card _ hSf]
  constructor
  · simpa using key hSf.toFinset hA.toFinset (by simpa using fun xs h => hS h) (by simp)
  · simpa using key hA.toFinset hSf.toFinset (by simp) (by simpa using fun xs h => hS h)

end events

end Voprf
