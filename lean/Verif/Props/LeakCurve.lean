import Verif.Model.LeakCurve
import Verif.Curve.P256
import Verif.Curve.P384
import Verif.Curve.P521

/-!
# C47: the control flow inside the group operations does not depend on secrets
-/

namespace Voprf.Leak.Curve

@[simp] theorem val_pure {α : Type} (a : α) : (pure a : W α).val = a := rfl
@[simp] theorem val_bind {α β : Type} (x : W α) (f : α → W β) : (x >>= f).val = (f x.val).val := rfl
@[simp] theorem log_pure {α : Type} (a : α) : (pure a : W α).log = [] := rfl
@[simp] theorem log_bind {α β : Type} (x : W α) (f : α → W β) : (x >>= f).log = x.log ++ (f x.val).log := rfl
@[simp] theorem val_one {α : Type} (o : Op) (a : α) : (one o a).val = a := rfl
@[simp] theorem log_one {α : Type} (o : Op) (a : α) : (one o a).log = [o] := rfl
@[simp] theorem val_sel {α : Type} (b : Bool) (x y : α) : (sel b x y).val = if b then x else y := rfl
@[simp] theorem log_sel {α : Type} (b : Bool) (x y : α) : (sel b x y).log = [.select] := rfl
@[simp] theorem val_read {α : Type} (t : List α) (i : Nat) (d : α) : (read t i d).val = t[i]?.getD d := rfl
@[simp] theorem log_read {α : Type} (t : List α) (i : Nat) (d : α) : (read t i d).log = [.load i] := rfl

theorem foldlM_val {α β : Type} (f : α → β → W α) (g : α → β → α) (h : ∀ a b, (f a b).val = g a b) (l : List β) :
    ∀ a, (l.foldlM f a).val = l.foldl g a := by
  induction l with
  | nil => intro a; rfl
  | cons b l ih => intro a; rw [List.foldlM_cons, val_bind, ih, h]; rfl

theorem foldlM_log {α α' β : Type} (f : α → β → W α) (f' : α' → β → W α') (h : ∀ a a' b, (f a b).log = (f' a' b).log)
    (l : List β) : ∀ a a', (l.foldlM f a).log = (l.foldlM f' a').log := by
  induction l with
  | nil => intro a a'; rfl
  | cons b l ih => intro a a'; rw [List.foldlM_cons, List.foldlM_cons, log_bind, log_bind, h a a', ih _ (f' a' b).val]

namespace Nist
open Voprf.Nist Voprf.Nist.Primeorder

variable {c : Params}

theorem add_val (p q : Proj c) : (add p q).val = p.add q := rfl
theorem neg_val (p : Proj c) : (neg p).val = p.neg := rfl
theorem sub_val (p q : Proj c) : (sub p q).val = p.sub q := rfl
theorem double_val (p : Proj c) : (double p).val = p.double := rfl
theorem add_log (p q p' q' : Proj c) : (add p q).log = (add p' q').log := rfl
theorem sub_log (p q p' q' : Proj c) : (sub p q).log = (sub p' q').log := rfl
theorem double_log (p p' : Proj c) : (double p).log = (double p').log := rfl

theorem tableStep_val (p : Proj c) (pc : List (Proj c)) (i : Nat) : (tableStep p pc i).val =
    pc ++ [if i % 2 = 0 then (pc[i / 2]?.getD .IDENTITY).double else (pc[i - 1]?.getD .IDENTITY).add p] := by
  unfold tableStep
  by_cases h : i % 2 = 0
  · simp [h, double_val]
  · simp [h, add_val]

theorem table_val (p : Proj c) : (table p).val = (List.range 16).map (Primeorder.table p) := by
  have key : ∀ m, ((List.range' 2 m).foldlM (tableStep p) [.IDENTITY, p]).val = (List.range (m + 2)).map (Primeorder.table p) := by
    intro m
    rw [foldlM_val _ _ (tableStep_val p)]
    induction m with
    | zero =>
      show [Proj.IDENTITY, p] = [Primeorder.table p 0, Primeorder.table p 1]
      rw [Primeorder.table, Primeorder.table]
    | succ m ih =>
      rw [List.range'_concat, List.foldl_append, ih, List.range_succ (n := m + 2), List.map_append]
      simp only [List.foldl_cons, List.foldl_nil, List.map_cons, List.map_nil, Nat.one_mul]
      congr 2
      rw [show 2 + m = m + 2 from Nat.add_comm _ _, Primeorder.table]
      have h1 : (m + 2) / 2 < m + 2 := by omega
      have h2 : m + 2 - 1 < m + 2 := by omega
      simp only [List.getElem?_map, List.getElem?_range h1, List.getElem?_range h2, Option.map_some, Option.getD_some]
      rfl
  exact key 14

theorem tableStep_log (p p' : Proj c) (pc pc' : List (Proj c)) (i : Nat) : (tableStep p pc i).log = (tableStep p' pc' i).log := by
  unfold tableStep
  by_cases h : i % 2 = 0
  · simp [h, double_log _ (pc'[i / 2]?.getD .IDENTITY)]
  · simp [h, add_log _ p (pc'[i - 1]?.getD .IDENTITY) p']

theorem table_log (p p' : Proj c) : (table p).log = (table p').log := foldlM_log _ _ (tableStep_log p p') _ _ _

theorem lookup_val (p : Proj c) (slot : Nat) : (lookup (table p).val slot).val = Primeorder.lookup p slot := by
  unfold lookup Primeorder.lookup
  rw [table_val]
  rw [foldlM_val (lookupStep _ slot) (fun t i => if slot = i then (((List.range 16).map (Primeorder.table p))[i]?.getD .IDENTITY) else t)
    (fun t i => by simp [lookupStep])]
  refine List.foldl_ext _ _ _ fun t i hi => ?_
  have : i < 16 := by
    have := List.mem_range'_1.1 hi
    omega
  simp only [List.getElem?_map, List.getElem?_range this, Option.map_some, Option.getD_some]

theorem lookup_log (pc pc' : List (Proj c)) (slot slot' : Nat) : (lookup pc slot).log = (lookup pc' slot').log :=
  foldlM_log (lookupStep pc slot) (lookupStep pc' slot') (fun _ _ _ => rfl) _ _ _

theorem mulLoop_val (p : Proj c) (k : Nat) : ∀ (w : Nat) (q : Proj c), (mulLoop (table p).val k w q).val = Primeorder.mulLoop p k w q
  | 0, q => by simp [mulLoop, Primeorder.mulLoop, add_val, lookup_val]
  | w + 1, q => by simp [mulLoop, Primeorder.mulLoop, add_val, double_val, lookup_val, mulLoop_val p k w]

theorem mulLoop_log (pc pc' : List (Proj c)) (k k' : Nat) : ∀ (w : Nat) (q q' : Proj c),
    (mulLoop pc k w q).log = (mulLoop pc' k' w q').log
  | 0, q, q' => by
    simp only [mulLoop, log_bind]
    rw [lookup_log pc pc' _ (k' % 16), add_log q _ q' (lookup pc' (k' % 16)).val]
  | w + 1, q, q' => by
    simp only [mulLoop, log_bind]
    have h4 : ∀ q q' : Proj c, (double (double (double (double q).val).val).val).log =
        (double (double (double (double q').val).val).val).log := fun _ _ => double_log _ _
    have h3 : ∀ q q' : Proj c, (double (double (double q).val).val).log = (double (double (double q').val).val).log :=
      fun _ _ => double_log _ _
    have h2 : ∀ q q' : Proj c, (double (double q).val).log = (double (double q').val).log := fun _ _ => double_log _ _
    generalize k / 2 ^ (4 * (w + 1)) % 16 = slot, k' / 2 ^ (4 * (w + 1)) % 16 = slot'
    rw [lookup_log pc pc' slot slot', add_log q _ q' (lookup pc' slot').val]
    generalize (add q (lookup pc slot).val).val = r, (add q' (lookup pc' slot').val).val = r'
    rw [mulLoop_log pc pc' k k' w _ (double (double (double (double r').val).val).val).val, double_log r r', h2 r r', h3 r r',
      h4 r r']

theorem mul_val (windows : Nat) (p : Proj c) (k : c.Fn) : (mul windows p k).val = p.mul windows k := mulLoop_val p k.val _ _

theorem mul_log (windows : Nat) (p p' : Proj c) (k k' : c.Fn) : (mul windows p k).log = (mul windows p' k').log := by
  unfold mul
  rw [log_bind, log_bind, table_log p p', mulLoop_log _ (table p').val _ k'.val _ _ .IDENTITY]

theorem toAffine_val (p : Proj c) : (toAffine p).val = p.toAffine := by
  by_cases h : p.z = 0
  · simp [toAffine, Proj.toAffine, fmul, h]
  · simp [toAffine, Proj.toAffine, fmul, h]

theorem ctEq_val (p q : Proj c) : (ctEq p q).val = p.ctEq q := by
  simp [ctEq, Proj.ctEq, feq, toAffine_val]

theorem osswu_val (c : Params) (u : c.Fp) : (osswu c u).val = Voprf.Nist.osswu c u := by
  simp only [osswu, Voprf.Nist.osswu, val_bind, val_sel, val_pure, fsq', fmul, fadd, feq, fneg, beq_iff_eq]
  simp only [decide_eq_true_eq]

/-- The denominator inverted in `osswu`. -/
def osswuDen (c : Params) (u : c.Fp) : c.Fp :=
  let d := ((c.z * u ^ 2) ^ 2 + c.z * u ^ 2) * -(c.a : c.Fp)
  if decide (d = 0) then (c.z : c.Fp) * c.a else d

theorem osswuDen_ne (c : Params) (hA : (c.z : c.Fp) * c.a ≠ 0) (u : c.Fp) : osswuDen c u ≠ 0 := by
  unfold osswuDen
  generalize ((c.z * u ^ 2) ^ 2 + c.z * u ^ 2) * -(c.a : c.Fp) = d
  by_cases h : d = 0
  · simpa [h] using hA
  · simp [h]

theorem osswu_log' (c : Params) (u : c.Fp) : (osswu c u).log =
    [.square, .mul, .square, .add, .add, .mul, .mul, .ctEq, .select, .square, .mul, .mul, .square, .add, .mul, .mul, .add, .square,
      .mul, .mul, .pow, .mul, .mul, .mul, .mul, .mul, .square, .mul, .ctEq, .select, .select, .invert,
      .branch (decide (osswuDen c u ≠ 0)), .mul, .ctEq, .ctEq, .neg, .select] := by
  simp only [osswu, log_bind, val_sel, log_pure, log_sel, osswuDen, List.cons_append, List.nil_append]
  rfl

theorem osswu_log (c : Params) (hA : (c.z : c.Fp) * c.a ≠ 0) (u u' : c.Fp) : (osswu c u).log = (osswu c u').log := by
  rw [osswu_log', osswu_log', decide_eq_true (osswuDen_ne c hA u), decide_eq_true (osswuDen_ne c hA u')]

end Nist

namespace Ristretto
open Voprf.Ristretto Voprf.Ristretto.Formula

theorem table_val (P : Point) : (table P).val = Formula.table P := by
  have : ∀ n N, (tableFrom P n N).val = Formula.tableFrom P (n + 1) N := by
    intro n
    induction n with
    | zero => intro N; rfl
    | succ n ih => intro N; simp only [tableFrom, val_bind, val_pure, ih]; rfl
  exact this 7 _

theorem table_log (P P' : Point) : (table P).log = (table P').log := by
  have : ∀ n N N', (tableFrom P n N).log = (tableFrom P' n N').log := by
    intro n
    induction n with
    | zero => intro N N'; rfl
    | succ n ih => intro N N'; simp only [tableFrom, log_bind, log_pure]; rw [ih _ _]; rfl
  simp only [table, log_bind]
  rw [this 7 _ (niels P').val]
  rfl

theorem table_length (P : Point) : (Formula.table P).length = 8 := rfl

theorem select_val (tbl : List Niels) (h : tbl.length = 8) (x : Int) : (select tbl x).val = Formula.select tbl x := by
  have hf : ((List.range' 1 8).foldlM (selectStep tbl x.natAbs) Niels.zero).val =
      if x.natAbs = 0 then Niels.zero else (tbl[x.natAbs - 1]?).getD Niels.zero := by
    rw [foldlM_val _ (fun t j => if x.natAbs = j then (tbl[j - 1]?).getD Niels.zero else t) (fun t j => by simp [selectStep])]
    generalize x.natAbs = y
    by_cases hy : y < 9
    · interval_cases y <;> rfl
    · have h9 : tbl[y - 1]? = none := by rw [List.getElem?_eq_none_iff]; omega
      have h0 : y ≠ 0 := by omega
      rw [if_neg h0, h9]
      have : ∀ j < 9, y ≠ j := fun j hj => by omega
      simp [List.range', this 1, this 2, this 3, this 4, this 5, this 6, this 7, this 8]
  simp only [select, Formula.select, val_bind, val_sel, hf]
  by_cases hx : x < 0
  · simp [hx, Niels.neg]
  · simp [hx]

theorem select_log (tbl tbl' : List Niels) (x x' : Int) : (select tbl x).log = (select tbl' x').log := by
  simp only [select, log_bind]
  rw [foldlM_log (selectStep tbl x.natAbs) (selectStep tbl' x'.natAbs) (fun _ _ _ => rfl) _ _ Niels.zero]
  rfl

theorem radix16_val : ∀ n i k carry, (radix16 i n k carry).val = Formula.radix16 n k carry
  | 0, _, _, _ => rfl
  | n + 1, i, k, carry => by simp only [radix16, Formula.radix16, val_bind, val_pure, radix16_val n]

theorem radix16_log : ∀ n i k carry k' carry', (radix16 i n k carry).log = (radix16 i n k' carry').log
  | 0, _, _, _, _, _ => rfl
  | n + 1, i, k, carry, k', carry' => by
    simp only [radix16, log_bind, log_pure]
    rw [radix16_log n (i + 1) _ _ (k' / 16) ((k' % 16 + carry' + 8) / 16)]

theorem radix16_length : ∀ n i k carry, (radix16 i n k carry).val.length = n + 1
  | 0, _, _, _ => rfl
  | n + 1, i, k, carry => by simp only [radix16, val_bind, val_pure, List.length_cons, radix16_length n]

theorem mulDigits_val (tbl : List Niels) (h : tbl.length = 8) : ∀ ds, (mulDigits tbl ds).val = Formula.mulDigits tbl ds
  | [] => rfl
  | [d] => by
    simp only [mulDigits, Formula.mulDigits, val_bind, select_val tbl h]
    rfl
  | d :: e :: ds => by
    simp only [mulDigits, Formula.mulDigits, val_bind, select_val tbl h, mulDigits_val tbl h (e :: ds)]
    rfl

theorem double_log (P P' : Projective) : (double P).log = (double P').log := rfl
theorem addNiels_log (P P' : Point) (N N' : Niels) : (addNiels P N).log = (addNiels P' N').log := rfl
theorem projective_log (C C' : Completed) : (projective C).log = (projective C').log := rfl
theorem extended_log (C C' : Completed) : (extended C).log = (extended C').log := rfl

theorem timesSixteen_log (C C' : Completed) : (timesSixteen C).log = (timesSixteen C').log := by
  simp only [timesSixteen, projective, double, extended, log_bind, log_pure]

theorem mulDigits_log (tbl tbl' : List Niels) : ∀ ds ds', ds.length = ds'.length → (mulDigits tbl ds).log = (mulDigits tbl' ds').log
  | [], [], _ => rfl
  | [d], [d'], _ => by
    simp only [mulDigits, log_bind]
    rw [select_log tbl tbl' d d', addNiels_log]
  | d :: e :: ds, d' :: e' :: ds', h => by
    simp only [mulDigits, log_bind]
    rw [mulDigits_log tbl tbl' (e :: ds) (e' :: ds') (by simpa using h), select_log tbl tbl' d d',
      timesSixteen_log _ (mulDigits tbl' (e' :: ds')).val, addNiels_log _ (timesSixteen (mulDigits tbl' (e' :: ds')).val).val _
        (select tbl' d').val]

theorem mul_val (k : Nat) (P : Point) : (mul k P).val = pmul k P := by
  simp only [mul, val_bind, table_val, radix16_val, mulDigits_val _ (table_length P)]
  rfl

theorem mul_log (k k' : Nat) (P P' : Point) : (mul k P).log = (mul k' P').log := by
  simp only [mul, log_bind]
  rw [table_log P P', radix16_log 63 0 k 0 k' 0, mulDigits_log (table P).val (table P').val (radix16 0 63 k 0).val
    (radix16 0 63 k' 0).val (by rw [radix16_length, radix16_length]), extended_log]

theorem fabs_val (x : Nat) : (fabs x).val = Formula.abs x := by simp only [fabs, Formula.abs, val_bind, val_sel]

theorem fabs_log (x x' : Nat) : (fabs x).log = (fabs x').log := by simp only [fabs, log_bind, log_sel]

theorem sqrtRatio_val (u v : Nat) : (sqrtRatio u v).val = sqrtRatioM1 u v := by
  simp only [sqrtRatio, sqrtRatioM1, val_bind, val_sel, val_pure, fabs_val]

theorem sqrtRatio_log (u v u' v' : Nat) : (sqrtRatio u v).log = (sqrtRatio u' v').log := by
  simp only [sqrtRatio, log_bind, log_sel, log_pure, fabs]

theorem encode_val (P : Point) : (encode P).val = Formula.encode P := by
  simp only [encode, Formula.encode, val_bind, val_sel, sqrtRatio_val, fabs_val]

theorem encode_log (P P' : Point) : (encode P).log = (encode P').log := by
  simp only [encode, log_bind, log_sel, sqrtRatio, log_pure, fabs]

theorem map_val (t : Nat) : (map t).val = Formula.map t := by
  simp only [map, Formula.map, val_bind, val_sel, val_pure, sqrtRatio_val, fabs_val]

theorem map_log (t t' : Nat) : (map t).log = (map t').log := by
  simp only [map, log_bind, log_sel, sqrtRatio, log_pure, fabs]

theorem add_val (P Q : Point) : (add P Q).val = padd P Q := by
  simp only [add, padd, extended, addNiels, niels, val_bind, val_pure, Completed.extended, Formula.addNiels, Point.niels]

theorem add_log (P Q P' Q' : Point) : (add P Q).log = (add P' Q').log := by
  simp only [add, extended, addNiels, niels, log_bind, log_pure]

theorem eq_val (P Q : Point) : (eq P Q).val = peq P Q := by
  simp only [eq, peq, val_bind, val_pure]

theorem eq_log (P Q P' Q' : Point) : (eq P Q).log = (eq P' Q').log := by
  simp only [eq, log_bind, log_pure]

theorem oneWayMap_val (b : Bytes) : (oneWayMap b).val = Formula.oneWayMap b := by
  simp only [oneWayMap, Formula.oneWayMap, val_bind, map_val, add_val]

theorem oneWayMap_log (b b' : Bytes) : (oneWayMap b).log = (oneWayMap b').log := by
  simp only [oneWayMap, log_bind, map, log_sel, sqrtRatio, log_pure, fabs, add, extended, addNiels, niels]

end Ristretto

open Voprf.Nist Voprf.Nist.Primeorder in
/-- C47, NIST curves, the instrumented arithmetic is the arithmetic of the model. -/
theorem C47_nist_arithmetic_faithful (c : Params) (windows : Nat) :
    (∀ p q : Proj c, (Nist.add p q).val = p.add q ∧ (Nist.sub p q).val = p.sub q ∧ (Nist.ctEq p q).val = p.ctEq q) ∧
    (∀ p : Proj c, (Nist.double p).val = p.double ∧ (Nist.neg p).val = p.neg ∧ (Nist.toAffine p).val = p.toAffine) ∧
    (∀ (p : Proj c) (k : c.Fn), (Nist.mul windows p k).val = p.mul windows k) ∧
    (∀ u : c.Fp, (Nist.osswu c u).val = Voprf.Nist.osswu c u) :=
  ⟨fun p q => ⟨Nist.add_val p q, Nist.sub_val p q, Nist.ctEq_val p q⟩,
    fun p => ⟨Nist.double_val p, Nist.neg_val p, Nist.toAffine_val p⟩, Nist.mul_val windows, Nist.osswu_val c⟩

open Voprf.Nist Voprf.Nist.Primeorder in
/-- C47, NIST curves: adding, subtracting, multiplying and comparing elements, and mapping field elements to the curve, perform
the same sequence of field operations, table accesses and branches whatever the points, the scalar and the field element. -/
theorem C47_nist_arithmetic (c : Params) (hA : (c.z : c.Fp) * c.a ≠ 0) (windows : Nat) :
    (∀ p q p' q' : Proj c, (Nist.add p q).log = (Nist.add p' q').log) ∧
    (∀ p q p' q' : Proj c, (Nist.sub p q).log = (Nist.sub p' q').log) ∧
    (∀ (p p' : Proj c) (k k' : c.Fn), (Nist.mul windows p k).log = (Nist.mul windows p' k').log) ∧
    (∀ p q p' q' : Proj c, (Nist.ctEq p q).log = (Nist.ctEq p' q').log) ∧
    (∀ p p' : Proj c, (Nist.toAffine p).log = (Nist.toAffine p').log) ∧
    (∀ u u' : c.Fp, (Nist.osswu c u).log = (Nist.osswu c u').log) :=
  ⟨Nist.add_log, Nist.sub_log, Nist.mul_log windows, fun _ _ _ _ => rfl, fun _ _ => rfl, Nist.osswu_log c hA⟩

/-- The three curves qualify. -/
theorem C47_nist_curves :
    (Curve.p256.z : Curve.p256.Fp) * Curve.p256.a ≠ 0 ∧ (Curve.p384.z : Curve.p384.Fp) * Curve.p384.a ≠ 0 ∧
    (Curve.p521.z : Curve.p521.Fp) * Curve.p521.a ≠ 0 := by
  refine ⟨?_, ?_, ?_⟩
  all_goals
    refine fun h => absurd ((ZMod.natCast_eq_zero_iff _ _).1 ((Nat.cast_mul _ _).trans h)) ?_
    decide +kernel

open Voprf.Ristretto Voprf.Ristretto.Formula in
/-- C47, ristretto255, the instrumented arithmetic is the arithmetic of the model. -/
theorem C47_ristretto_arithmetic_faithful :
    (∀ P Q, (Ristretto.add P Q).val = padd P Q ∧ (Ristretto.eq P Q).val = peq P Q) ∧
    (∀ k P, (Ristretto.mul k P).val = pmul k P) ∧
    (∀ P, (Ristretto.encode P).val = Formula.encode P) ∧
    (∀ b, (Ristretto.oneWayMap b).val = Formula.oneWayMap b) :=
  ⟨fun P Q => ⟨Ristretto.add_val P Q, Ristretto.eq_val P Q⟩, Ristretto.mul_val, Ristretto.encode_val, Ristretto.oneWayMap_val⟩

/-- C47, ristretto255: the same for adding, multiplying, comparing and encoding elements, and for mapping bytes to elements. -/
theorem C47_ristretto_arithmetic :
    (∀ P Q P' Q', (Ristretto.add P Q).log = (Ristretto.add P' Q').log) ∧
    (∀ k k' P P', (Ristretto.mul k P).log = (Ristretto.mul k' P').log) ∧
    (∀ P Q P' Q', (Ristretto.eq P Q).log = (Ristretto.eq P' Q').log) ∧
    (∀ P P', (Ristretto.encode P).log = (Ristretto.encode P').log) ∧
    (∀ b b', (Ristretto.oneWayMap b).log = (Ristretto.oneWayMap b').log) :=
  ⟨Ristretto.add_log, Ristretto.mul_log, Ristretto.eq_log, Ristretto.encode_log, Ristretto.oneWayMap_log⟩

/-- The record shows where a table is read: reading it at the secret digit, instead of going through all of it, is visible. -/
example {α : Type} (tbl : List α) (a : α) : (read tbl 1 a).log ≠ (read tbl 2 a).log := by
  simp

/-- The selection among the 15 multiples reads all of them. -/
example (pc : List (Nist.Primeorder.Proj Curve.p256)) (slot : Nat) :
    (Nist.lookup pc slot).log = (List.range' 1 15).flatMap fun i => [.load i, .ctEq, .select] := rfl

/-- Two runs with different scalars. -/
example : (Nist.mul 64 (c := Curve.p256) .GENERATOR 1).log = (Nist.mul 64 (c := Curve.p256) .GENERATOR 123456789).log :=
  (C47_nist_arithmetic _ C47_nist_curves.1 64).2.2.1 _ _ _ _

end Voprf.Leak.Curve
