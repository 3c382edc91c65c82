import Verif.Props.BatchAttack

/-!
# C11 for the code: the fraction of hash values for which `compute_composites` hides a bad item
-/

namespace Voprf

open Spec

variable {CS : CipherSuite} [L : CS.group.Lawful]

/-- C11: let `hash_to_scalar` be answered from a table. For a batch of at most 65535 pairs of which at least
one is bad, the composite statement that `compute_composites` produces on the verifier's side is true for
exactly one in `|scalars|` of all tables. -/
theorem C11_composites (wf : CS.WF) (mode : Mode) (B : CS.Elem) {n : Nat} (hn : n ≤ 65535)
    (C D : Fin n → CS.Elem) (hbad : ∃ j, ¬ SameKey CS B (C j) (D j)) :
    Nat.card {f : Table CS // ∃ M Z : CS.Elem,
        computeComposites (oracleSuite CS f) none B (List.ofFn C) (List.ofFn D) mode = .ok (M, Z) ∧
        SameKey CS B M Z} * Nat.card CS.Scalar = Nat.card (Table CS) := by
  classical
  obtain ⟨j, hbad⟩ := hbad
  obtain ⟨k, rfl⟩ := VGroup.Lawful.base_generates (G := CS.group) B
  have hne : D j - k • C j ≠ 0 := by
    rw [sub_ne_zero]; exact fun h => hbad ((sameKey_iff k _ _).mpr h)
  let Q : Fin n → Question := fun i => weightQ wf mode (k • CS.group.baseElem) i (C i) (D i)
  have hQ : Function.Injective Q := fun a b h =>
    Fin.ext (weightQ_inj wf mode (by omega) (by omega) h).1
  let φ : Table CS →+ CS.Elem := AddMonoidHom.mk' (fun f : Table CS => ∑ i, f (Q i) • (D i - k • C i))
    (fun f g => by
      rw [← Finset.sum_add_distrib]
      exact Finset.sum_congr rfl fun i _ => add_smul _ _ _)
  have hs : Function.Surjective φ := by
    intro P
    obtain ⟨e, he⟩ := VGroup.Lawful.base_generates (G := CS.group) (D j - k • C j)
    have he0 : e ≠ 0 := by rintro rfl; simp [he] at hne
    obtain ⟨t, rfl⟩ := VGroup.Lawful.base_generates (G := CS.group) P
    refine ⟨fun q => if q = Q j then t * e⁻¹ else 0, ?_⟩
    show ∑ i, (if Q i = Q j then t * e⁻¹ else 0 : CS.Scalar) • (D i - k • C i) = _
    rw [Finset.sum_eq_single j]
    · rw [if_pos rfl, he, smul_smul, mul_assoc, inv_mul_cancel₀ he0, mul_one]
    · intro i _ hi
      rw [if_neg (fun h => hi (hQ h)), zero_smul]
    · exact fun h => absurd (Finset.mem_univ j) h
  have hcard : Nat.card CS.Elem = Nat.card CS.Scalar :=
    (Nat.card_congr (Equiv.ofBijective (fun k : CS.Scalar => k • CS.group.baseElem)
      ⟨fun a b h => smul_base_inj h, fun P => (VGroup.Lawful.base_generates P).imp fun _ h => h.symm⟩)).symm
  rw [← hcard]
  refine Eq.trans (congrArg (· * Nat.card CS.Elem) (Nat.card_congr (Equiv.subtypeEquivRight fun f => ?_)))
    (card_fibre φ hs 0)
  have hc : (computeComposites (oracleSuite CS f) none (k • CS.group.baseElem) (List.ofFn C) (List.ofFn D)
      mode : Res (CS.Elem × CS.Elem)) =
      (Res.ok ((lincomb (List.ofFn fun i => f (Q i)) (List.ofFn C) : CS.Elem),
        (lincomb (List.ofFn fun i => f (Q i)) (List.ofFn D) : CS.Elem)) : Res (CS.Elem × CS.Elem)) := by
    have hl : ¬ ((List.ofFn C).length ≠ (List.ofFn D).length ∨ 65535 < (List.ofFn C).length) := by
      simp; omega
    refine (computeComposites_eq (CS := oracleSuite CS f) (oracle_wf wf f) none _ mode _ _).trans ?_
    refine (if_neg hl).trans ?_
    rw [weights_ofFn wf]
    rfl
  have hval : SameKey CS (k • CS.group.baseElem) (lincomb (List.ofFn fun i => f (Q i)) (List.ofFn C))
      (lincomb (List.ofFn fun i => f (Q i)) (List.ofFn D)) ↔ φ f = 0 := by
    rw [sameKey_iff, lincomb_ofFn, lincomb_ofFn, ← sub_eq_zero, Finset.smul_sum, ← Finset.sum_sub_distrib]
    show _ ↔ ∑ i, f (Q i) • (D i - k • C i) = 0
    rw [Finset.sum_congr rfl fun i _ => ?_]
    rw [smul_sub, smul_comm]
  rw [← hval]
  constructor
  · rintro ⟨M, Z, h, hk⟩
    have := Res.ok.inj (h.symm.trans hc)
    cases this
    exact hk
  · exact fun hk => ⟨_, _, hc, hk⟩

section examples
open Toy

/-- A bad batch on the toy suite: key 7, the second item answered with 5 instead of 21. -/
example : ∃ j, ¬ SameKey suite (7 : F) ((![2, 3] : Fin 2 → F) j) ((![14, 5] : Fin 2 → F) j) := by
  refine ⟨1, ?_⟩
  rintro ⟨k, h1, h2⟩
  revert h1 h2
  exact (by decide +kernel : ∀ k : F, (7 : F) = k * 1 → (5 : F) = k * 3 → False) k

end examples

end Voprf
