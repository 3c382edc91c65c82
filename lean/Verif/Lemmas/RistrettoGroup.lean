import Verif.Lemmas.RistrettoPoint

/-!
# ristretto255 is the quotient of the doubles of edwards25519 by its 4-torsion
-/

namespace Voprf.Ristretto

open Curve Curve.Edwards Formula

namespace Formula

theorem mem_four_iff {A : Ed} : A ∈ Pt.four dd ↔ 4 • A = 0 := by
  refine ⟨fun h => ?_, Pt.mem_four_of_nsmul⟩
  have h2 : (A + A).x = 0 := by rw [Pt.double_x, Pt.mem_four.mp h]; simp
  have e := (A + A).eq
  rw [h2] at e
  have h4 : 4 • A = A + A + (A + A) := by abel
  rw [h4]
  ext
  · rw [Pt.double_x, h2]; simp
  · rw [Pt.add_y, h2]
    simp only [mul_zero, zero_mul, sub_zero, div_one, add_zero, Pt.zero_y]
    linear_combination e

theorem double_mem_even (A : Ed) : 2 • A ∈ Pt.even dd one_add_dd_square := by
  have e := Pt.even_identity A A
  have n1 := Pt.w_ne_zero A
  have n3 := minus_ne A A
  obtain ⟨c, hc⟩ := id one_add_dd_square
  rw [two_nsmul, Pt.mem_even]
  set D := 1 - dd * A.x * A.x * A.y * A.y
  refine ⟨c * (1 + dd * A.y ^ 2 * A.y ^ 2) / ((1 + dd * A.y ^ 2) * D), ?_⟩
  rw [hc] at e
  rw [div_mul_div_comm, eq_div_iff (by simp [n1, n3])]
  linear_combination e

theorem even_ne_top : Pt.even dd one_add_dd_square ≠ ⊤ := by
  intro h
  obtain ⟨T, hT⟩ := exists_order_eight
  have hm : T ∈ Pt.even dd one_add_dd_square := h ▸ AddSubgroup.mem_top T
  have h4 := mem_four_iff.mp (no_even_eight hm (by rw [← hT]; exact addOrderOf_nsmul_eq_zero T))
  have := addOrderOf_dvd_of_nsmul_eq_zero h4
  rw [hT] at this
  omega

/-- The doubles. -/
noncomputable abbrev doubles : AddSubgroup Ed := (nsmulAddMonoidHom 2 : Ed →+ Ed).range

theorem mem_doubles {A : Ed} : A ∈ doubles ↔ ∃ B : Ed, A = 2 • B := by
  rw [AddMonoidHom.mem_range]
  exact exists_congr fun B => eq_comm

theorem card_ker_double : Nat.card (nsmulAddMonoidHom 2 : Ed →+ Ed).ker ≤ 2 := by
  classical
  have : Function.Injective fun A : (nsmulAddMonoidHom 2 : Ed →+ Ed).ker => decide ((A : Ed).y = 1) := by
    have key : ∀ A : Ed, 2 • A = 0 → A.x = 0 ∧ (A.y = 1 ∨ A.y = -1) := by
      intro A h
      have hn : A = -A := eq_neg_of_add_eq_zero_left (by rw [← two_nsmul]; exact h)
      have hx : A.x = -A.x := congrArg Pt.x hn
      have h0 : A.x = 0 := (mul_eq_zero.mp (show 2 * A.x = 0 by linear_combination hx)).resolve_left two_ne
      have e := A.eq
      rw [h0] at e
      exact ⟨h0, by
        rcases mul_eq_zero.mp (show (A.y - 1) * (A.y + 1) = 0 by linear_combination e) with h | h
        · exact Or.inl (sub_eq_zero.mp h)
        · exact Or.inr (eq_neg_of_add_eq_zero_left h)⟩
    rintro ⟨A, hA⟩ ⟨B, hB⟩ h
    obtain ⟨ax, ay⟩ := key A hA
    obtain ⟨bx, by'⟩ := key B hB
    have h : A.y = 1 ↔ B.y = 1 := decide_eq_decide.mp h
    refine Subtype.ext (Pt.ext (ax.trans bx.symm) ?_)
    rcases ay with ay | ay <;> rcases by' with by' | by' <;> rw [ay, by'] <;> rw [ay, by'] at h
    · exact absurd (h.mp rfl).symm one_ne_neg_one
    · exact absurd (h.mpr rfl).symm one_ne_neg_one
  have := Nat.card_le_card_of_injective _ this
  rwa [Nat.card_eq_fintype_card (α := Bool), Fintype.card_bool] at this

theorem even_eq_doubles : Pt.even dd one_add_dd_square = doubles := by
  have hle : doubles ≤ Pt.even dd one_add_dd_square := by
    intro A hA
    obtain ⟨B, rfl⟩ := mem_doubles.mp hA
    exact double_mem_even B
  have hl : 0 < ell := ell_prime.pos
  have h1 : 4 * ell ≤ Nat.card doubles := by
    have := (nsmulAddMonoidHom 2 : Ed →+ Ed).ker.card_mul_index
    rw [AddSubgroup.index_ker, card_ed] at this
    have h2 := Nat.mul_le_mul_right (Nat.card doubles) card_ker_double
    rw [this] at h2
    omega
  have h2 : Nat.card (Pt.even dd one_add_dd_square) ≤ 4 * ell := by
    have hm := (Pt.even dd one_add_dd_square).card_mul_index
    rw [card_ed] at hm
    have hi : (Pt.even dd one_add_dd_square).index ≠ 1 := fun h => even_ne_top (AddSubgroup.index_eq_one.mp h)
    have h0 : (Pt.even dd one_add_dd_square).index ≠ 0 := fun h => by rw [h] at hm; omega
    have : 2 ≤ (Pt.even dd one_add_dd_square).index := by omega
    have := Nat.mul_le_mul_left (Nat.card (Pt.even dd one_add_dd_square)) this
    omega
  exact (AddSubgroup.eq_of_le_of_card_ge hle (h2.trans h1)).symm

end Formula

namespace RPoint

/-- The class of a double. -/
noncomputable def ofEven : Pt.even dd one_add_dd_square →+ RPoint where
  toFun A := clsEquiv.symm (QuotientAddGroup.mk A)
  map_zero' := by
    apply clsHom_injective
    exact (clsEquiv.apply_symm_apply _).trans (map_zero clsHom).symm
  map_add' A B := by
    apply clsHom_injective
    rw [map_add]
    have h : ∀ q, clsHom (clsEquiv.symm q) = q := clsEquiv.apply_symm_apply
    rw [h, h, h]
    rfl

theorem clsHom_ofEven (A : Pt.even dd one_add_dd_square) : clsHom (ofEven A) = QuotientAddGroup.mk A :=
  clsEquiv.apply_symm_apply _

theorem ofEven_eq {P : VPoint} {A : Ed} (hA : A ∈ Pt.even dd one_add_dd_square) (rA : Rep P.pt A) :
    ofEven ⟨A, hA⟩ = Quotient.mk _ P := by
  apply clsHom_injective
  rw [clsHom_ofEven, clsHom_mk, cls_eq hA rA]

theorem ofEven_eq_zero {A : Ed} (hA : A ∈ Pt.even dd one_add_dd_square) : ofEven ⟨A, hA⟩ = 0 ↔ A ∈ Pt.four dd := by
  rw [← clsHom_injective.eq_iff, clsHom_ofEven, map_zero, QuotientAddGroup.eq_zero_iff, AddSubgroup.mem_addSubgroupOf]

theorem ofEven_eq_iff (A B : Pt.even dd one_add_dd_square) : ofEven A = ofEven B ↔ (A : Ed) - B ∈ Pt.four dd := by
  rw [← sub_eq_zero, ← map_sub]
  exact ofEven_eq_zero (A - B).2

theorem ofEven_surjective : Function.Surjective ofEven := fun P => by
  obtain ⟨A, hA⟩ := QuotientAddGroup.mk_surjective (clsHom P)
  exact ⟨A, clsHom_injective (by rw [clsHom_ofEven, hA])⟩

theorem encodes_iff {s : Fp} {A : Ed} : Rfc9496.Encodes (¬ Negative ·) s A.x A.y ↔ Canon s A := by
  constructor
  · rintro ⟨h1, h2, h3, h4, h5, h6⟩
    exact ⟨h1, h2, h3, h4, by rw [h6, div_mul_cancel₀ _ h5]⟩
  · intro h
    have hu : 1 + s ^ 2 ≠ 0 := fun h0 => two_ne (by linear_combination -h.eq + (1 + A.y) * h0)
    exact ⟨h.1, h.2, h.3, h.4, hu, by rw [eq_div_iff hu]; exact h.eq⟩

theorem compress_ofEven {A : Ed} (hA : A ∈ Pt.even dd one_add_dd_square) (b : Bytes) :
    b = compress (ofEven ⟨A, hA⟩) ↔ b.length = 32 ∧ ofLeBytes b < Formula.p ∧
      ∃ A' : Ed, A - A' ∈ Pt.four dd ∧ Canon ((ofLeBytes b : Nat) : Fp) A' := by
  obtain ⟨P, rA⟩ := rep_exists A
  rw [ofEven_eq (P := ⟨P, A, hA, rA⟩) hA rA, compress_mk]
  obtain ⟨hlt, A', dA, cA⟩ := encode_spec rA hA
  show b = toLeBytes 32 (encode P) ↔ _
  constructor
  · rintro rfl
    rw [ofLeBytes_toLeBytes _ _ (hlt.trans p_lt), toLeBytes_length]
    exact ⟨rfl, hlt, A', dA, cA⟩
  · rintro ⟨hl, hb, B, dB, cB⟩
    have : encode P = ofLeBytes b := by
      rw [cast_inj hlt hb]
      refine (cA.unique cB ?_).2
      have : A' - B = (A - B) - (A - A') := by abel
      rw [this]
      exact sub_mem dB dA
    rw [this, ← hl, toLeBytes_ofLeBytes]

end RPoint

end Voprf.Ristretto
