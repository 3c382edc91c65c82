import Verif.Lemmas.Api
import Mathlib.Data.ZMod.Basic
import Mathlib.Algebra.Field.ZMod
import Mathlib.Tactic.NormNum.Prime

/-!
# A small lawful ciphersuite

Used only to exhibit concrete cases meeting the hypotheses of the theorems (the real curve is in
`Verif/Curve/`).  The group is the additive group of `ZMod 251`, encodings are single bytes.
-/

namespace Voprf.Toy

open Spec

abbrev F := ZMod 251

instance : Fact (Nat.Prime 251) := ⟨by norm_num⟩

/-- A (cryptographically worthless) hash with two bytes of output. -/
def mix (b : Bytes) : Nat := b.foldl (fun a x => (a * 31 + x.toNat + 7) % 65521) 1

def hash : HashAlg where
  outputSize := 2
  blockSize := 4
  digest b := be16 (mix b)
  digest_length _ := rfl
  outputSize_lt := by decide
  outputSize_le := by decide
  outputSize_pos := by decide

def ser (a : F) : Bytes := [UInt8.ofNat a.val]

def des : Bytes → Except Error F
  | [b] => if b.toNat = 0 ∨ 251 ≤ b.toNat then .error .Deserialization else .ok (b.toNat : F)
  | _ => .error .Deserialization

def rand {σ : Type} [RngCore σ] (s : σ) : Option (F × σ) :=
  some ((((RngCore.fillBytes s 1).1.headD 0).toNat % 250 + 1 : Nat), (RngCore.fillBytes s 1).2)

def inv (a : F) : Option F := if a = 0 then none else some a⁻¹

def isZero (a : F) : Bool := decide (a = 0)

theorem isZero_iff (a : F) : isZero a = true ↔ a = 0 := by simp [isZero]

theorem inv_eq (a : F) (h : a ≠ 0) : inv a = some a⁻¹ := if_neg h

theorem base_gen (P : F) : ∃ k : F, P = k • (1 : F) := ⟨P, by simp⟩

theorem rand_ne_zero {σ : Type} [RngCore σ] (s s' : σ) (k : F) (h : rand s = some (k, s')) :
    k ≠ 0 := by
  simp only [rand, Option.some.injEq, Prod.mk.injEq] at h
  rw [← h.1]
  intro h0
  rw [ZMod.natCast_eq_zero_iff] at h0
  have := Nat.le_of_dvd (by omega) h0
  omega

def group : VGroup where
  Elem := F
  elemLen := 1
  Scalar := F
  scalarLen := 1
  elemAdd := (· + ·)
  elemMul P k := k * P
  elemCtEq P Q := decide (P = Q)
  scalarAdd := (· + ·)
  scalarMul := (· * ·)
  scalarSub := (· - ·)
  scalarCtEq P Q := decide (P = Q)
  elemZeroize _ := 0
  scalarZeroize _ := 0
  hashToCurve H xs ds := .ok ((mix (H.digest (xs.flatten ++ [255] ++ ds.flatten)) : Nat) : F)
  hashToScalar H xs ds := .ok ((mix (H.digest (xs.flatten ++ [254] ++ ds.flatten)) : Nat) : F)
  baseElem := 1
  identityElem := 0
  serializeElem := ser
  serializeElem_length _ := rfl
  deserializeElem := des
  randomScalar := rand
  invertScalar := inv
  isZeroScalar := isZero
  serializeScalar := ser
  serializeScalar_length _ := rfl
  deserializeScalar := des

theorem des_ser (a : F) (h : a ≠ 0) : des (ser a) = .ok a := by
  have hv : a.val < 251 := ZMod.val_lt a
  have h0 : a.val ≠ 0 := fun h' => h ((ZMod.val_eq_zero a).mp h')
  have : (UInt8.ofNat a.val).toNat = a.val := by simp; omega
  simp only [des, ser, this]
  rw [if_neg (by omega)]
  simp

theorem des_ne_zero (b : Bytes) (a : F) (h : des b = .ok a) : a ≠ 0 := by
  unfold des at h
  split at h
  · next x =>
    split at h
    · simp at h
    · next hx =>
      simp only [Except.ok.injEq] at h
      rw [← h]
      intro h0
      rw [ZMod.natCast_eq_zero_iff] at h0
      have := Nat.le_of_dvd (by omega) h0
      omega
  · simp at h

theorem des_error (b : Bytes) (e : Error) (h : des b = .error e) : e = .Deserialization := by
  unfold des at h
  split at h
  · split at h
    · simpa using h.symm
    · simp at h
  · simpa using h.symm

instance : Field group.Scalar := inferInstanceAs (Field F)
instance : AddCommGroup group.Elem := inferInstanceAs (AddCommGroup F)
instance : Module group.Scalar group.Elem := inferInstanceAs (Module F F)

instance lawful : group.Lawful where
  finite_scalar := inferInstanceAs (Finite F)
  elemAdd_eq _ _ := rfl
  elemMul_eq _ _ := rfl
  elemCtEq_iff P Q := by simp [group]
  scalarAdd_eq _ _ := rfl
  scalarMul_eq _ _ := rfl
  scalarSub_eq _ _ := rfl
  scalarCtEq_iff P Q := by simp [group]
  elemZeroize_eq _ := rfl
  scalarZeroize_eq _ := rfl
  identityElem_eq := rfl
  baseElem_ne_zero := by change (1 : F) ≠ 0; decide
  base_generates := base_gen
  isZeroScalar_iff := isZero_iff
  invertScalar_eq := inv_eq
  randomScalar_ne_zero := rand_ne_zero
  deserializeElem_serialize := des_ser
  deserializeElem_serialize_zero := by rfl
  deserializeElem_ne_zero := des_ne_zero
  deserializeElem_error := des_error
  deserializeScalar_serialize := des_ser
  deserializeScalar_serialize_zero := by rfl
  deserializeScalar_ne_zero := des_ne_zero
  deserializeScalar_error := des_error
  hashToCurve_flatten _ _ _ := by simp [group]
  hashToScalar_flatten _ _ _ := by simp [group]
  hashToCurve_ok _ _ _ _ _ _ := ⟨_, rfl⟩
  hashToScalar_ok _ _ _ _ _ _ := ⟨_, rfl⟩

theorem totalHash : group.TotalHash := ⟨fun _ _ _ _ => ⟨_, rfl⟩, fun _ _ _ _ => ⟨_, rfl⟩⟩

/-- The toy ciphersuite, identifier `"toy"`. -/
def suite : CipherSuite := ⟨ascii "toy", group, hash⟩

theorem wf : suite.WF := ⟨by decide, by decide⟩

instance : suite.group.Lawful := lawful

/-- A counter used as a random-number generator. -/
structure Rng where
  n : Nat
  deriving DecidableEq

instance : RngCore Rng where
  fillBytes s n := (List.replicate n (UInt8.ofNat s.n), ⟨s.n + 1⟩)
  fillBytes_length _ _ := by simp

instance : DecidableEq suite.Elem := inferInstanceAs (DecidableEq F)
instance : DecidableEq suite.Scalar := inferInstanceAs (DecidableEq F)
instance : DecidableEq suite.group.Elem := inferInstanceAs (DecidableEq F)
instance : DecidableEq suite.group.Scalar := inferInstanceAs (DecidableEq F)
instance (n : Nat) [n.AtLeastTwo] : OfNat suite.Scalar n := ⟨((n : Nat) : F)⟩
instance (n : Nat) [n.AtLeastTwo] : OfNat suite.Elem n := ⟨((n : Nat) : F)⟩

end Voprf.Toy
