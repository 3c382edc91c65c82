import Verif.Spec.Serde
import Verif.Props.Serialization

/-!
# C38: serde
-/

namespace Voprf.Serde

open Spec

/-! ## Arrays -/

theorem toU8_num (b : UInt8) : (Doc.num b.toNat).toU8 = some b := by
  have := b.toNat_lt
  simp [Doc.toU8]
  omega

theorem toU8_some {d : Doc} {b : UInt8} (h : d.toU8 = some b) : d = .num b.toNat := by
  cases d with
  | num n =>
    simp only [Doc.toU8] at h
    split at h
    · next hn =>
      simp only [Option.some.injEq] at h
      subst h
      simp
      omega
    · simp at h
  | _ => simp [Doc.toU8] at h

theorem readArray_map (bs : Bytes) (rest : List Doc) :
    readArray bs.length (bs.map (fun b => .num b.toNat) ++ rest) = some (bs, rest) := by
  induction bs with
  | nil => rfl
  | cons b bs ih => simp [readArray, toU8_num, ih]

theorem readArray_some {n : Nat} {items rest : List Doc} {bs : Bytes}
    (h : readArray n items = some (bs, rest)) :
    bs.length = n ∧ items = bs.map (fun b => .num b.toNat) ++ rest := by
  induction n generalizing items bs with
  | zero =>
    simp only [readArray, Option.some.injEq, Prod.mk.injEq] at h
    obtain ⟨rfl, rfl⟩ := h
    simp
  | succ n ih =>
    cases items with
    | nil => simp [readArray] at h
    | cons d items =>
      simp only [readArray, Option.bind_eq_bind, Option.bind_eq_some_iff, Prod.exists,
        Option.pure_def, Option.some.injEq, Prod.mk.injEq] at h
      obtain ⟨b, hb, bs', rest', hr, h1, h2⟩ := h
      subst h1 h2
      obtain ⟨hl, hi⟩ := ih hr
      simp [hl, hi, toU8_some hb]

theorem deserializeArray_iff (strict : Bool) (n : Nat) (d : Doc) (bs : Bytes) :
    deserializeArray strict n d = some bs ↔ IsArray strict n d bs := by
  constructor
  · intro h
    cases d with
    | seq items =>
      simp only [deserializeArray, Option.bind_eq_bind, Option.bind_eq_some_iff, Prod.exists] at h
      obtain ⟨bs', rest, hr, h⟩ := h
      split at h
      · simp at h
      · next hs =>
        simp only [Option.some.injEq] at h
        subst h
        obtain ⟨hl, hi⟩ := readArray_some hr
        refine ⟨rest, hl, ?_, by rw [hi]⟩
        rintro rfl
        simpa using hs
    | _ => simp [deserializeArray] at h
  · rintro ⟨rest, hl, hs, rfl⟩
    subst hl
    simp only [deserializeArray, readArray_map, Option.bind_eq_bind, Option.bind_some]
    rw [if_neg]
    cases strict
    · simp
    · simp [hs rfl]

theorem deserializeArray_serializeArray (strict : Bool) (bs : Bytes) (n : Nat) (h : bs.length = n) :
    deserializeArray strict n (serializeArray bs) = some bs :=
  (deserializeArray_iff _ _ _ _).mpr ⟨[], h, fun _ => rfl, by simp [serializeArray]⟩

/-! ## Fields -/

section
variable {CS : CipherSuite} [L : CS.group.Lawful]

/-- A field whose codec refuses invalid values. -/
structure Field.Good {α : Type} (f : Field α) (V : α → Prop) : Prop where
  ok : ∀ a, V a → f.de (f.ser a) = some a
  bad : ∀ a, ¬ V a → f.de (f.ser a) = none
  valid : ∀ d a, f.de d = some a → V a

theorem scalarField_good (strict : Bool) :
    (scalarField strict CS.group).Good (fun a : CS.Scalar => a ≠ 0) where
  ok a h := by
    simp [scalarField, deserializeArray_serializeArray _ _ _ (CS.group.serializeScalar_length a), custom,
      VGroup.Lawful.deserializeScalar_serialize a h]
  bad a h := by
    have h : a = 0 := not_not.mp h
    subst h
    simp [scalarField, deserializeArray_serializeArray _ _ _ (CS.group.serializeScalar_length _), custom,
      VGroup.Lawful.deserializeScalar_serialize_zero]
  valid d a h := by
    simp only [scalarField, Option.bind_eq_some_iff] at h
    obtain ⟨b, _, h⟩ := h
    cases hd : CS.group.deserializeScalar b with
    | ok x =>
      rw [hd] at h
      simp only [custom, Option.some.injEq] at h
      subst h
      exact VGroup.Lawful.deserializeScalar_ne_zero _ _ hd
    | error e => rw [hd] at h; simp [custom] at h

theorem elementField_good (strict : Bool) :
    (elementField strict CS.group).Good (fun a : CS.Elem => a ≠ 0) where
  ok a h := by
    simp [elementField, deserializeArray_serializeArray _ _ _ (CS.group.serializeElem_length a), custom,
      VGroup.Lawful.deserializeElem_serialize a h]
  bad a h := by
    have h : a = 0 := not_not.mp h
    subst h
    simp [elementField, deserializeArray_serializeArray _ _ _ (CS.group.serializeElem_length _), custom,
      VGroup.Lawful.deserializeElem_serialize_zero]
  valid d a h := by
    simp only [elementField, Option.bind_eq_some_iff] at h
    obtain ⟨b, _, h⟩ := h
    cases hd : CS.group.deserializeElem b with
    | ok x =>
      rw [hd] at h
      simp only [custom, Option.some.injEq] at h
      subst h
      exact VGroup.Lawful.deserializeElem_ne_zero _ _ hd
    | error e => rw [hd] at h; simp [custom] at h

theorem custom_eq_some {α : Type} {x : Except Error α} {a : α} : custom x = some a ↔ x = .ok a := by
  cases x <;> simp [custom]

omit L in
/-- C38, scalars: a field is accepted exactly when it is an array of `ScalarLen` bytes that the group
accepts as the encoding of that (non-zero) scalar. -/
theorem C38_scalar_field (strict : Bool) (d : Doc) (a : CS.Scalar) :
    (scalarField strict CS.group).de d = some a ↔
      ∃ bytes, IsArray strict CS.group.scalarLen d bytes ∧ CS.group.deserializeScalar bytes = .ok a := by
  simp [scalarField, Option.bind_eq_some_iff, deserializeArray_iff, custom_eq_some]

omit L in
/-- C38, elements: likewise with `ElemLen` bytes. -/
theorem C38_element_field (strict : Bool) (d : Doc) (a : CS.Elem) :
    (elementField strict CS.group).de d = some a ↔
      ∃ bytes, IsArray strict CS.group.elemLen d bytes ∧ CS.group.deserializeElem bytes = .ok a := by
  simp [elementField, Option.bind_eq_some_iff, deserializeArray_iff, custom_eq_some]

/-! ## Derived code -/

section
variable {α β : Type} {f : Field α} {g : Field β} {V : α → Prop} {W : β → Prop}

theorem newtype_good (hf : f.Good V) (strict : Bool) :
    (⟨serNewtype f, deNewtype strict f⟩ : Field α).Good V where
  ok a h := hf.ok a h
  bad a h := hf.bad a h
  valid d a h := by
    cases d with
    | newtype d => exact hf.valid d a h
    | seq ds =>
      cases ds with
      | nil => simp [deNewtype] at h
      | cons d ds =>
        simp only [deNewtype, Option.bind_eq_bind, Option.bind_eq_some_iff] at h
        obtain ⟨x, hx, h⟩ := h
        split at h
        · simp at h
        · simp only [Option.some.injEq] at h
          subst h
          exact hf.valid _ _ hx
    | _ => simp [deNewtype] at h

theorem visitMap1_some (n : String) (es : List (String × Doc)) (a r : Option α)
    (h : visitMap1 n f es a = some r) :
    (a = none → ∀ x, r = some x → ∃ d, HasField es n d ∧ f.de d = some x) ∧
    (∀ x, a = some x → r = some x ∧ es.filter (fun e => decide (e.1 = n)) = []) := by
  induction es generalizing a with
  | nil =>
    simp only [visitMap1, Option.some.injEq] at h
    subst h
    exact ⟨by rintro rfl; simp, by simp⟩
  | cons e es ih =>
    obtain ⟨key, d⟩ := e
    simp only [visitMap1] at h
    split at h
    · next hk =>
      subst hk
      split at h
      · simp at h
      · simp only [Option.bind_eq_bind, Option.bind_eq_some_iff] at h
        obtain ⟨x, hx, h⟩ := h
        obtain ⟨h1, h2⟩ := (ih _ h).2 x rfl
        subst h1
        refine ⟨fun _ y hy => ?_, by simp⟩
        simp only [Option.some.injEq] at hy
        subst hy
        exact ⟨d, by simp [HasField, h2], hx⟩
    · next hk =>
      have := ih _ h
      refine ⟨fun ha x hx => ?_, fun x hx => ?_⟩
      · obtain ⟨d', h1, h2⟩ := this.1 ha x hx
        exact ⟨d', by simpa [HasField, hk] using h1, h2⟩
      · simpa [hk] using this.2 x hx

theorem visitMap1_done (n : String) (es : List (String × Doc)) (x : α)
    (h : es.filter (fun e => decide (e.1 = n)) = []) :
    visitMap1 n f es (some x) = some (some x) := by
  induction es with
  | nil => rfl
  | cons e es ih =>
    obtain ⟨key, d⟩ := e
    by_cases hk : key = n
    · simp [hk] at h
    · simp only [visitMap1, hk, if_false]
      exact ih (by simpa [hk] using h)

theorem visitMap1_field (n : String) (es : List (String × Doc)) (d : Doc) (x : α)
    (h : HasField es n d) (hx : f.de d = some x) :
    visitMap1 n f es none = some (some x) := by
  induction es with
  | nil => simp [HasField] at h
  | cons e es ih =>
    obtain ⟨key, d'⟩ := e
    by_cases hk : key = n
    · subst hk
      simp only [HasField, List.filter_cons, decide_true, if_true, List.cons.injEq, Prod.mk.injEq,
        true_and] at h
      obtain ⟨rfl, h⟩ := h
      simp only [visitMap1, if_true, hx, Option.bind_eq_bind, Option.bind_some]
      exact visitMap1_done _ _ _ h
    · simp only [visitMap1, hk, if_false]
      exact ih (by simpa [HasField, hk] using h)

theorem deStruct1_map (strict : Bool) (n : String) (es : List (String × Doc)) (x : α) :
    deStruct1 strict n f (.map es) = some x ↔ ∃ d, HasField es n d ∧ f.de d = some x := by
  constructor
  · intro h
    simp only [deStruct1, Option.bind_eq_bind, Option.bind_eq_some_iff] at h
    obtain ⟨r, hr, h⟩ := h
    exact (visitMap1_some n es none r hr).1 rfl x h
  · rintro ⟨d, h, hx⟩
    simp [deStruct1, visitMap1_field n es d x h hx]

/-- What the loop over a map returns, for any fields read so far. -/
theorem visitMap2_eq (n m : String) (hnm : n ≠ m) (es : List (String × Doc)) (a : Option α)
    (b : Option β) :
    visitMap2 n f m g es a b = (do
      let x ← visitMap1 n f es a
      let y ← visitMap1 m g es b
      return (x, y)) := by
  induction es generalizing a b with
  | nil => rfl
  | cons e es ih =>
    obtain ⟨key, d⟩ := e
    by_cases h1 : key = n
    · subst h1
      simp only [visitMap2, visitMap1, if_true, hnm, if_false]
      cases a with
      | some _ => rfl
      | none =>
        cases hd : f.de d with
        | none => rfl
        | some x => simp [ih]
    · by_cases h2 : key = m
      · subst h2
        simp only [visitMap2, visitMap1, if_true, h1, if_false]
        cases b with
        | some _ => cases visitMap1 n f es a <;> rfl
        | none =>
          cases hd : g.de d with
          | none => cases visitMap1 n f es a <;> rfl
          | some x => simp [ih]
      · simp [visitMap2, visitMap1, h1, h2, ih]

theorem deStruct2_map (strict : Bool) (n m : String) (hnm : n ≠ m) (es : List (String × Doc))
    (x : α) (y : β) :
    deStruct2 strict n f m g (.map es) = some (x, y) ↔
      (∃ d, HasField es n d ∧ f.de d = some x) ∧ (∃ d, HasField es m d ∧ g.de d = some y) := by
  rw [← deStruct1_map (f := f) strict, ← deStruct1_map (f := g) strict]
  simp only [deStruct2, visitMap2_eq n m hnm, deStruct1]
  cases visitMap1 n f es none with
  | none => simp
  | some r =>
    cases visitMap1 m g es none with
    | none => simp
    | some t => cases r <;> cases t <;> simp

theorem struct1_good (hf : f.Good V) (st : StructStyle) (strict : Bool) (n : String) :
    (⟨serStruct1 st n f, deStruct1 strict n f⟩ : Field α).Good V where
  ok a h := by
    cases st
    · exact (deStruct1_map strict _ _ _).mpr ⟨f.ser a, by simp [HasField], hf.ok a h⟩
    · simp [serStruct1, deStruct1, hf.ok a h]
  bad a h := by
    cases st
    · simp [serStruct1, deStruct1, visitMap1, hf.bad a h]
    · simp [serStruct1, deStruct1, hf.bad a h]
  valid d a h := by
    cases d with
    | map es =>
      obtain ⟨d, _, hd⟩ := (deStruct1_map strict _ _ _).mp h
      exact hf.valid _ _ hd
    | seq ds =>
      cases ds with
      | nil => simp [deStruct1] at h
      | cons d ds =>
        simp only [deStruct1, Option.bind_eq_bind, Option.bind_eq_some_iff] at h
        obtain ⟨x, hx, h⟩ := h
        split at h
        · simp at h
        · simp only [Option.some.injEq] at h
          subst h
          exact hf.valid _ _ hx
    | _ => simp [deStruct1] at h

theorem struct2_good (hf : f.Good V) (hg : g.Good W) (st : StructStyle) (strict : Bool) (n m : String)
    (hnm : n ≠ m) :
    (⟨fun p => serStruct2 st n f m g p.1 p.2, deStruct2 strict n f m g⟩ : Field (α × β)).Good
      (fun p => V p.1 ∧ W p.2) where
  ok p h := by
    obtain ⟨a, b⟩ := p
    cases st
    · exact (deStruct2_map strict _ _ hnm _ _ _).mpr ⟨⟨f.ser a, by simp [HasField, hnm.symm], hf.ok a h.1⟩,
        ⟨g.ser b, by simp [HasField, hnm], hg.ok b h.2⟩⟩
    · simp [serStruct2, deStruct2, hf.ok a h.1, hg.ok b h.2]
  bad p h := by
    obtain ⟨a, b⟩ := p
    by_cases ha : V a
    · have hb : ¬ W b := fun hb => h ⟨ha, hb⟩
      cases st
      · simp [serStruct2, deStruct2, visitMap2, hf.ok a ha, hg.bad b hb, hnm.symm]
      · simp [serStruct2, deStruct2, hf.ok a ha, hg.bad b hb]
    · cases st
      · simp [serStruct2, deStruct2, visitMap2, hf.bad a ha]
      · simp [serStruct2, deStruct2, hf.bad a ha]
  valid d p h := by
    obtain ⟨a, b⟩ := p
    cases d with
    | map es =>
      obtain ⟨⟨d, _, hd⟩, ⟨d', _, hd'⟩⟩ := (deStruct2_map strict _ _ hnm _ _ _).mp h
      exact ⟨hf.valid _ _ hd, hg.valid _ _ hd'⟩
    | seq ds =>
      match ds, h with
      | [], h => simp [deStruct2] at h
      | [_], h => simp [deStruct2] at h
      | d :: d' :: ds, h =>
        simp only [deStruct2, Option.bind_eq_bind, Option.bind_eq_some_iff] at h
        obtain ⟨x, hx, y, hy, h⟩ := h
        split at h
        · simp at h
        · simp only [Option.some.injEq, Prod.mk.injEq] at h
          obtain ⟨rfl, rfl⟩ := h
          exact ⟨hf.valid _ _ hx, hg.valid _ _ hy⟩
    | _ => simp [deStruct2] at h

end

/-- Transport along the constructor of a type. -/
theorem good_map {α β : Type} {F : Field α} {V : α → Prop} (h : F.Good V) (mk : α → β) (un : β → α)
    (h1 : ∀ b, mk (un b) = b) (h2 : ∀ a, un (mk a) = a) :
    (⟨fun b => F.ser (un b), fun d => (F.de d).map mk⟩ : Field β).Good (fun b => V (un b)) where
  ok b hb := by simp [h.ok _ hb, h1]
  bad b hb := by simp [h.bad _ hb]
  valid d b hd := by
    simp only [Option.map_eq_some_iff] at hd
    obtain ⟨a, ha, rfl⟩ := hd
    rw [h2]
    exact h.valid _ _ ha

/-! ## C38 -/

theorem all_good : AllSerde CS fun t => ∀ st strict, (⟨t.ser st strict, t.de strict⟩ : Field _).Good
    t.Valid := by
  have hs := fun strict => scalarField_good (CS := CS) strict
  have he := fun strict => elementField_good (CS := CS) strict
  constructor <;> intro st strict
  · exact good_map (struct1_good (hs strict) st strict "blind") OprfClient.mk OprfClient.blind
      (fun _ => rfl) (fun _ => rfl)
  · exact good_map (struct2_good (hs strict) (he strict) st strict "blind" "blinded_element" (by decide))
      (fun p => (⟨p.1, p.2⟩ : VoprfClient CS)) (fun c => (c.blind, c.blindedElement))
      (fun _ => rfl) (fun _ => rfl)
  · exact good_map (struct2_good (hs strict) (he strict) st strict "blind" "blinded_element" (by decide))
      (fun p => (⟨p.1, p.2⟩ : PoprfClient CS)) (fun c => (c.blind, c.blindedElement))
      (fun _ => rfl) (fun _ => rfl)
  · exact good_map (struct1_good (hs strict) st strict "sk") OprfServer.mk OprfServer.sk
      (fun _ => rfl) (fun _ => rfl)
  · exact good_map (struct2_good (hs strict) (he strict) st strict "sk" "pk" (by decide))
      (fun p => (⟨p.1, p.2⟩ : VoprfServer CS)) (fun c => (c.sk, c.pk))
      (fun _ => rfl) (fun _ => rfl)
  · exact good_map (struct2_good (hs strict) (he strict) st strict "sk" "pk" (by decide))
      (fun p => (⟨p.1, p.2⟩ : PoprfServer CS)) (fun c => (c.sk, c.pk))
      (fun _ => rfl) (fun _ => rfl)
  · exact good_map (struct2_good (hs strict) (hs strict) st strict "c_scalar" "s_scalar" (by decide))
      (fun p => (⟨p.1, p.2⟩ : Proof CS)) (fun c => (c.cScalar, c.sScalar))
      (fun _ => rfl) (fun _ => rfl)
  · exact good_map (newtype_good (he strict) strict) BlindedElement.mk BlindedElement.value
      (fun _ => rfl) (fun _ => rfl)
  · exact good_map (newtype_good (he strict) strict) EvaluationElement.mk EvaluationElement.value
      (fun _ => rfl) (fun _ => rfl)
  · exact good_map (newtype_good (good_map (newtype_good (he strict) strict) EvaluationElement.mk
      EvaluationElement.value (fun _ => rfl) (fun _ => rfl)) strict)
      PreparedEvaluationElement.mk PreparedEvaluationElement.inner (fun _ => rfl) (fun _ => rfl)
  · exact good_map (newtype_good (hs strict) strict) PoprfPreparedTweak.mk PoprfPreparedTweak.value
      (fun _ => rfl) (fun _ => rfl)

/-- C38: for each of the eleven serde types and every format, `deserialize(serialize(x))` gives back `x`
exactly for the valid values, and is an error for the others. -/
theorem C38_roundtrip : AllSerde CS fun t => ∀ st strict x,
    (t.Valid x → t.de strict (t.ser st strict x) = some x) ∧
    (¬ t.Valid x → t.de strict (t.ser st strict x) = none) := by
  have h := all_good (CS := CS)
  exact ⟨fun st s x => ⟨(h.oprfClient st s).ok x, (h.oprfClient st s).bad x⟩,
    fun st s x => ⟨(h.voprfClient st s).ok x, (h.voprfClient st s).bad x⟩,
    fun st s x => ⟨(h.poprfClient st s).ok x, (h.poprfClient st s).bad x⟩,
    fun st s x => ⟨(h.oprfServer st s).ok x, (h.oprfServer st s).bad x⟩,
    fun st s x => ⟨(h.voprfServer st s).ok x, (h.voprfServer st s).bad x⟩,
    fun st s x => ⟨(h.poprfServer st s).ok x, (h.poprfServer st s).bad x⟩,
    fun st s x => ⟨(h.proof st s).ok x, (h.proof st s).bad x⟩,
    fun st s x => ⟨(h.blindedElement st s).ok x, (h.blindedElement st s).bad x⟩,
    fun st s x => ⟨(h.evaluationElement st s).ok x, (h.evaluationElement st s).bad x⟩,
    fun st s x => ⟨(h.preparedEvaluationElement st s).ok x, (h.preparedEvaluationElement st s).bad x⟩,
    fun st s x => ⟨(h.poprfPreparedTweak st s).ok x, (h.poprfPreparedTweak st s).bad x⟩⟩

/-- C38: whatever document a deserializer accepts, the value it returns is valid: no zero scalar, no
identity element. -/
theorem C38_valid : AllSerde CS fun t => ∀ strict d x, t.de strict d = some x → t.Valid x := by
  have h := all_good (CS := CS)
  exact ⟨fun s d x => (h.oprfClient .named s).valid d x, fun s d x => (h.voprfClient .named s).valid d x,
    fun s d x => (h.poprfClient .named s).valid d x, fun s d x => (h.oprfServer .named s).valid d x,
    fun s d x => (h.voprfServer .named s).valid d x, fun s d x => (h.poprfServer .named s).valid d x,
    fun s d x => (h.proof .named s).valid d x, fun s d x => (h.blindedElement .named s).valid d x,
    fun s d x => (h.evaluationElement .named s).valid d x,
    fun s d x => (h.preparedEvaluationElement .named s).valid d x,
    fun s d x => (h.poprfPreparedTweak .named s).valid d x⟩

/-! ### What the documents look like -/

theorem seqNums_map (bs : Bytes) : seqNums (bs.map fun b => Doc.num b.toNat) = bs.map (fun b => (b.toNat : Int)) := by
  induction bs with
  | nil => rfl
  | cons b bs ih => simp [seqNums, Doc.nums, ih]

theorem nums_serializeArray (bs : Bytes) : (serializeArray bs).nums = bs.map (fun b => (b.toNat : Int)) := by
  simp [serializeArray, Doc.nums, seqNums_map]

/-- C38: the numbers in the document of a value are, in order, exactly the bytes of the byte-level
`serialize` (for the two types without one, of their only field). -/
theorem C38_same_bytes : AllSerde CS fun t => ∀ st strict x,
    (t.ser st strict x).nums = (t.bytes x).map (fun b => (b.toNat : Int)) := by
  constructor <;> intro st strict x
  · cases st <;> simp [oprfClient, serOprfClient, serStruct1, Doc.nums, seqNums, mapNums, scalarField,
      nums_serializeArray, OprfClient.serialize]
  · cases st <;> simp [voprfClient, serVoprfClient, serStruct2, Doc.nums, seqNums, mapNums, scalarField,
      elementField, nums_serializeArray, VoprfClient.serialize]
  · cases st <;> simp [poprfClient, serPoprfClient, serStruct2, Doc.nums, seqNums, mapNums, scalarField,
      elementField, nums_serializeArray, PoprfClient.serialize]
  · cases st <;> simp [oprfServer, serOprfServer, serStruct1, Doc.nums, seqNums, mapNums, scalarField,
      nums_serializeArray, OprfServer.serialize]
  · cases st <;> simp [voprfServer, serVoprfServer, serStruct2, Doc.nums, seqNums, mapNums, scalarField,
      elementField, nums_serializeArray, VoprfServer.serialize]
  · cases st <;> simp [poprfServer, serPoprfServer, serStruct2, Doc.nums, seqNums, mapNums, scalarField,
      elementField, nums_serializeArray, PoprfServer.serialize]
  · cases st <;> simp [proof, serProof, serStruct2, Doc.nums, seqNums, mapNums, scalarField,
      nums_serializeArray, Proof.serialize]
  · simp [blindedElement, serBlindedElement, serNewtype, Doc.nums, elementField,
      nums_serializeArray, BlindedElement.serialize]
  · simp [evaluationElement, serEvaluationElement, serNewtype, Doc.nums, elementField,
      nums_serializeArray, EvaluationElement.serialize]
  · simp [preparedEvaluationElement, serPreparedEvaluationElement, serEvaluationElement, serNewtype,
      Doc.nums, elementField, nums_serializeArray]
  · simp [poprfPreparedTweak, serPoprfPreparedTweak, serNewtype, Doc.nums, scalarField,
      nums_serializeArray]

/-! ### Maps -/

omit L in
/-- C38: a client state is read from a map exactly when the map has one entry `blind` and one entry
`blinded_element`, in any order and among any other entries, holding the byte arrays of a non-zero scalar
and of a non-identity element.  (Missing or repeated fields, short arrays, numbers that are not bytes,
zero and the identity are refused.) -/
theorem C38_voprf_client_map (strict : Bool) (es : List (String × Doc)) (c : VoprfClient CS) :
    deVoprfClient CS strict (.map es) = some c ↔
      ∃ d₁ b₁ d₂ b₂, HasField es "blind" d₁ ∧ IsArray strict CS.group.scalarLen d₁ b₁ ∧
        CS.group.deserializeScalar b₁ = .ok c.blind ∧
        HasField es "blinded_element" d₂ ∧ IsArray strict CS.group.elemLen d₂ b₂ ∧
        CS.group.deserializeElem b₂ = .ok c.blindedElement := by
  obtain ⟨b, e⟩ := c
  simp only [deVoprfClient, Option.map_eq_some_iff, Prod.exists, VoprfClient.mk.injEq]
  constructor
  · rintro ⟨a, b, h, rfl, rfl⟩
    obtain ⟨⟨d, h1, h2⟩, ⟨d', h3, h4⟩⟩ := (deStruct2_map _ _ _ (by decide) _ _ _).mp h
    obtain ⟨b1, h5, h6⟩ := (C38_scalar_field _ _ _).mp h2
    obtain ⟨b2, h7, h8⟩ := (C38_element_field _ _ _).mp h4
    exact ⟨d, b1, d', b2, h1, h5, h6, h3, h7, h8⟩
  · rintro ⟨d, b1, d', b2, h1, h5, h6, h3, h7, h8⟩
    exact ⟨_, _, (deStruct2_map _ _ _ (by decide) _ _ _).mpr
      ⟨⟨d, h1, (C38_scalar_field _ _ _).mpr ⟨b1, h5, h6⟩⟩,
        ⟨d', h3, (C38_element_field _ _ _).mpr ⟨b2, h7, h8⟩⟩⟩, rfl, rfl⟩

omit L in
/-- C38: the POPRF client state from a map. -/
theorem C38_poprf_client_map (strict : Bool) (es : List (String × Doc)) (c : PoprfClient CS) :
    dePoprfClient CS strict (.map es) = some c ↔
      ∃ d₁ b₁ d₂ b₂, HasField es "blind" d₁ ∧ IsArray strict CS.group.scalarLen d₁ b₁ ∧
        CS.group.deserializeScalar b₁ = .ok c.blind ∧
        HasField es "blinded_element" d₂ ∧ IsArray strict CS.group.elemLen d₂ b₂ ∧
        CS.group.deserializeElem b₂ = .ok c.blindedElement := by
  obtain ⟨b, e⟩ := c
  have := C38_voprf_client_map strict es (⟨b, e⟩ : VoprfClient CS)
  simp only [deVoprfClient, Option.map_eq_some_iff, Prod.exists, VoprfClient.mk.injEq] at this
  simp only [dePoprfClient, Option.map_eq_some_iff, Prod.exists, PoprfClient.mk.injEq]
  exact this

omit L in
/-- C38: a server from a map with fields `sk` and `pk`. -/
theorem C38_voprf_server_map (strict : Bool) (es : List (String × Doc)) (s : VoprfServer CS) :
    deVoprfServer CS strict (.map es) = some s ↔
      ∃ d₁ b₁ d₂ b₂, HasField es "sk" d₁ ∧ IsArray strict CS.group.scalarLen d₁ b₁ ∧
        CS.group.deserializeScalar b₁ = .ok s.sk ∧
        HasField es "pk" d₂ ∧ IsArray strict CS.group.elemLen d₂ b₂ ∧
        CS.group.deserializeElem b₂ = .ok s.pk := by
  obtain ⟨b, e⟩ := s
  simp only [deVoprfServer, Option.map_eq_some_iff, Prod.exists, VoprfServer.mk.injEq]
  constructor
  · rintro ⟨a, b, h, rfl, rfl⟩
    obtain ⟨⟨d, h1, h2⟩, ⟨d', h3, h4⟩⟩ := (deStruct2_map _ _ _ (by decide) _ _ _).mp h
    obtain ⟨b1, h5, h6⟩ := (C38_scalar_field _ _ _).mp h2
    obtain ⟨b2, h7, h8⟩ := (C38_element_field _ _ _).mp h4
    exact ⟨d, b1, d', b2, h1, h5, h6, h3, h7, h8⟩
  · rintro ⟨d, b1, d', b2, h1, h5, h6, h3, h7, h8⟩
    exact ⟨_, _, (deStruct2_map _ _ _ (by decide) _ _ _).mpr
      ⟨⟨d, h1, (C38_scalar_field _ _ _).mpr ⟨b1, h5, h6⟩⟩,
        ⟨d', h3, (C38_element_field _ _ _).mpr ⟨b2, h7, h8⟩⟩⟩, rfl, rfl⟩

omit L in
/-- C38: the POPRF server from a map. -/
theorem C38_poprf_server_map (strict : Bool) (es : List (String × Doc)) (s : PoprfServer CS) :
    dePoprfServer CS strict (.map es) = some s ↔
      ∃ d₁ b₁ d₂ b₂, HasField es "sk" d₁ ∧ IsArray strict CS.group.scalarLen d₁ b₁ ∧
        CS.group.deserializeScalar b₁ = .ok s.sk ∧
        HasField es "pk" d₂ ∧ IsArray strict CS.group.elemLen d₂ b₂ ∧
        CS.group.deserializeElem b₂ = .ok s.pk := by
  obtain ⟨b, e⟩ := s
  have := C38_voprf_server_map strict es (⟨b, e⟩ : VoprfServer CS)
  simp only [deVoprfServer, Option.map_eq_some_iff, Prod.exists, VoprfServer.mk.injEq] at this
  simp only [dePoprfServer, Option.map_eq_some_iff, Prod.exists, PoprfServer.mk.injEq]
  exact this

omit L in
/-- C38: a proof from a map with fields `c_scalar` and `s_scalar`. -/
theorem C38_proof_map (strict : Bool) (es : List (String × Doc)) (p : Proof CS) :
    deProof CS strict (.map es) = some p ↔
      ∃ d₁ b₁ d₂ b₂, HasField es "c_scalar" d₁ ∧ IsArray strict CS.group.scalarLen d₁ b₁ ∧
        CS.group.deserializeScalar b₁ = .ok p.cScalar ∧
        HasField es "s_scalar" d₂ ∧ IsArray strict CS.group.scalarLen d₂ b₂ ∧
        CS.group.deserializeScalar b₂ = .ok p.sScalar := by
  obtain ⟨b, e⟩ := p
  simp only [deProof, Option.map_eq_some_iff, Prod.exists, Proof.mk.injEq]
  constructor
  · rintro ⟨a, b, h, rfl, rfl⟩
    obtain ⟨⟨d, h1, h2⟩, ⟨d', h3, h4⟩⟩ := (deStruct2_map _ _ _ (by decide) _ _ _).mp h
    obtain ⟨b1, h5, h6⟩ := (C38_scalar_field _ _ _).mp h2
    obtain ⟨b2, h7, h8⟩ := (C38_scalar_field _ _ _).mp h4
    exact ⟨d, b1, d', b2, h1, h5, h6, h3, h7, h8⟩
  · rintro ⟨d, b1, d', b2, h1, h5, h6, h3, h7, h8⟩
    exact ⟨_, _, (deStruct2_map _ _ _ (by decide) _ _ _).mpr
      ⟨⟨d, h1, (C38_scalar_field _ _ _).mpr ⟨b1, h5, h6⟩⟩,
        ⟨d', h3, (C38_scalar_field _ _ _).mpr ⟨b2, h7, h8⟩⟩⟩, rfl, rfl⟩

omit L in
/-- C38: the base-mode client state and server from a map. -/
theorem C38_oprf_map (strict : Bool) (es : List (String × Doc)) (c : OprfClient CS)
    (s : OprfServer CS) :
    (deOprfClient CS strict (.map es) = some c ↔ ∃ d b, HasField es "blind" d ∧
      IsArray strict CS.group.scalarLen d b ∧ CS.group.deserializeScalar b = .ok c.blind) ∧
    (deOprfServer CS strict (.map es) = some s ↔ ∃ d b, HasField es "sk" d ∧
      IsArray strict CS.group.scalarLen d b ∧ CS.group.deserializeScalar b = .ok s.sk) := by
  have key : ∀ (n : String) (a : CS.Scalar),
      deStruct1 strict n (scalarField strict CS.group) (.map es) = some a ↔ ∃ d b, HasField es n d ∧
      IsArray strict CS.group.scalarLen d b ∧ CS.group.deserializeScalar b = .ok a := by
    intro n a
    rw [deStruct1_map]
    constructor
    · rintro ⟨d, h1, h2⟩
      obtain ⟨b, h3, h4⟩ := (C38_scalar_field _ _ _).mp h2
      exact ⟨d, b, h1, h3, h4⟩
    · rintro ⟨d, b, h1, h3, h4⟩
      exact ⟨d, h1, (C38_scalar_field _ _ _).mpr ⟨b, h3, h4⟩⟩
  obtain ⟨c⟩ := c
  obtain ⟨s⟩ := s
  rw [← key, ← key]
  constructor <;> simp [deOprfClient, deOprfServer]

/-! ### Sequences and newtypes -/

omit L in
theorem deStruct2_seq {α β : Type} {f : Field α} {g : Field β} (strict : Bool) (n m : String)
    (ds : List Doc) (x : α) (y : β) :
    deStruct2 strict n f m g (.seq ds) = some (x, y) ↔
      ∃ d₁ d₂ rest, ds = d₁ :: d₂ :: rest ∧ (strict = true → rest = []) ∧ f.de d₁ = some x ∧
        g.de d₂ = some y := by
  match ds with
  | [] => simp [deStruct2]
  | [_] => simp [deStruct2]
  | d :: d' :: rest =>
    simp only [deStruct2, Option.bind_eq_bind, Option.bind_eq_some_iff, List.cons.injEq]
    constructor
    · rintro ⟨a, ha, b, hb, h⟩
      split at h
      · simp at h
      · next hs =>
        simp only [Option.some.injEq, Prod.mk.injEq] at h
        obtain ⟨rfl, rfl⟩ := h
        exact ⟨d, d', rest, ⟨rfl, rfl, rfl⟩, by rintro rfl; simpa using hs, ha, hb⟩
    · rintro ⟨d₁, d₂, r, ⟨rfl, rfl, rfl⟩, hs, hx, hy⟩
      refine ⟨x, hx, y, hy, if_neg ?_⟩
      cases strict
      · simp
      · simp [hs rfl]

omit L in
/-- C38: from a bare sequence, the two fields must be the first two items, in declaration order; a strict
format accepts nothing after them. -/
theorem C38_positional (strict : Bool) (ds : List Doc) :
    (∀ c, deVoprfClient CS strict (.seq ds) = some c ↔ ∃ d₁ d₂ rest, ds = d₁ :: d₂ :: rest ∧
      (strict = true → rest = []) ∧ (scalarField strict CS.group).de d₁ = some c.blind ∧
      (elementField strict CS.group).de d₂ = some c.blindedElement) ∧
    (∀ c, dePoprfClient CS strict (.seq ds) = some c ↔ ∃ d₁ d₂ rest, ds = d₁ :: d₂ :: rest ∧
      (strict = true → rest = []) ∧ (scalarField strict CS.group).de d₁ = some c.blind ∧
      (elementField strict CS.group).de d₂ = some c.blindedElement) ∧
    (∀ s, deVoprfServer CS strict (.seq ds) = some s ↔ ∃ d₁ d₂ rest, ds = d₁ :: d₂ :: rest ∧
      (strict = true → rest = []) ∧ (scalarField strict CS.group).de d₁ = some s.sk ∧
      (elementField strict CS.group).de d₂ = some s.pk) ∧
    (∀ s, dePoprfServer CS strict (.seq ds) = some s ↔ ∃ d₁ d₂ rest, ds = d₁ :: d₂ :: rest ∧
      (strict = true → rest = []) ∧ (scalarField strict CS.group).de d₁ = some s.sk ∧
      (elementField strict CS.group).de d₂ = some s.pk) ∧
    (∀ p, deProof CS strict (.seq ds) = some p ↔ ∃ d₁ d₂ rest, ds = d₁ :: d₂ :: rest ∧
      (strict = true → rest = []) ∧ (scalarField strict CS.group).de d₁ = some p.cScalar ∧
      (scalarField strict CS.group).de d₂ = some p.sScalar) := by
  refine ⟨?_, ?_, ?_, ?_, ?_⟩ <;> rintro ⟨a, b⟩
  · rw [← deStruct2_seq strict "blind" "blinded_element"]; simp [deVoprfClient]
  · rw [← deStruct2_seq strict "blind" "blinded_element"]; simp [dePoprfClient]
  · rw [← deStruct2_seq strict "sk" "pk"]; simp [deVoprfServer]
  · rw [← deStruct2_seq strict "sk" "pk"]; simp [dePoprfServer]
  · rw [← deStruct2_seq strict "c_scalar" "s_scalar"]; simp [deProof]

omit L in
/-- C38: messages and prepared values are newtypes around the byte array of one element or scalar. -/
theorem C38_newtype (strict : Bool) (d : Doc) :
    (∀ x, deBlindedElement CS strict (.newtype d) = some x ↔
      ∃ b, IsArray strict CS.group.elemLen d b ∧ CS.group.deserializeElem b = .ok x.value) ∧
    (∀ x, deEvaluationElement CS strict (.newtype d) = some x ↔
      ∃ b, IsArray strict CS.group.elemLen d b ∧ CS.group.deserializeElem b = .ok x.value) ∧
    (∀ x, dePreparedEvaluationElement CS strict (.newtype (.newtype d)) = some x ↔
      ∃ b, IsArray strict CS.group.elemLen d b ∧ CS.group.deserializeElem b = .ok x.inner.value) ∧
    (∀ x, dePoprfPreparedTweak CS strict (.newtype d) = some x ↔
      ∃ b, IsArray strict CS.group.scalarLen d b ∧ CS.group.deserializeScalar b = .ok x.value) := by
  refine ⟨?_, ?_, ?_, ?_⟩
  · rintro ⟨a⟩
    rw [← C38_element_field]; simp [deBlindedElement, deNewtype]
  · rintro ⟨a⟩
    rw [← C38_element_field]; simp [deEvaluationElement, deNewtype]
  · rintro ⟨⟨a⟩⟩
    rw [← C38_element_field]; simp [dePreparedEvaluationElement, deEvaluationElement, deNewtype]
  · rintro ⟨a⟩
    rw [← C38_scalar_field]; simp [dePoprfPreparedTweak, deNewtype]

/-! ### Agreement with the byte-level API -/

/-- A value that some document yields is also yielded by the byte-level `deserialize`, and conversely. -/
def Agrees {α : Type} (t : SerdeType α) (w : WireFormat α) : Prop :=
  ∀ x, (∃ strict d, t.de strict d = some x) ↔ ∃ bytes, w.deserialize bytes = .ok x

theorem agrees_of {α : Type} (t : SerdeType α) (w : WireFormat α) (hv : t.Valid = w.Valid)
    (h1 : ∀ st strict x, t.Valid x → t.de strict (t.ser st strict x) = some x)
    (h2 : ∀ strict d x, t.de strict d = some x → t.Valid x)
    (h3 : ∀ x, w.Valid x → w.deserialize (w.serialize x) = .ok x)
    (h4 : ∀ b x, w.deserialize b = .ok x → w.Valid x) : Agrees t w := by
  intro x
  constructor
  · rintro ⟨s, d, h⟩
    exact ⟨_, h3 x (hv ▸ h2 s d x h)⟩
  · rintro ⟨b, h⟩
    exact ⟨true, _, h1 .named true x (hv ▸ h4 b x h)⟩

/-- C38: serde accepts the same values as the byte-level API, for all nine types that have both. -/
theorem C38_agrees :
    Agrees (oprfClient CS) (OprfClient.wire CS) ∧ Agrees (voprfClient CS) (VoprfClient.wire CS) ∧
    Agrees (poprfClient CS) (PoprfClient.wire CS) ∧ Agrees (oprfServer CS) (OprfServer.wire CS) ∧
    Agrees (voprfServer CS) (VoprfServer.wire CS) ∧ Agrees (poprfServer CS) (PoprfServer.wire CS) ∧
    Agrees (proof CS) (Proof.wire CS) ∧ Agrees (blindedElement CS) (BlindedElement.wire CS) ∧
    Agrees (evaluationElement CS) (EvaluationElement.wire CS) := by
  have r := C38_roundtrip (CS := CS)
  have v := C38_valid (CS := CS)
  have r' := C17_roundtrip (CS := CS)
  have v' := C20_valid (CS := CS)
  exact ⟨agrees_of _ _ rfl (fun st s x => (r.oprfClient st s x).1) v.oprfClient
      (fun x => (r'.oprfClient x).1) v'.oprfClient,
    agrees_of _ _ rfl (fun st s x => (r.voprfClient st s x).1) v.voprfClient
      (fun x => (r'.voprfClient x).1) v'.voprfClient,
    agrees_of _ _ rfl (fun st s x => (r.poprfClient st s x).1) v.poprfClient
      (fun x => (r'.poprfClient x).1) v'.poprfClient,
    agrees_of _ _ rfl (fun st s x => (r.oprfServer st s x).1) v.oprfServer
      (fun x => (r'.oprfServer x).1) v'.oprfServer,
    agrees_of _ _ rfl (fun st s x => (r.voprfServer st s x).1) v.voprfServer
      (fun x => (r'.voprfServer x).1) v'.voprfServer,
    agrees_of _ _ rfl (fun st s x => (r.poprfServer st s x).1) v.poprfServer
      (fun x => (r'.poprfServer x).1) v'.poprfServer,
    agrees_of _ _ rfl (fun st s x => (r.proof st s x).1) v.proof
      (fun x => (r'.proof x).1) v'.proof,
    agrees_of _ _ rfl (fun st s x => (r.blindedElement st s x).1) v.blindedElement
      (fun x => (r'.blindedElement x).1) v'.blindedElement,
    agrees_of _ _ rfl (fun st s x => (r.evaluationElement st s x).1) v.evaluationElement
      (fun x => (r'.evaluationElement x).1) v'.evaluationElement⟩

end

/-! ## Concrete cases -/

open Toy in
/-- a map with the fields swapped, an unknown field, and a trailing array element in a lenient format -/
example : deVoprfClient suite false (.map [("blinded_element", .seq [.num 5, .other]), ("x", .other),
    ("blind", .seq [.num 3])]) = some ⟨3, 5⟩ := by rfl

open Toy in
/-- the hypotheses of the map characterisation are met -/
example : HasField [("blinded_element", .seq [.num 5]), ("x", .other), ("blind", .seq [.num 3])] "blind"
    (.seq [.num 3]) ∧ IsArray true 1 (.seq [.num 3]) [3] := by
  exact ⟨by simp [HasField], [], rfl, fun _ => rfl, rfl⟩

open Toy in
/-- zero, the identity, a short array, a number that is not a byte, a repeated and a missing field are
refused -/
example : deVoprfClient suite false (.seq [.seq [.num 0], .seq [.num 5]]) = none ∧
    deVoprfClient suite false (.seq [.seq [.num 3], .seq [.num 0]]) = none ∧
    deVoprfClient suite false (.seq [.seq [], .seq [.num 5]]) = none ∧
    deVoprfClient suite false (.seq [.seq [.num 256], .seq [.num 5]]) = none ∧
    deVoprfClient suite true (.seq [.seq [.num 3, .num 4], .seq [.num 5]]) = none ∧
    deOprfClient suite false (.map [("blind", .seq [.num 3]), ("blind", .seq [.num 3])]) = none ∧
    deOprfClient suite false (.map [("sk", .seq [.num 3])]) = none :=
  ⟨rfl, rfl, rfl, rfl, rfl, rfl, rfl⟩

open Toy in
/-- a value with a non-trivial round trip -/
example : (voprfServer suite).Valid ⟨7, 7⟩ := by
  change (7 : F) ≠ 0 ∧ (7 : F) ≠ 0
  decide

end Voprf.Serde
