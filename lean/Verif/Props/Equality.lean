import Verif.Model.Equality
import Verif.Props.Serialization
import Verif.Toy

/-!
# C58: `==`, `<` and `Hash` agree with the bytes
-/

namespace Voprf

variable {CS : CipherSuite} [L : CS.group.Lawful]

/-- `eq` decides equality of the values. -/
def DecidesEq {α : Type} (eq : α → α → Bool) : Prop := ∀ a b, eq a b = true ↔ a = b

/-- C58: for every type of the crate `==` holds between two values exactly if they are the same value, so it is
reflexive, symmetric and transitive, and equal values are interchangeable in every call. -/
theorem C58_eq :
    DecidesEq (OprfClient.eq (CS := CS)) ∧ DecidesEq (VoprfClient.eq (CS := CS)) ∧
    DecidesEq (PoprfClient.eq (CS := CS)) ∧ DecidesEq (OprfServer.eq (CS := CS)) ∧
    DecidesEq (VoprfServer.eq (CS := CS)) ∧ DecidesEq (PoprfServer.eq (CS := CS)) ∧
    DecidesEq (Proof.eq (CS := CS)) ∧ DecidesEq (BlindedElement.eq (CS := CS)) ∧
    DecidesEq (EvaluationElement.eq (CS := CS)) ∧ DecidesEq (PreparedEvaluationElement.eq (CS := CS)) ∧
    DecidesEq (PoprfPreparedTweak.eq (CS := CS)) := by
  refine ⟨?_, ?_, ?_, ?_, ?_, ?_, ?_, ?_, ?_, ?_, ?_⟩
  · rintro ⟨a⟩ ⟨b⟩
    rw [OprfClient.eq, L.scalarCtEq_iff, OprfClient.mk.injEq]
  · rintro ⟨a, P⟩ ⟨b, Q⟩
    rw [VoprfClient.eq, Bool.and_eq_true, L.scalarCtEq_iff, L.elemCtEq_iff, VoprfClient.mk.injEq]
  · rintro ⟨a, P⟩ ⟨b, Q⟩
    rw [PoprfClient.eq, Bool.and_eq_true, L.scalarCtEq_iff, L.elemCtEq_iff, PoprfClient.mk.injEq]
  · rintro ⟨a⟩ ⟨b⟩
    rw [OprfServer.eq, L.scalarCtEq_iff, OprfServer.mk.injEq]
  · rintro ⟨a, P⟩ ⟨b, Q⟩
    rw [VoprfServer.eq, Bool.and_eq_true, L.scalarCtEq_iff, L.elemCtEq_iff, VoprfServer.mk.injEq]
  · rintro ⟨a, P⟩ ⟨b, Q⟩
    rw [PoprfServer.eq, Bool.and_eq_true, L.scalarCtEq_iff, L.elemCtEq_iff, PoprfServer.mk.injEq]
  · rintro ⟨a, b⟩ ⟨a', b'⟩
    rw [Proof.eq, Bool.and_eq_true, L.scalarCtEq_iff, L.scalarCtEq_iff, Proof.mk.injEq]
  · rintro ⟨a⟩ ⟨b⟩
    rw [BlindedElement.eq, L.elemCtEq_iff, BlindedElement.mk.injEq]
  · rintro ⟨a⟩ ⟨b⟩
    rw [EvaluationElement.eq, L.elemCtEq_iff, EvaluationElement.mk.injEq]
  · rintro ⟨⟨a⟩⟩ ⟨⟨b⟩⟩
    rw [PreparedEvaluationElement.eq, EvaluationElement.eq, L.elemCtEq_iff, PreparedEvaluationElement.mk.injEq,
      EvaluationElement.mk.injEq]
  · rintro ⟨a⟩ ⟨b⟩
    rw [PoprfPreparedTweak.eq, L.scalarCtEq_iff, PoprfPreparedTweak.mk.injEq]

/-- C58: two values compare equal exactly if they serialize to the same bytes. -/
theorem C58_eq_iff_bytes :
    (∀ a b : OprfClient CS, a.eq b = true ↔ a.serialize = b.serialize) ∧
    (∀ a b : VoprfClient CS, a.eq b = true ↔ a.serialize = b.serialize) ∧
    (∀ a b : PoprfClient CS, a.eq b = true ↔ a.serialize = b.serialize) ∧
    (∀ a b : OprfServer CS, a.eq b = true ↔ a.serialize = b.serialize) ∧
    (∀ a b : VoprfServer CS, a.eq b = true ↔ a.serialize = b.serialize) ∧
    (∀ a b : PoprfServer CS, a.eq b = true ↔ a.serialize = b.serialize) ∧
    (∀ a b : Proof CS, a.eq b = true ↔ a.serialize = b.serialize) ∧
    (∀ a b : BlindedElement CS, a.eq b = true ↔ a.serialize = b.serialize) ∧
    (∀ a b : EvaluationElement CS, a.eq b = true ↔ a.serialize = b.serialize) := by
  obtain ⟨h1, h2, h3, h4, h5, h6, h7, h8, h9, -, -⟩ := C58_eq (CS := CS)
  have I := C22_injective (CS := CS)
  exact ⟨fun a b => (h1 a b).trans (I.oprfClient.eq_iff (a := a) (b := b)).symm,
    fun a b => (h2 a b).trans (I.voprfClient.eq_iff (a := a) (b := b)).symm,
    fun a b => (h3 a b).trans (I.poprfClient.eq_iff (a := a) (b := b)).symm,
    fun a b => (h4 a b).trans (I.oprfServer.eq_iff (a := a) (b := b)).symm,
    fun a b => (h5 a b).trans (I.voprfServer.eq_iff (a := a) (b := b)).symm,
    fun a b => (h6 a b).trans (I.poprfServer.eq_iff (a := a) (b := b)).symm,
    fun a b => (h7 a b).trans (I.proof.eq_iff (a := a) (b := b)).symm,
    fun a b => (h8 a b).trans (I.blindedElement.eq_iff (a := a) (b := b)).symm,
    fun a b => (h9 a b).trans (I.evaluationElement.eq_iff (a := a) (b := b)).symm⟩

/-! ## `Ord` -/

/-- What Rust documents for an implementation of `Ord`: the comparison is a total order (antisymmetric and transitive in
the three outcomes) that agrees with `==`. -/
structure TotalOrder {α : Type} (cmp : α → α → Ordering) : Prop where
  /-- `a < b` exactly if `b > a` -/
  swap : ∀ a b, cmp b a = (cmp a b).swap
  /-- `a < b` and `b < c` imply `a < c` -/
  trans : ∀ a b c, cmp a b = .lt → cmp b c = .lt → cmp a c = .lt
  /-- agrees with `==` (by `C58_eq`, equality of the values) -/
  eq_iff : ∀ a b, cmp a b = .eq ↔ a = b

/-- Comparing one field after the other is a total order. -/
theorem TotalOrder.lex {α β γ : Type} {f : α → α → Ordering} {g : β → β → Ordering} (hf : TotalOrder f)
    (hg : TotalOrder g) (p : γ → α) (q : γ → β) (inj : ∀ x y, p x = p y → q x = q y → x = y) :
    TotalOrder fun x y => match f (p x) (p y) with
      | .eq => g (q x) (q y)
      | o => o where
  swap x y := by
    rw [hf.swap (p x) (p y)]
    cases f (p x) (p y)
    · rfl
    · exact hg.swap _ _
    · rfl
  trans x y z h1 h2 := by
    cases hxy : f (p x) (p y) <;> simp only [hxy] at h1 <;> cases hyz : f (p y) (p z) <;> simp only [hyz] at h2 <;>
      try contradiction
    · simp only [hf.trans _ _ _ hxy hyz]
    · rw [← (hf.eq_iff _ _).mp hyz, hxy]
    · rw [(hf.eq_iff _ _).mp hxy, hyz]
    · have e := (hf.eq_iff _ _).mpr (((hf.eq_iff _ _).mp hxy).trans ((hf.eq_iff _ _).mp hyz))
      simp only [e]
      exact hg.trans _ _ _ h1 h2
  eq_iff x y := by
    constructor
    · intro h
      cases hxy : f (p x) (p y) <;> simp only [hxy] at h <;> try contradiction
      exact inj _ _ ((hf.eq_iff _ _).mp hxy) ((hg.eq_iff _ _).mp h)
    · rintro rfl
      simp only [(hf.eq_iff _ _).mpr rfl, (hg.eq_iff _ _).mpr rfl]

/-- The same for a type with one field. -/
theorem TotalOrder.on {α γ : Type} {f : α → α → Ordering} (hf : TotalOrder f) (p : γ → α)
    (inj : ∀ x y, p x = p y → x = y) : TotalOrder fun x y => f (p x) (p y) where
  swap _ _ := hf.swap _ _
  trans _ _ _ := hf.trans _ _ _
  eq_iff _ _ := (hf.eq_iff _ _).trans ⟨inj _ _, fun h => h ▸ rfl⟩

omit L in
/-- C58: for a suite with ordered scalars and elements, the order of the crate's types is a total order in which exactly
equal values are equal. -/
theorem C58_ord {sc : CS.Scalar → CS.Scalar → Ordering} (hs : TotalOrder sc)
    {ec : CS.Elem → CS.Elem → Ordering} (he : TotalOrder ec) :
    TotalOrder (OprfClient.cmp sc) ∧ TotalOrder (VoprfClient.cmp sc ec) ∧ TotalOrder (PoprfClient.cmp sc ec) ∧
    TotalOrder (OprfServer.cmp sc) ∧ TotalOrder (VoprfServer.cmp sc ec) ∧ TotalOrder (PoprfServer.cmp sc ec) ∧
    TotalOrder (Proof.cmp sc) ∧ TotalOrder (BlindedElement.cmp ec) ∧ TotalOrder (EvaluationElement.cmp ec) ∧
    TotalOrder (PreparedEvaluationElement.cmp ec) ∧ TotalOrder (PoprfPreparedTweak.cmp sc) := by
  refine ⟨hs.on _ ?_, hs.lex he _ _ ?_, hs.lex he _ _ ?_, hs.on _ ?_, hs.lex he _ _ ?_, hs.lex he _ _ ?_,
    hs.lex hs _ _ ?_, he.on _ ?_, he.on _ ?_, he.on (fun x : PreparedEvaluationElement CS => x.inner.value) ?_, hs.on _ ?_⟩
  · rintro ⟨a⟩ ⟨b⟩ h; exact congrArg _ h
  · rintro ⟨a, P⟩ ⟨b, Q⟩ h h'; exact congr (congrArg _ h) h'
  · rintro ⟨a, P⟩ ⟨b, Q⟩ h h'; exact congr (congrArg _ h) h'
  · rintro ⟨a⟩ ⟨b⟩ h; exact congrArg _ h
  · rintro ⟨a, P⟩ ⟨b, Q⟩ h h'; exact congr (congrArg _ h) h'
  · rintro ⟨a, P⟩ ⟨b, Q⟩ h h'; exact congr (congrArg _ h) h'
  · rintro ⟨a, P⟩ ⟨b, Q⟩ h h'; exact congr (congrArg _ h) h'
  · rintro ⟨a⟩ ⟨b⟩ h; exact congrArg _ h
  · rintro ⟨a⟩ ⟨b⟩ h; exact congrArg _ h
  · rintro ⟨⟨a⟩⟩ ⟨⟨b⟩⟩ h; exact congrArg (fun v => PreparedEvaluationElement.mk (EvaluationElement.mk v)) h
  · rintro ⟨a⟩ ⟨b⟩ h; exact congrArg _ h

/-- The toy suite's scalars and elements are ordered (as integers below 251). -/
example : TotalOrder (fun a b : Toy.F => compare a.val b.val) where
  swap a b := (Std.OrientedCmp.eq_swap (cmp := (compare : Nat → Nat → Ordering)))
  trans a b c h h' := by
    rw [Nat.compare_eq_lt] at *
    omega
  eq_iff a b := by
    rw [Nat.compare_eq_eq]
    exact ⟨fun h => ZMod.val_injective 251 h, fun h => h ▸ rfl⟩

/-! ## `Hash` -/

/-- The contract of `Hash`: values that compare equal leave every hasher in the same state. -/
def RespectsEq {α H : Type} (eq : α → α → Bool) (hash : α → H → H) : Prop :=
  ∀ a b, eq a b = true → ∀ st, hash a st = hash b st

/-- Values that compare different feed the hasher different bytes (`hash a []`: the bytes fed). -/
def SeparatesNe {α : Type} (eq : α → α → Bool) (hash : α → Bytes → Bytes) : Prop :=
  ∀ a b, eq a b = false → hash a [] ≠ hash b []

/-- C58: the derived `Hash` agrees with `==`, for every hasher and every hashing of the suite's scalars and elements, so
the types can be keys of a hash map. -/
theorem C58_hash {H : Type} (hs : CS.Scalar → H → H) (he : CS.Elem → H → H) :
    RespectsEq (OprfClient.eq (CS := CS)) (OprfClient.hash hs) ∧ RespectsEq (VoprfClient.eq (CS := CS)) (VoprfClient.hash hs he) ∧
    RespectsEq (PoprfClient.eq (CS := CS)) (PoprfClient.hash hs he) ∧ RespectsEq (OprfServer.eq (CS := CS)) (OprfServer.hash hs) ∧
    RespectsEq (VoprfServer.eq (CS := CS)) (VoprfServer.hash hs he) ∧ RespectsEq (PoprfServer.eq (CS := CS)) (PoprfServer.hash hs he) ∧
    RespectsEq (Proof.eq (CS := CS)) (Proof.hash hs) ∧ RespectsEq (BlindedElement.eq (CS := CS)) (BlindedElement.hash he) ∧
    RespectsEq (EvaluationElement.eq (CS := CS)) (EvaluationElement.hash he) ∧
    RespectsEq (PreparedEvaluationElement.eq (CS := CS)) (PreparedEvaluationElement.hash he) ∧
    RespectsEq (PoprfPreparedTweak.eq (CS := CS)) (PoprfPreparedTweak.hash hs) := by
  have key : ∀ {α : Type} {eq : α → α → Bool} {hash : α → H → H}, DecidesEq eq → RespectsEq eq hash :=
    fun h a b e st => by rw [(h a b).mp e]
  obtain ⟨h1, h2, h3, h4, h5, h6, h7, h8, h9, h10, h11⟩ := C58_eq (CS := CS)
  exact ⟨key h1, key h2, key h3, key h4, key h5, key h6, key h7, key h8, key h9, key h10, key h11⟩

/-- C58: if scalars and elements feed the hasher injectively and in a fixed number of bytes each, different values of every
type feed it different bytes: no field is left out of the hash. -/
theorem C58_hash_separates {fs : CS.Scalar → Bytes} {fe : CS.Elem → Bytes} (is : Function.Injective fs)
    (ie : Function.Injective fe) {n : Nat} (ls : ∀ k, (fs k).length = n) :
    let hs : CS.Scalar → Bytes → Bytes := fun k st => st ++ fs k
    let he : CS.Elem → Bytes → Bytes := fun P st => st ++ fe P
    SeparatesNe (OprfClient.eq (CS := CS)) (OprfClient.hash hs) ∧ SeparatesNe (VoprfClient.eq (CS := CS)) (VoprfClient.hash hs he) ∧
    SeparatesNe (PoprfClient.eq (CS := CS)) (PoprfClient.hash hs he) ∧ SeparatesNe (OprfServer.eq (CS := CS)) (OprfServer.hash hs) ∧
    SeparatesNe (VoprfServer.eq (CS := CS)) (VoprfServer.hash hs he) ∧ SeparatesNe (PoprfServer.eq (CS := CS)) (PoprfServer.hash hs he) ∧
    SeparatesNe (Proof.eq (CS := CS)) (Proof.hash hs) ∧ SeparatesNe (BlindedElement.eq (CS := CS)) (BlindedElement.hash he) ∧
    SeparatesNe (EvaluationElement.eq (CS := CS)) (EvaluationElement.hash he) ∧
    SeparatesNe (PreparedEvaluationElement.eq (CS := CS)) (PreparedEvaluationElement.hash he) ∧
    SeparatesNe (PoprfPreparedTweak.eq (CS := CS)) (PoprfPreparedTweak.hash hs) := by
  intro hs he
  have key : ∀ {α : Type} {eq : α → α → Bool} {hash : α → Bytes → Bytes}, DecidesEq eq →
      (∀ a b, hash a [] = hash b [] → a = b) → SeparatesNe eq hash := by
    intro α eq hash h inj a b e c
    rw [(h a b).mpr (inj a b c)] at e
    cases e
  have two : ∀ (k k' : CS.Scalar) (x x' : Bytes), [] ++ fs k ++ x = [] ++ fs k' ++ x' → k = k' ∧ x = x' := by
    intro k k' x x' h
    obtain ⟨h1, h2⟩ := List.append_inj h (by simp [ls])
    exact ⟨is h1, h2⟩
  obtain ⟨h1, h2, h3, h4, h5, h6, h7, h8, h9, h10, h11⟩ := C58_eq (CS := CS)
  refine ⟨key h1 ?_, key h2 ?_, key h3 ?_, key h4 ?_, key h5 ?_, key h6 ?_, key h7 ?_, key h8 ?_, key h9 ?_, key h10 ?_, key h11 ?_⟩
  · rintro ⟨a⟩ ⟨b⟩ h; exact congrArg _ (is h)
  · rintro ⟨a, P⟩ ⟨b, Q⟩ h; obtain ⟨rfl, e⟩ := two _ _ _ _ h; exact congrArg _ (ie e)
  · rintro ⟨a, P⟩ ⟨b, Q⟩ h; obtain ⟨rfl, e⟩ := two _ _ _ _ h; exact congrArg _ (ie e)
  · rintro ⟨a⟩ ⟨b⟩ h; exact congrArg _ (is h)
  · rintro ⟨a, P⟩ ⟨b, Q⟩ h; obtain ⟨rfl, e⟩ := two _ _ _ _ h; exact congrArg _ (ie e)
  · rintro ⟨a, P⟩ ⟨b, Q⟩ h; obtain ⟨rfl, e⟩ := two _ _ _ _ h; exact congrArg _ (ie e)
  · rintro ⟨a, P⟩ ⟨b, Q⟩ h; obtain ⟨rfl, e⟩ := two _ _ _ _ h; exact congrArg _ (is e)
  · rintro ⟨a⟩ ⟨b⟩ h; exact congrArg _ (ie h)
  · rintro ⟨a⟩ ⟨b⟩ h; exact congrArg _ (ie h)
  · rintro ⟨⟨a⟩⟩ ⟨⟨b⟩⟩ h; exact congrArg (fun v => PreparedEvaluationElement.mk (EvaluationElement.mk v)) (ie h)
  · rintro ⟨a⟩ ⟨b⟩ h; exact congrArg _ (is h)

/-- The serialization of scalars and elements is such a feeding. -/
example : Function.Injective (Toy.suite.group.serializeScalar) ∧ Function.Injective (Toy.suite.group.serializeElem) ∧
    ∀ k, (Toy.suite.group.serializeScalar k).length = 1 := by
  refine ⟨?_, ?_, fun k => rfl⟩ <;>
  · intro a b h
    revert a b
    show ∀ a b : Toy.F, Toy.ser a = Toy.ser b → a = b
    decide +kernel

/-- Equal and different values exist. -/
example : ∃ a b : Proof Toy.suite, a.eq a = true ∧ a.eq b = false :=
  ⟨⟨1, 2⟩, ⟨1, 3⟩, by decide, by decide⟩

end Voprf
