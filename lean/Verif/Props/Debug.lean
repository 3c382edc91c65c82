import Verif.Spec.Debug
import Verif.Props.Zeroize
import Verif.Props.Serialization

/-!
# C71: what `{:?}` shows
-/

namespace Voprf

open Spec

variable {CS : CipherSuite}

/-- reads the scalar after a known beginning -/
theorem exists_reader {scalar : CS.Scalar → String} (hs : SelfDelimiting scalar) (start : String) :
    ∃ read : String → Option CS.Scalar, ∀ k rest, read (start ++ (scalar k ++ rest)) = some k := by
  classical
  refine ⟨fun t => if h : ∃ k rest, t = start ++ (scalar k ++ rest) then some h.choose else none, fun k rest => ?_⟩
  have h : ∃ k' rest', start ++ (scalar k ++ rest) = start ++ (scalar k' ++ rest') := ⟨k, rest, rfl⟩
  refine (dif_pos h).trans ?_
  obtain ⟨rest', hr⟩ := h.choose_spec
  have := String.toList_inj.2 hr
  rw [String.toList_append (s := start), String.toList_append (s := start), List.append_cancel_left_eq,
    String.toList_inj] at this
  exact congrArg some (hs _ _ _ _ this).symm

theorem shows_of_start {scalar : CS.Scalar → String} (hs : SelfDelimiting scalar) {α : Type}
    {debug : Fmt CS → α → String} {secret : α → CS.Scalar} (start : String)
    (h : ∀ elem x, ∃ rest, debug ⟨scalar, elem⟩ x = start ++ (scalar (secret x) ++ rest)) :
    Shows scalar debug secret := by
  obtain ⟨read, hr⟩ := exists_reader hs start
  refine ⟨read, fun elem x => ?_⟩
  obtain ⟨rest, e⟩ := h elem x
  rw [e, hr]

theorem struct_one (n f v : String) : Debug.struct n [(f, v)] = (n ++ " { " ++ f ++ ": ") ++ (v ++ " }") := by
  simp only [Debug.struct, List.map]
  rw [show ", ".intercalate [f ++ ": " ++ v] = f ++ ": " ++ v from rfl]
  simp only [String.append_assoc]

theorem struct_two (n f v g w : String) :
    Debug.struct n [(f, v), (g, w)] = (n ++ " { " ++ f ++ ": ") ++ (v ++ (", " ++ g ++ ": " ++ w ++ " }")) := by
  simp only [Debug.struct, List.map]
  rw [show ", ".intercalate [f ++ ": " ++ v, g ++ ": " ++ w] = f ++ ": " ++ v ++ ", " ++ (g ++ ": " ++ w) from rfl]
  simp only [String.append_assoc]

theorem starts_one (n f p k r : String) : ∃ rest, Debug.struct n [(f, p ++ (k ++ r))] = (n ++ " { " ++ f ++ ": " ++ p) ++ (k ++ rest) :=
  ⟨r ++ " }", by rw [struct_one]; simp only [String.append_assoc]⟩

theorem starts_two (n f p k r g w : String) :
    ∃ rest, Debug.struct n [(f, p ++ (k ++ r)), (g, w)] = (n ++ " { " ++ f ++ ": " ++ p) ++ (k ++ rest) :=
  ⟨r ++ (", " ++ g ++ ": " ++ w ++ " }"), by rw [struct_two]; simp only [String.append_assoc]⟩

/-- C71 is violated by the states: whatever the elements look like, the blind of a client, the private key of a server
and the tweak are read off the debug output, also of a `blind` result. -/
theorem C71_state_violation {scalar : CS.Scalar → String} (hs : SelfDelimiting scalar) :
    Shows scalar Debug.oprfClient OprfClient.blind ∧
    Shows scalar Debug.voprfClient VoprfClient.blind ∧
    Shows scalar Debug.poprfClient PoprfClient.blind ∧
    Shows scalar Debug.oprfServer OprfServer.sk ∧
    Shows scalar Debug.voprfServer VoprfServer.sk ∧
    Shows scalar Debug.poprfServer PoprfServer.sk ∧
    Shows scalar Debug.poprfPreparedTweak PoprfPreparedTweak.value ∧
    Shows scalar Debug.oprfClientBlindResult (fun r => r.state.blind) ∧
    Shows scalar Debug.voprfClientBlindResult (fun r => r.state.blind) ∧
    Shows scalar Debug.poprfClientBlindResult (fun r => r.state.blind) := by
  refine ⟨?_, ?_, ?_, ?_, ?_, ?_, ?_, ?_, ?_, ?_⟩
  · exact shows_of_start hs _ fun _ _ => ⟨_, struct_one _ _ _⟩
  · exact shows_of_start hs _ fun _ _ => ⟨_, struct_two _ _ _ _ _⟩
  · exact shows_of_start hs _ fun _ _ => ⟨_, struct_two _ _ _ _ _⟩
  · exact shows_of_start hs _ fun _ _ => ⟨_, struct_one _ _ _⟩
  · exact shows_of_start hs _ fun _ _ => ⟨_, struct_two _ _ _ _ _⟩
  · exact shows_of_start hs _ fun _ _ => ⟨_, struct_two _ _ _ _ _⟩
  · exact shows_of_start hs ("PoprfPreparedTweak" ++ "(") fun _ _ => ⟨")", String.append_assoc⟩
  · refine shows_of_start hs ("OprfClientBlindResult" ++ " { " ++ "state" ++ ": " ++ ("OprfClient" ++ " { " ++ "blind" ++ ": "))
      fun _ r => ?_
    rw [Debug.oprfClientBlindResult, Debug.oprfClient, struct_one]
    exact starts_two _ _ _ _ _ _ _
  · refine shows_of_start hs ("VoprfClientBlindResult" ++ " { " ++ "state" ++ ": " ++ ("VoprfClient" ++ " { " ++ "blind" ++ ": "))
      fun _ r => ?_
    rw [Debug.voprfClientBlindResult, Debug.voprfClient, struct_two "VoprfClient"]
    exact starts_two _ _ _ _ _ _ _
  · refine shows_of_start hs ("PoprfClientBlindResult" ++ " { " ++ "state" ++ ": " ++ ("PoprfClient" ++ " { " ++ "blind" ++ ": "))
      fun _ r => ?_
    rw [Debug.poprfClientBlindResult, Debug.poprfClient, struct_two "PoprfClient"]
    exact starts_two _ _ _ _ _ _ _

/-- the text before the repeated scalar of a prepared iterator -/
theorem starts_prepared (F : Fmt CS) {I α γ : Type} (items : I → String)
    (it : Lazy.Map (Lazy.Zip I (Lazy.Repeat CS.Scalar)) α γ) :
    ∃ rest, Debug.map (Debug.zip items (Debug.repeated F.scalar)) it =
      ("Map { iter: Zip { a: " ++ items it.iter.a ++ ", b: Repeat { element: ") ++ (F.scalar it.iter.b.element ++ rest) := by
  refine ⟨" }" ++ (" }" ++ " }"), ?_⟩
  rw [Debug.map, Debug.zip, Debug.repeated, struct_one, struct_two, struct_one]
  rw [show "Map { iter: Zip { a: " = "Map" ++ " { " ++ "iter" ++ ": " ++ ("Zip" ++ " { " ++ "a" ++ ": ") from rfl,
    show ", b: Repeat { element: " = ", " ++ "b" ++ ": " ++ ("Repeat" ++ " { " ++ "element" ++ ": ") from rfl]
  simp only [String.append_assoc]

/-- C71 is violated by the results of `batch_blind_evaluate_prepare`, at any point of their use: someone who knows the text
of the caller's own iterator reads the private key (VOPRF) off the debug output, and with the public info also in POPRF,
where both the iterator and the tweak show it. -/
theorem C71_prepared_violation [L : CS.group.Lawful] (wf : CS.WF) {scalar : CS.Scalar → String}
    (hs : SelfDelimiting scalar) :
    (∃ read : String → String → Option CS.Scalar,
      ∀ (elem : CS.Elem → String) (s : VoprfServer CS) {I : Type} [Lazy.Iter I (BlindedElement CS)] (items : I → String)
        (blindedElements : I) (n : Nat) (it : Lazy.VoprfPrepared CS I),
        it = advance n (Lazy.voprfPrepare s blindedElements) →
        read (items it.iter.a) (Debug.voprfPrepared ⟨scalar, elem⟩ items it) = some s.sk) ∧
    (∃ read : String → Option Bytes → String → Option CS.Scalar,
      ∀ (elem : CS.Elem → String) (s : PoprfServer CS) {I : Type} [Lazy.Iter I (BlindedElement CS)] (items : I → String)
        (blindedElements : I) (info : Option Bytes) (n : Nat) (it : Lazy.PoprfPrepared CS I) (t : PoprfPreparedTweak CS),
        Lazy.poprfPrepare s blindedElements info = .ok (it, t) →
        read (items (advance n it).iter.a) info
          (Debug.poprfServerBatchEvaluatePrepareResult ⟨scalar, elem⟩ items (advance n it, t)) = some s.sk) ∧
    (∃ read : Option Bytes → String → Option CS.Scalar,
      ∀ (elem : CS.Elem → String) (s : PoprfServer CS) {I : Type} (blindedElements : I) (info : Option Bytes)
        (it : Lazy.PoprfPrepared CS I) (t : PoprfPreparedTweak CS),
        Lazy.poprfPrepare s blindedElements info = .ok (it, t) →
        read info (Debug.poprfPreparedTweak ⟨scalar, elem⟩ t) = some s.sk) := by
  classical
  have key : ∀ (s : PoprfServer CS) {I : Type} (bs : I) (info : Option Bytes) (it : Lazy.PoprfPrepared CS I)
      (t : PoprfPreparedTweak CS), Lazy.poprfPrepare s bs info = .ok (it, t) → it.iter.b.element = t.value ∧
      ∃ m, Spec.hashToScalar CS .Poprf (infoInput (info.getD [])) = .ok m ∧ t.value - m = s.sk := by
    intro s I bs info it t h
    rw [Lazy.poprfPrepare, Res.bind_eq_ok] at h
    obtain ⟨tw, htw, h⟩ := h
    obtain ⟨m, -, hm, rfl, -⟩ := computeTweak_ok wf htw
    cases h
    exact ⟨rfl, m, hm, add_sub_cancel_right _ _⟩
  choose rd hrd using fun start => exists_reader hs start
  let sub : Option Bytes → Option CS.Scalar → Option CS.Scalar := fun info t =>
    match Spec.hashToScalar CS .Poprf (infoInput (info.getD [])), t with
    | .ok m, some t => some (t - m)
    | _, _ => none
  have hsub : ∀ info m t, Spec.hashToScalar CS .Poprf (infoInput (info.getD [])) = .ok m →
      sub info (some t) = some (t - m) := by
    intro info m t h
    simp only [sub, h]
  refine ⟨⟨fun a => rd ("Map { iter: Zip { a: " ++ a ++ ", b: Repeat { element: "), ?_⟩,
    ⟨fun a info t => sub info (rd ("PoprfServerBatchEvaluatePrepareResult" ++ " { " ++ "prepared_evaluation_elements" ++ ": " ++
      ("Map { iter: Zip { a: " ++ a ++ ", b: Repeat { element: ")) t), ?_⟩,
    ⟨fun info t => sub info (rd ("PoprfPreparedTweak" ++ "(") t), ?_⟩⟩
  · intro elem s I _ items bs n it hit
    obtain ⟨rest, e⟩ := starts_prepared ⟨scalar, elem⟩ items it
    rw [Debug.voprfPrepared, e]
    refine (hrd _ _ _).trans ?_
    rw [hit, advance_repeat]
    rfl
  · intro elem s I _ items bs info n it t h
    obtain ⟨h1, m, hm, h2⟩ := key s bs info it t h
    obtain ⟨rest, e⟩ := starts_prepared ⟨scalar, elem⟩ items (advance n it)
    obtain ⟨rest', e'⟩ := starts_two "PoprfServerBatchEvaluatePrepareResult" "prepared_evaluation_elements" _ _ rest
      "prepared_tweak" (Debug.poprfPreparedTweak ⟨scalar, elem⟩ t)
    rw [Debug.poprfServerBatchEvaluatePrepareResult]
    simp only
    rw [e, e']
    refine (congrArg (sub info) (hrd _ _ _)).trans ?_
    rw [advance_repeat, h1, hsub _ _ _ hm, h2]
  · intro elem s I bs info it t h
    obtain ⟨-, m, hm, h2⟩ := key s bs info it t h
    rw [Debug.poprfPreparedTweak, Debug.tuple, String.append_assoc]
    refine (congrArg (sub info) (hrd _ _ _)).trans ?_
    rw [hsub _ _ _ hm, h2]

theorem showsOnly_of {α β : Type} {debug : α → String} {sent : α → β} (h : ∀ x y, sent x = sent y → debug x = debug y) :
    ShowsOnly debug sent := by
  classical
  refine ⟨fun b => if hb : ∃ x, sent x = b then debug hb.choose else "", fun x => ?_⟩
  have hb : ∃ y, sent y = sent x := ⟨x, rfl⟩
  exact ((dif_pos hb).trans (h _ _ hb.choose_spec)).symm

/-- C71 for what is sent: the debug output of messages, proofs and the results of an evaluation can be written by someone
who has only seen the bytes of the messages and of the proof, so it shows nothing else. -/
theorem C71_messages_partial [L : CS.group.Lawful] (F : Fmt CS) :
    ShowsOnly (Debug.blindedElement F) BlindedElement.serialize ∧
    ShowsOnly (Debug.evaluationElement F) EvaluationElement.serialize ∧
    ShowsOnly (Debug.preparedEvaluationElement F) (fun e => e.inner.serialize) ∧
    ShowsOnly (Debug.proof F) Proof.serialize ∧
    ShowsOnly (Debug.voprfServerEvaluateResult F) (fun r => (r.message.serialize, r.proof.serialize)) ∧
    ShowsOnly (Debug.poprfServerEvaluateResult F) (fun r => (r.message.serialize, r.proof.serialize)) ∧
    ShowsOnly (Debug.voprfServerBatchEvaluateResult F)
      (fun r => (r.messages.map EvaluationElement.serialize, r.proof.serialize)) ∧
    ShowsOnly (Debug.poprfServerBatchEvaluateResult F)
      (fun r => (r.messages.map EvaluationElement.serialize, r.proof.serialize)) ∧
    ShowsOnly (Debug.voprfServerBatchEvaluateFinishResult F)
      (fun r => (r.1.iter.map fun e => e.inner.serialize, r.2.serialize)) ∧
    ShowsOnly (Debug.poprfServerBatchEvaluateFinishResult F)
      (fun r => (r.1.iter.map fun e => e.inner.serialize, r.2.serialize)) := by
  have inj := C22_injective (CS := CS)
  have hb : ∀ x y : BlindedElement CS, x.serialize = y.serialize → x = y := fun _ _ h => inj.blindedElement h
  have he : ∀ x y : EvaluationElement CS, x.serialize = y.serialize → x = y := fun _ _ h => inj.evaluationElement h
  have hp : ∀ x y : Proof CS, x.serialize = y.serialize → x = y := fun _ _ h => inj.proof h
  have hi : ∀ x y : PreparedEvaluationElement CS, x.inner.serialize = y.inner.serialize → x = y := by
    rintro ⟨x⟩ ⟨y⟩ h
    rw [he x y h]
  have hes : Function.Injective (List.map (EvaluationElement.serialize (CS := CS))) :=
    List.map_injective_iff.2 fun _ _ h => he _ _ h
  have his : Function.Injective (List.map fun e : PreparedEvaluationElement CS => e.inner.serialize) :=
    List.map_injective_iff.2 fun _ _ h => hi _ _ h
  refine ⟨showsOnly_of ?_, showsOnly_of ?_, showsOnly_of ?_, showsOnly_of ?_, showsOnly_of ?_, showsOnly_of ?_,
    showsOnly_of ?_, showsOnly_of ?_, showsOnly_of ?_, showsOnly_of ?_⟩
  · intro x y h; rw [hb x y h]
  · intro x y h; rw [he x y h]
  · intro x y h; rw [hi x y h]
  · intro x y h; rw [hp x y h]
  · rintro ⟨m, p⟩ ⟨m', p'⟩ h
    rw [Prod.mk.injEq] at h
    rw [show m = m' from he _ _ h.1, show p = p' from hp _ _ h.2]
  · rintro ⟨m, p⟩ ⟨m', p'⟩ h
    rw [Prod.mk.injEq] at h
    rw [show m = m' from he _ _ h.1, show p = p' from hp _ _ h.2]
  · rintro ⟨m, p⟩ ⟨m', p'⟩ h
    rw [Prod.mk.injEq] at h
    rw [show m = m' from hes h.1, show p = p' from hp _ _ h.2]
  · rintro ⟨m, p⟩ ⟨m', p'⟩ h
    rw [Prod.mk.injEq] at h
    rw [show m = m' from hes h.1, show p = p' from hp _ _ h.2]
  · rintro ⟨⟨m, f⟩, p⟩ ⟨⟨m', f'⟩, p'⟩ h
    rw [Prod.mk.injEq] at h
    rw [Debug.voprfServerBatchEvaluateFinishResult, Debug.voprfServerBatchEvaluateFinishResult, Debug.map, Debug.map,
      show m = m' from his h.1, show p = p' from hp _ _ h.2]
  · rintro ⟨⟨m, f⟩, p⟩ ⟨⟨m', f'⟩, p'⟩ h
    rw [Prod.mk.injEq] at h
    rw [Debug.poprfServerBatchEvaluateFinishResult, Debug.poprfServerBatchEvaluateFinishResult, Debug.map, Debug.map,
      show m = m' from his h.1, show p = p' from hp _ _ h.2]

section distinguishes

theorem append_cancel {a b c : String} (h : a ++ b = a ++ c) : b = c := by
  have := String.toList_inj.2 h
  rwa [String.toList_append, String.toList_append, List.append_cancel_left_eq, String.toList_inj] at this

theorem delimited_rest {α : Type} {d : α → String} (hd : SelfDelimiting d) {x y : α} {r r' : String}
    (h : d x ++ r = d y ++ r') : x = y ∧ r = r' := by
  obtain rfl := hd _ _ _ _ h
  exact ⟨rfl, append_cancel h⟩

theorem selfDelimiting_tuple {α β : Type} {d : β → String} (hd : SelfDelimiting d) (name : String) {f : α → β}
    (hf : Function.Injective f) : SelfDelimiting fun x => Debug.tuple name (d (f x)) := by
  intro x y r r' h
  simp only [Debug.tuple, String.append_assoc] at h
  exact hf (delimited_rest hd (append_cancel (append_cancel h))).1

theorem selfDelimiting_struct_one {α β : Type} {d : β → String} (hd : SelfDelimiting d) (name field : String) {f : α → β}
    (hf : ∀ x y, f x = f y → x = y) : SelfDelimiting fun x => Debug.struct name [(field, d (f x))] := by
  intro x y r r' h
  simp only [struct_one, String.append_assoc] at h
  exact hf _ _ (delimited_rest hd (append_cancel (append_cancel (append_cancel (append_cancel h))))).1

theorem selfDelimiting_struct_two {α β γ : Type} {d : β → String} {e : γ → String} (hd : SelfDelimiting d)
    (he : SelfDelimiting e) (name a b : String) {f : α → β} {g : α → γ}
    (hfg : ∀ x y, f x = f y → g x = g y → x = y) :
    SelfDelimiting fun x => Debug.struct name [(a, d (f x)), (b, e (g x))] := by
  intro x y r r' h
  simp only [struct_two] at h
  simp only [String.append_assoc] at h
  have h1 := delimited_rest hd (append_cancel (append_cancel (append_cancel (append_cancel h))))
  exact hfg _ _ h1.1 (delimited_rest he (append_cancel (append_cancel (append_cancel h1.2)))).1

/-- the items of a list after the first -/
def moreItems (items : List String) : String := items.foldr (fun i r => ", " ++ (i ++ r)) "]"

theorem intercalate_moreItems (i : String) (items : List String) :
    ", ".intercalate (i :: items) ++ "]" = i ++ moreItems items := by
  induction items generalizing i with
  | nil => rw [String.intercalate_singleton]; rfl
  | cons j items ih =>
    rw [String.intercalate_cons_cons, String.append_assoc, String.append_assoc, ih]
    rfl

theorem list_cons (i : String) (items : List String) : Debug.list (i :: items) = "[" ++ (i ++ moreItems items) := by
  rw [Debug.list, String.append_assoc, intercalate_moreItems]

theorem moreItems_inj {α : Type} {d : α → String} (hd : SelfDelimiting d) :
    ∀ (l l' : List α) (r r' : String), moreItems (l.map d) ++ r = moreItems (l'.map d) ++ r' → l = l' := by
  intro l
  induction l with
  | nil =>
    intro l' r r' h
    rcases l' with _ | ⟨y, l'⟩
    · rfl
    · have := String.toList_inj.2 h
      simp [moreItems] at this
  | cons x l ih =>
    intro l' r r' h
    rcases l' with _ | ⟨y, l'⟩
    · have := String.toList_inj.2 h
      simp [moreItems] at this
    · have h' : ", " ++ (d x ++ (moreItems (l.map d) ++ r)) = ", " ++ (d y ++ (moreItems (l'.map d) ++ r')) := by
        simpa only [moreItems, List.map_cons, List.foldr_cons, String.append_assoc] using h
      obtain ⟨rfl, h2⟩ := delimited_rest hd (append_cancel h')
      rw [ih _ _ _ h2]

/-- A list is self-delimiting if its items are and none begins with a bracket. -/
theorem selfDelimiting_list {α : Type} {d : α → String} (hd : SelfDelimiting d)
    (hne : ∀ x, ∃ c s, (d x).toList = c :: s ∧ c ≠ ']') : SelfDelimiting fun l : List α => Debug.list (l.map d) := by
  have hnil : Debug.list [] = "[" ++ "]" := rfl
  have key : ∀ (y : α) (l : List α) (r r' : String), Debug.list [] ++ r ≠ Debug.list (d y :: l.map d) ++ r' := by
    intro y l r r' h
    rw [list_cons, hnil, String.append_assoc, String.append_assoc] at h
    have := String.toList_inj.2 (append_cancel h)
    obtain ⟨c, s, hc, hne⟩ := hne y
    rw [String.append_assoc, String.toList_append, String.toList_append, hc] at this
    rw [show "]".toList = [']'] from rfl] at this
    exact hne (List.cons.inj this).1.symm
  intro l l' r r' h
  rcases l with _ | ⟨x, l⟩ <;> rcases l' with _ | ⟨y, l'⟩
  · rfl
  · exact (key _ _ _ _ h).elim
  · exact (key _ _ _ _ h.symm).elim
  · simp only [List.map_cons, list_cons, String.append_assoc] at h
    obtain ⟨rfl, h2⟩ := delimited_rest hd (append_cancel h)
    rw [moreItems_inj hd _ _ _ _ h2]

theorem injective_of_selfDelimiting {α : Type} {d : α → String} (hd : SelfDelimiting d) : Function.Injective d :=
  fun x y h => hd x y "" "" (congrArg (· ++ "") h)

variable {F : Fmt CS}

theorem delimited_blindedElement (he : SelfDelimiting F.elem) : SelfDelimiting (Debug.blindedElement F) :=
  selfDelimiting_tuple he _ fun x y h => by cases x; cases y; cases h; rfl

theorem delimited_evaluationElement (he : SelfDelimiting F.elem) : SelfDelimiting (Debug.evaluationElement F) :=
  selfDelimiting_tuple he _ fun x y h => by cases x; cases y; cases h; rfl

theorem delimited_preparedEvaluationElement (he : SelfDelimiting F.elem) :
    SelfDelimiting (Debug.preparedEvaluationElement F) :=
  selfDelimiting_tuple (delimited_evaluationElement he) _ fun x y h => by cases x; cases y; cases h; rfl

theorem delimited_proof (hs : SelfDelimiting F.scalar) : SelfDelimiting (Debug.proof F) :=
  selfDelimiting_struct_two hs hs _ _ _ fun x y h h' => by cases x; cases y; cases h; cases h'; rfl

/-- Nothing is left out: with formats of scalars and elements that are self-delimiting, the debug output of a value of any
public type determines the value, so two log lines are equal only if the values are.  Of an iterator it determines all but
the function it applies, if the caller's own iterator is formatted in a self-delimiting way. -/
theorem C71_distinguishes (hs : SelfDelimiting F.scalar) (he : SelfDelimiting F.elem) :
    Function.Injective Debug.mode ∧
    Function.Injective Debug.error ∧
    Function.Injective (Debug.blindedElement F) ∧
    Function.Injective (Debug.evaluationElement F) ∧
    Function.Injective (Debug.preparedEvaluationElement F) ∧
    Function.Injective (Debug.proof F) ∧
    Function.Injective (Debug.oprfClient F) ∧
    Function.Injective (Debug.oprfServer F) ∧
    Function.Injective (Debug.voprfClient F) ∧
    Function.Injective (Debug.voprfServer F) ∧
    Function.Injective (Debug.poprfClient F) ∧
    Function.Injective (Debug.poprfServer F) ∧
    Function.Injective (Debug.poprfPreparedTweak F) ∧
    Function.Injective (Debug.oprfClientBlindResult F) ∧
    Function.Injective (Debug.voprfClientBlindResult F) ∧
    Function.Injective (Debug.poprfClientBlindResult F) ∧
    Function.Injective (Debug.voprfServerEvaluateResult F) ∧
    Function.Injective (Debug.poprfServerEvaluateResult F) ∧
    Function.Injective (Debug.voprfServerBatchEvaluateResult F) ∧
    Function.Injective (Debug.poprfServerBatchEvaluateResult F) ∧
    (∀ r r' : Lazy.FinishedMessages CS × Proof CS,
      Debug.voprfServerBatchEvaluateFinishResult F r = Debug.voprfServerBatchEvaluateFinishResult F r' →
      r.1.iter = r'.1.iter ∧ r.2 = r'.2) ∧
    (∀ r r' : Lazy.FinishedMessages CS × Proof CS,
      Debug.poprfServerBatchEvaluateFinishResult F r = Debug.poprfServerBatchEvaluateFinishResult F r' →
      r.1.iter = r'.1.iter ∧ r.2 = r'.2) ∧
    (∀ {I : Type} (items : I → String), SelfDelimiting items → ∀ it it' : Lazy.VoprfPrepared CS I,
      Debug.voprfPrepared F items it = Debug.voprfPrepared F items it' → it.iter = it'.iter) ∧
    (∀ {I : Type} (items : I → String), SelfDelimiting items → ∀ r r' : Lazy.PoprfPrepared CS I × PoprfPreparedTweak CS,
      Debug.poprfServerBatchEvaluatePrepareResult F items r = Debug.poprfServerBatchEvaluatePrepareResult F items r' →
      r.1.iter = r'.1.iter ∧ r.2 = r'.2) := by
  have hb := delimited_blindedElement he
  have hv := delimited_evaluationElement he
  have hp := delimited_proof hs
  have hl : SelfDelimiting fun l : List (EvaluationElement CS) => Debug.list (l.map (Debug.evaluationElement F)) := by
    refine selfDelimiting_list hv fun x => ⟨'E', "valuationElement".toList ++ ("(" ++ (F.elem x.value ++ ")")).toList, ?_, by decide⟩
    rw [Debug.evaluationElement, Debug.tuple, String.append_assoc, String.append_assoc, String.toList_append]
    rfl
  have hl' : SelfDelimiting fun l : List (PreparedEvaluationElement CS) =>
      Debug.list (l.map (Debug.preparedEvaluationElement F)) := by
    refine selfDelimiting_list (delimited_preparedEvaluationElement he) fun x =>
      ⟨'P', "reparedEvaluationElement".toList ++ ("(" ++ (Debug.evaluationElement F x.inner ++ ")")).toList, ?_, by decide⟩
    rw [Debug.preparedEvaluationElement, Debug.tuple, String.append_assoc, String.append_assoc, String.toList_append]
    rfl
  have hm' : ∀ n f, SelfDelimiting fun l : List (PreparedEvaluationElement CS) =>
      Debug.struct n [(f, Debug.tuple "Iter" (Debug.list (l.map (Debug.preparedEvaluationElement F))))] := fun n f =>
    selfDelimiting_struct_one (selfDelimiting_tuple hl' "Iter" (f := id) fun _ _ h => h) n f (f := id) fun _ _ h => h
  have hz : ∀ {I : Type} (items : I → String), SelfDelimiting items →
      SelfDelimiting (Debug.zip items (Debug.repeated F.scalar)) := fun items hi =>
    selfDelimiting_struct_two hi (selfDelimiting_struct_one hs _ _ (f := Lazy.Repeat.element)
      fun x y h => by cases x; cases y; cases h; rfl) _ _ _ fun x y h h' => by cases x; cases y; cases h; cases h'; rfl
  have ht : SelfDelimiting (Debug.poprfPreparedTweak F) :=
    selfDelimiting_tuple hs _ fun x y h => by cases x; cases y; cases h; rfl
  have ho : SelfDelimiting (Debug.oprfClient F) :=
    selfDelimiting_struct_one hs _ _ fun x y h => by cases x; cases y; cases h; rfl
  have hv' : SelfDelimiting (Debug.voprfClient F) :=
    selfDelimiting_struct_two hs he _ _ _ fun x y h h' => by cases x; cases y; cases h; cases h'; rfl
  have hp' : SelfDelimiting (Debug.poprfClient F) :=
    selfDelimiting_struct_two hs he _ _ _ fun x y h h' => by cases x; cases y; cases h; cases h'; rfl
  refine ⟨by intro x y; cases x <;> cases y <;> decide, by intro x y; cases x <;> cases y <;> decide,
    injective_of_selfDelimiting hb, injective_of_selfDelimiting hv,
    injective_of_selfDelimiting (delimited_preparedEvaluationElement he), injective_of_selfDelimiting hp,
    injective_of_selfDelimiting ho, injective_of_selfDelimiting (selfDelimiting_struct_one hs _ _ ?_),
    injective_of_selfDelimiting hv', injective_of_selfDelimiting (selfDelimiting_struct_two hs he _ _ _ ?_),
    injective_of_selfDelimiting hp', injective_of_selfDelimiting (selfDelimiting_struct_two hs he _ _ _ ?_),
    injective_of_selfDelimiting (selfDelimiting_tuple hs _ ?_),
    injective_of_selfDelimiting (selfDelimiting_struct_two ho hb _ _ _ ?_),
    injective_of_selfDelimiting (selfDelimiting_struct_two hv' hb _ _ _ ?_),
    injective_of_selfDelimiting (selfDelimiting_struct_two hp' hb _ _ _ ?_),
    injective_of_selfDelimiting (selfDelimiting_struct_two hv hp _ _ _ ?_),
    injective_of_selfDelimiting (selfDelimiting_struct_two hv hp _ _ _ ?_),
    injective_of_selfDelimiting (selfDelimiting_struct_two hl hp _ _ _ ?_),
    injective_of_selfDelimiting (selfDelimiting_struct_two hl hp _ _ _ ?_), ?_, ?_, ?_, ?_⟩
  · intro x y h; cases x; cases y; cases h; rfl
  · intro x y h h'; cases x; cases y; cases h; cases h'; rfl
  · intro x y h h'; cases x; cases y; cases h; cases h'; rfl
  · intro x y h; cases x; cases y; cases h; rfl
  iterate 7 (intro x y h h'; cases x; cases y; cases h; cases h'; rfl)
  · rintro ⟨⟨l, f⟩, p⟩ ⟨⟨l', f'⟩, p'⟩ h
    have := injective_of_selfDelimiting (selfDelimiting_struct_two (α := List (PreparedEvaluationElement CS) × Proof CS)
      (f := Prod.fst) (g := Prod.snd) (hm' "Map" "iter") hp "VoprfServerBatchEvaluateFinishResult" "messages" "proof"
      fun x y h h' => Prod.ext h h') (a₁ := (l, p)) (a₂ := (l', p')) h
    exact Prod.mk.injEq .. ▸ this
  · rintro ⟨⟨l, f⟩, p⟩ ⟨⟨l', f'⟩, p'⟩ h
    have := injective_of_selfDelimiting (selfDelimiting_struct_two (α := List (PreparedEvaluationElement CS) × Proof CS)
      (f := Prod.fst) (g := Prod.snd) (hm' "Map" "iter") hp "PoprfServerBatchEvaluateFinishResult" "messages" "proof"
      fun x y h h' => Prod.ext h h') (a₁ := (l, p)) (a₂ := (l', p')) h
    exact Prod.mk.injEq .. ▸ this
  · intro I items hi it it' h
    exact injective_of_selfDelimiting (selfDelimiting_struct_one (hz items hi) "Map" "iter" (f := id) fun _ _ h => h) h
  · rintro I items hi ⟨⟨z, f⟩, t⟩ ⟨⟨z', f'⟩, t'⟩ h
    have := injective_of_selfDelimiting (selfDelimiting_struct_two (α := Lazy.Zip I (Lazy.Repeat CS.Scalar) × PoprfPreparedTweak CS)
      (f := Prod.fst) (g := Prod.snd)
      (selfDelimiting_struct_one (hz items hi) "Map" "iter" (f := id) fun _ _ h => h) ht
      "PoprfServerBatchEvaluatePrepareResult" "prepared_evaluation_elements" "prepared_tweak"
      fun x y h h' => Prod.ext h h') (a₁ := (z, t)) (a₂ := (z', t')) h
    exact Prod.mk.injEq .. ▸ this

end distinguishes

theorem digitChar_injOn : ∀ a < 16, ∀ b < 16, Nat.digitChar a = Nat.digitChar b → a = b := by decide

theorem hexDigits_length (b : Bytes) : (hexDigits b).toList.length = 2 * b.length := by
  rw [hexDigits, String.toList_ofList, List.length_flatMap]
  simp [Nat.mul_comm]

theorem hexDigits_injective : Function.Injective hexDigits := by
  intro a
  induction a with
  | nil =>
    intro b h
    have := congrArg (fun s : String => s.toList.length) h
    simp only [hexDigits_length] at this
    exact (List.eq_nil_of_length_eq_zero (by simpa using this.symm)).symm
  | cons x a ih =>
    intro b h
    rcases b with _ | ⟨y, b⟩
    · have := congrArg (fun s : String => s.toList.length) h
      simp only [hexDigits_length, List.length_cons, List.length_nil] at this
      omega
    · have h' := congrArg String.toList h
      simp only [hexDigits, String.toList_ofList, List.flatMap_cons, List.cons_append, List.nil_append, List.cons.injEq] at h'
      obtain ⟨h1, h2, h3⟩ := h'
      have hx := x.toNat_lt
      have hy := y.toNat_lt
      have e1 := digitChar_injOn _ (by omega) _ (by omega) h1
      have e2 := digitChar_injOn _ (by omega) _ (by omega) h2
      have hxy : x = y := UInt8.toNat_inj.1 (by omega)
      have e3 : a = b := ih (congrArg String.ofList h3)
      rw [hxy, e3]

/-- The hypothesis of the violations holds of every suite whose scalars are formatted like those of the `p256` crate. -/
theorem selfDelimiting_hexScalar [L : CS.group.Lawful] : SelfDelimiting (hexScalar CS) := by
  intro k k' r r' h
  have h' := congrArg String.toList h
  simp only [hexScalar, String.toList_append, List.append_assoc, List.append_cancel_left_eq] at h'
  obtain ⟨h1, -⟩ := List.append_inj h' (by
    rw [hexDigits_length, hexDigits_length, CS.group.serializeScalar_length, CS.group.serializeScalar_length])
  exact serializeScalar_injective (hexDigits_injective (String.toList_inj.1 h1))

/-- The formats in the hypotheses of `C71_distinguishes` exist in every suite. -/
theorem selfDelimiting_hexElem [L : CS.group.Lawful] :
    SelfDelimiting fun e : CS.Elem => "Elem(" ++ hexDigits (CS.group.serializeElem e) ++ ")" := by
  intro k k' r r' h
  have h' := congrArg String.toList h
  simp only [String.toList_append, List.append_assoc, List.append_cancel_left_eq] at h'
  obtain ⟨h1, -⟩ := List.append_inj h' (by
    rw [hexDigits_length, hexDigits_length, CS.group.serializeElem_length, CS.group.serializeElem_length])
  exact serializeElem_injective (hexDigits_injective (String.toList_inj.1 h1))

/-- a log line of a server with key 7 -/
example : Debug.voprfServer (CS := Toy.suite) ⟨hexScalar Toy.suite, fun _ => "?"⟩ ⟨(7 : Toy.F), (7 : Toy.F)⟩ =
    "VoprfServer { sk: Scalar(Uint(0x07)), pk: ? }" := by decide +kernel

/-- and of the iterator it prepares -/
example : Debug.voprfPrepared (CS := Toy.suite) ⟨hexScalar Toy.suite, fun _ => "?"⟩
    (fun l : List (BlindedElement Toy.suite) => Debug.tuple "Iter" (Debug.list (l.map (Debug.blindedElement ⟨hexScalar Toy.suite, fun _ => "?"⟩))))
    (Lazy.voprfPrepare (⟨(7 : Toy.F), (7 : Toy.F)⟩ : VoprfServer Toy.suite) [⟨(3 : Toy.F)⟩]) =
    "Map { iter: Zip { a: Iter([BlindedElement(?)]), b: Repeat { element: Scalar(Uint(0x07)) } } }" := by decide +kernel

end Voprf
