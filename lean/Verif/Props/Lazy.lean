import Verif.Spec.Lazy
import Verif.Props.Correctness

/-!
# C60: lazy results
-/

namespace Voprf.Lazy

variable {CS : CipherSuite}

/-! ## The adapters -/

theorem yields_list {α : Type} : ∀ l : List α, Yields l (l.map Res.ok)
  | [], n => by
      induction n with
      | zero => rfl
      | succ n ih => exact ih
  | x :: xs, 0 => rfl
  | x :: xs, n + 1 => yields_list xs n

theorem nth_repeat {α : Type} (r : Repeat α) : ∀ n, nth n r = some (.ok r.element)
  | 0 => rfl
  | n + 1 => nth_repeat r n

theorem nth_map {σ α β : Type} [Iter σ α] (f : α → Res β) :
    ∀ n (s : σ), nth n (⟨s, f⟩ : Map σ α β) = (nth n s).map (· >>= f)
  | 0, s => by
      show (match Iter.next s with | (none, s) => _ | (some x, s) => _ : Option (Res β) × Map σ α β).1 = _
      rw [nth]
      rcases h : Iter.next s with ⟨_ | x, s'⟩ <;> rfl
  | n + 1, s => by
      rw [nth, nth, ← nth_map f n]
      congr 1
      show (match Iter.next s with | (none, s) => _ | (some x, s) => _ : Option (Res β) × Map σ α β).2 = _
      rcases h : Iter.next s with ⟨_ | x, s'⟩ <;> rfl

theorem yields_map {σ α β : Type} [Iter σ α] (f : α → Res β) {s : σ} {l : List (Res α)} (h : Yields s l) :
    Yields (⟨s, f⟩ : Map σ α β) (l.map (· >>= f)) := by
  intro n
  rw [nth_map, h n, List.getElem?_map]

theorem next_of_nth_zero {σ α : Type} [Iter σ α] {s : σ} {x : Option (Res α)} (h : nth 0 s = x) :
    Iter.next s = (x, (Iter.next s).2) := Prod.ext h rfl

theorem nth_zip_nil {σ τ α β : Type} [Iter σ α] [Iter τ β] :
    ∀ n (a : σ) (b : τ), (∀ n, nth n a = none) → nth n (⟨a, b⟩ : Zip σ τ) = none
  | 0, a, b, h => by
      show (match Iter.next a with
        | (none, a) => _ | (some (.ok x), a) => _ | (some (.err e), a) => _ | (some .panic, a) => _
        | (some .diverge, a) => _ : Option (Res (α × β)) × Zip σ τ).1 = none
      rw [next_of_nth_zero (h 0)]
  | n + 1, a, b, h => by
      have := nth_zip_nil n (Iter.next a).2 b (fun n => h (n + 1))
      rw [nth]
      rw [← this]
      congr 1
      show (match Iter.next a with
        | (none, a) => _ | (some (.ok x), a) => _ | (some (.err e), a) => _ | (some .panic, a) => _
        | (some .diverge, a) => _ : Option (Res (α × β)) × Zip σ τ).2 = _
      rw [next_of_nth_zero (h 0)]

/-- When the left items are there, the items are the pairs. -/
theorem nth_zip {σ τ α β : Type} [Iter σ α] [Iter τ β] :
    ∀ n (la : List α) (a : σ) (b : τ), Yields a (la.map Res.ok) →
      nth n (⟨a, b⟩ : Zip σ τ) = la[n]?.bind fun x => (nth n b).map (· >>= fun y => .ok (x, y))
  | n, [], a, b, h => by
      rw [nth_zip_nil n a b (fun n => by rw [h n]; rfl)]
      rfl
  | 0, x :: xs, a, b, h => by
      show (match Iter.next a with
        | (none, a) => _ | (some (.ok x), a) => _ | (some (.err e), a) => _ | (some .panic, a) => _
        | (some .diverge, a) => _ : Option (Res (α × β)) × Zip σ τ).1 = _
      rw [next_of_nth_zero (h 0)]
      simp only [List.map_cons, List.getElem?_cons_zero, Option.bind_some, nth]
      rcases Iter.next b with ⟨_ | y, b'⟩ <;> rfl
  | n + 1, x :: xs, a, b, h => by
      have := nth_zip n xs (Iter.next a).2 (Iter.next b).2 (fun n => h (n + 1))
      rw [nth, List.getElem?_cons_succ, nth, ← this]
      congr 1
      show (match Iter.next a with
        | (none, a) => _ | (some (.ok x), a) => _ | (some (.err e), a) => _ | (some .panic, a) => _
        | (some .diverge, a) => _ : Option (Res (α × β)) × Zip σ τ).2 = _
      rw [next_of_nth_zero (h 0)]
      simp only [List.map_cons, List.getElem?_cons_zero]
      rcases Iter.next b with ⟨_ | y, b'⟩ <;> rfl

theorem yields_zip {σ τ α β : Type} [Iter σ α] [Iter τ β] {a : σ} {b : τ} {la : List α} {lb : List (Res β)}
    (ha : Yields a (la.map Res.ok)) (hb : Yields b lb) :
    Yields (⟨a, b⟩ : Zip σ τ) ((la.zip lb).map fun p => p.2 >>= fun y => .ok (p.1, y)) := by
  intro n
  rw [nth_zip n la a b ha, hb n, List.getElem?_map, List.zip, List.getElem?_zipWith]
  rcases la[n]? with _ | x <;> rcases lb[n]? with _ | y <;> rfl

theorem yields_zip_repeat {σ α β : Type} [Iter σ α] {a : σ} {la : List α} (ha : Yields a (la.map Res.ok))
    (r : Repeat β) : Yields (⟨a, r⟩ : Zip σ (Repeat β)) ((la.map fun x => (x, r.element)).map Res.ok) := by
  intro n
  rw [nth_zip n la a r ha, nth_repeat, List.getElem?_map, List.getElem?_map]
  rcases la[n]? with _ | x <;> rfl

/-! ## Any schedule -/

/-- C60: whatever lazy results the caller holds and in whatever order it asks them for items, each call returns what it
would have returned had all results been collected at once. -/
theorem C60_schedule {ι : Type} [DecidableEq ι] {τ : ι → Type} (world : (j : ι) → Live (τ j))
    (items : (j : ι) → List (Res (τ j))) (h : ∀ j, Yields (world j).state (items j)) (schedule : List ι) :
    run world schedule = collected items schedule := by
  suffices H : ∀ (schedule : List ι) (world : (j : ι) → Live (τ j)) (done : List ι),
      (∀ j n, nth n (world j).state = (items j)[done.count j + n]?) →
      run world schedule = (schedule.zipIdx done.length).map fun (j, t) =>
        ⟨j, (items j)[((done ++ schedule).take t).count j]?⟩ by
    have := H schedule world [] (fun j n => by rw [h j n, List.count_nil, Nat.zero_add])
    simpa [collected] using this
  intro schedule
  induction schedule with
  | nil => intro _ _ _; rfl
  | cons j rest ih =>
    intro world done hd
    have hstep : ∀ i n, nth n (if h : j = i then h ▸ (world j).next.2 else world i : Live (τ i)).state =
        (items i)[(done ++ [j]).count i + n]? := by
      intro i n
      by_cases hji : j = i
      · subst hji
        rw [dif_pos rfl, List.count_append, List.count_singleton_self, Nat.add_assoc, Nat.add_comm 1 n]
        exact hd j (n + 1)
      · rw [dif_neg hji, List.count_append, List.count_singleton, hd i n]
        simp [hji]
    have := ih _ (done ++ [j]) hstep
    rw [run, this, List.zipIdx_cons, List.map_cons]
    have e : (world j).next.1 = (items j)[((done ++ j :: rest).take done.length).count j]? := by
      rw [List.take_left', ← Nat.add_zero (done.count j)]
      · exact hd j 0
      · rfl
    rw [e, List.length_append, List.length_singleton, List.append_assoc, List.singleton_append]

/-! ## The results of the crate -/

/-- C60: the prepared elements of a VOPRF batch, for any iterator of blinded elements the caller passes. -/
theorem C60_voprf_prepare (s : VoprfServer CS) {I : Type} [Iter I (BlindedElement CS)] {blindedElements : I}
    {bs : List (BlindedElement CS)} (h : Yields blindedElements (bs.map Res.ok)) :
    Yields (voprfPrepare s blindedElements) ((s.batchBlindEvaluatePrepare bs).map Res.ok) := by
  have := yields_map (fun p : BlindedElement CS × CS.Scalar => Res.ok
    (⟨⟨CS.group.elemMul p.1.value p.2⟩⟩ : PreparedEvaluationElement CS)) (yields_zip_repeat h ⟨s.sk⟩)
  rw [List.map_map, List.map_map] at this
  rw [VoprfServer.batchBlindEvaluatePrepare, List.map_map]
  exact this

/-- C60: the prepared elements of a POPRF batch; the tweak is returned beside them. -/
theorem C60_poprf_prepare (s : PoprfServer CS) {I : Type} [Iter I (BlindedElement CS)] {blindedElements : I}
    {bs : List (BlindedElement CS)} (h : Yields blindedElements (bs.map Res.ok)) (info : Option Bytes) :
    Returns (poprfPrepare s blindedElements info >>= fun r => .ok r.1)
      (s.batchBlindEvaluatePrepare bs info >>= fun r => .ok r.preparedEvaluationElements) ∧
    (poprfPrepare s blindedElements info >>= fun r => .ok r.2) =
      (s.batchBlindEvaluatePrepare bs info >>= fun r => .ok r.preparedTweak) := by
  unfold poprfPrepare PoprfServer.batchBlindEvaluatePrepare
  cases Poprf.computeTweak CS s.sk info with
  | ok t =>
    refine ⟨?_, rfl⟩
    show Yields _ _
    have := yields_map (fun p : BlindedElement CS × CS.Scalar => (do
      let inv ← Res.unwrapOption (CS.group.invertScalar p.2)
      pure ⟨⟨CS.group.elemMul p.1.value inv⟩⟩ : Res (PreparedEvaluationElement CS)))
      (yields_zip_repeat h ⟨t⟩)
    rw [List.map_map, List.map_map] at this
    exact this
  | err e => exact ⟨rfl, rfl⟩
  | panic => exact ⟨trivial, rfl⟩
  | diverge => exact ⟨trivial, rfl⟩

/-- C60: the messages of a finished VOPRF batch; the proof is made by the call itself. -/
theorem C60_voprf_finish {σ : Type} [RngCore σ] (s : VoprfServer CS) (rng : σ) (bs : List (BlindedElement CS))
    (ps : List (PreparedEvaluationElement CS)) :
    Returns (voprfFinish s rng bs ps >>= fun r => .ok r.1.1)
      (s.batchBlindEvaluateFinish rng bs ps >>= fun r => .ok (r.1.messages.map Res.ok)) ∧
    (voprfFinish s rng bs ps >>= fun r => .ok (r.1.2, r.2)) =
      (s.batchBlindEvaluateFinish rng bs ps >>= fun r => .ok (r.1.proof, r.2)) := by
  unfold voprfFinish VoprfServer.batchBlindEvaluateFinish
  simp only
  generalize generateProof CS rng s.sk _ s.pk _ _ _ = p
  cases p with
  | ok r =>
    refine ⟨?_, rfl⟩
    show Yields _ _
    have := yields_map (fun e : PreparedEvaluationElement CS => Res.ok (⟨e.inner.value⟩ : EvaluationElement CS))
      (yields_list ps)
    rw [List.map_map] at this
    rw [List.map_map]
    exact this
  | err e => exact ⟨rfl, rfl⟩
  | panic => exact ⟨trivial, rfl⟩
  | diverge => exact ⟨trivial, rfl⟩

/-- C60: the messages of a finished POPRF batch. -/
theorem C60_poprf_finish {σ : Type} [RngCore σ] (rng : σ) (bs : List (BlindedElement CS))
    (ps : List (PreparedEvaluationElement CS)) (t : PoprfPreparedTweak CS) :
    Returns (poprfFinish rng bs ps t >>= fun r => .ok r.1.1)
      (PoprfServer.batchBlindEvaluateFinish rng bs ps t >>= fun r => .ok (r.1.messages.map Res.ok)) ∧
    (poprfFinish rng bs ps t >>= fun r => .ok (r.1.2, r.2)) =
      (PoprfServer.batchBlindEvaluateFinish rng bs ps t >>= fun r => .ok (r.1.proof, r.2)) := by
  unfold poprfFinish PoprfServer.batchBlindEvaluateFinish
  simp only
  generalize generateProof CS rng t.value _ _ _ _ _ = p
  cases p with
  | ok r =>
    refine ⟨?_, rfl⟩
    show Yields _ _
    have := yields_map (fun e : PreparedEvaluationElement CS => Res.ok (⟨e.inner.value⟩ : EvaluationElement CS))
      (yields_list ps)
    rw [List.map_map] at this
    rw [List.map_map]
    exact this
  | err e => exact ⟨rfl, rfl⟩
  | panic => exact ⟨trivial, rfl⟩
  | diverge => exact ⟨trivial, rfl⟩

/-- The unblinded elements. -/
theorem yields_unblind {C : Type} (blind : C → CS.Scalar) (clients : List C) (messages : List (EvaluationElement CS)) :
    Yields (⟨⟨⟨clients, fun x => .ok (blind x)⟩, messages⟩, unblind⟩ :
        Map (Zip (Map (List C) C CS.Scalar) (List (EvaluationElement CS))) (CS.Scalar × EvaluationElement CS) CS.Elem)
      (((clients.map blind).zip messages).map unblind) := by
  have hc := yields_map (fun x => Res.ok (blind x)) (yields_list clients)
  rw [List.map_map] at hc
  have hc' : Yields (⟨clients, fun x => .ok (blind x)⟩ : Map (List C) C CS.Scalar) ((clients.map blind).map Res.ok) := by
    rw [List.map_map]
    exact hc
  have := yields_map (unblind (CS := CS)) (yields_zip hc' (yields_list messages))
  rw [List.zip_map_right, List.map_map, List.map_map] at this
  exact this

/-- C60: the outputs of a VOPRF batch.  The proof is verified by the call itself, before any item. -/
theorem C60_voprf_finalize (inputs : List Bytes) (clients : List (VoprfClient CS))
    (messages : List (EvaluationElement CS)) (proof : Proof CS) (pk : CS.Elem) :
    Returns (voprfBatchFinalize inputs clients messages proof pk)
      (VoprfClient.batchFinalize inputs clients messages proof pk) := by
  unfold voprfBatchFinalize VoprfClient.batchFinalize voprfUnblind Verifiable.verifiableUnblind
  simp only
  generalize verifyProof CS _ _ _ _ _ _ = v
  cases v with
  | ok u =>
    show Yields _ _
    have := yields_map (fun p : Bytes × CS.Elem => Verifiable.finalizeItem CS (p.1, .ok p.2))
      (yields_zip (yields_list inputs) (yields_unblind VoprfClient.blind clients messages))
    rw [List.map_map] at this
    refine (congrArg (Yields _) ?_).mp this
    refine List.map_congr_left fun p _ => ?_
    obtain ⟨i, x⟩ := p
    cases x <;> rfl
  | err e => rfl
  | panic => trivial
  | diverge => trivial

/-- C60: the outputs of a POPRF batch, for clients whose blinding factors can be inverted. -/
theorem C60_poprf_finalize [L : CS.group.Lawful] (inputs : List Bytes) (clients : List (PoprfClient CS))
    (hc : ∀ c ∈ clients, c.blind ≠ 0)
    (messages : List (EvaluationElement CS)) (proof : Proof CS) (pk : CS.Elem) (info : Option Bytes) :
    Returns (poprfBatchFinalize inputs clients messages proof pk info)
      (PoprfClient.batchFinalize inputs clients messages proof pk info) := by
  unfold poprfBatchFinalize PoprfClient.batchFinalize poprfUnblind Poprf.poprfUnblind
  simp only
  generalize Poprf.computeTweakedKey CS _ _ = tk
  cases tk with
  | ok tk =>
    simp only [Res.ok_bind]
    generalize verifyProof CS _ _ _ _ _ _ = v
    cases v with
    | ok u =>
      show Returns (poprfFinalizeAfterUnblind _ _ _) (Poprf.finalizeAfterUnblind CS _ _ _)
      have hu : ∀ l : List (CS.Scalar × EvaluationElement CS), (∀ p ∈ l, p.1 ≠ 0) →
          l.map unblind = (l.map fun p => p.1⁻¹ • p.2.value).map Res.ok := by
        intro l hl
        rw [List.map_map]
        refine List.map_congr_left fun p hp => ?_
        rw [unblind, L.invertScalar_eq _ (hl p hp)]
        exact congrArg Res.ok (L.elemMul_eq _ _)
      have hz := hu ((clients.map (·.blind)).zip messages) (fun p hp => by
        obtain ⟨c, hc', e⟩ := List.mem_map.mp (List.of_mem_zip hp).1
        exact e ▸ hc c hc')
      have hy := yields_unblind PoprfClient.blind clients messages
      rw [hz] at hy
      unfold poprfFinalizeAfterUnblind Poprf.finalizeAfterUnblind
      have hlen : ExactSize.len (⟨⟨⟨clients, fun x => .ok x.blind⟩, messages⟩, unblind⟩ : PoprfUnblind CS) =
          (((clients.map (·.blind)).zip messages).map unblind).length := by
        rw [List.length_map, List.length_zip, List.length_map]
        rfl
      have hlen' : ExactSize.len inputs = inputs.length := rfl
      rw [hlen, hlen']
      split
      · rw [if_pos (by assumption)]
        rfl
      · rw [if_neg (by assumption)]
        show Yields _ _
        have hy2 := yields_zip hy (yields_list inputs)
        rw [List.zip_map_right, List.map_map] at hy2
        have := yields_map (fun p : (CS.Elem × Bytes) × Bytes => Poprf.finalizeItem CS ((.ok p.1.1, p.1.2), p.2))
          (yields_zip_repeat (la := _) (hy2 : Yields _ ((List.zip _ inputs).map Res.ok)) ⟨info.getD []⟩)
        rw [List.map_map, List.map_map] at this
        refine (congrArg (Yields _) ?_).mp this
        show _ = List.map _ (List.map _ (List.zip (List.map unblind _) inputs))
        rw [hz, List.zip_map_left (f := Res.ok), List.map_map, List.map_map]
        rfl
    | err e => rfl
    | panic => trivial
    | diverge => trivial
  | err e => rfl
  | panic => trivial
  | diverge => trivial

/-! ## Examples -/

section examples
open Toy

/-- Two results held at once: the prepared elements of a batch of two and the messages of a batch of one. -/
example :
    let world : (j : Bool) → Live (if j then PreparedEvaluationElement suite else EvaluationElement suite) := fun
      | true => ⟨voprfPrepare (⟨7, 7⟩ : VoprfServer suite) ([⟨(3 : F)⟩, ⟨(4 : F)⟩] : List (BlindedElement suite))⟩
      | false => ⟨finishedMessages [⟨⟨(5 : F)⟩⟩]⟩
    run world [true, false, true, false, true] =
      [⟨true, some (.ok ⟨⟨(21 : F)⟩⟩)⟩, ⟨false, some (.ok ⟨(5 : F)⟩)⟩, ⟨true, some (.ok ⟨⟨(28 : F)⟩⟩)⟩,
       ⟨false, none⟩, ⟨true, none⟩] := by
  rfl

/-- Their hypothesis in `C60_schedule` holds. -/
example : Yields (voprfPrepare (⟨7, 7⟩ : VoprfServer suite) ([⟨(3 : F)⟩, ⟨(4 : F)⟩] : List (BlindedElement suite)))
    [.ok ⟨⟨(21 : F)⟩⟩, .ok ⟨⟨(28 : F)⟩⟩] :=
  C60_voprf_prepare (⟨7, 7⟩ : VoprfServer suite) (yields_list [⟨(3 : F)⟩, ⟨(4 : F)⟩])

/-- A batch that is accepted, of which the second output is an error (the input is too long). -/
example :
    (do let (r, _) ← (⟨7, 7⟩ : VoprfServer suite).batchBlindEvaluate (⟨9⟩ : Rng) [⟨(6 : F)⟩, ⟨(9 : F)⟩]
        let it ← voprfBatchFinalize [[1], List.replicate 65536 0] [⟨2, 6⟩, ⟨3, 9⟩] r.messages r.proof (7 : F)
        Res.ok ((nth 0 it).map Res.isOk, (nth 1 it).map Res.isOk, (nth 2 it).map Res.isOk)) =
      .ok (some true, some false, none) := by
  decide +kernel

end examples

end Voprf.Lazy
