import Verif.Spec.Sessions
import Verif.Props.Rom
import Verif.Lemmas.Distinguisher
import Verif.Lemmas.Rehash
import Verif.Lemmas.Predict

/-!
# C65: verification over whole sessions
-/

namespace Voprf

open Spec

variable {CS : CipherSuite} [L : CS.group.Lawful]

namespace Spec.Strategy
variable {Q A O P V : Type} [DecidableEq Q]

/-- Ask the questions of `S`, then report the value of `val` on a table with the answers. -/
def finish (val : (Q → A) → V) : (Q → A) → Strategy Q A O → Strategy Q A V
  | g, done _ => done (val g)
  | g, ask q next => ask q fun a => finish val (Function.update g q a) (next a)

theorem finish_asked (val : (Q → A) → V) (f : Q → A) (S : Strategy Q A O) : ∀ g, (finish val g S).asked f = S.asked f := by
  induction S with
  | done o => intro g; rfl
  | ask q next ih => intro g; simp only [finish, asked]; rw [ih]

theorem finish_within (val : (Q → A) → V) (S : Strategy Q A O) : ∀ {n} g, S.Within n → (finish val g S).Within n := by
  induction S with
  | done o => intro n g _; cases n <;> trivial
  | ask q next ih =>
    intro n g h
    cases n with
    | zero => exact h.elim
    | succ n => exact fun a => ih a _ (h a)

theorem finish_run (val : (Q → A) → V) (f : Q → A) (S : Strategy Q A O) : ∀ (g : Q → A) (K : Finset Q), (∀ q ∈ K, g q = f q) →
    ∃ g', (finish val g S).run f = val g' ∧ ∀ q ∈ K ∪ S.asked f, g' q = f q := by
  induction S with
  | done o => intro g K h; exact ⟨g, rfl, by simpa [asked] using h⟩
  | ask q next ih =>
    intro g K h
    obtain ⟨g', h1, h2⟩ := ih (f q) (Function.update g q (f q)) (insert q K) fun r hr => by
      by_cases e : r = q
      · subst e; simp
      · rw [Function.update_of_ne e]; exact h r ((Finset.mem_insert.mp hr).resolve_left e)
    exact ⟨g', h1, fun r hr => h2 r (by simpa [asked, or_assoc, or_left_comm] using hr)⟩

/-- If `val` depends only on the answers to the questions of `S`, the report is right. -/
theorem finish_eq (val : (Q → A) → V) (S : Strategy Q A O) (g₀ f : Q → A)
    (h : ∀ g, (∀ q ∈ S.asked f, g q = f q) → val g = val f) : (finish val g₀ S).run f = val f := by
  obtain ⟨g', h1, h2⟩ := finish_run val f S g₀ ∅ (by simp)
  rw [h1]
  exact h g' fun q hq => h2 q (by simpa using hq)

/-- The same when some answers are known beforehand. -/
theorem finish_eq_given (val : (Q → A) → V) (S : Strategy Q A O) (g₀ f : Q → A) (q₀ : Q) (h₀ : g₀ q₀ = f q₀)
    (h : ∀ g, g q₀ = f q₀ → (∀ q ∈ S.asked f, g q = f q) → val g = val f) : (finish val g₀ S).run f = val f := by
  obtain ⟨g', h1, h2⟩ := finish_run val f S g₀ {q₀} (by simpa using h₀)
  rw [h1]
  exact h g' (h2 q₀ (by simp)) fun q hq => h2 q (by simp [hq])

end Spec.Strategy

namespace Spec.Player
variable {Q A R V O : Type} [DecidableEq Q]

/-- The player answering its requests itself. -/
def alone (sim : R → Strategy Q A V) : Player Q A R V O → Strategy Q A O
  | done o => .done o
  | ask q next => .ask q fun a => alone sim (next a)
  | request r next => (sim r).andThen fun v => alone sim (next v)

omit [DecidableEq Q] in
theorem alone_within (sim : R → Strategy Q A V) (ok : R → Prop) (c : Nat) (hs : ∀ r, ok r → (sim r).Within c) {n m : Nat}
    {T : Player Q A R V O} (hT : T.Within n m) : T.Only ok → (alone sim T).Within (n + c * m) := by
  induction hT with
  | done o => intro _; exact (show Strategy.Within 0 (.done o : Strategy Q A O) from trivial).mono (Nat.zero_le _)
  | @ask n m q next _ ih =>
    intro ho
    rw [show n + 1 + c * m = (n + c * m) + 1 by omega]
    exact fun a => ih a (ho a)
  | @request n m r next _ ih =>
    intro ho
    rw [show n + c * (m + 1) = c + (n + c * m) by ring]
    exact (hs r ho.1).andThen fun v => ih v (ho.2 v)

theorem alone_asked (sim : R → Strategy Q A V) (ok : R → Prop) (f : Q → A) (answer : R → V)
    (h : ∀ r, ok r → (sim r).run f = answer r) (T : Player Q A R V O) (ho : T.Only ok) (r : R) (hr : T.Sends f answer r) :
    ok r ∧ (sim r).asked f ⊆ (alone sim T).asked f := by
  induction T with
  | done o => exact hr.elim
  | ask q next ih =>
    obtain ⟨h1, h2⟩ := ih (f q) (ho (f q)) hr
    exact ⟨h1, h2.trans (Finset.subset_insert _ _)⟩
  | request r' next ih =>
    simp only [alone]
    rw [Strategy.asked_andThen]
    rcases hr with rfl | hr
    · exact ⟨ho.1, Finset.subset_union_left⟩
    · obtain ⟨h1, h2⟩ := ih (answer r') (ho.2 _) hr
      rw [h r' ho.1]
      exact ⟨h1, h2.trans Finset.subset_union_right⟩

end Spec.Player

/-! ## What `verify_proof` looks at -/

/-- The weights the oracle gives to the pairs. -/
def oracleWeights (wf : CS.WF) (mode : Mode) (B : CS.Elem) (Cs Ds : List CS.Elem) (f : Table CS) : List CS.Scalar :=
  (Cs.zip Ds).zipIdx.map fun t => f (itemQ wf mode B t)

/-- The question of the verifier for the challenge. -/
def verifierQ (wf : CS.WF) (mode : Mode) (B : CS.Elem) (Cs Ds : List CS.Elem) (c s : CS.Scalar) (ws : List CS.Scalar) : Question :=
  challengeQ wf mode B (lincomb ws Cs) (lincomb ws Ds) (s • CS.group.baseElem + c • B)
    (s • lincomb ws Cs + c • lincomb ws Ds)

theorem verifyProof_oracle (wf : CS.WF) (mode : Mode) (B : CS.Elem) (Cs Ds : List CS.Elem) (c s : CS.Scalar) (f : Table CS) :
    verifyProof (oracleSuite CS f) CS.group.baseElem B Cs Ds ⟨c, s⟩ mode =
      if Cs.length ≠ Ds.length ∨ 65535 < Cs.length then .err .Batch
      else if CS.group.scalarCtEq (f (verifierQ wf mode B Cs Ds c s (oracleWeights wf mode B Cs Ds f))) c then .ok ()
      else .err .ProofVerification := by
  refine (verifyProof_eq (CS := oracleSuite CS f) (oracle_wf wf f) CS.group.baseElem B Cs Ds ⟨c, s⟩ mode).trans ?_
  have e1 : weights (oracleSuite CS f) mode B Cs Ds = .ok (oracleWeights (CS := CS) wf mode B Cs Ds f) :=
    oracle_weightsFrom wf f mode B (Cs.zip Ds) 0
  have e2 := oracle_challenge wf f mode B (lincomb (oracleWeights wf mode B Cs Ds f) Cs)
    (lincomb (oracleWeights wf mode B Cs Ds f) Ds) (s • CS.group.baseElem + c • B)
    (s • lincomb (oracleWeights wf mode B Cs Ds f) Cs + c • lincomb (oracleWeights wf mode B Cs Ds f) Ds)
  refine congrArg (fun r : Res Unit => if Cs.length ≠ Ds.length ∨ 65535 < Cs.length then .err .Batch else r) ?_
  rw [e1]
  exact congrArg (fun x : Except InternalError CS.Scalar => match x with
      | .error _ => (Res.panic : Res Unit)
      | .ok d => if CS.group.scalarCtEq d c then .ok () else .err .ProofVerification) e2

theorem verifyProof_local (wf : CS.WF) (mode : Mode) (B : CS.Elem) (Cs Ds : List CS.Elem) (c s : CS.Scalar) (N : Nat)
    (hz : (Cs.zip Ds).length ≤ N) (f g : Table CS)
    (h : ∀ q ∈ (BatchClaim.verify wf mode B N ⟨Cs.zip Ds, c, s⟩).asked f, g q = f q) :
    verifyProof (oracleSuite CS g) CS.group.baseElem B Cs Ds ⟨c, s⟩ mode =
      verifyProof (oracleSuite CS f) CS.group.baseElem B Cs Ds ⟨c, s⟩ mode := by
  refine (verifyProof_oracle wf mode B Cs Ds c s g).trans (Eq.trans ?_ (verifyProof_oracle wf mode B Cs Ds c s f).symm)
  by_cases hl : Cs.length ≠ Ds.length ∨ 65535 < Cs.length
  · rw [if_pos hl, if_pos hl]
  · rw [if_neg hl, if_neg hl]
    have hl' : Cs.length = Ds.length := by by_contra hc; exact hl (.inl hc)
    have e1 : (Cs.zip Ds).map (·.1) = Cs := List.map_fst_zip (by omega)
    have e2 : (Cs.zip Ds).map (·.2) = Ds := List.map_snd_zip (by omega)
    simp only [BatchClaim.verify, if_pos hz, Strategy.asked_askAll, Strategy.asked, e1, e2] at h
    have hw : ∀ t ∈ (Cs.zip Ds).zipIdx, g (itemQ wf mode B t) = f (itemQ wf mode B t) := fun t ht =>
      h _ (Finset.mem_union_left _ (List.mem_toFinset.mpr (List.mem_map_of_mem ht)))
    have ws : oracleWeights wf mode B Cs Ds g = oracleWeights wf mode B Cs Ds f := List.map_congr_left hw
    rw [ws]
    have hc := h _ (Finset.mem_union_right _ (Finset.mem_insert_self _ _))
    rw [List.map_map] at hc
    have hc' : g (verifierQ wf mode B Cs Ds c s (oracleWeights wf mode B Cs Ds f)) =
        f (verifierQ wf mode B Cs Ds c s (oracleWeights wf mode B Cs Ds f)) := hc
    rw [hc']

/-! ## One call -/

/-- The questions behind one call of `VoprfClient::batch_finalize`, and its result. -/
noncomputable def voprfBatchSim (wf : CS.WF) (pk : CS.Elem) (N : Nat) (a : BatchAttempt CS) :
    Strategy Question CS.Scalar (Res (List (Res Bytes))) :=
  (BatchClaim.verify wf .Voprf pk N ⟨(a.clients.map Prod.snd).zip a.messages, a.c, a.s⟩).finish
    (fun f => a.voprfFinalize f pk) fun _ => 0

/-- What is left to do after verification. -/
def Spec.BatchAttempt.unblinded (a : BatchAttempt CS) : List (Res CS.Elem) :=
  (a.clients.zip a.messages).map fun p => Res.unwrapOption (CS.group.invertScalar p.1.1) >>= fun inv =>
    pure (CS.group.elemMul p.2 inv)

theorem zip_items {α β γ δ ε μ : Type} (l : List α) (l' : List β) (mk : α → γ) (blind : γ → δ) (mk' : β → ε) (F : δ × ε → μ)
    (H : α × β → μ) (h : ∀ p, F (blind (mk p.1), mk' p.2) = H p) :
    (((l.map mk).map blind).zip (l'.map mk')).map F = (l.zip l').map H := by
  rw [List.map_map, List.zip_map, List.map_map]
  exact List.map_congr_left fun p _ => h p

theorem map_items {α β γ : Type} (l : List α) (mk : α → β) (get : β → γ) (H : α → γ) (h : ∀ p, get (mk p) = H p) :
    (l.map mk).map get = l.map H := by
  rw [List.map_map]
  exact List.map_congr_left fun p _ => h p

theorem map_items_id {α β : Type} (l : List α) (mk : α → β) (get : β → α) (h : ∀ p, get (mk p) = p) : (l.map mk).map get = l := by
  rw [List.map_map, show get ∘ mk = id from funext h, List.map_id]

theorem congr_three {α β γ δ : Type} (F : α → β → γ → δ) {a a' : α} {b b' : β} {c c' : γ} (h1 : a = a') (h2 : b = b') (h3 : c = c') :
    F a b c = F a' b' c' := by rw [h1, h2, h3]

theorem voprfFinalize_eq (f : Table CS) (pk : CS.Elem) (a : BatchAttempt CS) :
    a.voprfFinalize f pk =
      (verifyProof (oracleSuite CS f) CS.group.baseElem pk (a.clients.map Prod.snd) a.messages ⟨a.c, a.s⟩ .Voprf >>= fun _ =>
        pure (Verifiable.finalizeAfterUnblind CS (a.inputs.zip a.unblinded))) := by
  unfold BatchAttempt.voprfFinalize VoprfClient.batchFinalize Verifiable.verifiableUnblind
  rw [bind_assoc]
  exact congr_three (fun (Cs Ds : List CS.Elem) (us : List (Res CS.Elem)) =>
    verifyProof (oracleSuite CS f) CS.group.baseElem pk Cs Ds ⟨a.c, a.s⟩ .Voprf >>= fun _ =>
        pure (Verifiable.finalizeAfterUnblind CS (a.inputs.zip us)))
    (map_items a.clients _ _ Prod.snd fun _ => rfl) (map_items_id a.messages _ _ fun _ => rfl)
    (zip_items a.clients a.messages _ _ _ _ _ fun _ => rfl)

theorem poprfFinalize_eq (f : Table CS) (pk : CS.Elem) (info : Option Bytes) (a : BatchAttempt CS) :
    a.poprfFinalize f pk info =
      (Poprf.computeTweakedKey (oracleSuite CS f) pk (some (info.getD [])) >>= fun tk : CS.Elem =>
        verifyProof (oracleSuite CS f) CS.group.baseElem tk a.messages (a.clients.map Prod.snd) ⟨a.c, a.s⟩ .Poprf >>= fun _ =>
        Poprf.finalizeAfterUnblind CS a.unblinded a.inputs info) := by
  unfold BatchAttempt.poprfFinalize PoprfClient.batchFinalize Poprf.poprfUnblind
  rw [bind_assoc]
  refine bind_congr fun tk => ?_
  rw [bind_assoc]
  exact congr_three (fun (Cs Ds : List CS.Elem) (us : List (Res CS.Elem)) =>
    verifyProof (oracleSuite CS f) CS.group.baseElem tk Ds Cs ⟨a.c, a.s⟩ .Poprf >>= fun _ =>
        Poprf.finalizeAfterUnblind CS us a.inputs info)
    (map_items a.clients _ _ Prod.snd fun _ => rfl) (map_items_id a.messages _ _ fun _ => rfl)
    (zip_items a.clients a.messages _ _ _ _ _ fun _ => rfl)

theorem voprfFinalize_congr (f g : Table CS) (pk : CS.Elem) (a : BatchAttempt CS)
    (h : verifyProof (oracleSuite CS g) CS.group.baseElem pk (a.clients.map Prod.snd) a.messages ⟨a.c, a.s⟩ .Voprf =
      verifyProof (oracleSuite CS f) CS.group.baseElem pk (a.clients.map Prod.snd) a.messages ⟨a.c, a.s⟩ .Voprf) :
    a.voprfFinalize g pk = a.voprfFinalize f pk :=
  (voprfFinalize_eq g pk a).trans ((congrArg (fun r : Res Unit => r >>= fun _ =>
    pure (Verifiable.finalizeAfterUnblind CS (a.inputs.zip a.unblinded))) h).trans (voprfFinalize_eq f pk a).symm)

omit L in
theorem zip_le (a : BatchAttempt CS) {N : Nat} (hN : a.clients.length ≤ N) :
    ((a.clients.map Prod.snd).zip a.messages).length ≤ N := by
  rw [List.length_zip, List.length_map]; omega

omit L in
theorem zip_le' (a : BatchAttempt CS) {N : Nat} (hN : a.clients.length ≤ N) :
    (a.messages.zip (a.clients.map Prod.snd)).length ≤ N := by
  rw [List.length_zip, List.length_map]; omega

theorem voprfBatchSim_run (wf : CS.WF) (pk : CS.Elem) (N : Nat) (a : BatchAttempt CS) (hN : a.clients.length ≤ N) (f : Table CS) :
    (voprfBatchSim wf pk N a).run f = a.voprfFinalize f pk :=
  Strategy.finish_eq _ _ _ _ fun g hg =>
    voprfFinalize_congr f g pk a (verifyProof_local wf .Voprf pk _ _ a.c a.s N (zip_le a hN) f g hg)

/-- The question for the tweak (over-long infos are refused before hashing). -/
def tweakQ (wf : CS.WF) (info : Option Bytes) : Question :=
  infoQ wf .Poprf ((info.getD []).take 65535) (by rw [List.length_take]; omega)

theorem tweak_oracle (wf : CS.WF) (f : Table CS) (info : Option Bytes) (h : (info.getD []).length ≤ 65535) :
    Spec.hashToScalar (oracleSuite CS f) .Poprf (infoInput (info.getD [])) = .ok (f (tweakQ wf info)) := by
  rw [oracle_hashToScalar wf f .Poprf _ (infoInput_length_le _ h)]
  congr 2
  simp only [tweakQ, infoQ, List.take_of_length_le h]

theorem tweakedKey_oracle (wf : CS.WF) (f : Table CS) (pk : CS.Elem) (info : Option Bytes) :
    (Poprf.computeTweakedKey (oracleSuite CS f) pk (some (info.getD [])) : Res CS.Elem) =
      if (info.getD []).length ≤ 65535 then
        if CS.group.isIdentityElem (f (tweakQ wf info) • CS.group.baseElem + pk) then .err .Protocol
        else .ok (f (tweakQ wf info) • CS.group.baseElem + pk)
      else .err .Info := by
  refine (computeTweakedKey_eq (CS := oracleSuite CS f) (oracle_wf wf f) pk (some (info.getD []))).trans ?_
  rw [show (some (info.getD [])).getD [] = info.getD [] from rfl]
  by_cases h : (info.getD []).length ≤ 65535
  · rw [if_pos h, if_pos h, tweak_oracle wf f info h]
    rfl
  · rw [if_neg h, if_neg h]

theorem poprfFinalize_local (wf : CS.WF) (pk : CS.Elem) (info : Option Bytes) (a : BatchAttempt CS) (N : Nat)
    (hN : a.clients.length ≤ N) (f g : Table CS) (hi : g (tweakQ wf info) = f (tweakQ wf info))
    (hv : ∀ q ∈ (BatchClaim.verify wf .Poprf (f (tweakQ wf info) • CS.group.baseElem + pk) N
      ⟨a.messages.zip (a.clients.map Prod.snd), a.c, a.s⟩).asked f, g q = f q) :
    a.poprfFinalize g pk info = a.poprfFinalize f pk info := by
  refine (poprfFinalize_eq g pk info a).trans (Eq.trans ?_ (poprfFinalize_eq f pk info a).symm)
  rw [tweakedKey_oracle wf g, tweakedKey_oracle wf f, hi]
  split
  · split
    · rfl
    · exact congrArg (fun r : Res Unit => r >>= fun _ => Poprf.finalizeAfterUnblind CS a.unblinded a.inputs info)
        (verifyProof_local wf .Poprf _ _ _ a.c a.s N (zip_le' a hN) f g hv)
  · rfl

/-- A call of `finalize` is a batch of one. -/
def Spec.VoprfAttempt.toBatch (a : VoprfAttempt CS) : BatchAttempt CS :=
  ⟨[a.input], [(a.blind, a.blindedElement)], [a.message], a.c, a.s⟩

/-- A call of `finalize` is a batch of one. -/
def Spec.PoprfAttempt.toBatch (a : PoprfAttempt CS) : BatchAttempt CS :=
  ⟨[a.input], [(a.blind, a.blindedElement)], [a.message], a.c, a.s⟩

theorem voprf_single_local (wf : CS.WF) (a : VoprfAttempt CS) (f g : Table CS)
    (hv : ∀ q ∈ (BatchClaim.verify wf .Voprf a.pk 1 ⟨[(a.blindedElement, a.message)], a.c, a.s⟩).asked f, g q = f q) :
    a.finalize g = a.finalize f :=
  congrArg (fun r : Res (List (Res Bytes)) => r >>= fun l => Res.unwrapOption l.head? >>= fun o => o)
    (voprfFinalize_congr f g a.pk a.toBatch (verifyProof_local wf .Voprf a.pk [a.blindedElement] [a.message] a.c a.s 1 le_rfl f g hv))

theorem poprf_single_local (wf : CS.WF) (a : PoprfAttempt CS) (f g : Table CS) (hi : g (tweakQ wf a.info) = f (tweakQ wf a.info))
    (hv : ∀ q ∈ (BatchClaim.verify wf .Poprf (f (tweakQ wf a.info) • CS.group.baseElem + a.pk) 1
      ⟨[(a.message, a.blindedElement)], a.c, a.s⟩).asked f, g q = f q) :
    a.finalize g = a.finalize f :=
  congrArg (fun r : Res (List (Res Bytes)) => r >>= fun l => Res.unwrapOption l.head? >>= fun o => o)
    (poprfFinalize_local wf a.pk a.info a.toBatch 1 le_rfl f g hi hv)

/-- The output is the right one if the statement is true. -/
theorem PoprfAttempt.right_output (wf : CS.WF) (f : Table CS) (a : PoprfAttempt CS) (out : Bytes) (ho : a.finalize f = .ok out)
    (hb : a.blind ≠ 0) (P : CS.Elem) (k m : CS.Scalar)
    (hm : Spec.hashToScalar (oracleSuite CS f) .Poprf (infoInput (a.info.getD [])) = .ok m)
    (hbe : a.blindedElement = a.blind • P) (hk : a.pk = k • CS.group.baseElem)
    (hs : SameKey CS (m • CS.group.baseElem + a.pk) a.message a.blindedElement) :
    out = Spec.outputInfo CS a.input (a.info.getD []) ((k + m)⁻¹ • P) := by
  obtain ⟨t, h1, h2⟩ := hs
  rw [hk, ← add_smul] at h1
  have ht : m + k = t := smul_base_inj h1
  obtain ⟨m', hm', hil, htk, -⟩ := PoprfAttempt.accepted wf f _ out ho
  have hmm : m' = m := Except.ok.inj (hm'.symm.trans hm)
  have ht0 : k + m ≠ 0 := by
    intro h0
    apply htk
    rw [hmm, hk, ← add_smul, add_comm, h0, zero_smul]
  have ho := (PoprfClient.finalize_eq (CS := oracleSuite CS f) (oracle_wf wf f)
    ⟨a.blind, a.blindedElement⟩ hb a.input ⟨a.message⟩ ⟨a.c, a.s⟩ a.pk a.info).symm.trans ho
  rw [Res.bind_eq_ok] at ho
  obtain ⟨_, -, ho⟩ := ho
  rw [Res.bind_eq_ok] at ho
  obtain ⟨_, -, ho⟩ := ho
  unfold itemResultInfo at ho
  split at ho
  · have ho := (Res.ok.inj ho).symm
    rw [ho]
    show Spec.outputInfo CS a.input (a.info.getD []) (a.blind⁻¹ • a.message) = _
    have : a.message = (k + m)⁻¹ • (a.blind • P) := by
      rw [← hbe, h2, ← ht, add_comm m, inv_smul_smul₀ ht0]
    rw [this, smul_comm (k + m)⁻¹, inv_smul_smul₀ hb]
  · simp at ho

/-! ## Lucky answers -/

theorem lucky_of_accepted (wf : CS.WF) (mode : Mode) (f : Table CS) (B C D : CS.Elem) (c s : CS.Scalar)
    (hbad : ¬ SameKey CS B C D) (hacc : Accepted (oracleSuite CS f) mode B [C] [D] c s) :
    ∃ q ∈ (BatchClaim.verify wf mode B 1 ⟨[(C, D)], c, s⟩).asked f, LuckyAnswer wf mode q (f q) := by
  obtain ⟨(w : CS.Scalar), hw, ha⟩ := accepted_single (CS := oracleSuite CS f) (oracle_wf wf f) _ _ _ _ _ _ hacc
  rw [oracle_weight wf] at hw
  have hw := Except.ok.inj hw
  have ha : f (challengeQ wf mode B (w • C) (w • D) (s • CS.group.baseElem + c • B) (s • (w • C) + c • (w • D))) = c :=
    Except.ok.inj ((oracle_challenge wf f mode _ _ _ _ _).symm.trans ha)
  have hq : (BatchClaim.verify wf mode B 1 ⟨[(C, D)], c, s⟩).asked f = {weightQ wf mode B 0 C D,
      challengeQ wf mode B (w • C) (w • D) (s • CS.group.baseElem + c • B) (s • (w • C) + c • (w • D))} := by
    have h1 : ∀ E : CS.Elem, lincomb [w] [E] = w • E := fun E => by simp [lincomb]
    have h2 : f (itemQ wf mode B ((C, D), 0)) = w := hw
    simp only [BatchClaim.verify, List.length_singleton, le_refl, if_true, Strategy.asked_askAll, Strategy.asked,
      List.zipIdx_cons, List.zipIdx_nil, List.map_cons, List.map_nil, h2, h1, List.toFinset_cons, List.toFinset_nil,
      insert_empty_eq]
    rfl
  rw [hq]
  by_cases h0 : w = (0 : CS.Scalar)
  · exact ⟨_, Finset.mem_insert_self _ _, .inl ⟨_, _, _, _, rfl, hw.trans h0⟩⟩
  · refine ⟨_, Finset.mem_insert_of_mem (Finset.mem_singleton_self _), .inr ⟨_, _, _, _, _, rfl, ?_, ?_⟩⟩
    · rw [sameKey_smul _ _ _ _ h0]; exact hbad
    · rw [ha]; exact ⟨s, rfl, rfl⟩

theorem card_chance {α : Type} [Finite α] {P : α → Prop} {c b : Nat} (hc : 0 < c) (h : Nat.card {a // P a} * c ≤ b * Nat.card α) :
    chance P ≤ b / c := by
  rw [chance_eq]
  have hc' : (0 : ℚ) < c := by exact_mod_cast hc
  rcases Nat.eq_zero_or_pos (Nat.card α) with h0 | h0
  · rw [h0]; simp; positivity
  · have h0' : (0 : ℚ) < Nat.card α := by exact_mod_cast h0
    rw [div_le_div_iff₀ h0' hc']
    exact_mod_cast h

theorem card_scalar_pos : 0 < Nat.card CS.Scalar := by
  have : Nonempty CS.Scalar := ⟨0⟩
  exact Nat.card_pos

theorem lucky_bound (wf : CS.WF) (mode : Mode) {O : Type} (n : Nat) (S : Strategy Question CS.Scalar O) (hS : S.Within n) :
    chance (fun f : Table CS => ∃ q ∈ S.asked f, LuckyAnswer wf mode q (f q)) ≤ n / Nat.card CS.Scalar := by
  have key := Strategy.card_bad_le (Q := Question) (A := CS.Scalar)
    (fun K g => ∃ q ∈ K, LuckyAnswer wf mode q (g q)) (fun _ => 1)
    (fun K g g' h ⟨q, hq, hl⟩ => ⟨q, hq, by rwa [← h q hq]⟩) (fun g => by simp)
    (fun K g q hq hg => by
      rw [Set.ncard_le_one]
      intro a ha b hb
      have red : ∀ a, (∃ r ∈ insert q K, LuckyAnswer wf mode r (Function.update g q a r)) →
          LuckyAnswer wf mode q a := by
        rintro a ⟨r, hr, hl⟩
        by_cases hrq : r = q
        · subst hrq; simpa using hl
        · rw [Function.update_of_ne hrq] at hl
          exact absurd ⟨r, (Finset.mem_insert.mp hr).resolve_left hrq, hl⟩ hg
      exact luckyAnswer_unique wf mode q a b (red a ha) (red b hb))
    n S hS
  rw [Finset.sum_const, Finset.card_range, smul_eq_mul, mul_one] at key
  exact card_chance card_scalar_pos key

/-! ## Sessions -/

theorem only_true {Q A R V O : Type} (T : Player Q A R V O) : T.Only fun _ => True := by
  induction T with
  | done o => trivial
  | ask q next ih => exact fun a => ih a
  | request r next ih => exact ⟨trivial, fun v => ih v⟩

/-- C65, VOPRF: let `hash_to_scalar` be a random oracle. A malicious server asks it at most `q` questions and has clients finalize
at most `m` answers of its own making (choosing every argument, even the client state and the public key), adaptively, seeing every
result. Some call returns an output for a message that is not the key-multiple of the blinded element with probability at most
`(q + 2m) / |scalars|`. -/
theorem C65_voprf (wf : CS.WF) {O : Type} (q m : Nat) (T : Player Question CS.Scalar (VoprfAttempt CS) (Res Bytes) O)
    (hT : T.Within q m) :
    chance (fun f : Table CS => ∃ a : VoprfAttempt CS, T.Sends f (fun a => a.finalize f) a ∧ (∃ out, a.finalize f = .ok out) ∧
        ¬ SameKey CS a.pk a.blindedElement a.message) ≤ (q + 2 * m) / Nat.card CS.Scalar := by
  let sim : VoprfAttempt CS → Strategy Question CS.Scalar (Res Bytes) := fun a =>
    (BatchClaim.verify wf .Voprf a.pk 1 ⟨[(a.blindedElement, a.message)], a.c, a.s⟩).finish (fun f => a.finalize f) fun _ => 0
  have h1 := lucky_bound wf .Voprf (q + 2 * m) (T.alone sim) (Player.alone_within sim (fun _ => True) 2
    (fun a _ => Strategy.finish_within _ _ _ (BatchClaim.verify_within wf .Voprf a.pk 1 _)) hT (only_true T))
  refine le_trans (chance_mono fun f hf => ?_) (h1.trans (le_of_eq (by push_cast; rfl)))
  obtain ⟨a, hs, ⟨out, ho⟩, hbad⟩ := hf
  obtain ⟨r, hr, hl⟩ := lucky_of_accepted wf .Voprf f _ _ _ _ _ hbad (VoprfAttempt.accepted wf f a out ho)
  refine ⟨r, (Player.alone_asked sim (fun _ => True) f (fun a => a.finalize f) (fun b _ => ?_) T (only_true T) a hs).2 ?_, hl⟩
  · exact Strategy.finish_eq _ _ _ _ fun g hg => voprf_single_local wf b f g hg
  · rw [Strategy.finish_asked]; exact hr

/-- C65, VOPRF outputs: so every output obtained in the session for an input the client blinded itself is the PRF value under the
key behind the public key, except with that probability. -/
theorem C65_voprf_outputs (wf : CS.WF) {O : Type} (q m : Nat) (T : Player Question CS.Scalar (VoprfAttempt CS) (Res Bytes) O)
    (hT : T.Within q m) :
    chance (fun f : Table CS => ∃ (a : VoprfAttempt CS) (out : Bytes) (P : CS.Elem) (k : CS.Scalar),
        T.Sends f (fun a => a.finalize f) a ∧ a.finalize f = .ok out ∧ Spec.hashToGroup CS .Voprf a.input = .ok P ∧ a.blind ≠ 0 ∧
        a.blindedElement = a.blind • P ∧ a.pk = k • CS.group.baseElem ∧ out ≠ Spec.output CS a.input (k • P)) ≤
      (q + 2 * m) / Nat.card CS.Scalar := by
  refine le_trans (chance_mono fun f hf => ?_) (C65_voprf wf q m T hT)
  obtain ⟨a, out, P, k, hs, ho, -, hb, hbe, hk, hne⟩ := hf
  exact ⟨a, hs, ⟨out, ho⟩, fun h => hne (VoprfAttempt.right_output f a out ho hb P k hbe hk h)⟩

/-- C65, POPRF: the same for `PoprfClient::finalize`, with one more question per call for the tweak. -/
theorem C65_poprf (wf : CS.WF) {O : Type} (q m : Nat) (T : Player Question CS.Scalar (PoprfAttempt CS) (Res Bytes) O)
    (hT : T.Within q m) :
    chance (fun f : Table CS => ∃ (a : PoprfAttempt CS) (t : CS.Scalar), T.Sends f (fun a => a.finalize f) a ∧
        (∃ out, a.finalize f = .ok out) ∧
        Spec.hashToScalar (oracleSuite CS f) .Poprf (infoInput (a.info.getD [])) = .ok t ∧
        ¬ SameKey CS (t • CS.group.baseElem + a.pk) a.message a.blindedElement) ≤ (q + 3 * m) / Nat.card CS.Scalar := by
  let S : PoprfAttempt CS → Strategy Question CS.Scalar Unit := fun a =>
    .ask (tweakQ wf a.info) fun t =>
      BatchClaim.verify wf .Poprf (t • CS.group.baseElem + a.pk) 1 ⟨[(a.message, a.blindedElement)], a.c, a.s⟩
  let sim : PoprfAttempt CS → Strategy Question CS.Scalar (Res Bytes) := fun a => (S a).finish (fun f => a.finalize f) fun _ => 0
  have h1 := lucky_bound wf .Poprf (q + 3 * m) (T.alone sim) (Player.alone_within sim (fun _ => True) 3
    (fun a _ => Strategy.finish_within _ (S a) _ (show (S a).Within 3 from fun t =>
      BatchClaim.verify_within wf .Poprf (t • CS.group.baseElem + a.pk) 1 _)) hT (only_true T))
  refine le_trans (chance_mono fun f hf => ?_) (h1.trans (le_of_eq (by push_cast; rfl)))
  obtain ⟨a, t, hs, ⟨out, ho⟩, ht, hbad⟩ := hf
  obtain ⟨t', ht', hil, -, hacc⟩ := PoprfAttempt.accepted wf f a out ho
  have e1 : t' = t := Except.ok.inj (ht'.symm.trans ht)
  have e2 : f (tweakQ wf a.info) = t := Except.ok.inj ((tweak_oracle wf f a.info hil).symm.trans ht)
  rw [e1] at hacc
  obtain ⟨r, hr, hl⟩ := lucky_of_accepted wf .Poprf f _ _ _ _ _ hbad hacc
  refine ⟨r, (Player.alone_asked sim (fun _ => True) f (fun a => a.finalize f) (fun b _ => ?_) T (only_true T) a hs).2 ?_, hl⟩
  · exact Strategy.finish_eq _ _ _ _ fun g hg => poprf_single_local wf b f g (hg _ (Finset.mem_insert_self _ _)) fun r hr =>
      hg _ (Finset.mem_insert_of_mem hr)
  · rw [Strategy.finish_asked]
    refine Finset.mem_insert_of_mem ?_
    rw [e2]
    exact hr

/-- C65, POPRF outputs: so every output obtained in the session for an input the client blinded itself is
`Hash(⟨input⟩ ⟨info⟩ ⟨t⁻¹·HashToGroup(input)⟩ "Finalize")` with `t·G` the tweaked public key, except with that probability. -/
theorem C65_poprf_outputs (wf : CS.WF) {O : Type} (q m : Nat) (T : Player Question CS.Scalar (PoprfAttempt CS) (Res Bytes) O)
    (hT : T.Within q m) :
    chance (fun f : Table CS => ∃ (a : PoprfAttempt CS) (out : Bytes) (P : CS.Elem) (t k : CS.Scalar),
        T.Sends f (fun a => a.finalize f) a ∧ a.finalize f = .ok out ∧
        Spec.hashToScalar (oracleSuite CS f) .Poprf (infoInput (a.info.getD [])) = .ok t ∧
        Spec.hashToGroup CS .Poprf a.input = .ok P ∧ a.blind ≠ 0 ∧
        a.blindedElement = a.blind • P ∧ a.pk = k • CS.group.baseElem ∧
        out ≠ Spec.outputInfo CS a.input (a.info.getD []) ((k + t)⁻¹ • P)) ≤
      (q + 3 * m) / Nat.card CS.Scalar := by
  refine le_trans (chance_mono fun f hf => ?_) (C65_poprf wf q m T hT)
  obtain ⟨a, out, P, t, k, hs, ho, ht, -, hb, hbe, hk, hne⟩ := hf
  exact ⟨a, t, hs, ⟨out, ho⟩, ht, fun h => hne (PoprfAttempt.right_output wf f a out ho hb P k t ht hbe hk h)⟩

/-! ## Sessions of batches -/

theorem chance_false {α : Type} [Finite α] {P : α → Prop} (h : ∀ a, ¬ P a) : chance P = 0 := by
  have : IsEmpty {a // P a} := ⟨fun x => h x.1 x.2⟩
  rw [chance_eq, Nat.card_of_isEmpty, Nat.cast_zero, zero_div]

theorem badBatch_chance (wf : CS.WF) (mode : Mode) (k : CS.Scalar) (N n : Nat) (hN : 0 < N) {O : Type}
    (S : Strategy Question CS.Scalar O) (hS : S.Within n) :
    chance (fun f : Table CS => BadBatch wf mode k N (S.asked f) f) ≤ (n ^ N : Nat) / Nat.card CS.Scalar := by
  have key := Strategy.card_bad_le (Q := Question) (A := CS.Scalar) (BadBatch wf mode k N)
    (fun j => (j + 1) ^ (N - 1)) (badBatch_congr wf mode k N)
    (fun g hb => by
      rcases hb with ⟨T, ⟨t, ht⟩, -, h3, -⟩ | ⟨_, _, _, _, _, h, _⟩
      · exact absurd (h3 t ht).2.1 (Finset.notMem_empty _)
      · exact absurd h (Finset.notMem_empty _))
    (badBatch_bound wf mode k N) n S hS
  have hsum := sum_pow_le n N 0 hN
  simp only [zero_add] at hsum
  exact card_chance card_scalar_pos (key.trans (Nat.mul_le_mul_right _ hsum))

/-- C65, VOPRF batches: fix the public key. A malicious server that asks at most `q` questions and has clients finalize at most `m`
batches of at most `N` items of its own making, adaptively, gets some batch with a wrong item accepted with probability at most
`(q + m(N + 1))^N / |scalars|`. -/
theorem C65_voprf_batch (wf : CS.WF) {O : Type} (q m N : Nat) (pk : CS.Elem)
    (T : Player Question CS.Scalar (BatchAttempt CS) (Res (List (Res Bytes))) O)
    (hT : T.Within q m) (hN : T.Only fun a => a.clients.length ≤ N) :
    chance (fun f : Table CS => ∃ a : BatchAttempt CS, T.Sends f (fun a => a.voprfFinalize f pk) a ∧
        (∃ outs, a.voprfFinalize f pk = .ok outs) ∧ a.SomeWrong pk) ≤ (q + (N + 1) * m) ^ N / Nat.card CS.Scalar := by
  obtain ⟨k, rfl⟩ := VGroup.Lawful.base_generates (G := CS.group) pk
  rcases Nat.eq_zero_or_pos N with rfl | hpos
  · refine le_trans (le_of_eq ?_) (by positivity)
    refine chance_false ?_
    rintro f ⟨a, hs, _, i, p, e, h, _⟩
    · have := (Player.alone_asked (fun a => Strategy.done (a.voprfFinalize f (k • CS.group.baseElem)))
        (fun a => a.clients.length ≤ 0) f (fun a => a.voprfFinalize f (k • CS.group.baseElem)) (fun _ _ => rfl) T hN a hs).1
      have h0 := List.getElem?_eq_some_iff.mp h |>.1
      omega
  let sim := voprfBatchSim wf (k • CS.group.baseElem) N
  have h1 := badBatch_chance wf .Voprf k N (q + (N + 1) * m) hpos (T.alone sim) (Player.alone_within sim _ (N + 1)
    (fun a _ => Strategy.finish_within _ _ _ (BatchClaim.verify_within wf .Voprf _ N _)) hT hN)
  refine le_trans (chance_mono fun f hf => ?_) (h1.trans (le_of_eq (by push_cast; rfl)))
  obtain ⟨a, hs, ⟨outs, ho⟩, i, p, e, hp, he, hwrong⟩ := hf
  obtain ⟨hlen, hsub⟩ := Player.alone_asked sim _ f (fun a => a.voprfFinalize f (k • CS.group.baseElem))
    (fun b hb => voprfBatchSim_run wf _ N b hb f) T hN a hs
  obtain ⟨hl, hn, hacc⟩ := BatchAttempt.voprf_accepted wf f _ _ outs ho
  have e1 : ((a.clients.map Prod.snd).zip a.messages).map (·.1) = a.clients.map Prod.snd :=
    List.map_fst_zip (by simp [hl])
  have e2 : ((a.clients.map Prod.snd).zip a.messages).map (·.2) = a.messages :=
    List.map_snd_zip (by simp [hl])
  refine badBatch_of_accepted wf .Voprf k N f ⟨(a.clients.map Prod.snd).zip a.messages, a.c, a.s⟩ (zip_le a hlen) (zip_le a hn)
    (accepted_congr f _ _ e1 e2 _ _ hacc) ⟨(p.2, e), ?_, hwrong⟩ _ fun r hr => hsub ?_
  · rw [List.mem_iff_getElem?]
    exact ⟨i, by simp [List.getElem?_zip_eq_some, hp, he]⟩
  · rw [show sim a = voprfBatchSim wf (k • CS.group.baseElem) N a from rfl, voprfBatchSim, Strategy.finish_asked]
    exact hr

theorem badBatch_given (wf : CS.WF) (mode : Mode) (k : CS.Scalar) (N n : Nat) (hN : 0 < N) {O : Type}
    (S : Strategy Question CS.Scalar O) (hS : S.Within n) (info : Bytes) (hi : info.length ≤ 65535) (m : CS.Scalar) :
    Nat.card {f : Table CS // f (infoQ wf mode info hi) = m ∧
        BadBatch wf mode k N (insert (infoQ wf mode info hi) (S.asked f)) f} * Nat.card CS.Scalar
      ≤ (n + 1) ^ N * Nat.card {f : Table CS // f (infoQ wf mode info hi) = m} := by
  have key := Strategy.card_bad_le_given (Q := Question) (A := CS.Scalar) (BadBatch wf mode k N)
    (fun j => (j + 1) ^ (N - 1)) (badBatch_congr wf mode k N) (infoQ wf mode info hi) m
    (fun g _ hb => by
      rcases hb with ⟨T, ⟨t, ht⟩, -, h3, -⟩ | ⟨B, M, Z, T, U, h, _⟩
      · have := Finset.mem_singleton.mp (h3 t ht).2.1
        exact (scalarInputs_disjoint wf 0 0 0 0 0 t.1.1 t.1.2 mode (k • CS.group.baseElem) t.2
          info).2.2 (congrArg (fun q : Question => q.1.2) this)
      · have := Finset.mem_singleton.mp h
        exact (scalarInputs_disjoint wf B M Z T U 0 0 mode 0 0 info).2.1
          (congrArg (fun q : Question => q.1.2) this))
    (badBatch_bound wf mode k N) n S hS
  have hsum := sum_pow_le n N 1 hN
  rw [Nat.add_comm 1 n] at hsum
  exact key.trans (Nat.mul_le_mul_right _ hsum)

/-- C65, POPRF batches: the same for a fixed public key and a fixed info, with probability at most
`(q + m(N + 1) + 1)^N / |scalars|`. -/
theorem C65_poprf_batch (wf : CS.WF) {O : Type} (q m N : Nat) (pk : CS.Elem) (info : Option Bytes)
    (T : Player Question CS.Scalar (BatchAttempt CS) (Res (List (Res Bytes))) O)
    (hT : T.Within q m) (hN : T.Only fun a => a.clients.length ≤ N) :
    chance (fun f : Table CS => ∃ (a : BatchAttempt CS) (t : CS.Scalar), T.Sends f (fun a => a.poprfFinalize f pk info) a ∧
        (∃ outs, a.poprfFinalize f pk info = .ok outs) ∧
        Spec.hashToScalar (oracleSuite CS f) .Poprf (infoInput (info.getD [])) = .ok t ∧
        a.SomeWrongTweaked (t • CS.group.baseElem + pk)) ≤ (q + (N + 1) * m + 1) ^ N / Nat.card CS.Scalar := by
  obtain ⟨k, rfl⟩ := VGroup.Lawful.base_generates (G := CS.group) pk
  rcases Nat.eq_zero_or_pos N with rfl | hpos
  · refine le_trans (le_of_eq ?_) (by positivity)
    refine chance_false ?_
    rintro f ⟨a, _, hs, _, _, i, p, e, h, _⟩
    · have := (Player.alone_asked (fun a => Strategy.done (a.poprfFinalize f (k • CS.group.baseElem) info))
        (fun a => a.clients.length ≤ 0) f (fun a => a.poprfFinalize f (k • CS.group.baseElem) info) (fun _ _ => rfl) T hN a hs).1
      have h0 := List.getElem?_eq_some_iff.mp h |>.1
      omega
  by_cases hil : (info.getD []).length ≤ 65535
  swap
  · refine le_trans (le_of_eq ?_) (by positivity)
    rw [chance_eq, Nat.card_eq_zero.mpr (.inl ⟨fun ⟨f, a, _, _, ⟨outs, ho⟩, _⟩ =>
      hil (BatchAttempt.poprf_accepted wf f _ _ _ outs ho).2.2.choose_spec.2.1⟩)]
    simp
  have hQ : tweakQ wf info = infoQ wf .Poprf (info.getD []) hil := by
    simp only [tweakQ, infoQ, List.take_of_length_le hil]
  refine (card_chance card_scalar_pos (card_fibers (fun f : Table CS => f (infoQ wf .Poprf (info.getD []) hil)) _ _
    ((q + (N + 1) * m + 1) ^ N) fun t => ?_)).trans (le_of_eq (by push_cast; rfl))
  let S : BatchAttempt CS → Strategy Question CS.Scalar Unit := fun a =>
    BatchClaim.verify wf .Poprf ((t + k) • CS.group.baseElem) N ⟨a.messages.zip (a.clients.map Prod.snd), a.c, a.s⟩
  let sim : BatchAttempt CS → Strategy Question CS.Scalar (Res (List (Res Bytes))) := fun a =>
    (S a).finish (fun f => a.poprfFinalize f (k • CS.group.baseElem) info) fun _ => t
  refine le_trans (Nat.mul_le_mul_right _ (card_le_of_imp fun f hf => ?_))
    (badBatch_given wf .Poprf (t + k) N (q + (N + 1) * m) hpos (T.alone sim) (Player.alone_within sim _ (N + 1)
      (fun a _ => Strategy.finish_within _ _ _ (BatchClaim.verify_within wf .Poprf _ N _)) hT hN) (info.getD []) hil t)
  obtain ⟨hft, a, t', hs, ⟨outs, ho⟩, ht', i, p, e, hp, he, hwrong⟩ := hf
  have hft' : f (tweakQ wf info) = t := by rw [hQ]; exact hft
  obtain ⟨hl, hn, t'', ht'', -, hacc⟩ := BatchAttempt.poprf_accepted wf f _ _ _ outs ho
  have hq : Spec.hashToScalar (oracleSuite CS f) .Poprf (infoInput (info.getD [])) = .ok t := by
    rw [tweak_oracle wf f info hil, hft']
  have h1 : t' = t := Except.ok.inj (ht'.symm.trans hq)
  have h2 : t'' = t := Except.ok.inj (ht''.symm.trans hq)
  rw [h1, ← add_smul] at hwrong
  rw [h2, ← add_smul] at hacc
  obtain ⟨hlen, hsub⟩ := Player.alone_asked sim _ f (fun a => a.poprfFinalize f (k • CS.group.baseElem) info)
    (fun b hb => Strategy.finish_eq_given _ _ _ f (tweakQ wf info) hft'.symm fun g hg0 hg =>
      poprfFinalize_local wf _ info b N hb f g hg0 (by rw [hft', ← add_smul]; exact hg)) T hN a hs
  refine ⟨hft, ?_⟩
  have e1 : (a.messages.zip (a.clients.map Prod.snd)).map (·.1) = a.messages :=
    List.map_fst_zip (by simp [hl])
  have e2 : (a.messages.zip (a.clients.map Prod.snd)).map (·.2) = a.clients.map Prod.snd :=
    List.map_snd_zip (by simp [hl])
  refine badBatch_of_accepted wf .Poprf (t + k) N f ⟨a.messages.zip (a.clients.map Prod.snd), a.c, a.s⟩ (zip_le' a hlen)
    (zip_le' a hn) (accepted_congr f _ _ e1 e2 _ _ hacc) ⟨(e, p.2), ?_, hwrong⟩ _ fun r hr =>
      Finset.mem_insert_of_mem (hsub ?_)
  · rw [List.mem_iff_getElem?]
    exact ⟨i, by simp [List.getElem?_zip_eq_some, hp, he]⟩
  · rw [show sim a = (S a).finish (fun f => a.poprfFinalize f (k • CS.group.baseElem) info) fun _ => t from rfl,
      Strategy.finish_asked]
    exact hr

/-! ## Examples -/

section examples
open Toy

/-- A server that tries a wrong answer, and after a refusal another one with the answer of a question as challenge. -/
def tryingServer : Player Question suite.Scalar (VoprfAttempt suite) (Res Bytes) Bool :=
  .request { wrongAttempt with c := (2 : F) } fun r =>
    match r with
    | .ok _ => .done true
    | _ => .ask ⟨([], []), by simp, by simp⟩ fun a => .request { wrongAttempt with c := a } fun r => .done r.isOk

theorem tryingServer_within : tryingServer.Within 1 2 := by
  refine .request _ _ fun r => ?_
  cases r with
  | ok x => exact .done _
  | err e => exact .ask _ _ fun a => .request _ _ fun r => .done _
  | panic => exact .ask _ _ fun a => .request _ _ fun r => .done _
  | diverge => exact .ask _ _ fun a => .request _ _ fun r => .done _

/-- Over the toy suite it succeeds with probability at most `5 / 251` ... -/
example : chance (fun f : Table suite => ∃ a : VoprfAttempt suite, tryingServer.Sends f (fun a => a.finalize f) a ∧
    (∃ out, a.finalize f = .ok out) ∧ ¬ SameKey suite a.pk a.blindedElement a.message) ≤ 5 / 251 := by
  have h := C65_voprf Toy.wf 1 2 tryingServer tryingServer_within
  have hc : Nat.card suite.Scalar = 251 := show Nat.card (ZMod 251) = 251 by simp
  rw [hc] at h
  norm_num at h ⊢
  exact h

/-- ... and for some table it does, at the second try. -/
example : ∃ (f : Table suite) (a : VoprfAttempt suite), tryingServer.Sends f (fun a => a.finalize f) a ∧
    (∃ out, a.finalize f = .ok out) ∧ ¬ SameKey suite a.pk a.blindedElement a.message := by
  refine ⟨fun _ => (1 : F), { wrongAttempt with c := (1 : F) }, .inr ?_, Res.exists_of_isOk (by decide +kernel), wrongAttempt_false⟩
  have h : VoprfAttempt.finalize (CS := suite) (fun _ => (1 : F)) { wrongAttempt with c := (2 : F) } =
      .err .ProofVerification := by decide +kernel
  simp only [h]
  exact .inl rfl

/-- A server for the theorems on batches. -/
example : ∃ T : Player Question suite.Scalar (BatchAttempt suite) (Res (List (Res Bytes))) Unit,
    T.Within 0 1 ∧ T.Only fun a => a.clients.length ≤ 2 :=
  ⟨.request ⟨[[1], [2]], [((2 : F), (3 : F)), ((2 : F), (4 : F))], [(5 : F), (7 : F)], (1 : F), (4 : F)⟩ fun _ => .done (),
    .request _ _ fun _ => .done _, le_refl 2, fun _ => trivial⟩

end examples

end Voprf
