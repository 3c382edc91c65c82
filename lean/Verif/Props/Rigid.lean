import Verif.Props.Encodings
import Verif.Props.Errors
import Verif.Spec.Rigid

/-!
# C75: an accepted proof is determined by its challenge

Nobody, not even the holder of the key, can turn an accepted proof into another one with the same challenge, or
present it under another public key, without a collision of `HashToScalar`.
-/

namespace Voprf

open Spec

variable {CS : CipherSuite} [L : CS.group.Lawful]

/-- Two accepted proofs for the same pairs with the same challenge are equal, and are for the same key, or the
two strings hashed by their checks collide. -/
theorem accepted_rigid (wf : CS.WF) (mode : Mode) (B B' : CS.Elem) (Cs Ds : List CS.Elem) (c s s' : CS.Scalar)
    (h : Accepted CS mode B Cs Ds c s) (h' : Accepted CS mode B' Cs Ds c s') :
    (B = B' ∧ s = s') ∨ ChallengeCollision CS mode B B' Cs Ds c s s' := by
  obtain ⟨ws, hws, ha⟩ := h
  obtain ⟨ws', hws', ha'⟩ := h'
  by_cases he : verifierString CS B Cs Ds ws c s = verifierString CS B' Cs Ds ws' c s'
  · left
    obtain ⟨hB, -, -, hT, -⟩ := challengeInput_injective wf _ _ _ _ _ _ _ _ _ _ he
    subst hB
    refine ⟨rfl, ?_⟩
    have h0 : (s - s') • CS.group.baseElem = 0 := by
      rw [sub_smul, add_right_cancel hT, sub_self]
    exact sub_eq_zero.mp ((smul_eq_zero.mp h0).resolve_right L.baseElem_ne_zero)
  · exact .inr ⟨ws, ws', hws, hws', he, ha, ha'⟩

/-- C75, VOPRF: two `batch_finalize` calls with the same client states and messages that both return, with proofs of
the same challenge, have been given the same public key and the same proof; or the two strings they hashed differ
and both hash to the challenge. -/
theorem C75_voprf_batch (wf : CS.WF) (inputs inputs' : List Bytes) (clients : List (VoprfClient CS))
    (messages : List (EvaluationElement CS)) (proof proof' : Proof CS) (pk pk' : CS.Elem)
    (outs outs' : List (Res Bytes))
    (h : VoprfClient.batchFinalize inputs clients messages proof pk = .ok outs)
    (h' : VoprfClient.batchFinalize inputs' clients messages proof' pk' = .ok outs')
    (hc : proof.cScalar = proof'.cScalar) :
    (pk = pk' ∧ proof = proof') ∨
    ChallengeCollision CS .Voprf pk pk' (clients.map (·.blindedElement)) (messages.map (·.value))
      proof.cScalar proof.sScalar proof'.sScalar := by
  have hne : ¬ (clients.length ≠ messages.length ∨ 65535 < clients.length) := by
    rw [← (C13_voprf_finalize wf inputs clients messages proof pk).1, h]; simp
  have hl : clients.length = messages.length := by
    by_contra hc; exact hne (Or.inl hc)
  have hn : clients.length ≤ 65535 := by
    by_contra hc; exact hne (Or.inr (by omega))
  have ha := (C09_voprf_batch wf inputs clients messages proof pk hl hn).1.mp ⟨outs, h⟩
  have ha' := (C09_voprf_batch wf inputs' clients messages proof' pk' hl hn).1.mp ⟨outs', h'⟩
  rw [← hc] at ha'
  exact (accepted_rigid wf _ _ _ _ _ _ _ _ ha ha').imp_left fun e => ⟨e.1, Proof.ext hc e.2⟩

/-- C75, VOPRF: the same for `finalize`. -/
theorem C75_voprf_single (wf : CS.WF) (input input' : Bytes) (client : VoprfClient CS)
    (message : EvaluationElement CS) (proof proof' : Proof CS) (pk pk' : CS.Elem) (out out' : Bytes)
    (h : client.finalize input message proof pk = .ok out)
    (h' : client.finalize input' message proof' pk' = .ok out')
    (hc : proof.cScalar = proof'.cScalar) :
    (pk = pk' ∧ proof = proof') ∨
    ChallengeCollision CS .Voprf pk pk' [client.blindedElement] [message.value]
      proof.cScalar proof.sScalar proof'.sScalar := by
  have ha := (C09_voprf_single wf input client message proof pk).1 out h
  have ha' := (C09_voprf_single wf input' client message proof' pk').1 out' h'
  rw [← hc] at ha'
  exact (accepted_rigid wf _ _ _ _ _ _ _ _ ha ha').imp_left fun e => ⟨e.1, Proof.ext hc e.2⟩

/-- C75, POPRF: the same, for the tweaked keys `HashToScalar("Info"⟨info⟩)·G + pk` of the two calls. -/
theorem C75_poprf_batch (wf : CS.WF) (inputs inputs' : List Bytes) (clients : List (PoprfClient CS))
    (messages : List (EvaluationElement CS)) (proof proof' : Proof CS) (pk pk' : CS.Elem)
    (info info' : Option Bytes) (outs outs' : List (Res Bytes))
    (h : PoprfClient.batchFinalize inputs clients messages proof pk info = .ok outs)
    (h' : PoprfClient.batchFinalize inputs' clients messages proof' pk' info' = .ok outs')
    (hc : proof.cScalar = proof'.cScalar) :
    ∃ m m', Spec.hashToScalar CS .Poprf (infoInput (info.getD [])) = .ok m ∧
      Spec.hashToScalar CS .Poprf (infoInput (info'.getD [])) = .ok m' ∧
      ((m • CS.group.baseElem + pk = m' • CS.group.baseElem + pk' ∧ proof = proof') ∨
      ChallengeCollision CS .Poprf (m • CS.group.baseElem + pk) (m' • CS.group.baseElem + pk')
        (messages.map (·.value)) (clients.map (·.blindedElement))
        proof.cScalar proof.sScalar proof'.sScalar) := by
  obtain ⟨-, -, m, hm, -, -, ha⟩ := C09_poprf_batch_only wf inputs clients messages proof pk info outs h
  obtain ⟨-, -, m', hm', -, -, ha'⟩ := C09_poprf_batch_only wf inputs' clients messages proof' pk' info' outs' h'
  rw [← hc] at ha'
  exact ⟨m, m', hm, hm', (accepted_rigid wf _ _ _ _ _ _ _ _ ha ha').imp_left fun e => ⟨e.1, Proof.ext hc e.2⟩⟩

/-- C75, POPRF: the same for `finalize`. -/
theorem C75_poprf_single (wf : CS.WF) (input input' : Bytes) (client : PoprfClient CS)
    (message : EvaluationElement CS) (proof proof' : Proof CS) (pk pk' : CS.Elem)
    (info info' : Option Bytes) (out out' : Bytes)
    (h : client.finalize input message proof pk info = .ok out)
    (h' : client.finalize input' message proof' pk' info' = .ok out')
    (hc : proof.cScalar = proof'.cScalar) :
    ∃ m m', Spec.hashToScalar CS .Poprf (infoInput (info.getD [])) = .ok m ∧
      Spec.hashToScalar CS .Poprf (infoInput (info'.getD [])) = .ok m' ∧
      ((m • CS.group.baseElem + pk = m' • CS.group.baseElem + pk' ∧ proof = proof') ∨
      ChallengeCollision CS .Poprf (m • CS.group.baseElem + pk) (m' • CS.group.baseElem + pk')
        [message.value] [client.blindedElement] proof.cScalar proof.sScalar proof'.sScalar) := by
  obtain ⟨m, hm, -, -, ha⟩ := (C09_poprf_single wf input client message proof pk info).1 out h
  obtain ⟨m', hm', -, -, ha'⟩ := (C09_poprf_single wf input' client message proof' pk' info').1 out' h'
  rw [← hc] at ha'
  exact ⟨m, m', hm, hm', (accepted_rigid wf _ _ _ _ _ _ _ _ ha ha').imp_left fun e => ⟨e.1, Proof.ext hc e.2⟩⟩

section examples
open Toy

/-- Two different accepted proofs with the same challenge, on the toy suite with its worthless hash: the hypotheses
of `C75_voprf_single` are met, and the collision it yields is a real one. -/
example : ∃ out, VoprfClient.finalize (CS := suite) ⟨(2 : F), (5 : F)⟩ [1, 2, 3] ⟨(35 : F)⟩ ⟨(1 : F), (104 : F)⟩ (7 : F) = .ok out ∧
    VoprfClient.finalize (CS := suite) ⟨(2 : F), (5 : F)⟩ [1, 2, 3] ⟨(35 : F)⟩ ⟨(1 : F), (127 : F)⟩ (7 : F) = .ok out ∧
    ChallengeCollision suite .Voprf (7 : F) (7 : F) [(5 : F)] [(35 : F)] (1 : F) (104 : F) (127 : F) := by
  obtain ⟨o, h⟩ := Res.exists_of_isOk
    (x := VoprfClient.finalize (CS := suite) ⟨(2 : F), (5 : F)⟩ [1, 2, 3] ⟨(35 : F)⟩ ⟨(1 : F), (104 : F)⟩ (7 : F))
    (by decide +kernel)
  obtain ⟨o', h'⟩ := Res.exists_of_isOk
    (x := VoprfClient.finalize (CS := suite) ⟨(2 : F), (5 : F)⟩ [1, 2, 3] ⟨(35 : F)⟩ ⟨(1 : F), (127 : F)⟩ (7 : F))
    (by decide +kernel)
  have hcol := (C75_voprf_single wf _ _ _ _ _ _ _ _ o o' h h' rfl).resolve_left fun e => by
    have : (104 : F) = 127 := congrArg (fun p : Proof suite => p.sScalar) e.2
    revert this; decide
  refine ⟨o, h, ?_, hcol⟩
  have e : VoprfClient.finalize (CS := suite) ⟨(2 : F), (5 : F)⟩ [1, 2, 3] ⟨(35 : F)⟩ ⟨(1 : F), (104 : F)⟩ (7 : F) =
    VoprfClient.finalize (CS := suite) ⟨(2 : F), (5 : F)⟩ [1, 2, 3] ⟨(35 : F)⟩ ⟨(1 : F), (127 : F)⟩ (7 : F) := by
    decide +kernel
  rw [← e, h]

/-- The hypotheses of the other three theorems are met too, by pairs of different proofs. -/
example :
    (∃ o o', VoprfClient.batchFinalize (CS := suite) [[1], [2, 3]] [⟨(2 : F), (5 : F)⟩, ⟨(3 : F), (8 : F)⟩]
        [⟨(35 : F)⟩, ⟨(56 : F)⟩] ⟨(12 : F), (9 : F)⟩ (7 : F) = .ok o ∧
      VoprfClient.batchFinalize (CS := suite) [[1], [2, 3]] [⟨(2 : F), (5 : F)⟩, ⟨(3 : F), (8 : F)⟩]
        [⟨(35 : F)⟩, ⟨(56 : F)⟩] ⟨(12 : F), (95 : F)⟩ (7 : F) = .ok o') ∧
    (∃ o o', PoprfClient.batchFinalize (CS := suite) [[1], [2, 3]] [⟨(2 : F), (5 : F)⟩, ⟨(3 : F), (8 : F)⟩]
        [⟨(35 : F)⟩, ⟨(17 : F)⟩] ⟨(17 : F), (1 : F)⟩ (7 : F) (some [4]) = .ok o ∧
      PoprfClient.batchFinalize (CS := suite) [[1], [2, 3]] [⟨(2 : F), (5 : F)⟩, ⟨(3 : F), (8 : F)⟩]
        [⟨(35 : F)⟩, ⟨(17 : F)⟩] ⟨(17 : F), (138 : F)⟩ (7 : F) (some [4]) = .ok o') ∧
    (∃ o o', PoprfClient.finalize (CS := suite) ⟨(2 : F), (5 : F)⟩ [1] ⟨(35 : F)⟩ ⟨(1 : F), (23 : F)⟩ (7 : F)
        (some [4]) = .ok o ∧
      PoprfClient.finalize (CS := suite) ⟨(2 : F), (5 : F)⟩ [1] ⟨(35 : F)⟩ ⟨(1 : F), (180 : F)⟩ (7 : F)
        (some [4]) = .ok o') := by
  have two : ∀ {α : Type} {x y : Res α}, x.isOk = true → y.isOk = true → ∃ o o', x = .ok o ∧ y = .ok o' := by
    intro α x y hx hy
    obtain ⟨o, ho⟩ := Res.exists_of_isOk hx
    obtain ⟨o', ho'⟩ := Res.exists_of_isOk hy
    exact ⟨o, o', ho, ho'⟩
  exact ⟨two (by decide +kernel) (by decide +kernel), two (by decide +kernel) (by decide +kernel),
    two (by decide +kernel) (by decide +kernel)⟩

end examples

end Voprf
