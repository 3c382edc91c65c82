import Verif.Lemmas.Rehash
import Verif.Toy

/-!
# C26 at the API: which domain-separation tags each function consults

Each theorem compares a ciphersuite with two different pairs of hash functions that are only known to agree
on the tags named in the hypothesis: the results are the same, so the function never looks at any other
tag. Together with `C26_domain_separation` (different purposes, modes and suites have different tags): no
function of one mode is affected by hash values belonging to another purpose, mode or suite.
-/

namespace Voprf

open Spec

variable (CS : CipherSuite) (hc hc' : Bytes → Bytes → Except InternalError CS.Elem)
  (hs hs' : Bytes → Bytes → Except InternalError CS.Scalar)

/-- C26: `blind` and `deterministic_blind_unchecked` hash to the group under the tag of their own mode, and
consult nothing else. -/
theorem C26_blind_local {σ : Type} [RngCore σ] (input : Bytes) (rng : σ) (r : CS.Scalar) :
    (AgreeOn (ascii "HashToGroup-" ++ contextString CS .Oprf) hc hc' →
      (oprfBlindView (CS := rehash CS hc hs) <$> OprfClient.blindInput (rehash CS hc hs) input rng :
          Res (CS.Scalar × CS.Elem × σ)) =
        oprfBlindView (CS := rehash CS hc' hs') <$> OprfClient.blindInput (rehash CS hc' hs') input rng ∧
      ((fun b => b.message.value) <$> OprfClient.deterministicBlindUnchecked (rehash CS hc hs) input r :
          Res CS.Elem) =
        (fun b => b.message.value) <$>
          OprfClient.deterministicBlindUnchecked (rehash CS hc' hs') input r) ∧
    (AgreeOn (ascii "HashToGroup-" ++ contextString CS .Voprf) hc hc' →
      (voprfBlindView (CS := rehash CS hc hs) <$> VoprfClient.blindInput (rehash CS hc hs) input rng :
          Res (CS.Scalar × CS.Elem × CS.Elem × σ)) =
        voprfBlindView (CS := rehash CS hc' hs') <$> VoprfClient.blindInput (rehash CS hc' hs') input rng ∧
      ((fun b => b.message.value) <$> VoprfClient.deterministicBlindUnchecked (rehash CS hc hs) input r :
          Res CS.Elem) =
        (fun b => b.message.value) <$>
          VoprfClient.deterministicBlindUnchecked (rehash CS hc' hs') input r) ∧
    (AgreeOn (ascii "HashToGroup-" ++ contextString CS .Poprf) hc hc' →
      (poprfBlindView (CS := rehash CS hc hs) <$> PoprfClient.blindInput (rehash CS hc hs) input rng :
          Res (CS.Scalar × CS.Elem × CS.Elem × σ)) =
        poprfBlindView (CS := rehash CS hc' hs') <$> PoprfClient.blindInput (rehash CS hc' hs') input rng ∧
      ((fun b => b.message.value) <$> PoprfClient.deterministicBlindUnchecked (rehash CS hc hs) input r :
          Res CS.Elem) =
        (fun b => b.message.value) <$>
          PoprfClient.deterministicBlindUnchecked (rehash CS hc' hs') input r) := by
  have key : ∀ {m : Mode}, AgreeOn (ascii "HashToGroup-" ++ contextString CS m) hc hc' →
      ∀ r : CS.Scalar, (Voprf.deterministicBlindUnchecked (rehash CS hc hs) input r m : Res CS.Elem) =
        Voprf.deterministicBlindUnchecked (rehash CS hc' hs') input r m := fun h r =>
    Res.bind_congr_res (hashToGroup_rehash (hs := hs) (hs' := hs') h input) fun _ => rfl
  refine ⟨fun h => ⟨?_, ?_⟩, fun h => ⟨?_, ?_⟩, fun h => ⟨?_, ?_⟩⟩
  all_goals first
    | exact Res.map_bind_congr_of (key h r) fun _ _ => rfl
    | (refine Res.map_bind_congr_of (x := Res.ofLoop (CS.group.randomScalar rng)) rfl fun rr _ => ?_
       obtain ⟨b, rng'⟩ := rr
       have h1 := key h b
       refine Eq.trans (Res.map_bind_assoc _ _ _ _) (Eq.trans ?_ (Res.map_bind_assoc _ _ _ _).symm)
       exact Res.map_bind_congr_of h1 fun _ _ => rfl)

/-- C26: `new_from_seed` and `new` derive keys under the `DeriveKeyPair` tag of their own mode, and consult
nothing else; `new_with_key` consults no hash. -/
theorem C26_keys_local {σ : Type} [RngCore σ] (seed info key : Bytes) (rng : σ) :
    (AgreeOn (ascii "DeriveKeyPair" ++ contextString CS .Oprf) hs hs' →
      ((fun s => s.sk) <$> OprfServer.newFromSeed (rehash CS hc hs) seed info : Res CS.Scalar) =
        (fun s => s.sk) <$> OprfServer.newFromSeed (rehash CS hc' hs') seed info ∧
      ((fun p => (p.1.sk, p.2)) <$> OprfServer.new (rehash CS hc hs) rng : Res (CS.Scalar × σ)) =
        (fun p => (p.1.sk, p.2)) <$> OprfServer.new (rehash CS hc' hs') rng) ∧
    (AgreeOn (ascii "DeriveKeyPair" ++ contextString CS .Voprf) hs hs' →
      ((fun s => (s.sk, s.pk)) <$> VoprfServer.newFromSeed (rehash CS hc hs) seed info :
          Res (CS.Scalar × CS.Elem)) =
        (fun s => (s.sk, s.pk)) <$> VoprfServer.newFromSeed (rehash CS hc' hs') seed info ∧
      ((fun p => (p.1.sk, p.1.pk, p.2)) <$> VoprfServer.new (rehash CS hc hs) rng :
          Res (CS.Scalar × CS.Elem × σ)) =
        (fun p => (p.1.sk, p.1.pk, p.2)) <$> VoprfServer.new (rehash CS hc' hs') rng) ∧
    (AgreeOn (ascii "DeriveKeyPair" ++ contextString CS .Poprf) hs hs' →
      ((fun s => (s.sk, s.pk)) <$> PoprfServer.newFromSeed (rehash CS hc hs) seed info :
          Res (CS.Scalar × CS.Elem)) =
        (fun s => (s.sk, s.pk)) <$> PoprfServer.newFromSeed (rehash CS hc' hs') seed info ∧
      ((fun p => (p.1.sk, p.1.pk, p.2)) <$> PoprfServer.new (rehash CS hc hs) rng :
          Res (CS.Scalar × CS.Elem × σ)) =
        (fun p => (p.1.sk, p.1.pk, p.2)) <$> PoprfServer.new (rehash CS hc' hs') rng) ∧
    (((fun s => s.sk) <$> OprfServer.newWithKey (rehash CS hc hs) key : Res CS.Scalar) =
        (fun s => s.sk) <$> OprfServer.newWithKey (rehash CS hc' hs') key ∧
      ((fun s => (s.sk, s.pk)) <$> VoprfServer.newWithKey (rehash CS hc hs) key :
          Res (CS.Scalar × CS.Elem)) =
        (fun s => (s.sk, s.pk)) <$> VoprfServer.newWithKey (rehash CS hc' hs') key ∧
      ((fun s => (s.sk, s.pk)) <$> PoprfServer.newWithKey (rehash CS hc hs) key :
          Res (CS.Scalar × CS.Elem)) =
        (fun s => (s.sk, s.pk)) <$> PoprfServer.newWithKey (rehash CS hc' hs') key) := by
  have pair : ∀ {m : Mode}, AgreeOn (ascii "DeriveKeyPair" ++ contextString CS m) hs hs' →
      ∀ seed info, (deriveKeypair (rehash CS hc hs) seed info m : Res (CS.Scalar × CS.Elem)) =
        deriveKeypair (rehash CS hc' hs') seed info m := fun h seed info =>
    Res.bind_congr_res (deriveKeyInternal_rehash (hc := hc) (hc' := hc') h seed info) fun _ => rfl
  refine ⟨fun h => ⟨?_, ?_⟩, fun h => ⟨?_, ?_⟩, fun h => ⟨?_, ?_⟩, ?_, ?_, ?_⟩
  · exact Res.map_bind_congr_of (deriveKeyInternal_rehash (hc := hc) (hc' := hc') h seed info)
      fun _ _ => rfl
  · refine Eq.trans (Res.map_bind_assoc _ _ _ _) (Eq.trans ?_ (Res.map_bind_assoc _ _ _ _).symm)
    exact Res.map_bind_congr_of (deriveKeyInternal_rehash (hc := hc) (hc' := hc') h _ [])
      fun _ _ => rfl
  · exact Res.map_bind_congr_of (pair h seed info) fun _ _ => rfl
  · refine Eq.trans (Res.map_bind_assoc _ _ _ _) (Eq.trans ?_ (Res.map_bind_assoc _ _ _ _).symm)
    exact Res.map_bind_congr_of (pair h _ []) fun _ _ => rfl
  · exact Res.map_bind_congr_of (pair h seed info) fun _ _ => rfl
  · refine Eq.trans (Res.map_bind_assoc _ _ _ _) (Eq.trans ?_ (Res.map_bind_assoc _ _ _ _).symm)
    exact Res.map_bind_congr_of (pair h _ []) fun _ _ => rfl
  · exact Res.map_bind_congr_of (x := Res.ofExcept (CS.group.deserializeScalar key)) rfl fun _ _ => rfl
  · exact Res.map_bind_congr_of (x := Res.ofExcept (CS.group.deserializeScalar key)) rfl fun _ _ => rfl
  · exact Res.map_bind_congr_of (x := Res.ofExcept (CS.group.deserializeScalar key)) rfl fun _ _ => rfl

/-- C26: `evaluate` hashes the input to the group under the tag of its own mode; in POPRF mode it also
hashes the info to a scalar under the POPRF tag. Nothing else is consulted. -/
theorem C26_evaluate_local (k : CS.Scalar) (pk : CS.Elem) (input : Bytes) (info : Option Bytes) :
    (AgreeOn (ascii "HashToGroup-" ++ contextString CS .Oprf) hc hc' →
      OprfServer.evaluate (CS := rehash CS hc hs) ⟨k⟩ input =
        OprfServer.evaluate (CS := rehash CS hc' hs') ⟨k⟩ input) ∧
    (AgreeOn (ascii "HashToGroup-" ++ contextString CS .Voprf) hc hc' →
      VoprfServer.evaluate (CS := rehash CS hc hs) ⟨k, pk⟩ input =
        VoprfServer.evaluate (CS := rehash CS hc' hs') ⟨k, pk⟩ input) ∧
    (AgreeOn (ascii "HashToGroup-" ++ contextString CS .Poprf) hc hc' →
      AgreeOn (ascii "HashToScalar-" ++ contextString CS .Poprf) hs hs' →
      PoprfServer.evaluate (CS := rehash CS hc hs) ⟨k, pk⟩ input info =
        PoprfServer.evaluate (CS := rehash CS hc' hs') ⟨k, pk⟩ input info) := by
  refine ⟨fun h => ?_, fun h => ?_, fun h h' => ?_⟩
  · exact Res.bind_congr_res (hashToGroup_rehash (hs := hs) (hs' := hs') h input) fun _ => rfl
  · exact Res.bind_congr_res (hashToGroup_rehash (hs := hs) (hs' := hs') h input) fun _ => rfl
  · refine Res.bind_congr_res (hashToGroup_rehash (hs := hs) (hs' := hs') h input) fun P => ?_
    by_cases hP : CS.group.isIdentityElem P = true
    · exact (if_pos hP).trans (if_pos hP).symm
    · refine (if_neg hP).trans (Eq.trans ?_ (if_neg hP).symm)
      exact Res.bind_congr_res (computeTweak_rehash (hc := hc) (hc' := hc') h' k info) fun _ => rfl

/-- `VoprfClient::batch_finalize` on plain tuples. -/
theorem voprf_batchFinalize_plain (CS : CipherSuite) (inputs : List Bytes)
    (clients : List (CS.Scalar × CS.Elem)) (es : List CS.Elem) (c s : CS.Scalar) (pk : CS.Elem) :
    VoprfClient.batchFinalize (CS := CS) inputs (clients.map fun p => ⟨p.1, p.2⟩)
        (es.map fun e => ⟨e⟩) ⟨c, s⟩ pk =
      (verifyProof CS CS.group.baseElem pk (clients.map Prod.snd) es ⟨c, s⟩ .Voprf >>= fun _ =>
        .ok (Verifiable.finalizeAfterUnblind CS (inputs.zip ((clients.zip es).map fun p => do
          let inv ← Res.unwrapOption (CS.group.invertScalar p.1.1)
          pure (CS.group.elemMul p.2 inv))))) := by
  unfold VoprfClient.batchFinalize Verifiable.verifiableUnblind
  simp only [List.map_map, bind_assoc, List.zip_map, Function.comp_def, List.map_id']
  rfl

/-- `PoprfClient::batch_finalize` on plain tuples. -/
theorem poprf_batchFinalize_plain (CS : CipherSuite) (inputs : List Bytes)
    (clients : List (CS.Scalar × CS.Elem)) (es : List CS.Elem) (c s : CS.Scalar) (pk : CS.Elem)
    (info : Option Bytes) :
    PoprfClient.batchFinalize (CS := CS) inputs (clients.map fun p => ⟨p.1, p.2⟩)
        (es.map fun e => ⟨e⟩) ⟨c, s⟩ pk info =
      (Poprf.computeTweakedKey CS pk (some (info.getD [])) >>= fun tk =>
        verifyProof CS CS.group.baseElem tk es (clients.map Prod.snd) ⟨c, s⟩ .Poprf >>= fun _ =>
        Poprf.finalizeAfterUnblind CS ((clients.zip es).map fun p => do
          let inv ← Res.unwrapOption (CS.group.invertScalar p.1.1)
          pure (CS.group.elemMul p.2 inv)) inputs info) := by
  unfold PoprfClient.batchFinalize Poprf.poprfUnblind
  simp only [List.map_map, bind_assoc, List.zip_map, Function.comp_def, List.map_id']
  rfl

/-- C26: the verifiable clients check proofs under the `HashToScalar` tag of their own mode, and consult
nothing else; the base-mode client consults no group hash at all. -/
theorem C26_finalize_local (blind : CS.Scalar) (B : CS.Elem) (input : Bytes) (e : CS.Elem)
    (c s : CS.Scalar) (pk : CS.Elem) (info : Option Bytes)
    (inputs : List Bytes) (clients : List (CS.Scalar × CS.Elem)) (es : List CS.Elem) :
    OprfClient.finalize (CS := rehash CS hc hs) ⟨blind⟩ input ⟨e⟩ =
        OprfClient.finalize (CS := rehash CS hc' hs') ⟨blind⟩ input ⟨e⟩ ∧
    (AgreeOn (ascii "HashToScalar-" ++ contextString CS .Voprf) hs hs' →
      VoprfClient.finalize (CS := rehash CS hc hs) ⟨blind, B⟩ input ⟨e⟩ ⟨c, s⟩ pk =
        VoprfClient.finalize (CS := rehash CS hc' hs') ⟨blind, B⟩ input ⟨e⟩ ⟨c, s⟩ pk ∧
      VoprfClient.batchFinalize (CS := rehash CS hc hs) inputs (clients.map fun p => ⟨p.1, p.2⟩)
          (es.map fun e => ⟨e⟩) ⟨c, s⟩ pk =
        VoprfClient.batchFinalize (CS := rehash CS hc' hs') inputs (clients.map fun p => ⟨p.1, p.2⟩)
          (es.map fun e => ⟨e⟩) ⟨c, s⟩ pk) ∧
    (AgreeOn (ascii "HashToScalar-" ++ contextString CS .Poprf) hs hs' →
      PoprfClient.finalize (CS := rehash CS hc hs) ⟨blind, B⟩ input ⟨e⟩ ⟨c, s⟩ pk info =
        PoprfClient.finalize (CS := rehash CS hc' hs') ⟨blind, B⟩ input ⟨e⟩ ⟨c, s⟩ pk info ∧
      PoprfClient.batchFinalize (CS := rehash CS hc hs) inputs (clients.map fun p => ⟨p.1, p.2⟩)
          (es.map fun e => ⟨e⟩) ⟨c, s⟩ pk info =
        PoprfClient.batchFinalize (CS := rehash CS hc' hs') inputs (clients.map fun p => ⟨p.1, p.2⟩)
          (es.map fun e => ⟨e⟩) ⟨c, s⟩ pk info) := by
  have vb : AgreeOn (ascii "HashToScalar-" ++ contextString CS .Voprf) hs hs' →
      ∀ (inputs : List Bytes) (clients : List (CS.Scalar × CS.Elem)) (es : List CS.Elem),
      VoprfClient.batchFinalize (CS := rehash CS hc hs) inputs (clients.map fun p => ⟨p.1, p.2⟩)
          (es.map fun e => ⟨e⟩) ⟨c, s⟩ pk =
        VoprfClient.batchFinalize (CS := rehash CS hc' hs') inputs (clients.map fun p => ⟨p.1, p.2⟩)
          (es.map fun e => ⟨e⟩) ⟨c, s⟩ pk := by
    intro h inputs clients es
    refine (voprf_batchFinalize_plain (rehash CS hc hs) inputs clients es c s pk).trans
      (Eq.trans ?_ (voprf_batchFinalize_plain (rehash CS hc' hs') inputs clients es c s pk).symm)
    exact Res.bind_congr_res (verifyProof_rehash (hc := hc) (hc' := hc') h CS.group.baseElem pk
      (clients.map Prod.snd) es c s) fun _ => rfl
  have pb : AgreeOn (ascii "HashToScalar-" ++ contextString CS .Poprf) hs hs' →
      ∀ (inputs : List Bytes) (clients : List (CS.Scalar × CS.Elem)) (es : List CS.Elem),
      PoprfClient.batchFinalize (CS := rehash CS hc hs) inputs (clients.map fun p => ⟨p.1, p.2⟩)
          (es.map fun e => ⟨e⟩) ⟨c, s⟩ pk info =
        PoprfClient.batchFinalize (CS := rehash CS hc' hs') inputs (clients.map fun p => ⟨p.1, p.2⟩)
          (es.map fun e => ⟨e⟩) ⟨c, s⟩ pk info := by
    intro h inputs clients es
    refine (poprf_batchFinalize_plain (rehash CS hc hs) inputs clients es c s pk info).trans
      (Eq.trans ?_ (poprf_batchFinalize_plain (rehash CS hc' hs') inputs clients es c s pk info).symm)
    refine Res.bind_congr_res (computeTweakedKey_rehash (hc := hc) (hc' := hc') h pk _) fun tk => ?_
    exact Res.bind_congr_res (verifyProof_rehash (hc := hc) (hc' := hc') h CS.group.baseElem tk
      es (clients.map Prod.snd) c s) fun _ => rfl
  refine ⟨rfl, fun h => ⟨?_, vb h inputs clients es⟩, fun h => ⟨?_, pb h inputs clients es⟩⟩
  · exact Res.bind_congr_res (vb h [input] [(blind, B)] [e]) fun _ => rfl
  · exact Res.bind_congr_res (pb h [input] [(blind, B)] [e]) fun _ => rfl

theorem voprf_finish_plain (CS : CipherSuite) {σ : Type} [RngCore σ] (rng : σ) (k : CS.Scalar) (pk : CS.Elem)
    (Bs Ds : List CS.Elem) :
    voprfBatchView <$> VoprfServer.batchBlindEvaluateFinish (CS := CS) ⟨k, pk⟩ rng (Bs.map fun B => ⟨B⟩)
        (Ds.map fun D => ⟨⟨D⟩⟩) =
      (fun p => (Ds, p)) <$> (proofView <$> generateProof CS rng k CS.group.baseElem pk Bs Ds .Voprf) := by
  unfold VoprfServer.batchBlindEvaluateFinish
  simp only [List.map_map, Function.comp_def, List.map_id']
  cases generateProof CS rng k CS.group.baseElem pk Bs Ds .Voprf <;> try rfl
  simp [voprfBatchView, proofView, Function.comp_def]

theorem voprf_batch_plain (CS : CipherSuite) {σ : Type} [RngCore σ] (rng : σ) (k : CS.Scalar) (pk : CS.Elem)
    (Bs : List CS.Elem) :
    voprfBatchView <$> VoprfServer.batchBlindEvaluate (CS := CS) ⟨k, pk⟩ rng (Bs.map fun B => ⟨B⟩) =
      (fun p => (Bs.map fun B => CS.group.elemMul B k, p)) <$> (proofView <$>
        generateProof CS rng k CS.group.baseElem pk Bs (Bs.map fun B => CS.group.elemMul B k) .Voprf) := by
  rw [← voprf_finish_plain]
  have e : VoprfServer.batchBlindEvaluatePrepare (CS := CS) ⟨k, pk⟩ (Bs.map fun B => ⟨B⟩) =
      (Bs.map fun B => CS.group.elemMul B k).map fun D => ⟨⟨D⟩⟩ := by
    simp [VoprfServer.batchBlindEvaluatePrepare]
  unfold VoprfServer.batchBlindEvaluate
  simp only [e]
  cases VoprfServer.batchBlindEvaluateFinish (CS := CS) ⟨k, pk⟩ rng (Bs.map fun B => ⟨B⟩)
    ((Bs.map fun B => CS.group.elemMul B k).map fun D => ⟨⟨D⟩⟩) <;> rfl

theorem voprf_blindEvaluate_plain (CS : CipherSuite) {σ : Type} [RngCore σ] (rng : σ) (k : CS.Scalar)
    (pk B : CS.Elem) :
    voprfEvalView <$> VoprfServer.blindEvaluate (CS := CS) ⟨k, pk⟩ rng ⟨B⟩ =
      (fun p => (CS.group.elemMul B k, p)) <$> Res.unwrap (proofView <$>
        generateProof CS rng k CS.group.baseElem pk [B] [CS.group.elemMul B k] .Voprf) := by
  unfold VoprfServer.blindEvaluate VoprfServer.batchBlindEvaluatePrepare
    VoprfServer.batchBlindEvaluateFinish
  simp only [List.map_cons, List.map_nil, List.head?_cons, Res.unwrapOption_some, Res.ok_bind]
  cases generateProof CS rng k CS.group.baseElem pk [B] [CS.group.elemMul B k] .Voprf <;> rfl

theorem poprf_finish_plain (CS : CipherSuite) {σ : Type} [RngCore σ] (rng : σ) (t : CS.Scalar)
    (Bs Ds : List CS.Elem) :
    poprfBatchView <$> PoprfServer.batchBlindEvaluateFinish (CS := CS) rng (Bs.map fun B => ⟨B⟩)
        (Ds.map fun D => ⟨⟨D⟩⟩) ⟨t⟩ =
      (fun p => (Ds, p)) <$> (proofView <$> generateProof CS rng t CS.group.baseElem
        (CS.group.elemMul CS.group.baseElem t) Ds Bs .Poprf) := by
  unfold PoprfServer.batchBlindEvaluateFinish
  simp only [List.map_map, Function.comp_def, List.map_id']
  cases generateProof CS rng t CS.group.baseElem (CS.group.elemMul CS.group.baseElem t) Ds Bs .Poprf <;>
    try rfl
  simp [poprfBatchView, proofView, Function.comp_def]

theorem Res.collect_map {α β γ : Type} (f : β → γ) (g : α → Res β) (xs : List α) :
    Res.collect (xs.map fun x => f <$> g x) = List.map f <$> Res.collect (xs.map g) := by
  induction xs with
  | nil => rfl
  | cons x xs ih =>
    simp only [List.map_cons, Res.collect, ih]
    cases g x <;> try rfl
    cases Res.collect (xs.map g) <;> rfl

theorem poprf_batch_plain (CS : CipherSuite) {σ : Type} [RngCore σ] (rng : σ) (k : CS.Scalar) (pk : CS.Elem)
    (Bs : List CS.Elem) (info : Option Bytes) :
    poprfBatchView <$> PoprfServer.batchBlindEvaluate (CS := CS) ⟨k, pk⟩ rng (Bs.map fun B => ⟨B⟩) info =
      (Poprf.computeTweak CS k info >>= fun t =>
        Res.collect (Bs.map fun B => (fun inv => CS.group.elemMul B inv) <$>
          Res.unwrapOption (CS.group.invertScalar t)) >>= fun Ds =>
        (fun p => (Ds, p)) <$> Res.unwrap (proofView <$> generateProof CS rng t CS.group.baseElem
          (CS.group.elemMul CS.group.baseElem t) Ds Bs .Poprf)) := by
  unfold PoprfServer.batchBlindEvaluate PoprfServer.batchBlindEvaluatePrepare
  cases Poprf.computeTweak CS k info <;> try rfl
  rename_i t
  simp only [Res.ok_bind, Res.pure_eq, List.map_map]
  have e : (List.map ((fun blindedElement : BlindedElement CS => (do
        let inv ← Res.unwrapOption (CS.group.invertScalar t)
        Res.ok (⟨⟨CS.group.elemMul blindedElement.value inv⟩⟩ : PreparedEvaluationElement CS))) ∘
        fun B => ⟨B⟩) Bs) =
      Bs.map fun B => (fun D => (⟨⟨D⟩⟩ : PreparedEvaluationElement CS)) <$>
        ((fun inv => CS.group.elemMul B inv) <$> Res.unwrapOption (CS.group.invertScalar t)) := by
    refine List.map_congr_left fun B _ => ?_
    simp only [Function.comp_def]
    cases Res.unwrapOption (CS.group.invertScalar t) <;> rfl
  rw [e, Res.collect_map]
  cases Res.collect (Bs.map fun B => (fun inv => CS.group.elemMul B inv) <$>
          Res.unwrapOption (CS.group.invertScalar t)) <;> try rfl
  rename_i Ds
  have h := poprf_finish_plain CS rng t Bs Ds
  simp only [Res.ok_map, Res.ok_bind]
  revert h
  cases PoprfServer.batchBlindEvaluateFinish (CS := CS) rng (Bs.map fun B => ⟨B⟩)
        (Ds.map fun D => ⟨⟨D⟩⟩) ⟨t⟩ <;>
    cases generateProof CS rng t CS.group.baseElem (CS.group.elemMul CS.group.baseElem t) Ds Bs .Poprf <;>
    first | (intro h; exact h) | (intro h; cases h; rfl) | (intro h; cases h)

theorem poprf_blindEvaluate_plain (CS : CipherSuite) {σ : Type} [RngCore σ] (rng : σ) (k : CS.Scalar)
    (pk B : CS.Elem) (info : Option Bytes) :
    poprfEvalView <$> PoprfServer.blindEvaluate (CS := CS) ⟨k, pk⟩ rng ⟨B⟩ info =
      (Poprf.computeTweak CS k info >>= fun t =>
        Res.unwrapOption (CS.group.invertScalar t) >>= fun inv =>
        (fun p => (CS.group.elemMul B inv, p)) <$> Res.unwrap (proofView <$>
          generateProof CS rng t CS.group.baseElem (CS.group.elemMul CS.group.baseElem t)
            [CS.group.elemMul B inv] [B] .Poprf)) := by
  unfold PoprfServer.blindEvaluate PoprfServer.batchBlindEvaluatePrepare
  cases Poprf.computeTweak CS k info <;> try rfl
  rename_i t
  simp only [List.map_cons, List.map_nil, List.head?_cons, Res.unwrapOption_some, Res.ok_bind,
    Res.pure_eq]
  cases Res.unwrapOption (CS.group.invertScalar t) <;> try rfl
  rename_i inv
  unfold PoprfServer.batchBlindEvaluateFinish
  simp only [List.map_cons, List.map_nil, Res.ok_bind]
  cases generateProof CS rng t CS.group.baseElem (CS.group.elemMul CS.group.baseElem t)
            [CS.group.elemMul B inv] [B] .Poprf <;> rfl

/-- C26: the verifiable servers make proofs under the `HashToScalar` tag of their own mode, and consult
nothing else; the base-mode server consults no group hash in `blind_evaluate`. -/
theorem C26_blind_evaluate_local {σ : Type} [RngCore σ] (rng : σ) (k t : CS.Scalar) (pk B : CS.Elem)
    (info : Option Bytes) (Bs Ds : List CS.Elem) :
    ((OprfServer.blindEvaluate (CS := rehash CS hc hs) ⟨k⟩ ⟨B⟩).value : CS.Elem) =
        (OprfServer.blindEvaluate (CS := rehash CS hc' hs') ⟨k⟩ ⟨B⟩).value ∧
    (AgreeOn (ascii "HashToScalar-" ++ contextString CS .Voprf) hs hs' →
      (voprfEvalView (CS := rehash CS hc hs) <$>
          VoprfServer.blindEvaluate (CS := rehash CS hc hs) ⟨k, pk⟩ rng ⟨B⟩ :
          Res (CS.Elem × CS.Scalar × CS.Scalar × σ)) =
        voprfEvalView (CS := rehash CS hc' hs') <$>
          VoprfServer.blindEvaluate (CS := rehash CS hc' hs') ⟨k, pk⟩ rng ⟨B⟩ ∧
      (voprfBatchView (CS := rehash CS hc hs) <$>
          VoprfServer.batchBlindEvaluate (CS := rehash CS hc hs) ⟨k, pk⟩ rng (Bs.map fun B => ⟨B⟩) :
          Res (List CS.Elem × CS.Scalar × CS.Scalar × σ)) =
        voprfBatchView (CS := rehash CS hc' hs') <$>
          VoprfServer.batchBlindEvaluate (CS := rehash CS hc' hs') ⟨k, pk⟩ rng (Bs.map fun B => ⟨B⟩) ∧
      (voprfBatchView (CS := rehash CS hc hs) <$>
          VoprfServer.batchBlindEvaluateFinish (CS := rehash CS hc hs) ⟨k, pk⟩ rng (Bs.map fun B => ⟨B⟩)
            (Ds.map fun D => ⟨⟨D⟩⟩) : Res (List CS.Elem × CS.Scalar × CS.Scalar × σ)) =
        voprfBatchView (CS := rehash CS hc' hs') <$>
          VoprfServer.batchBlindEvaluateFinish (CS := rehash CS hc' hs') ⟨k, pk⟩ rng
            (Bs.map fun B => ⟨B⟩) (Ds.map fun D => ⟨⟨D⟩⟩)) ∧
    (AgreeOn (ascii "HashToScalar-" ++ contextString CS .Poprf) hs hs' →
      (poprfEvalView (CS := rehash CS hc hs) <$>
          PoprfServer.blindEvaluate (CS := rehash CS hc hs) ⟨k, pk⟩ rng ⟨B⟩ info :
          Res (CS.Elem × CS.Scalar × CS.Scalar × σ)) =
        poprfEvalView (CS := rehash CS hc' hs') <$>
          PoprfServer.blindEvaluate (CS := rehash CS hc' hs') ⟨k, pk⟩ rng ⟨B⟩ info ∧
      (poprfBatchView (CS := rehash CS hc hs) <$>
          PoprfServer.batchBlindEvaluate (CS := rehash CS hc hs) ⟨k, pk⟩ rng (Bs.map fun B => ⟨B⟩) info :
          Res (List CS.Elem × CS.Scalar × CS.Scalar × σ)) =
        poprfBatchView (CS := rehash CS hc' hs') <$>
          PoprfServer.batchBlindEvaluate (CS := rehash CS hc' hs') ⟨k, pk⟩ rng (Bs.map fun B => ⟨B⟩)
            info ∧
      (poprfBatchView (CS := rehash CS hc hs) <$>
          PoprfServer.batchBlindEvaluateFinish (CS := rehash CS hc hs) rng (Bs.map fun B => ⟨B⟩)
            (Ds.map fun D => ⟨⟨D⟩⟩) ⟨t⟩ : Res (List CS.Elem × CS.Scalar × CS.Scalar × σ)) =
        poprfBatchView (CS := rehash CS hc' hs') <$>
          PoprfServer.batchBlindEvaluateFinish (CS := rehash CS hc' hs') rng
            (Bs.map fun B => ⟨B⟩) (Ds.map fun D => ⟨⟨D⟩⟩) ⟨t⟩) := by
  have gp : ∀ {m : Mode}, AgreeOn (ascii "HashToScalar-" ++ contextString CS m) hs hs' →
      ∀ (k : CS.Scalar) (A B : CS.Elem) (Cs Ds : List CS.Elem),
      (proofView (CS := rehash CS hc hs) <$> generateProof (rehash CS hc hs) rng k A B Cs Ds m :
          Res (CS.Scalar × CS.Scalar × σ)) =
        proofView (CS := rehash CS hc' hs') <$> generateProof (rehash CS hc' hs') rng k A B Cs Ds m :=
    fun h k A B Cs Ds => generateProof_rehash h rng k A B Cs Ds
  refine ⟨rfl, fun h => ⟨?_, ?_, ?_⟩, fun h => ⟨?_, ?_, ?_⟩⟩
  · refine (voprf_blindEvaluate_plain (rehash CS hc hs) rng k pk B).trans
      (Eq.trans ?_ (voprf_blindEvaluate_plain (rehash CS hc' hs') rng k pk B).symm)
    exact congrArg (fun r : Res (CS.Scalar × CS.Scalar × σ) =>
      (fun p => (CS.group.elemMul B k, p)) <$> Res.unwrap r) (gp h k _ pk [B] [CS.group.elemMul B k])
  · refine (voprf_batch_plain (rehash CS hc hs) rng k pk Bs).trans
      (Eq.trans ?_ (voprf_batch_plain (rehash CS hc' hs') rng k pk Bs).symm)
    exact congrArg (fun r : Res (CS.Scalar × CS.Scalar × σ) =>
      (fun p => (Bs.map fun B => CS.group.elemMul B k, p)) <$> r) (gp h k _ pk Bs _)
  · refine (voprf_finish_plain (rehash CS hc hs) rng k pk Bs Ds).trans
      (Eq.trans ?_ (voprf_finish_plain (rehash CS hc' hs') rng k pk Bs Ds).symm)
    exact congrArg (fun r : Res (CS.Scalar × CS.Scalar × σ) => (fun p => (Ds, p)) <$> r)
      (gp h k _ pk Bs Ds)
  · refine (poprf_blindEvaluate_plain (rehash CS hc hs) rng k pk B info).trans
      (Eq.trans ?_ (poprf_blindEvaluate_plain (rehash CS hc' hs') rng k pk B info).symm)
    refine Res.bind_congr_res (computeTweak_rehash (hc := hc) (hc' := hc') h k info) fun t => ?_
    refine Res.bind_congr_res (x := Res.unwrapOption (CS.group.invertScalar t)) rfl fun inv => ?_
    exact congrArg (fun r : Res (CS.Scalar × CS.Scalar × σ) =>
      (fun p => (CS.group.elemMul B inv, p)) <$> Res.unwrap r)
      (gp h t _ _ [CS.group.elemMul B inv] [B])
  · refine (poprf_batch_plain (rehash CS hc hs) rng k pk Bs info).trans
      (Eq.trans ?_ (poprf_batch_plain (rehash CS hc' hs') rng k pk Bs info).symm)
    refine Res.bind_congr_res (computeTweak_rehash (hc := hc) (hc' := hc') h k info) fun t => ?_
    refine Res.bind_congr_res (x := Res.collect (Bs.map fun B => (fun inv => CS.group.elemMul B inv) <$>
          Res.unwrapOption (CS.group.invertScalar t))) rfl fun Ds => ?_
    exact congrArg (fun r : Res (CS.Scalar × CS.Scalar × σ) => (fun p => (Ds, p)) <$> Res.unwrap r)
      (gp h t _ _ Ds Bs)
  · refine (poprf_finish_plain (rehash CS hc hs) rng t Bs Ds).trans
      (Eq.trans ?_ (poprf_finish_plain (rehash CS hc' hs') rng t Bs Ds).symm)
    exact congrArg (fun r : Res (CS.Scalar × CS.Scalar × σ) => (fun p => (Ds, p)) <$> r)
      (gp h t _ _ Ds Bs)

section examples
open Toy

/-- Two different hash pairs agreeing on the VOPRF tag only: the hypotheses of the theorems above are met by
suites that differ. -/
example : ∃ hs hs' : Bytes → Bytes → Except InternalError suite.Scalar,
    AgreeOn (ascii "HashToScalar-" ++ contextString suite .Voprf) hs hs' ∧
    ¬ AgreeOn (ascii "HashToScalar-" ++ contextString suite .Poprf) hs hs' :=
  ⟨fun _ _ => .ok (1 : F), fun t _ => if t = ascii "HashToScalar-" ++ contextString suite .Voprf
      then .ok (1 : F) else .ok (2 : F),
    fun _ => (if_pos rfl).symm,
    fun h => absurd (Except.ok.inj ((h []).trans (if_neg (by decide)))) (by decide : (1 : F) ≠ 2)⟩

end examples

end Voprf
