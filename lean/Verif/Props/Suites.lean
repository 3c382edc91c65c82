import Verif.Model.Suites
import Verif.Props.Groups
import Verif.Props.Errors
import Verif.Props.Transcripts
import Verif.Props.Correctness
import Verif.Exec.Nist
import Verif.Exec.Vector

/-!
# C48: the shipped ciphersuites

The theorems of the other files hold for every ciphersuite whose group meets the contract of the `Group`
trait.  Here the contract is discharged for the suites the crate ships (`Ristretto255` over any lawful point
library; `Props/Ristretto255.lean` removes that assumption), so that complete runs are guaranteed without any assumption on the suite.
-/

namespace Voprf

open Spec

/-- The ciphersuites shipped with the crate (`src/lib.rs:16-20`). -/
inductive Shipped : CipherSuite → Prop
  | p256 : Shipped P256Sha256
  | p384 : Shipped P384Sha384
  | p521 : Shipped P521Sha512
  | ristretto255 (D : Ristretto.Dalek) (L : D.Lawful) : Shipped (Ristretto255Sha512 D)

/-- C48: every shipped suite meets the contract of the `Group` trait, has hashes that never refuse, and
identifiers and elements far below the internal size limits. -/
theorem C48_contract {CS : CipherSuite} (h : Shipped CS) :
    Nonempty CS.group.Lawful ∧ CS.group.TotalHash ∧ CS.WF := by
  cases h with
  | p256 => exact ⟨⟨Nist.lawful Curve.p256⟩, Nist.totalHash _, by decide, by decide⟩
  | p384 => exact ⟨⟨Nist.lawful Curve.p384⟩, Nist.totalHash _, by decide, by decide⟩
  | p521 => exact ⟨⟨Nist.lawful Curve.p521⟩, Nist.totalHash _, by decide, by decide⟩
  | ristretto255 D L =>
    exact ⟨⟨Ristretto.lawful D⟩, Ristretto.totalHash D,
      by show 19 + 22 ≤ 65535; decide, by show 5 * (32 + 2) + 9 ≤ 65535; decide⟩

/-- C48: the sizes of RFC 9497 §4: `Ne`, `Ns` and `Nh`. -/
theorem C48_sizes (D : Ristretto.Dalek) :
    ((Ristretto255Sha512 D).group.elemLen = 32 ∧ (Ristretto255Sha512 D).group.scalarLen = 32 ∧
      (Ristretto255Sha512 D).hash.outputSize = 64) ∧
    (P256Sha256.group.elemLen = 33 ∧ P256Sha256.group.scalarLen = 32 ∧
      P256Sha256.hash.outputSize = 32) ∧
    (P384Sha384.group.elemLen = 49 ∧ P384Sha384.group.scalarLen = 48 ∧
      P384Sha384.hash.outputSize = 48) ∧
    (P521Sha512.group.elemLen = 67 ∧ P521Sha512.group.scalarLen = 66 ∧
      P521Sha512.hash.outputSize = 64) :=
  ⟨⟨rfl, rfl, rfl⟩, ⟨rfl, rfl, rfl⟩, ⟨rfl, rfl, rfl⟩, ⟨rfl, rfl, rfl⟩⟩

/-- In a prime-order group there are as many elements as scalars. -/
theorem card_elem (G : VGroup) [L : G.Lawful] : Nat.card G.Elem = Nat.card G.Scalar := by
  refine (Nat.card_congr (Equiv.ofBijective (fun k : G.Scalar => k • G.baseElem) ⟨?_, ?_⟩)).symm
  · intro a b h
    have h : a • G.baseElem = b • G.baseElem := h
    exact smul_left_injective _ L.baseElem_ne_zero h
  · intro P
    obtain ⟨k, hk⟩ := L.base_generates P
    exact ⟨k, hk.symm⟩

/-- C48: the group orders are the published ones: exactly that many elements (for ristretto255 over any
lawful point library, one of which is `ristretto255`). -/
theorem C48_order (D : Ristretto.Dalek) [D.Lawful] :
    Nat.card P256Sha256.Elem =
      0xffffffff00000000ffffffffffffffffbce6faada7179e84f3b9cac2fc632551 ∧
    Nat.card P384Sha384.Elem =
      0xffffffffffffffffffffffffffffffffffffffffffffffffc7634d81f4372ddf581a0db248b0a77aecec196accc52973 ∧
    Nat.card P521Sha512.Elem =
      0x1fffffffffffffffffffffffffffffffffffffffffffffffffffffffffffffffffa51868783bf2f966b7fcc0148f709a5d03bb5c9b8899c47aebb6fb71e91386409 ∧
    Nat.card (Ristretto255Sha512 D).Elem = 2 ^ 252 + 27742317777372353535851937790883648493 := by
  have hz : ∀ c : Nist.Params, [Nist.PrimeOrder c] → Nat.card (Nist.group c).Elem = c.n := by
    intro c _
    rw [card_elem]
    exact Nat.card_zmod c.n
  refine ⟨(hz Curve.p256).trans (by decide +kernel), (hz Curve.p384).trans (by decide +kernel),
    (hz Curve.p521).trans (by decide +kernel), ?_⟩
  show Nat.card (Ristretto.group D).Elem = _
  rw [card_elem]
  exact (Nat.card_zmod Ristretto.ell).trans Ristretto.ell_val

/-- C48: the identifiers of the shipped suites are pairwise different, so no two suites (and no two modes or
purposes) ever hash under the same domain-separation tag (C26). -/
theorem C48_identifiers (D : Ristretto.Dalek) :
    [(Ristretto255Sha512 D).ID, P256Sha256.ID, P384Sha384.ID, P521Sha512.ID].Nodup ∧
    [(Ristretto255Sha512 D).ID, P256Sha256.ID, P384Sha384.ID, P521Sha512.ID] =
      [ascii "ristretto255-SHA512", ascii "P256-SHA256", ascii "P384-SHA384", ascii "P521-SHA512"] := by
  have h : [(Ristretto255Sha512 D).ID, P256Sha256.ID, P384Sha384.ID, P521Sha512.ID] =
      [ascii "ristretto255-SHA512", ascii "P256-SHA256", ascii "P384-SHA384", ascii "P521-SHA512"] := by
    show [[114, 105, 115, 116, 114, 101, 116, 116, 111, 50, 53, 53, 45, 83, 72, 65, 53, 49, 50],
      [80, 50, 53, 54, 45, 83, 72, 65, 50, 53, 54], [80, 51, 56, 52, 45, 83, 72, 65, 51, 56, 52],
      [80, 53, 50, 49, 45, 83, 72, 65, 53, 49, 50]] = _
    decide
  refine ⟨?_, h⟩
  rw [h]
  decide

/-! ## Complete runs -/

/-- C48, base mode: for every server, every input of at most 65535 bytes and every generator that produces a
scalar, blinding succeeds and finalizing the answer succeeds with the value of `evaluate` (which refuses
only inputs hashing to the identity). -/
theorem C48_oprf_run {CS : CipherSuite} (sup : Shipped CS) (s : OprfServer CS) (input : Bytes)
    (hl : input.length ≤ 65535) {σ : Type} [RngCore σ] (rng rng' : σ) (x : CS.Scalar)
    (hx : CS.group.randomScalar rng = some (x, rng')) :
    ∃ b out, OprfClient.blindInput CS input rng = .ok (b, rng') ∧
      b.state.finalize input (s.blindEvaluate b.message) = .ok out ∧
      (s.evaluate input = .ok out ∨
        s.evaluate input = .err .Input ∧
          Spec.hashToGroup CS .Oprf input = .ok CS.group.identityElem) := by
  obtain ⟨⟨L⟩, th, wf⟩ := C48_contract sup
  obtain ⟨b, hb⟩ := (C31_blind_total wf th input rng rng' x hx).1
  obtain ⟨⟨P, hP, hf, he⟩, -⟩ := C01_oprf_correct wf s input b ⟨σ, _, rng, rng', hb⟩
  simp only [prfResult, if_pos hl] at hf he
  refine ⟨b, _, hb, hf, ?_⟩
  by_cases h0 : P = 0
  · subst h0
    refine .inr ⟨?_, hP.trans (by rw [L.identityElem_eq])⟩
    rw [OprfServer.evaluate_eq wf, hP]
    simp only
    rw [if_pos (by rw [isIdentityElem_iff])]
  · exact .inl (he h0)

/-- C48, verifiable mode: a run between a server made by one of the constructors and any client succeeds and
gives the value of `evaluate`. -/
theorem C48_voprf_run {CS : CipherSuite} (sup : Shipped CS) (s : VoprfServer CS) (hs : s.Made)
    (input : Bytes) (hl : input.length ≤ 65535) {σ τ : Type} [RngCore σ] [RngCore τ] (rng rng' : σ)
    (x : CS.Scalar) (hx : CS.group.randomScalar rng = some (x, rng'))
    (srng : τ) (hr : (CS.group.randomScalar srng).isSome) :
    ∃ b r srng' out, VoprfClient.blindInput CS input rng = .ok (b, rng') ∧
      s.blindEvaluate srng b.message = .ok (r, srng') ∧
      b.state.finalize input r.message r.proof s.getPublicKey = .ok out ∧
      (s.evaluate input = .ok out ∨
        s.evaluate input = .err .Input ∧
          Spec.hashToGroup CS .Voprf input = .ok CS.group.identityElem) := by
  obtain ⟨⟨L⟩, th, wf⟩ := C48_contract sup
  obtain ⟨b, hb⟩ := (C31_blind_total wf th input rng rng' x hx).2.1
  obtain ⟨r, srng', ha⟩ := C02_voprf_answers wf s b.message srng hr
  obtain ⟨⟨P, hP, hf, he⟩, -⟩ := C02_voprf_correct wf s hs input b ⟨σ, _, rng, rng', hb⟩ srng srng' r ha
  simp only [prfResult, if_pos hl] at hf he
  refine ⟨b, r, srng', _, hb, ha, hf, ?_⟩
  by_cases h0 : P = 0
  · subst h0
    refine .inr ⟨?_, hP.trans (by rw [L.identityElem_eq])⟩
    rw [VoprfServer.evaluate_eq wf, hP]
    simp only
    rw [if_pos (by rw [isIdentityElem_iff])]
  · exact .inl (he h0)

/-- C48, verifiable mode, batches of up to 65535 inputs under one proof. -/
theorem C48_voprf_batch_run {CS : CipherSuite} (sup : Shipped CS) (s : VoprfServer CS) (hs : s.Made)
    (inputs : List Bytes) (hl : ∀ i ∈ inputs, i.length ≤ 65535) (hn : inputs.length ≤ 65535)
    (bs : List (VoprfClientBlindResult CS)) (hb : List.Forall₂ VoprfClient.Blinded inputs bs)
    {τ : Type} [RngCore τ] (srng : τ) (hr : (CS.group.randomScalar srng).isSome) :
    ∃ r srng' outs, s.batchBlindEvaluate srng (bs.map (·.message)) = .ok (r, srng') ∧
      VoprfClient.batchFinalize inputs (bs.map (·.state)) r.messages r.proof s.getPublicKey = .ok outs ∧
      List.Forall₂ (fun input res => ∃ out, res = .ok out ∧
        (s.evaluate input = .ok out ∨
          s.evaluate input = .err .Input ∧
            Spec.hashToGroup CS .Voprf input = .ok CS.group.identityElem)) inputs outs := by
  obtain ⟨⟨L⟩, th, wf⟩ := C48_contract sup
  obtain ⟨r, srng', ha⟩ := C03_voprf_batch_answers wf s (bs.map (·.message))
    (by rw [List.length_map, ← hb.length_eq]; exact hn) srng hr
  obtain ⟨outs, ho, hf⟩ := C03_voprf_batch_correct wf s hs inputs bs hb srng srng' r ha
  refine ⟨r, srng', outs, ha, ho, ?_⟩
  clear ho ha hn hb
  induction hf with
  | nil => exact .nil
  | @cons input out inputs outs h _ ih =>
    refine .cons ?_ (ih fun i hi => hl i (.tail _ hi))
    obtain ⟨⟨P, hP, ho, he⟩, -⟩ := h
    simp only [prfResult, if_pos (hl input (.head _))] at ho
    refine ⟨_, ho, ?_⟩
    by_cases h0 : P = 0
    · subst h0
      refine .inr ⟨?_, hP.trans (by rw [L.identityElem_eq])⟩
      rw [VoprfServer.evaluate_eq wf, hP]
      simp only
      rw [if_pos (by rw [isIdentityElem_iff])]
    · exact .inl ((he h0).trans ho)

/-- C48, partially oblivious mode: unless the key is the (unique) one cancelled by this info, in which case
the server answers `Error::Protocol`, a run succeeds and gives the value of `evaluate`. -/
theorem C48_poprf_run {CS : CipherSuite} (sup : Shipped CS) (s : PoprfServer CS) (hs : s.Made)
    (input info : Bytes) (hl : input.length ≤ 65535) (hi : info.length ≤ 65535)
    {σ τ : Type} [RngCore σ] [RngCore τ] (rng rng' : σ)
    (x : CS.Scalar) (hx : CS.group.randomScalar rng = some (x, rng'))
    (srng : τ) (hr : (CS.group.randomScalar srng).isSome) :
    ∃ b m, PoprfClient.blindInput CS input rng = .ok (b, rng') ∧
      Spec.hashToScalar CS .Poprf (infoInput info) = .ok m ∧
      ((CS.group.isZeroScalar (CS.group.scalarAdd s.sk m) = true ∧
          s.blindEvaluate srng b.message (some info) = .err .Protocol) ∨
        (CS.group.isZeroScalar (CS.group.scalarAdd s.sk m) = false ∧
          ∃ r srng' out, s.blindEvaluate srng b.message (some info) = .ok (r, srng') ∧
            b.state.finalize input r.message r.proof s.getPublicKey (some info) = .ok out ∧
            (s.evaluate input (some info) = .ok out ∨
              s.evaluate input (some info) = .err .Input ∧
                Spec.hashToGroup CS .Poprf input = .ok CS.group.identityElem))) := by
  obtain ⟨⟨L⟩, th, wf⟩ := C48_contract sup
  obtain ⟨b, hb⟩ := (C31_blind_total wf th input rng rng' x hx).2.2
  obtain ⟨m, hm⟩ := infoHash_ok (info := some info) (.inl th) hi
  have hm : Spec.hashToScalar CS .Poprf (infoInput info) = .ok m := hm
  refine ⟨b, m, hb, hm, ?_⟩
  cases hz : CS.group.isZeroScalar (CS.group.scalarAdd s.sk m) with
  | true =>
    refine .inl ⟨rfl, ?_⟩
    rw [PoprfServer.blindEvaluate_eq wf, computeTweak_eq wf]
    simp only [Option.getD_some, if_pos hi, hm]
    rw [L.scalarAdd_eq] at hz
    rw [if_pos hz]
    rfl
  | false =>
    refine .inr ⟨rfl, ?_⟩
    have ht : IsTweak CS s.sk ((some info).getD []) (s.sk + m) :=
      ⟨m, hm, rfl, by rw [← L.scalarAdd_eq]; exact (isZeroScalar_eq_false _).mp hz⟩
    obtain ⟨r, srng', ha⟩ := C04_poprf_answers wf s b.message (some info) srng hr hi _ ht
    obtain ⟨⟨P, t, hP, -, hf, he⟩, -⟩ :=
      C04_poprf_correct wf s hs input (some info) b ⟨σ, _, rng, rng', hb⟩ srng srng' r ha
    simp only [prfResultInfo, if_pos hl] at hf he
    refine ⟨r, srng', _, ha, hf, ?_⟩
    by_cases h0 : P = 0
    · subst h0
      exact .inr ⟨(C31_evaluate_identity wf ⟨s.sk⟩ ⟨s.sk, s.pk⟩ s input (some info)).2.2 hP,
        hP.trans (by rw [L.identityElem_eq])⟩
    · exact .inl (he h0 info rfl)

/-- C48, partially oblivious mode, batches of up to 65535 inputs under one proof and one info. -/
theorem C48_poprf_batch_run {CS : CipherSuite} (sup : Shipped CS) (s : PoprfServer CS) (hs : s.Made)
    (inputs : List Bytes) (hl : ∀ i ∈ inputs, i.length ≤ 65535) (hn : inputs.length ≤ 65535)
    (info : Bytes) (hi : info.length ≤ 65535) (m : CS.Scalar)
    (hm : Spec.hashToScalar CS .Poprf (infoInput info) = .ok m)
    (hz : CS.group.isZeroScalar (CS.group.scalarAdd s.sk m) = false)
    (bs : List (PoprfClientBlindResult CS)) (hb : List.Forall₂ PoprfClient.Blinded inputs bs)
    {τ : Type} [RngCore τ] (srng : τ) (hr : (CS.group.randomScalar srng).isSome) :
    ∃ r srng' outs, s.batchBlindEvaluate srng (bs.map (·.message)) (some info) = .ok (r, srng') ∧
      PoprfClient.batchFinalize inputs (bs.map (·.state)) r.messages r.proof s.getPublicKey (some info)
        = .ok outs ∧
      List.Forall₂ (fun input res => ∃ out, res = .ok out ∧
        (s.evaluate input (some info) = .ok out ∨
          s.evaluate input (some info) = .err .Input ∧
            Spec.hashToGroup CS .Poprf input = .ok CS.group.identityElem)) inputs outs := by
  obtain ⟨⟨L⟩, th, wf⟩ := C48_contract sup
  have ht : IsTweak CS s.sk ((some info).getD []) (s.sk + m) :=
    ⟨m, hm, rfl, by rw [← L.scalarAdd_eq]; exact (isZeroScalar_eq_false _).mp hz⟩
  obtain ⟨r, srng', ha⟩ := C05_poprf_batch_answers wf s (bs.map (·.message)) (some info) srng hr
    (by rw [List.length_map, ← hb.length_eq]; exact hn) hi _ ht
  obtain ⟨t, outs, -, ho, hf⟩ := C05_poprf_batch_correct wf s hs inputs (some info) bs hb srng srng' r ha
  refine ⟨r, srng', outs, ha, ho, ?_⟩
  clear ho ha hn hb
  induction hf with
  | nil => exact .nil
  | @cons input out inputs outs h _ ih =>
    refine .cons ?_ (ih fun i hi => hl i (.tail _ hi))
    obtain ⟨⟨P, hP, ho, he⟩, -⟩ := h
    simp only [prfResultInfo, if_pos (hl input (.head _))] at ho
    refine ⟨_, ho, ?_⟩
    by_cases h0 : P = 0
    · subst h0
      exact .inr ⟨(C31_evaluate_identity wf ⟨s.sk⟩ ⟨s.sk, s.pk⟩ s input (some info)).2.2 hP,
        hP.trans (by rw [L.identityElem_eq])⟩
    · exact .inl ((he h0 info rfl).trans ho)

section examples

theorem p256_fast : P256Sha256 = ⟨P256Sha256.ID, Nist.fast Curve.p256, P256Sha256.hash⟩ := by
  rw [Nist.fast_eq]
  rfl

/-- The hypotheses of the runs are met: over P-256, a generator whose bytes give the scalar 1, and a server made
from a key. -/
example : (P256Sha256.group.randomScalar (Exec.CycleRng.mk (toBeBytes 32 1))).isSome = true := by
  rw [p256_fast]
  decide +kernel

example : ∃ s : VoprfServer P256Sha256, s.Made := by
  have h : (VoprfServer.newWithKey ⟨P256Sha256.ID, Nist.fast Curve.p256, P256Sha256.hash⟩
      (toBeBytes 32 12345)).isOk = true := by decide +kernel
  rw [← p256_fast] at h
  obtain ⟨s, hs⟩ := Res.exists_of_isOk h
  exact ⟨s, .newWithKey _ _ hs⟩

end examples

end Voprf
