import Verif.Exec.Jacobian

/-!
# An executable form of the NIST group

`fast c` is the group of `Model/Nist.lean` with the slow operations (powers by repeated multiplication, multiples by
repeated addition, sampling until success) replaced by fast ones; `fast_eq` proves that it is the same group, so a
kernel computation with `fast c` is one about the model.
-/

namespace Voprf.Nist

open Curve

variable {c : Params}

/-- `x ^ e` by repeated squaring. -/
def fpow (x : c.Fp) (e : Nat) : c.Fp := (powMod x.val e c.p : Nat)

theorem fpow_eq (x : c.Fp) (e : Nat) : fpow x e = x ^ e := by
  rw [fpow, powMod_eq, ZMod.natCast_zmod_val]

def fastSqrt (alpha : c.Fp) : Option c.Fp :=
  let beta := fpow alpha ((c.p + 1) / 4)
  if beta * beta = alpha then some beta else none

theorem fastSqrt_eq : fastSqrt (c := c) = sqrt := by
  funext a
  simp only [fastSqrt, sqrt, fpow_eq, ← sq]

theorem fastSqrt_sq {alpha beta : c.Fp} (h : fastSqrt alpha = some beta) : beta ^ 2 = alpha :=
  sqrt_sq (fastSqrt_eq (c := c) ▸ h)

def fastDecompress (c : Params) (xBytes : Bytes) (yIsOdd : Bool) : Option c.Point := do
  let x ← fieldFromRepr c xBytes
  match h : fastSqrt (rhs c x) with
  | none => none
  | some beta =>
      if isOdd beta = yIsOdd then some (mkPoint (fastSqrt_sq h))
      else some (mkPoint (y := -beta) (by rw [neg_sq]; exact fastSqrt_sq h))

theorem fastDecompress_eq (c : Params) : fastDecompress c = decompress c := by
  funext b o
  unfold fastDecompress decompress
  congr 1
  funext x
  split
  · next h =>
    split
    · rfl
    · next h' => rw [fastSqrt_eq, h'] at h; simp at h
  · next beta h =>
    split
    all_goals
      split
      · next h' => rw [fastSqrt_eq, h'] at h; simp at h
      · next beta' h' =>
        have : beta = beta' := by rw [fastSqrt_eq, h'] at h; simpa using h.symm
        subst this
        simp_all

def fastDecompact (c : Params) (xBytes : Bytes) : Option c.Point := do
  let P ← fastDecompress c xBytes false
  if (yCoord P).val > (yCoord (-P)).val then some (-P) else some P

def fastFromSec1Bytes (c : Params) (bytes : Bytes) : Option c.Point :=
  match bytes with
  | [] => none
  | tag :: body => do
      let expected ← messageLen c.fieldLen tag
      if bytes.length ≠ expected then none
      else if tag = 0 then none
      else if tag = 4 then do
        let x := body.take c.fieldLen
        let y ← fieldFromRepr c (body.drop c.fieldLen)
        let P ← fastDecompress c x (isOdd y)
        if yCoord P = y then some P else none
      else if tag = 5 then fastDecompact c body
      else fastDecompress c body (tag == 3)

theorem fastFromSec1Bytes_eq (c : Params) : fastFromSec1Bytes c = fromSec1Bytes c := by
  have h1 : fastDecompact c = decompact c := by
    funext b
    simp only [fastDecompact, decompact, fastDecompress_eq]
  funext b
  simp only [fastFromSec1Bytes, fromSec1Bytes, fastDecompress_eq, h1]
  rfl

def fastDeserializeElem (c : Params) (bytes : Bytes) : Except Error c.Point :=
  match fastFromSec1Bytes c bytes with
  | some P => .ok P
  | none => .error .Deserialization

theorem fastDeserializeElem_eq (c : Params) : fastDeserializeElem c = deserializeElem c := by
  funext b
  rw [fastDeserializeElem, deserializeElem, fastFromSec1Bytes_eq]
  rfl

/-- Up to `n` draws; `none` if all are rejected. -/
def fewDraws {σ α : Type} (draw : σ → Option α × σ) : Nat → σ → Option (α × σ)
  | 0, _ => none
  | n + 1, s =>
      match draw s with
      | (some a, s') => some (a, s')
      | (none, s') => fewDraws draw n s'

theorem fewDraws_run {σ α : Type} {draw : σ → Option α × σ} : ∀ n s r,
    fewDraws draw n s = some r → Run draw s r
  | 0, _, _, h => by simp [fewDraws] at h
  | n + 1, s, r, h => by
      unfold fewDraws at h
      split at h
      · next a s' hd =>
        simp only [Option.some.injEq] at h
        subst h
        exact .stop hd
      · next s' hd => exact .again hd (fewDraws_run n s' r h)

noncomputable def fastRandomScalar (c : Params) {σ : Type} [RngCore σ] (s : σ) : Option (c.Fn × σ) :=
  match fewDraws (draw c) 4 s with
  | some r => some r
  | none => randomScalar c s

theorem fastRandomScalar_eq (c : Params) {σ : Type} [RngCore σ] (s : σ) :
    fastRandomScalar c s = randomScalar c s := by
  unfold fastRandomScalar
  split
  · next r h => exact ((randomScalar_iff s r).mpr (fewDraws_run _ _ _ h)).symm
  · rfl

/-- `osswu` with fast exponentiation. -/
def fastOsswu (c : Params) (u : c.Fp) : c.Fp × c.Fp :=
  let A : c.Fp := c.a
  let B : c.Fp := c.b
  let Z : c.Fp := c.z
  let tv1 := u ^ 2
  let tv3 := Z * tv1
  let tv2 := tv3 ^ 2
  let xd := tv2 + tv3
  let x1n := B * (xd + 1)
  let xd := xd * -A
  let xd := if xd = 0 then Z * A else xd
  let tv2 := xd ^ 2
  let gxd := tv2 * xd
  let tv2 := A * tv2
  let gx1 := x1n * (tv2 + x1n ^ 2)
  let tv2 := gxd * B
  let gx1 := gx1 + tv2
  let tv4 := gxd ^ 2
  let tv2 := gx1 * gxd
  let tv4 := tv4 * tv2
  let y1 := fpow tv4 ((c.p - 3) / 4)
  let y1 := y1 * tv2
  let x2n := tv3 * x1n
  let y2 := y1 * c.c2
  let y2 := y2 * tv1
  let y2 := y2 * u
  let tv2 := y1 ^ 2
  let tv2 := tv2 * gxd
  let e2 := tv2 = gx1
  let x := if e2 then x1n else x2n
  let y := if e2 then y1 else y2
  let x := x * xd⁻¹
  let y := if sgn0 u = sgn0 y then y else -y
  (x, y)

theorem fastOsswu_eq (c : Params) : fastOsswu c = osswu c := by
  funext u
  simp only [fastOsswu, fpow_eq]
  rfl

def fastMapToCurve (c : Params) (u : c.Fp) : c.Point :=
  let xy := fastOsswu c u
  match ofNats c xy.1.val xy.2.val with
  | some P => P
  | none => mapToCurve c u

theorem fastMapToCurve_eq (c : Params) : fastMapToCurve c = mapToCurve c := by
  funext u
  simp only [fastMapToCurve]
  split
  · next P h =>
    obtain ⟨hn, rfl⟩ := ofNats_some h
    unfold mapToCurve
    rw [dif_pos (osswu_on_curve c u)]
    refine point_congr ?_ ?_ <;> rw [ZMod.natCast_zmod_val, fastOsswu_eq]
  · rfl

def fastHashToCurve (c : Params) (H : HashAlg) (input dst : List Bytes) : Except InternalError c.Point :=
  match H2C.hashToFieldBytes H input dst c.okmLen 2 with
  | some [u0, u1] => .ok (fastMapToCurve c (ofBeBytes u0 : c.Fp) + fastMapToCurve c (ofBeBytes u1 : c.Fp))
  | _ => .error .Input

/-- The group with fast operations. -/
noncomputable def fast (c : Params) : VGroup :=
  { group c with
    elemMul := fun (P : c.Point) (k : c.Fn) => fastMul P k.val
    hashToCurve := fastHashToCurve c
    deserializeElem := fastDeserializeElem c
    randomScalar := fastRandomScalar c }

theorem fast_eq (c : Params) : fast c = group c := by
  have h1 : (fun (P : c.Point) (k : c.Fn) => fastMul P k.val) = fun P k => k.val • P := by
    funext P k
    exact fastMul_eq P k.val
  have h2 : fastHashToCurve c = hashToCurve c := by
    funext H i d
    simp only [fastHashToCurve, hashToCurve, fastMapToCurve_eq]
    rfl
  have h3 : (@fastRandomScalar c : {σ : Type} → [RngCore σ] → σ → Option (c.Fn × σ)) = @randomScalar c := by
    funext σ _ s
    exact fastRandomScalar_eq c s
  unfold fast
  rw [h1, h2, fastDeserializeElem_eq]
  show ({ group c with randomScalar := @fastRandomScalar c } : VGroup) = _
  rw [h3]
  rfl

end Voprf.Nist
