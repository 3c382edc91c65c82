import Verif.Model.Serialization

/-!
# Model of the `serde` support (`src/serialization.rs:325-373` and the derives)

A *document* is what a data format presents to serde's visitors: numbers, sequences, maps, newtype
wrappers. `none` is a (format-specific) deserialization error.

Modelled from the documented behaviour of the dependencies, not from their source (not in the sandbox):
* `generic-array` with feature `serde`: a `GenericArray<u8, N>` is serialized as a tuple of `N` numbers, and
  deserialized by reading `N` elements of a sequence, each of which must be an integer in `0..256`;
* `#[derive(serde::Serialize)]`: a struct becomes its named fields in declaration order, a newtype struct a
  wrapped value;
* `#[derive(serde::Deserialize)]`: from a map, in which fields are recognised by name in any order, unknown
  keys are skipped, duplicate and missing fields are errors; or from a sequence with the fields in order.
Elements left over in a sequence are rejected or ignored depending on the format: `strict`.
-/

namespace Voprf.Serde

/-- What a data format presents to a visitor. The deserializers of `src/serialization.rs:339-341,358-360` and of the derives. -/
inductive Doc
  | num (n : Int)
  | seq (items : List Doc)
  | map (entries : List (String × Doc))
  | newtype (inner : Doc)
  | other

/-- `u8::deserialize`: any integer in range. Inside the library, `src/serialization.rs:343,351,362,370`. -/
def Doc.toU8 : Doc → Option UInt8
  | .num n => if 0 ≤ n ∧ n < 256 then some (UInt8.ofNat n.toNat) else none
  | _ => none

/-- `GenericArray::<u8, N>::serialize` (`src/serialization.rs:351,370`) -/
def serializeArray (bytes : Bytes) : Doc := .seq (bytes.map fun b => .num b.toNat)

/-- Reads `n` elements from the front of a sequence (`SeqAccess::next_element` in a loop). Inside the library,
`src/serialization.rs:343,362`. -/
def readArray : (n : Nat) → List Doc → Option (Bytes × List Doc)
  | 0, rest => some ([], rest)
  | _ + 1, [] => none
  | n + 1, d :: rest => do
      let b ← d.toU8
      let (bs, rest) ← readArray n rest
      return (b :: bs, rest)

/-- `GenericArray::<u8, N>::deserialize` (`src/serialization.rs:343,362`) -/
def deserializeArray (strict : Bool) (n : Nat) : Doc → Option Bytes
  | .seq items => do
      let (bs, rest) ← readArray n items
      if strict && !rest.isEmpty then none else some bs
  | _ => none

/-- `Result::map_err(D::Error::custom)` (`src/serialization.rs:344,363`) -/
def custom {α : Type} : Except Error α → Option α
  | .ok a => some a
  | .error _ => none

/-- A field annotated `#[serde(with = "…")]`. `src/common.rs:80,97,132,134`, `src/oprf.rs:52,70`, `src/voprf.rs:50,52,70,72`,
`src/poprf.rs:50,52,70,72,546`. -/
structure Field (α : Type) where
  ser : α → Doc
  de : Doc → Option α

/-- `src/serialization.rs:335-353` (`Element::<G>::{serialize, deserialize}`). -/
def elementField (strict : Bool) (G : VGroup) : Field G.Elem where
  ser e := serializeArray (G.serializeElem e)
  de d := (deserializeArray strict G.elemLen d).bind fun bytes => custom (G.deserializeElem bytes)

/-- `src/serialization.rs:355-372` (`Scalar::<G>::{serialize, deserialize}`). -/
def scalarField (strict : Bool) (G : VGroup) : Field G.Scalar where
  ser s := serializeArray (G.serializeScalar s)
  de d := (deserializeArray strict G.scalarLen d).bind fun bytes => custom (G.deserializeScalar bytes)

/-! ## Derived code -/

/-- How a format writes a struct: with field names, or as a bare sequence. For `src/common.rs:124`, `src/oprf.rs:44,62`,
`src/voprf.rs:42,62`, `src/poprf.rs:42,62,542`. -/
inductive StructStyle
  | named
  | positional

/-- derived `Serialize` for a newtype struct (`src/common.rs:76,93,110`, `src/poprf.rs:542`) -/
def serNewtype {α : Type} (f : Field α) (a : α) : Doc := .newtype (f.ser a)

/-- derived `Deserialize` for a newtype struct: `visit_newtype_struct` and `visit_seq` (`src/common.rs:76,93,110`,
`src/poprf.rs:542`) -/
def deNewtype {α : Type} (strict : Bool) (f : Field α) : Doc → Option α
  | .newtype d => f.de d
  | .seq [] => none
  | .seq (d :: rest) => do
      let a ← f.de d
      if strict && !rest.isEmpty then none else some a
  | _ => none

/-- derived `Serialize` for a struct with one named field (`src/oprf.rs:44,62`) -/
def serStruct1 {α : Type} (style : StructStyle) (n : String) (f : Field α) (a : α) : Doc :=
  match style with
  | .named => .map [(n, f.ser a)]
  | .positional => .seq [f.ser a]

/-- derived `visit_map` loop with one field (`src/oprf.rs:44,62`) -/
def visitMap1 {α : Type} (n : String) (f : Field α) : List (String × Doc) → Option α → Option (Option α)
  | [], acc => some acc
  | (key, d) :: rest, acc =>
      if key = n then
        match acc with
        | some _ => none
        | none => do
            let a ← f.de d
            visitMap1 n f rest (some a)
      else visitMap1 n f rest acc

/-- derived `Deserialize` for a struct with one named field (`src/oprf.rs:44,62`) -/
def deStruct1 {α : Type} (strict : Bool) (n : String) (f : Field α) : Doc → Option α
  | .map entries => do
      let acc ← visitMap1 n f entries none
      acc
  | .seq [] => none
  | .seq (d :: rest) => do
      let a ← f.de d
      if strict && !rest.isEmpty then none else some a
  | _ => none

/-- derived `Serialize` for a struct with two named fields (`src/common.rs:124`, `src/voprf.rs:42,62`, `src/poprf.rs:42,62`) -/
def serStruct2 {α β : Type} (style : StructStyle) (n : String) (f : Field α) (m : String) (g : Field β)
    (a : α) (b : β) : Doc :=
  match style with
  | .named => .map [(n, f.ser a), (m, g.ser b)]
  | .positional => .seq [f.ser a, g.ser b]

/-- derived `visit_map` loop with two fields (`src/common.rs:124`, `src/voprf.rs:42,62`, `src/poprf.rs:42,62`) -/
def visitMap2 {α β : Type} (n : String) (f : Field α) (m : String) (g : Field β) :
    List (String × Doc) → Option α → Option β → Option (Option α × Option β)
  | [], a, b => some (a, b)
  | (key, d) :: rest, a, b =>
      if key = n then
        match a with
        | some _ => none
        | none => do
            let x ← f.de d
            visitMap2 n f m g rest (some x) b
      else if key = m then
        match b with
        | some _ => none
        | none => do
            let y ← g.de d
            visitMap2 n f m g rest a (some y)
      else visitMap2 n f m g rest a b

/-- derived `Deserialize` for a struct with two named fields (`src/common.rs:124`, `src/voprf.rs:42,62`, `src/poprf.rs:42,62`) -/
def deStruct2 {α β : Type} (strict : Bool) (n : String) (f : Field α) (m : String) (g : Field β) :
    Doc → Option (α × β)
  | .map entries => do
      let (a, b) ← visitMap2 n f m g entries none none
      let a ← a
      let b ← b
      return (a, b)
  | .seq (d :: d' :: rest) => do
      let a ← f.de d
      let b ← g.de d'
      if strict && !rest.isEmpty then none else some (a, b)
  | _ => none

/-! ## The types -/

variable {CS : CipherSuite}

/-- `src/oprf.rs:42-54` -/
def serOprfClient (st : StructStyle) (strict : Bool) (x : OprfClient CS) : Doc :=
  serStruct1 st "blind" (scalarField strict CS.group) x.blind
/-- `src/oprf.rs:42-54` -/
def deOprfClient (CS : CipherSuite) (strict : Bool) (d : Doc) : Option (OprfClient CS) :=
  (deStruct1 strict "blind" (scalarField strict CS.group) d).map fun a => ⟨a⟩

/-- `src/oprf.rs:60-72` -/
def serOprfServer (st : StructStyle) (strict : Bool) (x : OprfServer CS) : Doc :=
  serStruct1 st "sk" (scalarField strict CS.group) x.sk
/-- `src/oprf.rs:60-72` -/
def deOprfServer (CS : CipherSuite) (strict : Bool) (d : Doc) : Option (OprfServer CS) :=
  (deStruct1 strict "sk" (scalarField strict CS.group) d).map fun a => ⟨a⟩

/-- `src/voprf.rs:40-54` -/
def serVoprfClient (st : StructStyle) (strict : Bool) (x : VoprfClient CS) : Doc :=
  serStruct2 st "blind" (scalarField strict CS.group) "blinded_element" (elementField strict CS.group)
    x.blind x.blindedElement
/-- `src/voprf.rs:40-54` -/
def deVoprfClient (CS : CipherSuite) (strict : Bool) (d : Doc) : Option (VoprfClient CS) :=
  (deStruct2 strict "blind" (scalarField strict CS.group) "blinded_element"
    (elementField strict CS.group) d).map fun p => ⟨p.1, p.2⟩

/-- `src/voprf.rs:60-74` -/
def serVoprfServer (st : StructStyle) (strict : Bool) (x : VoprfServer CS) : Doc :=
  serStruct2 st "sk" (scalarField strict CS.group) "pk" (elementField strict CS.group) x.sk x.pk
/-- `src/voprf.rs:60-74` -/
def deVoprfServer (CS : CipherSuite) (strict : Bool) (d : Doc) : Option (VoprfServer CS) :=
  (deStruct2 strict "sk" (scalarField strict CS.group) "pk"
    (elementField strict CS.group) d).map fun p => ⟨p.1, p.2⟩

/-- `src/poprf.rs:40-54` -/
def serPoprfClient (st : StructStyle) (strict : Bool) (x : PoprfClient CS) : Doc :=
  serStruct2 st "blind" (scalarField strict CS.group) "blinded_element" (elementField strict CS.group)
    x.blind x.blindedElement
/-- `src/poprf.rs:40-54` -/
def dePoprfClient (CS : CipherSuite) (strict : Bool) (d : Doc) : Option (PoprfClient CS) :=
  (deStruct2 strict "blind" (scalarField strict CS.group) "blinded_element"
    (elementField strict CS.group) d).map fun p => ⟨p.1, p.2⟩

/-- `src/poprf.rs:60-74` -/
def serPoprfServer (st : StructStyle) (strict : Bool) (x : PoprfServer CS) : Doc :=
  serStruct2 st "sk" (scalarField strict CS.group) "pk" (elementField strict CS.group) x.sk x.pk
/-- `src/poprf.rs:60-74` -/
def dePoprfServer (CS : CipherSuite) (strict : Bool) (d : Doc) : Option (PoprfServer CS) :=
  (deStruct2 strict "sk" (scalarField strict CS.group) "pk"
    (elementField strict CS.group) d).map fun p => ⟨p.1, p.2⟩

/-- `src/common.rs:122-136` -/
def serProof (st : StructStyle) (strict : Bool) (x : Proof CS) : Doc :=
  serStruct2 st "c_scalar" (scalarField strict CS.group) "s_scalar" (scalarField strict CS.group)
    x.cScalar x.sScalar
/-- `src/common.rs:122-136` -/
def deProof (CS : CipherSuite) (strict : Bool) (d : Doc) : Option (Proof CS) :=
  (deStruct2 strict "c_scalar" (scalarField strict CS.group) "s_scalar"
    (scalarField strict CS.group) d).map fun p => ⟨p.1, p.2⟩

/-- `src/common.rs:74-85` -/
def serBlindedElement (strict : Bool) (x : BlindedElement CS) : Doc :=
  serNewtype (elementField strict CS.group) x.value
/-- `src/common.rs:74-85` -/
def deBlindedElement (CS : CipherSuite) (strict : Bool) (d : Doc) : Option (BlindedElement CS) :=
  (deNewtype strict (elementField strict CS.group) d).map fun a => ⟨a⟩

/-- `src/common.rs:91-102` -/
def serEvaluationElement (strict : Bool) (x : EvaluationElement CS) : Doc :=
  serNewtype (elementField strict CS.group) x.value
/-- `src/common.rs:91-102` -/
def deEvaluationElement (CS : CipherSuite) (strict : Bool) (d : Doc) : Option (EvaluationElement CS) :=
  (deNewtype strict (elementField strict CS.group) d).map fun a => ⟨a⟩

/-- `src/common.rs:108-116`: a newtype around `EvaluationElement`, using its derived implementation. -/
def serPreparedEvaluationElement (strict : Bool) (x : PreparedEvaluationElement CS) : Doc :=
  serNewtype ⟨serEvaluationElement strict, deEvaluationElement CS strict⟩ x.inner
/-- `src/common.rs:108-116` -/
def dePreparedEvaluationElement (CS : CipherSuite) (strict : Bool) (d : Doc) :
    Option (PreparedEvaluationElement CS) :=
  (deNewtype strict ⟨serEvaluationElement strict, deEvaluationElement CS strict⟩ d).map fun a => ⟨a⟩

/-- `src/poprf.rs:540-551` -/
def serPoprfPreparedTweak (strict : Bool) (x : PoprfPreparedTweak CS) : Doc :=
  serNewtype (scalarField strict CS.group) x.value
/-- `src/poprf.rs:540-551` -/
def dePoprfPreparedTweak (CS : CipherSuite) (strict : Bool) (d : Doc) : Option (PoprfPreparedTweak CS) :=
  (deNewtype strict (scalarField strict CS.group) d).map fun a => ⟨a⟩

end Voprf.Serde
