import Verif.Model.Oprf
import Verif.Model.Voprf
import Verif.Model.Poprf
import Verif.Model.Iter

/-!
# The derived `Debug` output

`#[derive_where(Debug; …)]` (`src/common.rs:73,90,107,121`, `src/oprf.rs:41,59,233`, `src/voprf.rs:39,59,404,425,438,472`,
`src/poprf.rs:39,59,482,499,512,539,555,576`) formats the fields one after the other with `Formatter::debug_struct` and
`debug_tuple`; this is the output for `{:?}`.  How scalars and elements are formatted is up to the group and a parameter here.
Simplification: an element is formatted as a function of the element (of its coordinates, in the Rust code).
-/

namespace Voprf

/-- `Debug` of the scalars and elements of a group. The element and scalar types of `src/group/mod.rs:33-48`. -/
structure Fmt (CS : CipherSuite) where
  scalar : CS.Scalar → String
  elem : CS.Elem → String

namespace Debug

/-- `f.debug_struct(name).field(..).finish()` (for the derives of `src/oprf.rs:41,59`, `src/voprf.rs:39,59`,
`src/poprf.rs:39,59`, `src/common.rs:121`) -/
def struct (name : String) (fields : List (String × String)) : String :=
  name ++ " { " ++ ", ".intercalate (fields.map fun f => f.1 ++ ": " ++ f.2) ++ " }"

/-- `f.debug_tuple(name).field(..).finish()` with one field (for the derives of `src/common.rs:73,90,107`) -/
def tuple (name : String) (field : String) : String := name ++ "(" ++ field ++ ")"

/-- `f.debug_list().entries(..).finish()`, for `Vec` (for `src/voprf.rs:425` and `src/poprf.rs:482`) -/
def list (items : List String) : String := "[" ++ ", ".intercalate items ++ "]"

variable {CS : CipherSuite} (F : Fmt CS)

/-- `src/common.rs:45-52` -/
def mode : Mode → String
  | .Oprf => "Oprf"
  | .Voprf => "Voprf"
  | .Poprf => "Poprf"

/-- `src/error.rs:17-33` -/
def error : Error → String
  | .Info => "Info"
  | .Input => "Input"
  | .DeriveKeyPair => "DeriveKeyPair"
  | .Deserialization => "Deserialization"
  | .Batch => "Batch"
  | .ProofVerification => "ProofVerification"
  | .Protocol => "Protocol"

/-- `src/common.rs:73-85` -/
def blindedElement (b : BlindedElement CS) : String := tuple "BlindedElement" (F.elem b.value)

/-- `src/common.rs:90-102` -/
def evaluationElement (e : EvaluationElement CS) : String := tuple "EvaluationElement" (F.elem e.value)

/-- `src/common.rs:107-116` -/
def preparedEvaluationElement (e : PreparedEvaluationElement CS) : String :=
  tuple "PreparedEvaluationElement" (evaluationElement F e.inner)

/-- `src/common.rs:121-136` -/
def proof (p : Proof CS) : String := struct "Proof" [("c_scalar", F.scalar p.cScalar), ("s_scalar", F.scalar p.sScalar)]

/-- `src/oprf.rs:41-54` -/
def oprfClient (c : OprfClient CS) : String := struct "OprfClient" [("blind", F.scalar c.blind)]

/-- `src/oprf.rs:59-72` -/
def oprfServer (s : OprfServer CS) : String := struct "OprfServer" [("sk", F.scalar s.sk)]

/-- `src/voprf.rs:39-54` -/
def voprfClient (c : VoprfClient CS) : String :=
  struct "VoprfClient" [("blind", F.scalar c.blind), ("blinded_element", F.elem c.blindedElement)]

/-- `src/voprf.rs:59-74` -/
def voprfServer (s : VoprfServer CS) : String := struct "VoprfServer" [("sk", F.scalar s.sk), ("pk", F.elem s.pk)]

/-- `src/poprf.rs:39-54` -/
def poprfClient (c : PoprfClient CS) : String :=
  struct "PoprfClient" [("blind", F.scalar c.blind), ("blinded_element", F.elem c.blindedElement)]

/-- `src/poprf.rs:59-74` -/
def poprfServer (s : PoprfServer CS) : String := struct "PoprfServer" [("sk", F.scalar s.sk), ("pk", F.elem s.pk)]

/-- `src/poprf.rs:539-551` -/
def poprfPreparedTweak (t : PoprfPreparedTweak CS) : String := tuple "PoprfPreparedTweak" (F.scalar t.value)

/-- `src/oprf.rs:233-243` -/
def oprfClientBlindResult (r : OprfClientBlindResult CS) : String :=
  struct "OprfClientBlindResult" [("state", oprfClient F r.state), ("message", blindedElement F r.message)]

/-- `src/voprf.rs:404-414` -/
def voprfClientBlindResult (r : VoprfClientBlindResult CS) : String :=
  struct "VoprfClientBlindResult" [("state", voprfClient F r.state), ("message", blindedElement F r.message)]

/-- `src/poprf.rs:482-492` -/
def poprfClientBlindResult (r : PoprfClientBlindResult CS) : String :=
  struct "PoprfClientBlindResult" [("state", poprfClient F r.state), ("message", blindedElement F r.message)]

/-- `src/voprf.rs:425-435` -/
def voprfServerEvaluateResult (r : VoprfServerEvaluateResult CS) : String :=
  struct "VoprfServerEvaluateResult" [("message", evaluationElement F r.message), ("proof", proof F r.proof)]

/-- `src/voprf.rs:438-449` -/
def voprfServerBatchEvaluateResult (r : VoprfServerBatchEvaluateResult CS) : String :=
  struct "VoprfServerBatchEvaluateResult"
    [("messages", list (r.messages.map (evaluationElement F))), ("proof", proof F r.proof)]

/-- `src/poprf.rs:499-509` -/
def poprfServerEvaluateResult (r : PoprfServerEvaluateResult CS) : String :=
  struct "PoprfServerEvaluateResult" [("message", evaluationElement F r.message), ("proof", proof F r.proof)]

/-- `src/poprf.rs:512-523` -/
def poprfServerBatchEvaluateResult (r : PoprfServerBatchEvaluateResult CS) : String :=
  struct "PoprfServerBatchEvaluateResult"
    [("messages", list (r.messages.map (evaluationElement F))), ("proof", proof F r.proof)]

/-- `core::iter::Map`: the function is not shown. In `src/voprf.rs:438,472` and `src/poprf.rs:512,576`. -/
def map {σ α β : Type} (iter : σ → String) (m : Lazy.Map σ α β) : String := struct "Map" [("iter", iter m.iter)]

/-- `core::iter::Zip` (in `src/voprf.rs:438,472` and `src/poprf.rs:512,576`) -/
def zip {σ τ : Type} (a : σ → String) (b : τ → String) (z : Lazy.Zip σ τ) : String :=
  struct "Zip" [("a", a z.a), ("b", b z.b)]

/-- `core::iter::Repeat` (in `src/voprf.rs:438` and `src/poprf.rs:512`) -/
def repeated {α : Type} (element : α → String) (r : Lazy.Repeat α) : String :=
  struct "Repeat" [("element", element r.element)]

/-- The iterator of `src/voprf.rs:319-331` (`VoprfServerBatchEvaluatePreparedEvaluationElements`, `src/voprf.rs:453-461`)
over the caller's iterator, formatted by `items`. -/
def voprfPrepared {I : Type} (items : I → String) (it : Lazy.VoprfPrepared CS I) : String :=
  map (zip items (repeated F.scalar)) it

/-- `src/poprf.rs:555-565` (`PoprfServerBatchEvaluatePrepareResult`) over the caller's iterator, formatted by `items`. -/
def poprfServerBatchEvaluatePrepareResult {I : Type} (items : I → String)
    (r : Lazy.PoprfPrepared CS I × PoprfPreparedTweak CS) : String :=
  struct "PoprfServerBatchEvaluatePrepareResult"
    [("prepared_evaluation_elements", map (zip items (repeated F.scalar)) r.1),
      ("prepared_tweak", poprfPreparedTweak F r.2)]

/-- `src/voprf.rs:472-483` (`VoprfServerBatchEvaluateFinishResult`) over a slice. -/
def voprfServerBatchEvaluateFinishResult (r : Lazy.FinishedMessages CS × Proof CS) : String :=
  struct "VoprfServerBatchEvaluateFinishResult"
    [("messages", map (fun l => tuple "Iter" (list (l.map (preparedEvaluationElement F)))) r.1), ("proof", proof F r.2)]

/-- `src/poprf.rs:576-587` (`PoprfServerBatchEvaluateFinishResult`) over a slice. -/
def poprfServerBatchEvaluateFinishResult (r : Lazy.FinishedMessages CS × Proof CS) : String :=
  struct "PoprfServerBatchEvaluateFinishResult"
    [("messages", map (fun l => tuple "Iter" (list (l.map (preparedEvaluationElement F)))) r.1), ("proof", proof F r.2)]

end Debug

end Voprf
