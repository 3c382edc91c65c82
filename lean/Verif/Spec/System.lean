import Verif.Spec.Reach

/-!
# Histories: one server, any number of clients, any schedule

A `World` is a server (with its random-number generator), the client sessions opened so far, the answers
the server has given and the results clients have obtained.  An `Event` is one API call by one of the
parties, or one party writing one of its values to disk and reading it back (`reload…`: a crash, a
restart, or a transfer over the network).  A history is any list of events; requests may be answered in
any order, repeatedly, alone or in batches with other requests, and strangers may have arbitrary elements
evaluated in between.

`step` returns `none` if a party fails to read back what it wrote.
-/

namespace Voprf.Spec

open Voprf

/-- The API of one protocol mode, as used by a deployment with generator type `σ`. -/
structure Proto (σ : Type) where
  Server : Type
  /-- client state kept between the two client calls -/
  State : Type
  /-- request -/
  Msg : Type
  /-- answer to one request -/
  Resp1 : Type
  /-- answer to a batch -/
  RespN : Type
  /-- public input chosen by the caller of the server -/
  Info : Type
  blind : Bytes → σ → Res ((State × Msg) × σ)
  answerOne : Server → σ → Msg → Info → Res (Resp1 × σ)
  answerBatch : Server → σ → List Msg → Info → Res (RespN × σ)
  finalizeOne : Bytes → State → Resp1 → Info → Res Bytes
  finalizeBatch : List Bytes → List State → RespN → Info → Res (List (Res Bytes))
  /-- `deserialize(serialize(x))` -/
  reloadServer : Server → Res Server
  reloadState : State → Res State
  reloadMsg : Msg → Res Msg
  reloadResp1 : Resp1 → Res Resp1
  reloadRespN : RespN → Res RespN

variable {σ : Type} (P : Proto σ)

/-- A client that has called `blind`. -/
structure Session where
  input : Bytes
  state : P.State
  msg : P.Msg

/-- An answer of the server to the request of one session, or of several. -/
inductive Response
  | one (id : Nat) (info : P.Info) (r : P.Resp1)
  | batch (ids : List Nat) (info : P.Info) (r : P.RespN)

/-- What a client call to `finalize` or `batch_finalize` returned, for which inputs. -/
inductive Outcome
  | one (input : Bytes) (info : P.Info) (result : Res Bytes)
  | batch (inputs : List Bytes) (info : P.Info) (results : Res (List (Res Bytes)))

structure World where
  server : P.Server
  rng : σ
  sessions : List (Session P)
  responses : List (Response P)
  outcomes : List (Outcome P)

inductive Event
  /-- a new client blinds `input`, drawing from its own generator -/
  | blind (input : Bytes) (rng : σ)
  /-- the server answers the request of session `id` -/
  | answerOne (id : Nat) (info : P.Info)
  /-- the server answers the requests of these sessions as one batch -/
  | answerBatch (ids : List Nat) (info : P.Info)
  /-- the server answers arbitrary requests of strangers -/
  | strangerOne (msg : P.Msg) (info : P.Info)
  | strangerBatch (msgs : List P.Msg) (info : P.Info)
  /-- the client(s) concerned finalize the `j`-th answer -/
  | finalize (j : Nat)
  /-- a value is written out and read back -/
  | reloadServer
  | reloadState (id : Nat)
  | reloadMsg (id : Nat)
  | reloadResp (j : Nat)

/-- Writing a value out and reading it back is not one of the protocol's own steps. -/
def Event.isReload : Event P → Bool
  | .reloadServer | .reloadState _ | .reloadMsg _ | .reloadResp _ => true
  | _ => false

/-- The sessions with these numbers, if they all exist. -/
def lookup (ss : List (Session P)) (ids : List Nat) : Option (List (Session P)) :=
  ids.mapM fun i => ss[i]?

def init (s : P.Server) (g : σ) : World P := ⟨s, g, [], [], []⟩

/-- `none` if the value could not be read back. -/
def readBack {α : Type} : Res α → Option α
  | .ok a => some a
  | _ => none

variable {P}

/-- One event.  A call that refers to something that does not exist does nothing; a call that fails
produces no session and no answer. -/
def step (w : World P) : Event P → Option (World P)
  | .blind input g => some <|
      match P.blind input g with
      | .ok ((st, m), _) => { w with sessions := w.sessions ++ [⟨input, st, m⟩] }
      | _ => w
  | .answerOne id info => some <|
      match w.sessions[id]? with
      | none => w
      | some s =>
        match P.answerOne w.server w.rng s.msg info with
        | .ok (r, g) => { w with rng := g, responses := w.responses ++ [.one id info r] }
        | _ => w
  | .answerBatch ids info => some <|
      match lookup P w.sessions ids with
      | none => w
      | some ss =>
        match P.answerBatch w.server w.rng (ss.map (·.msg)) info with
        | .ok (r, g) => { w with rng := g, responses := w.responses ++ [.batch ids info r] }
        | _ => w
  | .strangerOne m info => some <|
      match P.answerOne w.server w.rng m info with
      | .ok (_, g) => { w with rng := g }
      | _ => w
  | .strangerBatch ms info => some <|
      match P.answerBatch w.server w.rng ms info with
      | .ok (_, g) => { w with rng := g }
      | _ => w
  | .finalize j => some <|
      match w.responses[j]? with
      | none => w
      | some (.one id info r) =>
        match w.sessions[id]? with
        | none => w
        | some s =>
          { w with outcomes := w.outcomes ++ [.one s.input info (P.finalizeOne s.input s.state r info)] }
      | some (.batch ids info r) =>
        match lookup P w.sessions ids with
        | none => w
        | some ss =>
          { w with outcomes := w.outcomes ++ [.batch (ss.map (·.input)) info
              (P.finalizeBatch (ss.map (·.input)) (ss.map (·.state)) r info)] }
  | .reloadServer => (readBack (P.reloadServer w.server)).map fun s => { w with server := s }
  | .reloadState id =>
      match w.sessions[id]? with
      | none => some w
      | some s => (readBack (P.reloadState s.state)).map fun st =>
          { w with sessions := w.sessions.set id { s with state := st } }
  | .reloadMsg id =>
      match w.sessions[id]? with
      | none => some w
      | some s => (readBack (P.reloadMsg s.msg)).map fun m =>
          { w with sessions := w.sessions.set id { s with msg := m } }
  | .reloadResp j =>
      match w.responses[j]? with
      | none => some w
      | some (.one id info r) => (readBack (P.reloadResp1 r)).map fun r =>
          { w with responses := w.responses.set j (.one id info r) }
      | some (.batch ids info r) => (readBack (P.reloadRespN r)).map fun r =>
          { w with responses := w.responses.set j (.batch ids info r) }

/-- A whole history. -/
def run (w : World P) : List (Event P) → Option (World P)
  | [] => some w
  | e :: es => (step w e).bind fun w => run w es

/-- The history without its reloads. -/
def withoutReloads (es : List (Event P)) : List (Event P) := es.filter fun e => !e.isReload

/-! ## The three modes -/

section
variable (σ : Type) [RngCore σ] (CS : CipherSuite)

/-- Every message of a batch is written out and read back. -/
def reloadMessages (ms : List (EvaluationElement CS)) : Res (List (EvaluationElement CS)) :=
  Res.collect (ms.map fun m => EvaluationElement.deserialize CS m.serialize)

/-- Base mode; there is no batch API. -/
abbrev oprf : Proto σ where
  Server := OprfServer CS
  State := OprfClient CS
  Msg := BlindedElement CS
  Resp1 := EvaluationElement CS
  RespN := Empty
  Info := Unit
  blind input g := do
    let (b, g) ← OprfClient.blindInput CS input g
    pure ((b.state, b.message), g)
  answerOne s g m _ := .ok (s.blindEvaluate m, g)
  answerBatch _ _ _ _ := .err .Batch
  finalizeOne input c r _ := c.finalize input r
  finalizeBatch _ _ r _ := r.elim
  reloadServer s := OprfServer.deserialize CS s.serialize
  reloadState c := OprfClient.deserialize CS c.serialize
  reloadMsg m := BlindedElement.deserialize CS m.serialize
  reloadResp1 r := EvaluationElement.deserialize CS r.serialize
  reloadRespN r := r.elim

/-- Verifiable mode; the clients have pinned the public key `pk`. -/
abbrev voprf (pk : CS.Elem) : Proto σ where
  Server := VoprfServer CS
  State := VoprfClient CS
  Msg := BlindedElement CS
  Resp1 := VoprfServerEvaluateResult CS
  RespN := VoprfServerBatchEvaluateResult CS
  Info := Unit
  blind input g := do
    let (b, g) ← VoprfClient.blindInput CS input g
    pure ((b.state, b.message), g)
  answerOne s g m _ := s.blindEvaluate g m
  answerBatch s g ms _ := s.batchBlindEvaluate g ms
  finalizeOne input c r _ := c.finalize input r.message r.proof pk
  finalizeBatch inputs cs r _ := VoprfClient.batchFinalize inputs cs r.messages r.proof pk
  reloadServer s := VoprfServer.deserialize CS s.serialize
  reloadState c := VoprfClient.deserialize CS c.serialize
  reloadMsg m := BlindedElement.deserialize CS m.serialize
  reloadResp1 r := do
    let m ← EvaluationElement.deserialize CS r.message.serialize
    let p ← Proof.deserialize CS r.proof.serialize
    pure ⟨m, p⟩
  reloadRespN r := do
    let ms ← reloadMessages CS r.messages
    let p ← Proof.deserialize CS r.proof.serialize
    pure ⟨ms, p⟩

/-- Partially oblivious mode; every request comes with its info. -/
abbrev poprf (pk : CS.Elem) : Proto σ where
  Server := PoprfServer CS
  State := PoprfClient CS
  Msg := BlindedElement CS
  Resp1 := PoprfServerEvaluateResult CS
  RespN := PoprfServerBatchEvaluateResult CS
  Info := Option Bytes
  blind input g := do
    let (b, g) ← PoprfClient.blindInput CS input g
    pure ((b.state, b.message), g)
  answerOne s g m info := s.blindEvaluate g m info
  answerBatch s g ms info := s.batchBlindEvaluate g ms info
  finalizeOne input c r info := c.finalize input r.message r.proof pk info
  finalizeBatch inputs cs r info := PoprfClient.batchFinalize inputs cs r.messages r.proof pk info
  reloadServer s := PoprfServer.deserialize CS s.serialize
  reloadState c := PoprfClient.deserialize CS c.serialize
  reloadMsg m := BlindedElement.deserialize CS m.serialize
  reloadResp1 r := do
    let m ← EvaluationElement.deserialize CS r.message.serialize
    let p ← Proof.deserialize CS r.proof.serialize
    pure ⟨m, p⟩
  reloadRespN r := do
    let ms ← reloadMessages CS r.messages
    let p ← Proof.deserialize CS r.proof.serialize
    pure ⟨ms, p⟩

end

end Voprf.Spec
