import Verif.Model.VerifierApp
import Verif.Model.WalletApp
/-!
# The example verifier as an HTTP server (examples/verifier-conformance-adapter/server)

What the handlers do with a session is in `Model/Example.lean` and `Model/VerifierApp.lean`.
-/

set_option autoImplicit false

namespace Oid4vp.VerifierHttp
open WalletApp (Call structText)

/-! ## Paths -/

/-- The routes (examples/verifier-conformance-adapter/server/mod.rs:18-26), with the segment that
stands for the session id as it is in the path. -/
inductive Route where
  | initiate
  | request (segment : Str)
  | response (segment : Str)
  | status (segment : Str)
  | health
deriving DecidableEq, Repr

/-- `:session_id` after a fixed beginning: one segment that is not empty (`axum` 0.7, `matchit`). -/
def segmentAfter (front path : Str) : Option Str :=
  match stripPrefix front path with
  | none => none
  | some seg => if seg = [] ∨ '/' ∈ seg then none else some seg

/-- The route of a path (examples/verifier-conformance-adapter/server/mod.rs:16-26). -/
def routeOf (path : Str) : Option Route :=
  if path = c!"/initiate" then some .initiate
  else if path = c!"/health" then some .health
  else match segmentAfter c!"/request/" path with
    | some s => some (.request s)
    | none => match segmentAfter c!"/response/" path with
      | some s => some (.response s)
      | none => match segmentAfter c!"/status/" path with
        | some s => some (.status s)
        | none => none

/-- Percent-decoding (crate `percent-encoding`); malformed escapes are kept. -/
def pathDec : Bytes → Bytes
  | [] => []
  | b :: bs =>
    if b.toNat = 0x25 then
      match bs with
      | h :: l :: rest =>
        match hexVal (Char.ofNat h.toNat), hexVal (Char.ofNat l.toNat) with
        | some x, some y => UInt8.ofNat (x * 16 + y) :: pathDec rest
        | _, _ => b :: pathDec (h :: l :: rest)
      | [h] => b :: pathDec [h]
      | [] => [b]
    else b :: pathDec bs

/-- `Path<String>` (examples/verifier-conformance-adapter/server/handlers.rs:95,128,232): the
segment decoded, which must then be UTF-8. -/
def sessionOf (segment : Str) : Option Str := utf8Dec (pathDec (utf8 segment))

/-! ## Answers -/

/-- The body of an answer; `none` also stands for the plain texts of `axum`'s refusals. -/
inductive Body where
  | none
  | json (doc : Json)
  | jwt (text : Str)
deriving DecidableEq, Repr

/-- Status and body of an answer. -/
structure Reply where
  status : Nat
  body : Body
deriving DecidableEq, Repr

/-- The server: its state, how content types are recognised as JSON (crate `mime`), whether what is
wrong with a body is first the JSON or first its content (`serde_json`), and the texts of errors, which
are not modelled. -/
structure Server where
  app : VerifierApp.App
  isJson : Str → Bool
  badJson : Bytes → Bool
  detail : Call → Str

/-- `AppError` as an answer (examples/verifier-conformance-adapter/server/handlers.rs:279-296). -/
def failure (status : Nat) (message : Str) : Reply := ⟨status, .json (.obj [(c!"error", .str message)])⟩

/-- The text for a path that names no session id
(examples/verifier-conformance-adapter/server/handlers.rs:99,133,236). -/
def badId : Reply := failure 400 c!"Invalid session ID"

/-- `GET /health` (examples/verifier-conformance-adapter/server/handlers.rs:21-26), members
sorted. -/
def health : Reply :=
  ⟨200, .json (.obj [(c!"service", .str c!"verifier-conformance-adapter"), (c!"status", .str c!"ok")])⟩

/-- The largest body `axum` takes (`DefaultBodyLimit`). -/
def maxBody : Nat := 2097152

/-- `InitiateRequest` by `Json` (examples/verifier-conformance-adapter/server/handlers.rs:28-32,49):
the nonce. `axum` 0.7 does not look at what follows the value. Simplified: unknown members as in
`loadStore`, and the whole body must be UTF-8. -/
def initiateBody (body : Bytes) : Res (Option Str) :=
  match utf8Dec body with
  | none => .error .decode
  | some s => match pJson jsonMaxDepth s with
    | .error e => .error e
    | .ok (j, _) => match structText [c!"nonce"] j with
      | .error e => .error e
      | .ok m => fieldOpt c!"nonce" strOfJson m

/-- `POST /initiate` (examples/verifier-conformance-adapter/server/handlers.rs:47-87) behind the
extractor `Json`: another content type is 415, a larger body 413. `id` and `drawn` are the ids drawn for
the session and the nonce. -/
def initiate (srv : Server) (id drawn : Uuid) (c : Call) (σ : Store) : Store × Reply :=
  if c.contentType.any srv.isJson then
    if maxBody < c.body.length then (σ, ⟨413, .none⟩)
    else match initiateBody c.body with
      | .error _ => (σ, ⟨if srv.badJson c.body then 400 else 422, .none⟩)
      | .ok nonce => match VerifierApp.initiate srv.app nonce id drawn.print σ with
        | (σ, .error _) => (σ, failure 500 (srv.detail c))
        | (σ, .ok (sid, auth, st)) => (σ, ⟨200, .json (.obj [(c!"authorization_url", .str auth),
            (c!"session_id", .str sid), (c!"status_url", .str st)])⟩)
  else (σ, ⟨415, .none⟩)

/-- `GET /request/:session_id` (examples/verifier-conformance-adapter/server/handlers.rs:93-120). -/
def fetch (srv : Server) (c : Call) (segment : Str) (σ : Store) : Store × Reply :=
  match sessionOf segment with
  | none => (σ, ⟨400, .none⟩)
  | some session => match Example.getRequest session σ with
    | (σ, 200, some jwt) => (σ, ⟨200, .jwt jwt⟩)
    | (σ, 404, _) => (σ, failure 404 (c!"Session not found: " ++ srv.detail c))
    | (σ, _, _) => (σ, badId)

/-- `GET /status/:session_id` (examples/verifier-conformance-adapter/server/handlers.rs:230-277). -/
def status (srv : Server) (c : Call) (segment : Str) (σ : Store) : Reply :=
  match sessionOf segment with
  | none => ⟨400, .none⟩
  | some session => match VerifierApp.status session σ with
    | (200, some doc) => ⟨200, .json doc⟩
    | (404, _) => failure 404 (c!"Session not found: " ++ srv.detail c)
    | (_, _) => badId

/-- `POST /response/:session_id` (examples/verifier-conformance-adapter/server/handlers.rs:126-225)
behind the extractor `String`: a larger body is 413, other bytes than UTF-8 are 400. -/
def respond (srv : Server) (c : Call) (segment : Str) (σ : Store) : Store × Reply :=
  match sessionOf segment with
  | none => (σ, ⟨400, .none⟩)
  | some session =>
    if maxBody < c.body.length then (σ, ⟨413, .none⟩)
    else match utf8Dec c.body with
      | none => (σ, ⟨400, .none⟩)
      | some _ => match VerifierApp.receive srv.app session c.body σ with
        | (σ, 200) => (σ, ⟨200, .json (.obj [])⟩)
        | (σ, 500) => (σ, failure 500 (c!"Verification failed: " ++ srv.detail c))
        | (σ, _) => (σ, match Uuid.parse session with
          | none => badId
          | some _ => failure 400 (c!"Invalid authorization response: " ++ srv.detail c))

/-- A GET route: HEAD does the same and leaves out the body (`axum`), any other method is 405. -/
def onGet (method : Str) (σ : Store) (get : Store × Reply) : Store × Reply :=
  if method = c!"GET" then get
  else if method = c!"HEAD" then (get.1, { get.2 with body := .none })
  else (σ, ⟨405, .none⟩)

/-- The router with its layers (examples/verifier-conformance-adapter/server/mod.rs:15-34): an unknown
path is 404, another method 405, every OPTIONS request is a preflight request (`tower_http`).
Time-outs are not modelled. -/
def serve (srv : Server) (id drawn : Uuid) (c : Call) (σ : Store) : Store × Reply :=
  if c.method = c!"OPTIONS" then (σ, ⟨200, .none⟩)
  else match routeOf c.path with
    | none => (σ, ⟨404, .none⟩)
    | some .initiate =>
      if c.method = c!"POST" then initiate srv id drawn c σ else (σ, ⟨405, .none⟩)
    | some (.request seg) => onGet c.method σ (fetch srv c seg σ)
    | some (.response seg) =>
      if c.method = c!"POST" then respond srv c seg σ else (σ, ⟨405, .none⟩)
    | some (.status seg) => onGet c.method σ (σ, status srv c seg σ)
    | some .health => onGet c.method σ (σ, health)

/-- The store after requests handled one after the other; each comes with the ids that would be drawn
for it. -/
def run (srv : Server) (σ : Store) : List (Uuid × Uuid × Call) → Store
  | [] => σ
  | (id, drawn, c) :: cs => run srv (serve srv id drawn c σ).1 cs

end Oid4vp.VerifierHttp
