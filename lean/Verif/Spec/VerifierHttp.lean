import Verif.Model.VerifierHttp
import Verif.Spec.WalletApp
import Verif.Spec.WalletStore
import Verif.Spec.ExampleFlow
/-!
# The HTTP surface of the example verifier
-/

set_option autoImplicit false

namespace Oid4vp.Spec
open VerifierHttp
open WalletApp (Call)

/-- What the bytes of a path segment stand for: `%` and two digits are the byte with that number,
everything else is itself. -/
inductive PathBytes : Bytes → Bytes → Prop
  | nil : PathBytes [] []
  | octet {h l r t} {x y : Nat} : HexDigit h x → HexDigit l y → PathBytes r t →
      PathBytes (37 :: h :: l :: r) (UInt8.ofNat (16 * x + y) :: t)
  | self {b r t} : (b = 37 → ∀ h l q x y, r = h :: l :: q → HexDigit h x → ¬ HexDigit l y) →
      PathBytes r t → PathBytes (b :: r) (b :: t)

/-- One segment of a path, and the text it stands for. -/
def SegmentText (seg t : Str) : Prop :=
  PathBytes (seg.flatMap String.utf8EncodeChar) (t.flatMap String.utf8EncodeChar)

/-- One segment of a path. -/
def Segment (seg : Str) : Prop := seg ≠ [] ∧ '/' ∉ seg

/-- The path is the fixed beginning and one segment. -/
def Under (front path seg : Str) : Prop := path = front ++ seg ∧ Segment seg

/-- Paths that are for GET. -/
def ForGet (path : Str) : Prop :=
  path = c!"/health" ∨ ∃ seg, Under c!"/request/" path seg ∨ Under c!"/status/" path seg

/-- Paths that are for POST. -/
def ForPost (path : Str) : Prop := path = c!"/initiate" ∨ ∃ seg, Under c!"/response/" path seg

/-- A body that asks for a session with this nonce, or none: it begins with a JSON object or array,
whatever follows. -/
def NonceBody (body : Bytes) (nonce : Option Str) : Prop :=
  ∃ w t rest j field, body = utf8 (w ++ t ++ rest) ∧ Space w ∧ RawNested 127 t j ∧
    FieldsOnce [c!"nonce"] j field ∧ Optional field c!"nonce" IsText nonce

/-- The document of an error. -/
def ErrorDoc (message : Str) (doc : Json) : Prop := ObjectOf [(c!"error", .str message)] doc

/-- The document of a status. -/
inductive StatusPage : Status → Json → Prop
  | byReference {doc} : ObjectOf [(c!"status", .str c!"sent_request_by_reference"),
      (c!"message", .str c!"Waiting for wallet to fetch request")] doc → StatusPage .sentRequestByReference doc
  | sent {doc} : ObjectOf [(c!"status", .str c!"sent_request"),
      (c!"message", .str c!"Request sent to wallet, waiting for response")] doc → StatusPage .sentRequest doc
  | received {doc} : ObjectOf [(c!"status", .str c!"received_response"),
      (c!"message", .str c!"Response received, processing")] doc → StatusPage .receivedResponse doc
  | success {info doc} : ObjectOf [(c!"status", .str c!"complete"), (c!"result", .str c!"success"),
      (c!"info", info)] doc → StatusPage (.complete (.success info)) doc
  | failure {reason doc} : ObjectOf [(c!"status", .str c!"complete"), (c!"result", .str c!"failure"),
      (c!"reason", .str reason)] doc → StatusPage (.complete (.failure reason)) doc
  | error {cause doc} : ObjectOf [(c!"status", .str c!"complete"), (c!"result", .str c!"error"),
      (c!"cause", .str cause)] doc → StatusPage (.complete (.error cause)) doc

/-- What the verifier concludes from a response. -/
inductive Verdict (decrypt : Str → Res Bytes) : AuthorizationResponse → Outcome → Prop
  | plain {r info} : ObjectOf [(c!"message", .str c!"Verification successful"),
      (c!"credentials_received", .int r.vpToken.map.length)] info →
      Verdict decrypt (.unencoded r) (.success info)
  | decrypted {jwe t j info} : decrypt jwe = .ok (utf8 t) → JsonText t j →
      ObjectOf [(c!"message", .str c!"JARM response decrypted and verified"), (c!"decrypted_payload", j)] info →
      Verdict decrypt (.jwt jwe) (.success info)
  | undecryptable {jwe} : (∀ t j, decrypt jwe = .ok (utf8 t) → ¬ JsonText t j) →
      Verdict decrypt (.jwt jwe) (.error c!"Failed to decrypt JARM: ")

/-- What GET does: the sessions afterwards and the answer. -/
inductive VerifierGets (srv : Server) (c : Call) (σ σ' : Store) : Nat → Body → Prop
  | health {doc} : c.path = c!"/health" → Unchanged σ σ' →
      ObjectOf [(c!"status", .str c!"ok"), (c!"service", .str c!"verifier-conformance-adapter")] doc →
      VerifierGets srv c σ σ' 200 (.json doc)
  | undecodable {seg} : Under c!"/request/" c.path seg ∨ Under c!"/status/" c.path seg →
      (∀ t, ¬ SegmentText seg t) → Unchanged σ σ' → VerifierGets srv c σ σ' 400 .none
  | noId {seg t doc} : Under c!"/request/" c.path seg ∨ Under c!"/status/" c.path seg → SegmentText seg t →
      NoUuid t → Unchanged σ σ' → ErrorDoc c!"Invalid session ID" doc → VerifierGets srv c σ σ' 400 (.json doc)
  | unknown {seg t doc} : Under c!"/request/" c.path seg ∨ Under c!"/status/" c.path seg → SegmentText seg t →
      Unknown σ t → Unchanged σ σ' → ErrorDoc (c!"Session not found: " ++ srv.detail c) doc →
      VerifierGets srv c σ σ' 404 (.json doc)
  | firstFetch {seg t u s} : Under c!"/request/" c.path seg → SegmentText seg t → Known σ t u s →
      s.status = .sentRequestByReference → Became σ σ' u { s with status := .sentRequest } →
      VerifierGets srv c σ σ' 200 (.jwt s.jwt)
  | fetch {seg t u s} : Under c!"/request/" c.path seg → SegmentText seg t → Known σ t u s →
      s.status ≠ .sentRequestByReference → Unchanged σ σ' → VerifierGets srv c σ σ' 200 (.jwt s.jwt)
  | status {seg t u s doc} : Under c!"/status/" c.path seg → SegmentText seg t → Known σ t u s →
      Unchanged σ σ' → StatusPage s.status doc → VerifierGets srv c σ σ' 200 (.json doc)

/-- What POST does. Beginning a session is described by C62. -/
inductive VerifierPosts (srv : Server) (id drawn : Uuid) (c : Call) (σ σ' : Store) : Nat → Body → Prop
  | otherType : c.path = c!"/initiate" → (∀ t, c.contentType = some t → srv.isJson t = false) →
      Unchanged σ σ' → VerifierPosts srv id drawn c σ σ' 415 .none
  | largeJson {t} : c.path = c!"/initiate" → c.contentType = some t → srv.isJson t = true →
      2097152 < c.body.length → Unchanged σ σ' → VerifierPosts srv id drawn c σ σ' 413 .none
  | unreadable {t} : c.path = c!"/initiate" → c.contentType = some t → srv.isJson t = true →
      c.body.length ≤ 2097152 → (∀ n, ¬ NonceBody c.body n) → Unchanged σ σ' →
      VerifierPosts srv id drawn c σ σ' (if srv.badJson c.body then 400 else 422) .none
  | begun {t n τ sid auth st doc} : c.path = c!"/initiate" → c.contentType = some t → srv.isJson t = true →
      c.body.length ≤ 2097152 → NonceBody c.body n →
      VerifierApp.initiate srv.app n id drawn.print σ = (τ, .ok (sid, auth, st)) → Unchanged τ σ' →
      ObjectOf [(c!"session_id", .str sid), (c!"authorization_url", .str auth), (c!"status_url", .str st)] doc →
      VerifierPosts srv id drawn c σ σ' 200 (.json doc)
  | notBegun {t n τ e doc} : c.path = c!"/initiate" → c.contentType = some t → srv.isJson t = true →
      c.body.length ≤ 2097152 → NonceBody c.body n →
      VerifierApp.initiate srv.app n id drawn.print σ = (τ, .error e) → Unchanged τ σ' →
      ErrorDoc (srv.detail c) doc → VerifierPosts srv id drawn c σ σ' 500 (.json doc)
  | undecodable {seg} : Under c!"/response/" c.path seg → (∀ t, ¬ SegmentText seg t) → Unchanged σ σ' →
      VerifierPosts srv id drawn c σ σ' 400 .none
  | large {seg t} : Under c!"/response/" c.path seg → SegmentText seg t → 2097152 < c.body.length →
      Unchanged σ σ' → VerifierPosts srv id drawn c σ σ' 413 .none
  | notText {seg t} : Under c!"/response/" c.path seg → SegmentText seg t → c.body.length ≤ 2097152 →
      (∀ t, c.body ≠ utf8 t) → Unchanged σ σ' → VerifierPosts srv id drawn c σ σ' 400 .none
  | noId {seg t b doc} : Under c!"/response/" c.path seg → SegmentText seg t → c.body.length ≤ 2097152 →
      c.body = utf8 b → NoUuid t → Unchanged σ σ' → ErrorDoc c!"Invalid session ID" doc →
      VerifierPosts srv id drawn c σ σ' 400 (.json doc)
  | noResponse {seg t u b doc} : Under c!"/response/" c.path seg → SegmentText seg t →
      c.body.length ≤ 2097152 → c.body = utf8 b → UuidText t u → (∀ r, ¬ Carries c.body r) → Unchanged σ σ' →
      ErrorDoc (c!"Invalid authorization response: " ++ srv.detail c) doc →
      VerifierPosts srv id drawn c σ σ' 400 (.json doc)
  | unknown {seg t r doc} : Under c!"/response/" c.path seg → SegmentText seg t → c.body.length ≤ 2097152 →
      Unknown σ t → Carries c.body r → Unchanged σ σ' →
      ErrorDoc (c!"Verification failed: " ++ srv.detail c) doc → VerifierPosts srv id drawn c σ σ' 500 (.json doc)
  | taken {seg t u s r o doc} : Under c!"/response/" c.path seg → SegmentText seg t →
      c.body.length ≤ 2097152 → Known σ t u s → Carries c.body r → Verdict srv.app.decrypt r o →
      Became σ σ' u { s with status := .complete o } → ObjectOf [] doc →
      VerifierPosts srv id drawn c σ σ' 200 (.json doc)

/-- What the server does with a request. -/
inductive VerifierServes (srv : Server) (id drawn : Uuid) (c : Call) (σ σ' : Store) : Reply → Prop
  | preflight : c.method = c!"OPTIONS" → Unchanged σ σ' → VerifierServes srv id drawn c σ σ' ⟨200, .none⟩
  | get {status body} : c.method = c!"GET" → VerifierGets srv c σ σ' status body →
      VerifierServes srv id drawn c σ σ' ⟨status, body⟩
  | head {status body} : c.method = c!"HEAD" → VerifierGets srv c σ σ' status body →
      VerifierServes srv id drawn c σ σ' ⟨status, .none⟩
  | post {status body} : c.method = c!"POST" → VerifierPosts srv id drawn c σ σ' status body →
      VerifierServes srv id drawn c σ σ' ⟨status, body⟩
  | otherMethod : c.method ≠ c!"OPTIONS" →
      (ForGet c.path ∧ c.method ∉ [c!"GET", c!"HEAD"]) ∨ (ForPost c.path ∧ c.method ≠ c!"POST") →
      Unchanged σ σ' → VerifierServes srv id drawn c σ σ' ⟨405, .none⟩
  | nowhere : c.method ≠ c!"OPTIONS" → ¬ ForGet c.path → ¬ ForPost c.path → Unchanged σ σ' →
      VerifierServes srv id drawn c σ σ' ⟨404, .none⟩

/-- The path is that of the session under the route. -/
def ForSession (front : Str) (u : Uuid) (c : Call) : Prop :=
  ∃ seg t, Under front c.path seg ∧ SegmentText seg t ∧ UuidText t u

/-- The request delivers a response for the session. -/
def Submits (u : Uuid) (r : AuthorizationResponse) (c : Call) : Prop :=
  c.method = c!"POST" ∧ ForSession c!"/response/" u c ∧ c.body.length ≤ 2097152 ∧ Carries c.body r

/-- The request is for the request object of the session. -/
def Asks (u : Uuid) (c : Call) : Prop := c.method ∈ [c!"GET", c!"HEAD"] ∧ ForSession c!"/request/" u c

/-- The request is for a new session. -/
def Begins (c : Call) : Prop := c.method = c!"POST" ∧ c.path = c!"/initiate"

/-- None of the requests makes a session with this id. -/
def NotDrawn (u : Uuid) (rs : List (Uuid × Uuid × Call)) : Prop := ∀ x ∈ rs, Begins x.2.2 → x.1 ≠ u

end Oid4vp.Spec
