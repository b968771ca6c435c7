import Verif.Model.Response
import Verif.Model.Verification
/-!
# Sessions, session store, verifier and request builder

* openid4vp-frontend/src/lib.rs
* src/verifier/session.rs, src/verifier/mod.rs, src/verifier/request_builder.rs,
  src/verifier/by_reference.rs
-/

set_option autoImplicit false

namespace Oid4vp

/-! ## Status and outcome -/

/-- `Outcome` (openid4vp-frontend/src/lib.rs:21-28). -/
inductive Outcome where
  | error (cause : Str)
  | failure (reason : Str)
  | success (info : Json)
deriving DecidableEq, Repr

/-- `Outcome::ordering` (openid4vp-frontend/src/lib.rs:37-43). -/
def Outcome.ordering : Outcome → Nat
  | .error _ => 0
  | .failure _ => 1
  | .success _ => 2

/-- `PartialEq for Outcome` (openid4vp-frontend/src/lib.rs:30-34): same variant. -/
def Outcome.eq : Outcome → Outcome → Bool
  | .error _, .error _ => true
  | .failure _, .failure _ => true
  | .success _, .success _ => true
  | _, _ => false

/-- `PartialOrd for Outcome` (openid4vp-frontend/src/lib.rs:46-50). -/
def Outcome.partialCmp (a b : Outcome) : Option Ordering :=
  some (compare a.ordering b.ordering)

/-- `Status` (openid4vp-frontend/src/lib.rs:8-17). -/
inductive Status where
  | sentRequestByReference
  | sentRequest
  | receivedResponse
  | complete (o : Outcome)
deriving DecidableEq, Repr

/-- Index of the variant of a status (used by the derived comparison). -/
def Status.variant : Status → Nat
  | .sentRequestByReference => 0
  | .sentRequest => 1
  | .receivedResponse => 2
  | .complete _ => 3

/-- Derived `PartialEq` (openid4vp-frontend/src/lib.rs:7). -/
def Status.eq : Status → Status → Bool
  | .complete a, .complete b => a.eq b
  | a, b => a.variant = b.variant

/-- Derived `PartialOrd` (openid4vp-frontend/src/lib.rs:7): by variant, then by outcome. -/
def Status.partialCmp : Status → Status → Option Ordering
  | .complete a, .complete b => a.partialCmp b
  | a, b => some (compare a.variant b.variant)

/-- The operator `<` on statuses, as derived from `partial_cmp`. -/
def Status.lt (a b : Status) : Bool := a.partialCmp b = some .lt

/-! ## Store -/

/-- `Session` (src/verifier/session.rs:12-18). -/
structure Session where
  uuid : Uuid
  status : Status
  jwt : Str
  requestObject : RequestObject
  dcqlQuery : DcqlQuery
deriving DecidableEq, Repr

/-- `BTreeMap<Uuid, Session>` of `MemoryStore` (src/verifier/session.rs:42-44). The order of
the entries is not observable, the model keeps insertion order. -/
abbrev Store := List (Uuid × Session)

namespace Store
/-- `BTreeMap::get`. -/
def get (u : Uuid) : Store → Option Session
  | [] => none
  | (k, s) :: m => if u = k then some s else get u m

/-- `BTreeMap::insert`. -/
def insert (u : Uuid) (s : Session) : Store → Store
  | [] => [(u, s)]
  | (k, t) :: m => if u = k then (u, s) :: m else (k, t) :: insert u s m

/-- `BTreeMap::remove`. -/
def remove (u : Uuid) : Store → Store
  | [] => []
  | (k, t) :: m => if u = k then m else (k, t) :: remove u m

/-- `MemoryStore::initiate` (src/verifier/session.rs:48-52). `busy` says whether `try_lock`
fails because the lock is taken. -/
def initiate (busy : Bool) (s : Session) (σ : Store) : Store × Res Unit :=
  if busy then (σ, .error .locked) else (σ.insert s.uuid s, .ok ())

/-- `MemoryStore::update_status` (src/verifier/session.rs:54-60). -/
def updateStatus (busy : Bool) (u : Uuid) (st : Status) (σ : Store) : Store × Res Unit :=
  if busy then (σ, .error .locked)
  else match σ.get u with
    | some s => (σ.insert u { s with status := st }, .ok ())
    | none => (σ, .error .notFound)

/-- `MemoryStore::get_session` (src/verifier/session.rs:62-68). -/
def getSession (busy : Bool) (u : Uuid) (σ : Store) : Res Session :=
  if busy then .error .locked
  else match σ.get u with
    | some s => .ok s
    | none => .error .notFound

/-- `MemoryStore::remove_session` (src/verifier/session.rs:70-76). -/
def removeSession (busy : Bool) (u : Uuid) (σ : Store) : Store × Res Unit :=
  if busy then (σ, .error .locked)
  else match σ.get u with
    | some _ => (σ.remove u, .ok ())
    | none => (σ, .error .notFound)
end Store

/-! ## Verifier and its builder -/

/-- `ByReference` (src/verifier/by_reference.rs:3-10). -/
inductive ByReference where
  | no
  | at (url : Url)
deriving DecidableEq, Repr

/-- `Verifier` (src/verifier/mod.rs:25-31); the session store is passed separately. -/
structure Verifier where
  client : Client
  defaults : UntypedObject
  passByReference : ByReference
  submissionEndpoint : Url

/-- `VerifierBuilder` (src/verifier/mod.rs:134-140); of the session store only its presence
matters here. -/
structure VerifierBuilder where
  client : Option Client := none
  defaults : UntypedObject := []
  passByReference : ByReference := .no
  hasStore : Bool := false
  submissionEndpoint : Option Url := none

namespace VerifierBuilder
/-- `build` (src/verifier/mod.rs:144-172). -/
def build (b : VerifierBuilder) : Res Verifier :=
  match b.client with
  | none => .error .missing
  | some c =>
    if b.hasStore then
      match b.submissionEndpoint with
      | none => .error .missing
      | some u => .ok ⟨c, b.defaults, b.passByReference, u⟩
    else .error .missing

/-- `by_value` (src/verifier/mod.rs:175-178). -/
def byValue (b : VerifierBuilder) : VerifierBuilder := { b with passByReference := .no }
/-- `by_reference` (src/verifier/mod.rs:181-184). -/
def byReference (at_ : Url) (b : VerifierBuilder) : VerifierBuilder :=
  { b with passByReference := .at at_ }
/-- `with_default_request_parameter` (src/verifier/mod.rs:192-195). -/
def withDefaultRequestParameter {α : Type} [TypedParameter α] (t : α) (b : VerifierBuilder) :
    VerifierBuilder := { b with defaults := UntypedObject.put t b.defaults }
/-- `with_client` (src/verifier/mod.rs:199-202). -/
def withClient (c : Client) (b : VerifierBuilder) : VerifierBuilder := { b with client := some c }
/-- `with_session_store` (src/verifier/mod.rs:206-212). -/
def withSessionStore (b : VerifierBuilder) : VerifierBuilder := { b with hasStore := true }
/-- `with_submission_endpoint` (src/verifier/mod.rs:216-219). -/
def withSubmissionEndpoint (u : Url) (b : VerifierBuilder) : VerifierBuilder :=
  { b with submissionEndpoint := some u }
end VerifierBuilder

/-! ## Request builder -/

/-- `RequestBuilder` (src/verifier/request_builder.rs:25-29); the verifier it borrows is
passed separately. -/
structure RequestBuilder where
  dcqlQuery : Option DcqlQuery
  params : UntypedObject
deriving DecidableEq, Repr

namespace RequestBuilder

/-- `RequestBuilder::new` (src/verifier/request_builder.rs:32-38), reached by
`Verifier::build_authorization_request` (src/verifier/mod.rs:40-42). -/
def new (v : Verifier) : RequestBuilder := ⟨none, v.defaults⟩

/-- `with_dcql_query` (src/verifier/request_builder.rs:41-44). -/
def withDcqlQuery (q : DcqlQuery) (b : RequestBuilder) : RequestBuilder :=
  { b with dcqlQuery := some q }

/-- `with_request_parameter` (src/verifier/request_builder.rs:47-50). -/
def withRequestParameter {α : Type} [TypedParameter α] (t : α) (b : RequestBuilder) :
    RequestBuilder := { b with params := UntypedObject.put t b.params }

/-- The parameters after `response_uri` has been decided
(src/verifier/request_builder.rs:87-105,195-213). -/
def setResponseUri (endpoint : Url) (uuid : Uuid) (mode : ResponseMode) (o : UntypedObject) :
    Res UntypedObject :=
  match mode with
  | .directPost | .directPostJwt =>
    match endpoint.pathPush uuid.print with
    | none => .error .parse
    | some uri => .ok (UntypedObject.put (ResponseUri.mk uri) o)
  | .dcApi | .dcApiJwt => .ok o
  | .unsupported _ => .error .unsupported

/-- The first part of building, common to `build_with_session_id` and `build_dc_api`
(src/verifier/request_builder.rs:70-105,179-213): the final parameters and the query. -/
def prepare (v : Verifier) (b : RequestBuilder) (uuid : Uuid) : Res (UntypedObject × DcqlQuery) :=
  let o := UntypedObject.put v.client.id b.params
  match b.dcqlQuery with
  | none => .error .missing
  | some q =>
    let o := UntypedObject.put q o
    match parsingError (UntypedObject.get ResponseType o) with
    | .error e => .error e
    | .ok _ => match parsingError (UntypedObject.get ResponseMode o) with
      | .error e => .error e
      | .ok mode => match setResponseUri v.submissionEndpoint uuid mode o with
        | .error e => .error e
        | .ok o => .ok (o, q)

/-- Indirection and initial status (src/verifier/request_builder.rs:129-145). -/
def indirection (v : Verifier) (uuid : Uuid) (jwt : Str) : Res (RequestIndirection × Status) :=
  match v.passByReference with
  | .no => .ok (.byValue jwt, .sentRequest)
  | .at url => match url.pathPush uuid.print with
    | none => .error .parse
    | some uri => .ok (.byReference uri, .sentRequestByReference)

/-- Everything `build_with_session_id` does before it stores the session
(src/verifier/request_builder.rs:70-165). -/
def construct (v : Verifier) (b : RequestBuilder) (uuid : Uuid) (wm : WalletMetadata) :
    Res (Session × Url) :=
  match prepare v b uuid with
  | .error e => .error e
  | .ok (o, q) =>
    match UntypedObject.getOrDefault ClientIdPrefixesSupported wm.inner with
    | .error e => .error e
    | .ok ps =>
      if ps.val.contains v.client.pre then
        match RequestObject.ofObject o with
        | .error e => .error e
        | .ok aro => match v.client.generate aro with
          | .error e => .error e
          | .ok jwt => match indirection v uuid jwt with
            | .error e => .error e
            | .ok (ind, st) =>
              match parsingError (UntypedObject.get AuthorizationEndpoint wm.inner) with
              | .error e => .error e
              | .ok ep =>
                match (AuthorizationRequest.mk (some v.client.id.val) ind).toUrl ep.val with
                | .error e => .error e
                | .ok url => .ok (⟨uuid, st, jwt, aro, q⟩, url)
      else .error .unsupported

/-- `build_with_session_id` (src/verifier/request_builder.rs:65-174), and `build`
(src/verifier/request_builder.rs:57-63) for the id it draws. `busy` says whether the store's lock
is taken. -/
def buildWithSessionId (v : Verifier) (b : RequestBuilder) (uuid : Uuid) (wm : WalletMetadata)
    (busy : Bool) (σ : Store) : Store × Res Url :=
  match construct v b uuid wm with
  | .error e => (σ, .error e)
  | .ok (s, url) => match σ.initiate busy s with
    | (σ', .error e) => (σ', .error e)
    | (σ', .ok ()) => (σ', .ok url)

/-- Everything `build_dc_api` does before it stores the session
(src/verifier/request_builder.rs:179-234). -/
def constructDcApi (v : Verifier) (b : RequestBuilder) (uuid : Uuid) : Res Session :=
  match prepare v b uuid with
  | .error e => .error e
  | .ok (o, q) => match RequestObject.ofObject o with
    | .error e => .error e
    | .ok aro => match v.client.generate aro with
      | .error e => .error e
      | .ok jwt => .ok ⟨uuid, .sentRequest, jwt, aro, q⟩

/-- `build_dc_api` (src/verifier/request_builder.rs:176-243) for the id it draws. -/
def buildDcApi (v : Verifier) (b : RequestBuilder) (uuid : Uuid) (busy : Bool) (σ : Store) :
    Store × Res (Uuid × Str) :=
  match constructDcApi v b uuid with
  | .error e => (σ, .error e)
  | .ok s => match σ.initiate busy s with
    | (σ', .error e) => (σ', .error e)
    | (σ', .ok ()) => (σ', .ok (uuid, s.jwt))

end RequestBuilder

/-! ## Verifier operations run alone -/

/-- `poll_status` (src/verifier/mod.rs:50-55). -/
def pollStatus (u : Uuid) (σ : Store) : Res Status :=
  (σ.getSession false u).map (·.status)

/-- `retrieve_authorization_request` (src/verifier/mod.rs:79-92), without contention. -/
def retrieve (u : Uuid) (σ : Store) : Store × Res Str :=
  match σ.getSession false u with
  | .error e => (σ, .error e)
  | .ok s =>
    if s.status.lt .sentRequest then
      match σ.updateStatus false u .sentRequest with
      | (σ', .error e) => (σ', .error e)
      | (σ', .ok ()) => (σ', .ok s.jwt)
    else (σ, .ok s.jwt)

/-- A response validator as passed to `verify_response`. -/
abbrev Validator := Session → AuthorizationResponse → Outcome

/-- `verify_response` (src/verifier/mod.rs:112-129), without contention. -/
def verifyResponse (u : Uuid) (r : AuthorizationResponse) (f : Validator) (σ : Store) :
    Store × Res Unit :=
  match σ.getSession false u with
  | .error e => (σ, .error e)
  | .ok s => σ.updateStatus false u (.complete (f s r))

/-! ## Concurrent operations

The futures of different operations interleave at their `await` points. The store's lock is
only held inside one store operation (src/verifier/session.rs:48-76), and `try_lock` makes
an operation fail when another thread holds the lock at that moment. -/

/-- An operation of the verifier or of the application on the store. -/
inductive Op where
  /-- the storing step of `build_with_session_id`/`build_dc_api`
  (src/verifier/request_builder.rs:167-171,236-240); everything before it does not touch the
  store -/
  | build (s : Session)
  /-- `poll_status` (src/verifier/mod.rs:50-55) -/
  | poll (u : Uuid)
  /-- `retrieve_authorization_request` (src/verifier/mod.rs:79-92) -/
  | retrieve (u : Uuid)
  /-- `verify_response` (src/verifier/mod.rs:112-129) -/
  | verify (u : Uuid) (r : AuthorizationResponse) (f : Validator)
  /-- `SessionStore::remove_session`, called by the application -/
  | remove (u : Uuid)

/-- A running operation: the point it has reached. -/
inductive Task where
  | start (op : Op)
  /-- `retrieve` after `get_session`, before `update_status` -/
  | retrieveGot (u : Uuid) (s : Session)
  /-- `verify` after `get_session`, before the validator has finished -/
  | verifyGot (u : Uuid) (s : Session) (r : AuthorizationResponse) (f : Validator)
  /-- `verify` after the validator, before `update_status` -/
  | verifyDone (u : Uuid) (o : Outcome)
  | finished

/-- Observable effects of the verifier's operations. -/
inductive VEvent where
  | initiated (s : Session)
  | statusSet (u : Uuid) (st : Status)
  | removed (u : Uuid)
  | polled (u : Uuid) (st : Status)
  | retrieved (u : Uuid) (jwt : Str)
  | validated (u : Uuid) (s : Session) (r : AuthorizationResponse) (o : Outcome)
  /-- an operation for `u` returned an error -/
  | failed (u : Uuid) (e : Err)

/-- `Result` to event: success yields `ev`, failure an error event. -/
def resEvent (u : Uuid) (ev : VEvent) : Res Unit → VEvent
  | .ok () => ev
  | .error e => .failed u e

/-- One step of a running operation, up to its next `await`. `busy` says whether the lock
is taken at that moment. -/
def taskStep (busy : Bool) (σ : Store) : Task → Store × Task × List VEvent
  | .start (.build s) =>
    let p := σ.initiate busy s
    (p.1, .finished, [resEvent s.uuid (.initiated s) p.2])
  | .start (.poll u) =>
    (σ, .finished, [match σ.getSession busy u with
      | .ok s => .polled u s.status
      | .error e => .failed u e])
  | .start (.retrieve u) => match σ.getSession busy u with
    | .error e => (σ, .finished, [.failed u e])
    | .ok s =>
      if s.status.lt .sentRequest then (σ, .retrieveGot u s, [])
      else (σ, .finished, [.retrieved u s.jwt])
  | .retrieveGot u s => match σ.updateStatus busy u .sentRequest with
    | (σ', .ok ()) => (σ', .finished, [.statusSet u .sentRequest, .retrieved u s.jwt])
    | (σ', .error e) => (σ', .finished, [.failed u e])
  | .start (.verify u r f) => match σ.getSession busy u with
    | .error e => (σ, .finished, [.failed u e])
    | .ok s => (σ, .verifyGot u s r f, [])
  | .verifyGot u s r f => (σ, .verifyDone u (f s r), [.validated u s r (f s r)])
  | .verifyDone u o =>
    let p := σ.updateStatus busy u (.complete o)
    (p.1, .finished, [resEvent u (.statusSet u (.complete o)) p.2])
  | .start (.remove u) =>
    let p := σ.removeSession busy u
    (p.1, .finished, [resEvent u (.removed u) p.2])
  | .finished => (σ, .finished, [])

/-- The verifier with its running operations. -/
structure World where
  store : Store
  tasks : List Task

/-- Scheduling: start an operation, let the `i`-th running operation take a step, or drop
it (the future is cancelled). -/
inductive Sched where
  | spawn (op : Op)
  | step (i : Nat) (busy : Bool)
  | abandon (i : Nat)

/-- Effect of one scheduling decision. -/
def World.next (w : World) : Sched → World × List VEvent
  | .spawn op => (⟨w.store, w.tasks ++ [.start op]⟩, [])
  | .step i busy => match w.tasks[i]? with
    | none => (w, [])
    | some t =>
      let p := taskStep busy w.store t
      (⟨p.1, w.tasks.set i p.2.1⟩, p.2.2)
  | .abandon i => (⟨w.store, w.tasks.eraseIdx i⟩, [])

/-- A whole execution: the final world and all effects in order. -/
def World.run (w : World) : List Sched → World × List VEvent
  | [] => (w, [])
  | s :: ss =>
    let p := w.next s
    let q := p.1.run ss
    (q.1, p.2 ++ q.2)

end Oid4vp
