import Verif.Model.VerifierHttp
/-!
# The example verifier with several requests at once (examples/verifier-conformance-adapter)

`axum::serve` runs every connection as a task of the multi-threaded `tokio` runtime
(examples/verifier-conformance-adapter/main.rs:39-66), so handlers interleave. They share the session store.
-/

set_option autoImplicit false

namespace Oid4vp.VerifierTasks
open WalletApp (Call)
open VerifierHttp (Server Reply Body routeOf sessionOf maxBody initiateBody failure badId health)

/-- A request, with the ids that would be drawn for its session and its nonce. -/
abbrev Arrival := Uuid × Uuid × Call

/-- The point a handler has reached, between two accesses to the session store. -/
inductive Point where
  /-- before `build` (examples/verifier-conformance-adapter/server/handlers.rs:65-71) -/
  | create (nonce : Option Str)
  /-- before `get_session` of `retrieve_authorization_request` (src/verifier/mod.rs:80-84) -/
  | fetch (u : Uuid)
  /-- before its `update_status` (src/verifier/mod.rs:85-90) -/
  | fetchGot (u : Uuid) (s : Session)
  /-- before `poll_status` (examples/verifier-conformance-adapter/server/handlers.rs:238-242) -/
  | poll (u : Uuid)
  /-- before `get_session` of `verify_response` (src/verifier/mod.rs:122) -/
  | lookUp (u : Uuid) (r : AuthorizationResponse)
  /-- before its `update_status`, with the outcome of the validator (src/verifier/mod.rs:124-128) -/
  | record (u : Uuid) (o : Outcome)
  | done (rep : Reply)
deriving DecidableEq, Repr

/-- The running server: the sessions, and the requests with the points of their handlers. -/
structure Running where
  store : Store
  tasks : List (Arrival × Point)
deriving DecidableEq, Repr

/-- Where the handling of a request begins: routing, extractors and what the handlers do before they
look at the session store, as in `VerifierHttp.serve`
(examples/verifier-conformance-adapter/server/mod.rs:15-34,
examples/verifier-conformance-adapter/server/handlers.rs:47-64,93-101,126-145,230-236). -/
def enter (srv : Server) (c : Call) : Point :=
  if c.method = c!"OPTIONS" then .done ⟨200, .none⟩
  else match routeOf c.path with
    | none => .done ⟨404, .none⟩
    | some .initiate =>
      if c.method = c!"POST" then
        if c.contentType.any srv.isJson then
          if maxBody < c.body.length then .done ⟨413, .none⟩
          else match initiateBody c.body with
            | .error _ => .done ⟨if srv.badJson c.body then 400 else 422, .none⟩
            | .ok nonce => .create nonce
        else .done ⟨415, .none⟩
      else .done ⟨405, .none⟩
    | some (.request seg) =>
      if c.method = c!"GET" ∨ c.method = c!"HEAD" then
        match sessionOf seg with
        | none => .done ⟨400, .none⟩
        | some session => match Uuid.parse session with
          | none => .done badId
          | some u => .fetch u
      else .done ⟨405, .none⟩
    | some (.response seg) =>
      if c.method = c!"POST" then
        match sessionOf seg with
        | none => .done ⟨400, .none⟩
        | some session =>
          if maxBody < c.body.length then .done ⟨413, .none⟩
          else match utf8Dec c.body with
            | none => .done ⟨400, .none⟩
            | some _ => match Uuid.parse session with
              | none => .done badId
              | some u => match AuthorizationResponse.ofForm c.body with
                | .error _ => .done (failure 400 (c!"Invalid authorization response: " ++ srv.detail c))
                | .ok r => .lookUp u r
      else .done ⟨405, .none⟩
    | some (.status seg) =>
      if c.method = c!"GET" ∨ c.method = c!"HEAD" then
        match sessionOf seg with
        | none => .done ⟨400, .none⟩
        | some session => match Uuid.parse session with
          | none => .done badId
          | some u => .poll u
      else .done ⟨405, .none⟩
    | some .health =>
      if c.method = c!"GET" ∨ c.method = c!"HEAD" then .done health else .done ⟨405, .none⟩

/-- `initiate_request` from the builder on (examples/verifier-conformance-adapter/server/handlers.rs:51-86), `build` as in
`RequestBuilder.buildWithSessionId`.
`busy`: another thread holds the lock of the session store when the session is to be stored (`try_lock`,
src/verifier/session.rs:48); the text of that error is the context the builder gives it
(src/verifier/request_builder.rs:167-171). -/
def create (srv : Server) (busy : Bool) (x : Arrival) (nonce : Option Str) (σ : Store) : Store × Reply :=
  let b := ((RequestBuilder.new srv.app.verifier).withDcqlQuery VerifierApp.pidQuery).withRequestParameter
    (Nonce.mk (unwrapOr x.2.1.print nonce))
  match b.construct srv.app.verifier x.1 srv.app.walletMetadata with
  | .error _ => (σ, failure 500 (srv.detail x.2.2))
  | .ok (s, url) => match σ.initiate busy s with
    | (σ, .error _) => (σ, failure 500 c!"failed to store the session in the session store")
    | (σ, .ok ()) => (σ, ⟨200, .json (.obj [(c!"authorization_url", .str url.print),
        (c!"session_id", .str x.1.print),
        (c!"status_url", .str (srv.app.publicUrl.print ++ (c!"/status/" ++ x.1.print)))])⟩)

/-- The text of an error: that of the lock, if it was held. The other texts are not modelled. -/
def textOf (srv : Server) (busy : Bool) (locked : Str) (x : Arrival) : Str :=
  if busy then locked else srv.detail x.2.2

/-- One step of the handler of a request (examples/verifier-conformance-adapter/server/handlers.rs:66-86,
103-120,147-225,238-277; src/verifier/mod.rs:50-55,79-92,112-129). `busy`: another thread holds the lock of
the session store at that moment (`try_lock`, src/verifier/session.rs:46-68; `tokio`'s error reads
"operation would block"). -/
def step (srv : Server) (busy : Bool) (x : Arrival) (σ : Store) : Point → Store × Point
  | .create nonce => match create srv busy x nonce σ with
    | (σ, rep) => (σ, .done rep)
  | .fetch u => match σ.getSession busy u with
    | .error _ => (σ, .done (failure 404 (c!"Session not found: " ++
        textOf srv busy c!"failed to retrieve session" x)))
    | .ok s => (σ, if s.status.lt .sentRequest then .fetchGot u s else .done ⟨200, .jwt s.jwt⟩)
  | .fetchGot u s => match σ.updateStatus busy u .sentRequest with
    | (σ, .error _) => (σ, .done (failure 404 (c!"Session not found: " ++
        textOf srv busy c!"failed to update session status" x)))
    | (σ, .ok ()) => (σ, .done ⟨200, .jwt s.jwt⟩)
  | .poll u => match σ.getSession busy u with
    | .error _ => (σ, .done (failure 404 (c!"Session not found: " ++ textOf srv busy c!"operation would block" x)))
    | .ok s => (σ, .done ⟨200, .json (VerifierApp.statusJson s.status)⟩)
  | .lookUp u r => match σ.getSession busy u with
    | .error _ => (σ, .done (failure 500 (c!"Verification failed: " ++ textOf srv busy c!"operation would block" x)))
    | .ok s => (σ, .record u (VerifierApp.validator srv.app.decrypt s r))
  | .record u o => match σ.updateStatus busy u (.complete o) with
    | (σ, .error _) =>
      (σ, .done (failure 500 (c!"Verification failed: " ++ textOf srv busy c!"operation would block" x)))
    | (σ, .ok ()) => (σ, .done ⟨200, .json (.obj [])⟩)
  | .done rep => (σ, .done rep)

/-- What is sent for a request once its handler is done: HEAD gets no body (`axum`). -/
def sent (x : Arrival) (rep : Reply) : Reply :=
  if x.2.2.method = c!"HEAD" then { rep with body := .none } else rep

/-- What happens next: a request comes, or the `i`-th handler takes a step or is dropped (the connection is
closed). -/
inductive Move where
  | arrive (x : Arrival)
  | step (i : Nat) (busy : Bool)
  | abandon (i : Nat)
deriving DecidableEq, Repr

/-- The effect. The end of the process is not modelled. -/
def next (srv : Server) (w : Running) : Move → Running
  | .arrive x => ⟨w.store, w.tasks ++ [(x, enter srv x.2.2)]⟩
  | .step i busy => match w.tasks[i]? with
    | none => w
    | some (x, p) => match step srv busy x w.store p with
      | (σ, p') => ⟨σ, w.tasks.set i (x, p')⟩
  | .abandon i => ⟨w.store, w.tasks.eraseIdx i⟩

/-- A whole execution. -/
def run (srv : Server) (w : Running) (es : List Move) : Running := es.foldl (next srv) w

/-- The server with these sessions and no request. -/
def begin (σ : Store) : Running := ⟨σ, []⟩

end Oid4vp.VerifierTasks
