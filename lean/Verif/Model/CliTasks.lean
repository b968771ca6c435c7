import Verif.Model.CliHttp
/-!
# The command-line verifier with several requests at once (examples/cli-verifier/main.rs)

`axum::serve` runs every connection as a task of the multi-threaded `tokio` runtime
(examples/cli-verifier/main.rs:682,783), so handlers interleave. They share the session store, the
displayed status behind its mutex, the console and the notification of completion.
-/

set_option autoImplicit false

namespace Oid4vp.CliTasks
open WalletApp (Call)
open VerifierHttp (segmentAfter sessionOf maxBody)
open Cli (Display)
open CliHttp (Reply Body failure)

/-- What a handler goes on with after it has printed a status (examples/cli-verifier/main.rs:210-216,
232,250,261). -/
inductive After where
  | answer (jwt : Str)
  | parse (u : Uuid)
  | notify (u : Uuid) (o : Outcome)
deriving DecidableEq, Repr

/-- The point a handler has reached, between two accesses to something shared. -/
inductive Point where
  /-- before `get_session` of `retrieve_authorization_request` (src/verifier/mod.rs:80-84) -/
  | fetch (u : Uuid)
  /-- before its `update_status` (src/verifier/mod.rs:85-90) -/
  | fetchGot (u : Uuid) (s : Session)
  /-- before `update_status` (examples/cli-verifier/main.rs:208) -/
  | fetched (jwt : Str)
  /-- before `get_status` (examples/cli-verifier/main.rs:209,230,249,260) -/
  | tell (k : After)
  /-- before `print_status_update` of what it got (the same lines) -/
  | print (d : Display) (k : After)
  /-- before `update_status` (examples/cli-verifier/main.rs:229) -/
  | respond (u : Uuid)
  /-- before the body is parsed (examples/cli-verifier/main.rs:232-233) -/
  | parse (u : Uuid)
  /-- before `get_session` of `verify_response` (src/verifier/mod.rs:122) -/
  | lookUp (u : Uuid) (r : AuthorizationResponse)
  /-- before `update_status` of the validator (examples/cli-verifier/main.rs:238-259) -/
  | judge (u : Uuid) (r : AuthorizationResponse)
  /-- before `notify_complete` (examples/cli-verifier/main.rs:250,261) -/
  | notify (u : Uuid) (o : Outcome)
  /-- before `update_status` of `verify_response` (src/verifier/mod.rs:126-128) -/
  | record (u : Uuid) (o : Outcome)
  | done (rep : Reply)
deriving DecidableEq, Repr

/-- The running program: `AppState` (examples/cli-verifier/main.rs:151-156), what was printed since the
server started, whether `main` has left its `select!` (examples/cli-verifier/main.rs:782-796) and the process
has ended, and the requests with the points of their handlers. -/
structure Server where
  store : Store
  display : Display
  shown : List Display
  notified : Bool
  stopped : Bool
  exited : Bool
  tasks : List (Call × Point)
deriving DecidableEq, Repr

/-- Where the handling of a request begins: routing and extractors as in `CliHttp.serve`
(examples/cli-verifier/main.rs:194-199,220-227,304-311). -/
def enter (c : Call) : Point :=
  if c.method = c!"OPTIONS" then .done ⟨200, .none⟩
  else match segmentAfter c!"/request/" c.path with
    | some seg =>
      if c.method = c!"GET" ∨ c.method = c!"HEAD" then
        match sessionOf seg with
        | none => .done ⟨400, .none⟩
        | some session => match Uuid.parse session with
          | none => .done (failure c!"Invalid session ID")
          | some u => .fetch u
      else .done ⟨405, .none⟩
    | none => match segmentAfter c!"/response/" c.path with
      | some seg =>
        if c.method = c!"POST" then
          match sessionOf seg with
          | none => .done ⟨400, .none⟩
          | some session =>
            if maxBody < c.body.length then .done ⟨413, .none⟩
            else match utf8Dec c.body with
              | none => .done ⟨400, .none⟩
              | some _ => match Uuid.parse session with
                | none => .done (failure c!"Invalid session ID")
                | some u => .respond u
        else .done ⟨405, .none⟩
      | none => .done ⟨404, .none⟩

/-- After printing (see `After`). -/
def After.go : After → Point
  | .answer jwt => .done ⟨200, .jwt jwt⟩
  | .parse u => .parse u
  | .notify u o => .notify u o

/-- One step of the handler of a request (examples/cli-verifier/main.rs:194-272; src/verifier/mod.rs:79-92,
112-129). `busy`: another thread holds the lock of the session store at that moment (`try_lock`,
src/verifier/session.rs:46-76). The mutex of the displayed status is waited for. The lines of one status are
printed at once. -/
def step (ord : MapOrder) (busy : Bool) (c : Call) (w : Server) : Point → Server × Point
  | .fetch u => match w.store.getSession busy u with
    | .error _ => (w, .done (failure c!"Failed to retrieve authorization request"))
    | .ok s => (w, if s.status.lt .sentRequest then .fetchGot u s else .fetched s.jwt)
  | .fetchGot u s => match w.store.updateStatus busy u .sentRequest with
    | (σ, .error _) => ({ w with store := σ }, .done (failure c!"Failed to retrieve authorization request"))
    | (σ, .ok ()) => ({ w with store := σ }, .fetched s.jwt)
  | .fetched jwt => ({ w with display := .requestFetched }, .tell (.answer jwt))
  | .tell k => (w, .print w.display k)
  | .print d k => ({ w with shown := w.shown ++ [d] }, k.go)
  | .respond u => ({ w with display := .responseReceived }, .tell (.parse u))
  | .parse u => match AuthorizationResponse.ofForm c.body with
    | .error _ => (w, .done (failure c!"Failed to parse authorization response"))
    | .ok r => (w, .lookUp u r)
  | .lookUp u r => match w.store.getSession busy u with
    | .error _ => (w, .done (failure c!"Failed to verify response"))
    | .ok _ => (w, .judge u r)
  | .judge u r => ({ w with display := Cli.displayOf (Cli.outcome ord r) }, .tell (.notify u (Cli.outcome ord r)))
  | .notify u o => ({ w with notified := true }, .record u o)
  | .record u o => match w.store.updateStatus busy u (.complete o) with
    | (σ, .error _) => ({ w with store := σ }, .done (failure c!"Failed to verify response"))
    | (σ, .ok ()) => ({ w with store := σ }, .done ⟨200, .json (.obj [])⟩)
  | .done rep => (w, .done rep)

/-- What is sent for a request once its handler is done: HEAD gets no body (`axum`). -/
def sent (c : Call) (rep : Reply) : Reply :=
  if c.method = c!"HEAD" then { rep with body := .none } else rep

/-- What happens next: a request comes, the `i`-th handler takes a step or is dropped (the connection is
closed), `main` leaves `select!`, or the process ends. -/
inductive Move where
  | arrive (c : Call)
  | step (i : Nat) (busy : Bool)
  | abandon (i : Nat)
  | main
  | exit
deriving DecidableEq, Repr

/-- The effect (examples/cli-verifier/main.rs:186-188,782-799): `main` leaves `select!` only if completion was
notified; the process ends only after that, with everything that runs. Interruption and failures of the
listener are not modelled. -/
def next (ord : MapOrder) (w : Server) (e : Move) : Server :=
  if w.exited then w
  else match e with
    | .arrive c => { w with tasks := w.tasks ++ [(c, enter c)] }
    | .step i busy => match w.tasks[i]? with
      | none => w
      | some (c, p) => match step ord busy c w p with
        | (w', p') => { w' with tasks := w.tasks.set i (c, p') }
    | .abandon i => { w with tasks := w.tasks.eraseIdx i }
    | .main => { w with stopped := w.stopped || w.notified }
    | .exit => { w with exited := w.stopped }

/-- A whole execution. -/
def run (ord : MapOrder) (w : Server) (es : List Move) : Server := es.foldl (next ord) w

/-- The server when it starts (examples/cli-verifier/main.rs:769-781). -/
def begin (σ : Store) : Server := ⟨σ, .waitingForWallet, [], false, false, false, []⟩

end Oid4vp.CliTasks
