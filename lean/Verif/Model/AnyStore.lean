import Verif.Model.Session
/-!
# The verifier over any session store

* src/verifier/session.rs (`trait SessionStore`), src/verifier/mod.rs,
  src/verifier/request_builder.rs

`Verif.Model.Session` runs the verifier over the bundled `MemoryStore`. An application may pass any
implementation of the trait (src/verifier/mod.rs:206-212); here the verifier's operations are run
over an arbitrary one.
-/

set_option autoImplicit false

namespace Oid4vp

/-- `trait SessionStore` (src/verifier/session.rs:20-34): an arbitrary implementation, as functions
of everything its answers depend on (`S`: its contents, its connections, its clock). -/
structure SessionStore (S : Type) where
  initiate : Session → S → S × Res Unit
  updateStatus : Uuid → Status → S → S × Res Unit
  getSession : Uuid → S → S × Res Session
  removeSession : Uuid → S → S × Res Unit

namespace SessionStore
variable {S : Type}

/-- `poll_status` (src/verifier/mod.rs:50-55). -/
def poll (st : SessionStore S) (u : Uuid) (x : S) : S × Res Status :=
  match st.getSession u x with
  | (y, .error e) => (y, .error e)
  | (y, .ok s) => (y, .ok s.status)

/-- `retrieve_authorization_request` (src/verifier/mod.rs:79-92). -/
def retrieve (st : SessionStore S) (u : Uuid) (x : S) : S × Res Str :=
  match st.getSession u x with
  | (y, .error e) => (y, .error e)
  | (y, .ok s) =>
    if s.status.lt .sentRequest then
      match st.updateStatus u .sentRequest y with
      | (z, .error e) => (z, .error e)
      | (z, .ok ()) => (z, .ok s.jwt)
    else (y, .ok s.jwt)

/-- `verify_response` (src/verifier/mod.rs:112-129). -/
def verify (st : SessionStore S) (u : Uuid) (r : AuthorizationResponse) (f : Validator) (x : S) :
    S × Res Unit :=
  match st.getSession u x with
  | (y, .error e) => (y, .error e)
  | (y, .ok s) => st.updateStatus u (.complete (f s r)) y

/-- `build_with_session_id` (src/verifier/request_builder.rs:65-174). -/
def build (st : SessionStore S) (v : Verifier) (b : RequestBuilder) (uuid : Uuid)
    (wm : WalletMetadata) (x : S) : S × Res Url :=
  match b.construct v uuid wm with
  | .error e => (x, .error e)
  | .ok (s, url) => match st.initiate s x with
    | (y, .error e) => (y, .error e)
    | (y, .ok ()) => (y, .ok url)

/-- `build_dc_api` (src/verifier/request_builder.rs:176-243) for the id it draws. -/
def buildDcApi (st : SessionStore S) (v : Verifier) (b : RequestBuilder) (uuid : Uuid) (x : S) :
    S × Res (Uuid × Str) :=
  match b.constructDcApi v uuid with
  | .error e => (x, .error e)
  | .ok s => match st.initiate s x with
    | (y, .error e) => (y, .error e)
    | (y, .ok ()) => (y, .ok (uuid, s.jwt))

/-- One step of a running operation, up to its next `await` (as `taskStep`). -/
def taskStep (st : SessionStore S) (x : S) : Task → S × Task × List VEvent
  | .start (.build s) =>
    let p := st.initiate s x
    (p.1, .finished, [resEvent s.uuid (.initiated s) p.2])
  | .start (.poll u) => match st.getSession u x with
    | (y, .ok s) => (y, .finished, [.polled u s.status])
    | (y, .error e) => (y, .finished, [.failed u e])
  | .start (.retrieve u) => match st.getSession u x with
    | (y, .error e) => (y, .finished, [.failed u e])
    | (y, .ok s) =>
      if s.status.lt .sentRequest then (y, .retrieveGot u s, [])
      else (y, .finished, [.retrieved u s.jwt])
  | .retrieveGot u s => match st.updateStatus u .sentRequest x with
    | (y, .ok ()) => (y, .finished, [.statusSet u .sentRequest, .retrieved u s.jwt])
    | (y, .error e) => (y, .finished, [.failed u e])
  | .start (.verify u r f) => match st.getSession u x with
    | (y, .error e) => (y, .finished, [.failed u e])
    | (y, .ok s) => (y, .verifyGot u s r f, [])
  | .verifyGot u s r f => (x, .verifyDone u (f s r), [.validated u s r (f s r)])
  | .verifyDone u o =>
    let p := st.updateStatus u (.complete o) x
    (p.1, .finished, [resEvent u (.statusSet u (.complete o)) p.2])
  | .start (.remove u) =>
    let p := st.removeSession u x
    (p.1, .finished, [resEvent u (.removed u) p.2])
  | .finished => (x, .finished, [])

/-- The verifier with its running operations. -/
structure World (S : Type) where
  store : S
  tasks : List Task

/-- Scheduling, as `Sched`; whether the store is available is the store's affair. -/
inductive Move where
  | spawn (op : Op)
  | step (i : Nat)
  | abandon (i : Nat)

/-- Effect of one scheduling decision. -/
def next (st : SessionStore S) (w : World S) : Move → World S × List VEvent
  | .spawn op => (⟨w.store, w.tasks ++ [.start op]⟩, [])
  | .step i => match w.tasks[i]? with
    | none => (w, [])
    | some t =>
      let p := st.taskStep w.store t
      (⟨p.1, w.tasks.set i p.2.1⟩, p.2.2)
  | .abandon i => (⟨w.store, w.tasks.eraseIdx i⟩, [])

/-- A whole execution: the final world and all effects in order. -/
def run (st : SessionStore S) (w : World S) : List Move → World S × List VEvent
  | [] => (w, [])
  | m :: ms =>
    let p := st.next w m
    let q := st.run p.1 ms
    (q.1, p.2 ++ q.2)

/-- A call of the store. -/
inductive Call where
  | initiate (s : Session)
  | updateStatus (u : Uuid) (st : Status)
  | getSession (u : Uuid)
  | removeSession (u : Uuid)
deriving DecidableEq, Repr

/-- A store that writes down how it is called. -/
def logged (st : SessionStore S) : SessionStore (S × List Call) where
  initiate s x := let p := st.initiate s x.1; ((p.1, x.2 ++ [.initiate s]), p.2)
  updateStatus u t x := let p := st.updateStatus u t x.1; ((p.1, x.2 ++ [.updateStatus u t]), p.2)
  getSession u x := let p := st.getSession u x.1; ((p.1, x.2 ++ [.getSession u]), p.2)
  removeSession u x := let p := st.removeSession u x.1; ((p.1, x.2 ++ [.removeSession u]), p.2)

/-- `MemoryStore` (src/verifier/session.rs:46-77) as an implementation of the trait: its contents
together with what `try_lock` will find, call by call. -/
def memory : SessionStore (Store × List Bool) where
  initiate s x := let p := x.1.initiate (x.2.headD false) s; ((p.1, x.2.tail), p.2)
  updateStatus u t x := let p := x.1.updateStatus (x.2.headD false) u t; ((p.1, x.2.tail), p.2)
  getSession u x := ((x.1, x.2.tail), x.1.getSession (x.2.headD false) u)
  removeSession u x := let p := x.1.removeSession (x.2.headD false) u; ((p.1, x.2.tail), p.2)

end SessionStore

end Oid4vp
