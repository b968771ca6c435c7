import Verif.Model.Session
/-!
# What the session store and the verifier's operations must do
-/

set_option autoImplicit false

namespace Oid4vp.Spec

/-! ## The store as an abstract map -/

/-- The operations of a session store. -/
inductive StoreOp where
  | initiate (s : Session)
  | update (u : Uuid) (st : Status)
  | get (u : Uuid)
  | remove (u : Uuid)

/-- What the caller sees. -/
inductive Answer where
  | done
  | session (s : Session)
  | refused (e : Err)

/-- An abstract map of sessions. -/
abbrev AMap := Uuid → Option Session

/-- The map with one entry replaced. -/
def AMap.put (A : AMap) (u : Uuid) (s : Option Session) : AMap := fun u' => if u' = u then s else A u'

/-- What one operation does to the map, and its answer. A taken lock refuses everything. -/
def AMap.step (A : AMap) : Bool × StoreOp → AMap × Answer
  | (true, _) => (A, .refused .locked)
  | (false, .initiate s) => (A.put s.uuid (some s), .done)
  | (false, .update u st) => match A u with
    | none => (A, .refused .notFound)
    | some s => (A.put u (some { s with status := st }), .done)
  | (false, .get u) => match A u with
    | none => (A, .refused .notFound)
    | some s => (A, .session s)
  | (false, .remove u) => match A u with
    | none => (A, .refused .notFound)
    | some _ => (A.put u none, .done)

/-- A whole history. -/
def AMap.run (A : AMap) : List (Bool × StoreOp) → AMap × List Answer
  | [] => (A, [])
  | op :: ops =>
    let p := A.step op
    let q := p.1.run ops
    (q.1, p.2 :: q.2)

/-- The answer of an operation without a value. -/
def unitAnswer : Res Unit → Answer
  | .ok () => .done
  | .error e => .refused e

/-- The answer of a lookup. -/
def sessionAnswer : Res Session → Answer
  | .ok s => .session s
  | .error e => .refused e

/-- One operation of the library's store. -/
def storeStep (σ : Store) : Bool × StoreOp → Store × Answer
  | (busy, .initiate s) => let p := σ.initiate busy s; (p.1, unitAnswer p.2)
  | (busy, .update u st) => let p := σ.updateStatus busy u st; (p.1, unitAnswer p.2)
  | (busy, .get u) => (σ, sessionAnswer (σ.getSession busy u))
  | (busy, .remove u) => let p := σ.removeSession busy u; (p.1, unitAnswer p.2)

/-- A whole history on the library's store. -/
def storeRun (σ : Store) : List (Bool × StoreOp) → Store × List Answer
  | [] => (σ, [])
  | op :: ops =>
    let p := storeStep σ op
    let q := storeRun p.1 ops
    (q.1, p.2 :: q.2)

/-- The operations that were not refused for a taken lock. -/
def unlocked : List (Bool × StoreOp) → List StoreOp
  | [] => []
  | (true, _) :: ops => unlocked ops
  | (false, op) :: ops => op :: unlocked ops

/-- The session a history leaves under an id, read off the history alone: the last session
initiated under it, with the last status set since, unless removed since. -/
def lastSession (u : Uuid) : List StoreOp → Option Session → Option Session
  | [], acc => acc
  | .initiate s :: ops, acc => lastSession u ops (if s.uuid = u then some s else acc)
  | .update u' st :: ops, acc =>
    lastSession u ops (if u' = u then acc.map (fun s => { s with status := st }) else acc)
  | .get _ :: ops, acc => lastSession u ops acc
  | .remove u' :: ops, acc => lastSession u ops (if u' = u then none else acc)

/-! ## Which session things are about -/

/-- The session an operation is about. -/
def opAbout : Op → Uuid
  | .build s => s.uuid
  | .poll u => u
  | .retrieve u => u
  | .verify u _ _ => u
  | .remove u => u

/-- The session a running operation is about. -/
def taskAbout : Task → Option Uuid
  | .start op => some (opAbout op)
  | .retrieveGot u _ => some u
  | .verifyGot u _ _ _ => some u
  | .verifyDone u _ => some u
  | .finished => none

/-- The session an effect is about. -/
def eventAbout : VEvent → Uuid
  | .initiated s => s.uuid
  | .statusSet u _ => u
  | .removed u => u
  | .polled u _ => u
  | .retrieved u _ => u
  | .validated u _ _ _ => u
  | .failed u _ => u

/-- The effects about one session. -/
def eventsOf (u : Uuid) (tr : List VEvent) : List VEvent := tr.filter (fun e => eventAbout e = u)

/-- Two running operations an observer of session `u` cannot tell apart: the same one, or two that
are about other sessions. -/
def SameFor (u : Uuid) (t t' : Task) : Prop :=
  t = t' ∨ (taskAbout t ≠ some u ∧ taskAbout t' ≠ some u)

/-- Two lists of running operations an observer of `u` cannot tell apart. -/
def SameTasks (u : Uuid) (ts ts' : List Task) : Prop :=
  ts.length = ts'.length ∧
    ∀ (i : Nat) (t t' : Task), ts[i]? = some t → ts'[i]? = some t' → SameFor u t t'

/-- Two scheduling decisions an observer of `u` cannot tell apart. -/
def SameSched (u : Uuid) : Sched → Sched → Prop
  | .spawn op, .spawn op' => op = op' ∨ (opAbout op ≠ u ∧ opAbout op' ≠ u)
  | .step i b, .step j c => i = j ∧ b = c
  | .abandon i, .abandon j => i = j
  | _, _ => False

/-- Two schedules an observer of `u` cannot tell apart. -/
def SameScheds (u : Uuid) : List Sched → List Sched → Prop
  | [], [] => True
  | s :: ss, s' :: ss' => SameSched u s s' ∧ SameScheds u ss ss'
  | _, _ => False

/-- The same request: id, JWT, request object and query. -/
def SameRequest (s s' : Session) : Prop :=
  s'.uuid = s.uuid ∧ s'.jwt = s.jwt ∧ s'.requestObject = s.requestObject ∧ s'.dcqlQuery = s.dcqlQuery

/-! ## Progress of a session -/

/-- The order of statuses. -/
def rank : Status → Nat
  | .sentRequestByReference => 0
  | .sentRequest => 1
  | .receivedResponse => 2
  | .complete _ => 3

/-- The order of outcomes. -/
def outcomeRank : Outcome → Nat
  | .error _ => 0
  | .failure _ => 1
  | .success _ => 2

/-- The position of a status in the claimed order: its rank, the completed ones by outcome. -/
def position : Status → Nat
  | .complete o => 3 + outcomeRank o
  | s => rank s

/-- Nothing in the schedule builds a session under `u`. -/
def NoBuild (u : Uuid) (ss : List Sched) : Prop := ∀ s, .spawn (.build s) ∈ ss → s.uuid ≠ u

/-- No running operation is about to build a session under `u`. -/
def NoPendingBuild (u : Uuid) (ts : List Task) : Prop := ∀ s, .start (.build s) ∈ ts → s.uuid ≠ u

/-- The store after the first part of a schedule held session `s` under `u`. -/
def WasStored (w : World) (ss : List Sched) (u : Uuid) (s : Session) : Prop :=
  ∃ ss₁ ss₂, ss = ss₁ ++ ss₂ ∧ (w.run ss₁).1.store.get u = some s

end Oid4vp.Spec
