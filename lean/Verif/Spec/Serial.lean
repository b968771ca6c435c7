import Verif.Spec.Session
/-! # Operations of a verifier one after the other

What operations on the session store that run at the same time are compared with: the same operations, each
run from its beginning to its end before the next begins. -/

set_option autoImplicit false

namespace Oid4vp.Spec

/-- An operation that runs alone: the store it leaves and the event it ends with. -/
def alone : Op → Store → Store × VEvent
  | .build s, σ => ((σ.initiate false s).1, resEvent s.uuid (.initiated s) (σ.initiate false s).2)
  | .poll u, σ => (σ, match pollStatus u σ with
    | .ok st => .polled u st
    | .error e => .failed u e)
  | .retrieve u, σ => ((Oid4vp.retrieve u σ).1, match (Oid4vp.retrieve u σ).2 with
    | .ok jwt => .retrieved u jwt
    | .error e => .failed u e)
  | .verify u r f, σ => ((verifyResponse u r f σ).1, match σ.get u, (verifyResponse u r f σ).2 with
    | some s, .ok () => .statusSet u (.complete (f s r))
    | none, .ok () => .failed u .notFound
    | _, .error e => .failed u e)
  | .remove u, σ => ((σ.removeSession false u).1, resEvent u (.removed u) (σ.removeSession false u).2)

/-- Operations that run one after the other: the store they leave and the events they end with. -/
def inTurn : Store → List Op → Store × List VEvent
  | σ, [] => (σ, [])
  | σ, op :: ops => ((inTurn (alone op σ).1 ops).1, (alone op σ).2 :: (inTurn (alone op σ).1 ops).2)

/-- A running verifier with a ledger: which operation each task was begun for, and which operations came to
their end, in this order, with the event they ended with. Those that failed since the lock was taken are not
entered. -/
structure Ledger where
  store : Store
  running : List (Op × Task)
  done : List (Op × VEvent)

/-- The verifier a ledger is kept for. -/
def Ledger.world (l : Ledger) : World := ⟨l.store, l.running.map Prod.snd⟩

/-- The task is at its end. -/
def AtEnd : Task → Bool
  | .finished => true
  | _ => false

/-- A step of a ledger: that of the verifier, and an entry if an operation comes to its end. -/
def Ledger.next (l : Ledger) : Sched → Ledger
  | .spawn op => { l with running := l.running ++ [(op, .start op)] }
  | .abandon i => { l with running := l.running.eraseIdx i }
  | .step i busy => match l.running[i]? with
    | none => l
    | some (op, t) =>
      let p := taskStep busy l.store t
      { store := p.1, running := l.running.set i (op, p.2.1)
        done := if AtEnd p.2.1 && !busy then l.done ++ p.2.2.getLast?.toList.map (op, ·) else l.done }

/-- A whole execution. -/
def Ledger.run (l : Ledger) (ss : List Sched) : Ledger := ss.foldl Ledger.next l

/-- A verifier with this store and nothing running. -/
def Ledger.start (σ : Store) : Ledger := ⟨σ, [], []⟩

/-- The `i`-th task is a retrieval about to note that the request was sent, for a session that has got further. -/
def StaleRetrieval (l : Ledger) (i : Nat) : Prop :=
  ∃ op u s s', l.running[i]? = some (op, .retrieveGot u s) ∧ l.store.get u = some s' ∧
    s'.status ≠ .sentRequestByReference

/-- The `i`-th task is about to write, but what it has read is not so any more: the session it retrieves has got
further or has another request, or the validator would now say something else. -/
def Overtaken (l : Ledger) (i : Nat) : Prop :=
  StaleRetrieval l i ∨
  (∃ op u s s', l.running[i]? = some (op, .retrieveGot u s) ∧ l.store.get u = some s' ∧ s'.jwt ≠ s.jwt) ∨
  ∃ u r f o s', l.running[i]? = some (.verify u r f, .verifyDone u o) ∧ l.store.get u = some s' ∧ f s' r ≠ o

/-- In this execution no step is of the kind `bad`. -/
def Never (bad : Ledger → Nat → Prop) (l : Ledger) (ss : List Sched) : Prop :=
  ∀ before i after, ss = before ++ .step i false :: after → ¬ bad (l.run before) i

/-- Sessions are stored under ids that no session had before. -/
def FreshIds (l : Ledger) (ss : List Sched) : Prop :=
  ∀ before i after op s, ss = before ++ .step i false :: after →
    (l.run before).running[i]? = some (op, .start (.build s)) →
    ∀ first, first <+: before → (l.run first).store.get s.uuid = none

/-- The validators do not look at the status of the session. -/
def StatusUnseen (ss : List Sched) : Prop :=
  ∀ u r f, .spawn (.verify u r f) ∈ ss → ∀ s s', SameRequest s s' → f s r = f s' r

end Oid4vp.Spec
