import Verif.Model.VerifierTasks
import Verif.Spec.VerifierHttp
/-!
# The example verifier with several requests at once
-/

set_option autoImplicit false

namespace Oid4vp.Spec
open VerifierHttp (Server Reply Body)
open VerifierTasks
open WalletApp (Call)

/-- The request comes during the execution. -/
def Arrives (es : List Move) (x : Arrival) : Prop := Move.arrive x ∈ es

/-- The requests of an execution, in the order in which they come. -/
def arrivals : List Move → List Arrival
  | [] => []
  | .arrive x :: es => x :: arrivals es
  | _ :: es => arrivals es

/-- Nothing is dropped in the execution, and no thread finds the session store locked. -/
def Undisturbed (es : List Move) : Prop := ∀ e ∈ es, (∀ i, e ≠ .abandon i) ∧ ∀ i, e ≠ .step i true

/-- Requests handled one after the other: the sessions before, the requests with what is sent for them, the
sessions after. -/
inductive InTurn (srv : Server) : Store → List (Arrival × Reply) → Store → Prop
  | nil {σ σ'} : Unchanged σ σ' → InTurn srv σ [] σ'
  | cons {σ τ σ' x rep l} : VerifierServes srv x.1 x.2.1 x.2.2 σ τ rep → InTurn srv τ l σ' →
      InTurn srv σ ((x, rep) :: l) σ'

/-- The request is for the status of the session. -/
def Polls (u : Uuid) (c : Call) : Prop := c.method ∈ [c!"GET", c!"HEAD"] ∧ ForSession c!"/status/" u c

/-- A body with this document, unless only the head is asked for. -/
def HeadOrDoc (c : Call) (doc : Json) (body : Body) : Prop :=
  (c.method = c!"HEAD" ∧ body = .none) ∨ (c.method ≠ c!"HEAD" ∧ body = .json doc)

/-- What is sent for a request when the session store is found locked. -/
inductive LockedOut (c : Call) : Reply → Prop
  | request {u doc body} : Asks u c → ErrorDoc c!"Session not found: failed to retrieve session" doc ∨
      ErrorDoc c!"Session not found: failed to update session status" doc → HeadOrDoc c doc body → LockedOut c ⟨404, body⟩
  | status {u doc body} : Polls u c → ErrorDoc c!"Session not found: operation would block" doc →
      HeadOrDoc c doc body → LockedOut c ⟨404, body⟩
  | response {u r doc} : Submits u r c → ErrorDoc c!"Verification failed: operation would block" doc →
      LockedOut c ⟨500, .json doc⟩
  | begin {doc} : Begins c → ErrorDoc c!"failed to store the session in the session store" doc →
      LockedOut c ⟨500, .json doc⟩

/-- The retrieval of a request object writes its mark although the session is no longer as it was read, nor
as another retrieval leaves it. -/
def StaleMark (srv : Server) (σ : Store) (es : List Move) : Prop :=
  ∃ es1 i es2 x u s, es = es1 ++ .step i false :: es2 ∧
    (run srv (begin σ) es1).tasks[i]? = some (x, .fetchGot u s) ∧
    (run srv (begin σ) es1).store.get u ≠ some s ∧
    (run srv (begin σ) es1).store.get u ≠ some { s with status := .sentRequest }

/-- Where a session comes from: it was there, or a request made it. -/
inductive Origin (srv : Server) (σ : Store) (C : Arrival → Prop) (u : Uuid) (s : Session) : Prop
  | stored : σ.get u = some s → Origin srv σ C u s
  | made {x τ τ' doc} : C x → Begins x.2.2 → x.1 = u →
      VerifierServes srv x.1 x.2.1 x.2.2 τ τ' ⟨200, .json doc⟩ → τ'.get u = some s → Origin srv σ C u s

/-- What may have become of the status a session had at first. -/
inductive Comes (srv : Server) (σ : Store) (C : Arrival → Prop) (u : Uuid) (st : Status) : Status → Prop
  | same : Comes srv σ C u st st
  | fetched {x s} : C x → Asks u x.2.2 → Origin srv σ C u s → s.status = .sentRequestByReference →
      Comes srv σ C u st .sentRequest
  | result {x r o} : C x → Submits u r x.2.2 → Verdict srv.app.decrypt r o → Comes srv σ C u st (.complete o)

/-- The execution that handles requests one after the other, each by this many steps, with `k` requests
before. -/
def Serially (n : Nat) : Nat → List Arrival → List Move
  | _, [] => []
  | k, x :: xs => .arrive x :: (List.replicate n (.step k false) ++ Serially n (k + 1) xs)

instance (c : Call) : Decidable (Begins c) := inferInstanceAs (Decidable (_ ∧ _))

/-- The id is drawn for no second session: at most once, and not if there is a session with it already. -/
def DrawnOnce (σ : Store) (es : List Move) (u : Uuid) : Prop :=
  (arrivals es).countP (fun x => decide (Begins x.2.2 ∧ x.1 = u)) ≤ if (σ.get u).isSome then 0 else 1

/-- The request has been answered with success. -/
def Granted (w : Running) (x : Arrival) : Prop := ∃ rep, (x, Point.done rep) ∈ w.tasks ∧ rep.status = 200

end Oid4vp.Spec
