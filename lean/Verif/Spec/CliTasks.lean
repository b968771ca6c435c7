import Verif.Model.CliTasks
import Verif.Spec.CliHttp
/-!
# The command-line verifier with several requests at once
-/

set_option autoImplicit false

namespace Oid4vp.Spec
open CliHttp
open CliTasks
open Cli (Display)
open WalletApp (Call)

/-- The request comes during the execution. -/
def Came (es : List Move) (c : Call) : Prop := Move.arrive c ∈ es

/-- The result of a response that one of the requests delivers for a stored session. -/
def ResultOf (ord : MapOrder) (σ : Store) (C : Call → Prop) (u : Uuid) (o : Outcome) (d : Display) : Prop :=
  ∃ c r, C c ∧ Submits u r c ∧ σ.get u ≠ none ∧ CliVerdict ord r o d

/-- What may be displayed, given the requests that came: that the request object of a stored session was asked
for, that a response came, or the result of a response. -/
inductive Shows (ord : MapOrder) (σ : Store) (C : Call → Prop) : Display → Prop
  | fetched {c u} : C c → Asks u c → σ.get u ≠ none → Shows ord σ C .requestFetched
  | received {c} : C c → Tries c → Shows ord σ C .responseReceived
  | result {u o d} : ResultOf ord σ C u o d → Shows ord σ C d

/-- What may have become of the status of a session. -/
inductive Turns (ord : MapOrder) (σ : Store) (C : Call → Prop) (u : Uuid) : Status → Status → Prop
  | same {st} : Turns ord σ C u st st
  | fetched {c} : C c → Asks u c → Turns ord σ C u .sentRequestByReference .sentRequest
  | result {st o d} : ResultOf ord σ C u o d → Turns ord σ C u st (.complete o)

/-- What may be sent for a request, of the answers that are not refusals. -/
inductive Grants (σ : Store) (c : Call) : Reply → Prop
  | preflight : c.method = c!"OPTIONS" → Grants σ c ⟨200, .none⟩
  | object {u s} : c.method = c!"GET" → Asks u c → σ.get u = some s → Grants σ c ⟨200, .jwt s.jwt⟩
  | head {u s} : c.method = c!"HEAD" → Asks u c → σ.get u = some s → Grants σ c ⟨200, .none⟩
  | taken {u r doc} : Submits u r c → σ.get u ≠ none → ObjectOf [] doc → Grants σ c ⟨200, .json doc⟩

/-- A refusal: a client or server error, without a request object and without data. -/
def Refuses (rep : Reply) : Prop :=
  rep.status ∈ [400, 404, 405, 413, 500] ∧ (rep.body = .none ∨ ∃ t, rep.body = .text t)

/-- The result is among the displayed statuses. -/
def IsResult : Display → Prop
  | .success _ => True
  | .failed _ => True
  | _ => False

/-- Every handler has finished. -/
def AllDone (w : Server) : Prop := ∀ x ∈ w.tasks, ∃ rep, x.2 = .done rep

/-- Nothing is dropped in the execution, and no thread finds the session store locked. -/
def Orderly (es : List Move) : Prop := ∀ e ∈ es, (∀ i, e ≠ .abandon i) ∧ ∀ i, e ≠ .step i true

/-- The execution that handles requests one after the other, each at most this many steps, with `k` requests
before. -/
def OneByOne (n : Nat) : Nat → List Call → List Move
  | _, [] => []
  | k, c :: cs => .arrive c :: (List.replicate n (.step k false) ++ (.main :: .exit :: OneByOne n (k + 1) cs))

end Oid4vp.Spec
