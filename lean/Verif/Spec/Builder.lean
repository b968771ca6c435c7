import Verif.Spec.Object
import Verif.Model.Session
/-!
# Histories of the verifier's builders, seen from outside
-/

set_option autoImplicit false

namespace Oid4vp.Spec

/-- One call on a `VerifierBuilder`. -/
inductive ConfigOp : Type 1
  | client (c : Client)
  | store
  | endpoint (u : Url)
  | byValue
  | byReference (u : Url)
  | parameter {α : Type} [TypedParameter α] (t : α)

namespace ConfigOp

/-- Perform the call with the library's functions. -/
def run (b : VerifierBuilder) : ConfigOp → VerifierBuilder
  | client c => b.withClient c
  | store => b.withSessionStore
  | endpoint u => b.withSubmissionEndpoint u
  | byValue => b.byValue
  | byReference u => b.byReference u
  | @parameter _ _ t => b.withDefaultRequestParameter t

/-- The client the call is about. -/
def clientOf : ConfigOp → Option Client
  | client c => some c
  | _ => none

/-- The submission endpoint the call is about. -/
def endpointOf : ConfigOp → Option Url
  | endpoint u => some u
  | _ => none

/-- How requests are to be passed according to the call. -/
def modeOf : ConfigOp → Option ByReference
  | byValue => some .no
  | byReference u => some (.at u)
  | _ => none

/-- The parameter the call is about. -/
def parameterOf : ConfigOp → Option ObjOp
  | @parameter _ _ t => some (.insert t)
  | _ => none

end ConfigOp

/-- One call on a `RequestBuilder`. -/
inductive RequestOp : Type 1
  | query (q : DcqlQuery)
  | parameter {α : Type} [TypedParameter α] (t : α)

namespace RequestOp

/-- Perform the call with the library's functions. -/
def run (b : RequestBuilder) : RequestOp → RequestBuilder
  | query q => b.withDcqlQuery q
  | @parameter _ _ t => b.withRequestParameter t

/-- The query the call is about. -/
def queryOf : RequestOp → Option DcqlQuery
  | query q => some q
  | _ => none

/-- The parameter the call is about. -/
def parameterOf : RequestOp → Option ObjOp
  | @parameter _ _ t => some (.insert t)
  | _ => none

end RequestOp

/-- What the last call of a history that says something says. -/
def lastSaid {α : Type _} {β : Type _} (f : α → Option β) (ops : List α) : Option β :=
  (ops.filterMap f).getLast?

end Oid4vp.Spec
