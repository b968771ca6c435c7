import Verif.Spec.Uuid
import Verif.Model.VerifierApp
/-!
# What the routes of the example verifier must do
-/

set_option autoImplicit false

namespace Oid4vp.Spec

/-- The text does not name a session id. -/
def NoUuid (session : Str) : Prop := ∀ u, ¬UuidText session u

/-- The text names the id of a stored session. -/
def Known (σ : Store) (session : Str) (u : Uuid) (s : Session) : Prop :=
  UuidText session u ∧ σ.get u = some s

/-- The text names an id for which there is no session. -/
def Unknown (σ : Store) (session : Str) : Prop := ∃ u, UuidText session u ∧ σ.get u = none

/-- Nothing has changed. -/
def Unchanged (σ σ' : Store) : Prop := ∀ v, σ'.get v = σ.get v

/-- Only the session `u` has changed, and now is `s`. -/
def Became (σ σ' : Store) (u : Uuid) (s : Session) : Prop :=
  σ'.get u = some s ∧ ∀ v, v ≠ u → σ'.get v = σ.get v

/-- The body is text, and the text is the response. -/
def Carries (body : Bytes) (r : AuthorizationResponse) : Prop :=
  (∃ t, body = utf8 t) ∧ AuthorizationResponse.ofForm body = .ok r

/-- The call delivers a response for the session. -/
def Delivers (u : Uuid) (r : AuthorizationResponse) : VerifierApp.Call → Prop
  | .respond session body => UuidText session u ∧ Carries body r
  | _ => False

/-- The call fetches the request of the session. -/
def Fetches (u : Uuid) : VerifierApp.Call → Prop
  | .fetch session => UuidText session u
  | _ => False

/-- The last response delivered for the session by these calls. -/
def LastDelivered (u : Uuid) (r : AuthorizationResponse) (cs : List VerifierApp.Call) : Prop :=
  ∃ pre c post, cs = pre ++ c :: post ∧ Delivers u r c ∧ ∀ c' ∈ post, ∀ r', ¬Delivers u r' c'

/-- None of these calls delivers a response for the session. -/
def NoneDelivered (u : Uuid) (cs : List VerifierApp.Call) : Prop := ∀ c ∈ cs, ∀ r, ¬Delivers u r c

/-- A member of a JSON object. -/
def Member (j : Json) (k : Str) (v : Json) : Prop := ∃ m, j = .obj m ∧ mget k m = some v

/-- The document says that the session is complete, with this result. -/
def Completed (doc : Json) (result : Str) : Prop :=
  Member doc c!"status" (.str c!"complete") ∧ Member doc c!"result" (.str result)

/-- The document reports a plain response with this number of query ids. -/
def ReportsPlain (doc : Json) (n : Nat) : Prop :=
  Completed doc c!"success" ∧ ∃ info, Member doc c!"info" info ∧
    Member info c!"credentials_received" (.int n)

/-- The document reports an encrypted response with this content. -/
def ReportsEncrypted (doc : Json) (content : Json) : Prop :=
  Completed doc c!"success" ∧ ∃ info, Member doc c!"info" info ∧
    Member info c!"decrypted_payload" content

end Oid4vp.Spec
