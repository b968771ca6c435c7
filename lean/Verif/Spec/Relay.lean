import Verif.Spec.EndpointAnswer
import Verif.Spec.Validate
/-!
# What decides the content of the example wallet's answer, and what its way
-/

set_option autoImplicit false

namespace Oid4vp.Spec
open Example

/-- Two request objects ask for the same: the client identifier, the query, the nonce and the state are alike.
Nothing is said of where the answer is to go, in which mode, or encrypted to whom. -/
def AskAlike (a a' : RequestObject) : Prop :=
  ∀ k ∈ [c!"client_id", c!"dcql_query", c!"nonce", c!"state"], mget k a'.inner = mget k a.inner

/-- The object `o'` is `o` but for the way of the answer: in plain to `addr`. -/
def Diverted (o : UntypedObject) (addr : Str) (o' : UntypedObject) : Prop :=
  mget c!"response_mode" o' = some (.str c!"direct_post") ∧ mget c!"response_uri" o' = some (.str addr) ∧
    ∀ k, k ≠ c!"response_mode" → k ≠ c!"response_uri" → mget k o' = mget k o

/-- A header of a request object that the JWS library takes. -/
structure Takeable (hdr : SsiHeader) (h : List (Str × Json)) : Prop where
  proper : (Json.obj h).WF FltLit ∧ (Json.obj h).depth ≤ 127
  typ : mget c!"typ" h = some (.str c!"oauth-authz-req+jwt")
  taken : ∃ alg, hdr (utf8 (jPrint (.obj h))) = .ok (alg, true)

/-- The token `jwt` says that it is a request object, namely `o`, and its signature is `sig`. -/
structure Poses (hdr : SsiHeader) (jwt : Str) (o : UntypedObject) (sig : Bytes) : Prop where
  typ : TypedAsRequest jwt
  payload : JwsPayload hdr jwt o
  signature : ∃ h b, JwsParts jwt h b (b64Enc .url sig)

end Oid4vp.Spec
