import Verif.Spec.Request
import Verif.Model.Session
/-!
# What building a request must do
-/

set_option autoImplicit false

namespace Oid4vp.Spec

/-- The address of a session below a base address: the base followed by `/` and the id. -/
def AddressOf (base : Url) (id : Uuid) (u : Url) : Prop :=
  u = { base with path := base.path ++ '/' :: id.print } ∨
    (base.path = ['/'] ∧ u = { base with path := '/' :: id.print })

/-- The store has exactly one more session (or a replaced one), under the given id. -/
def StoredOne (σ σ' : Store) (id : Uuid) (s : Session) : Prop :=
  s.uuid = id ∧ σ'.get id = some s ∧ ∀ id', id' ≠ id → σ'.get id' = σ.get id'

/-- The session holds what was built: the query, the client's signature over the request object,
and the status a new session has. -/
structure Fresh (v : Verifier) (b : RequestBuilder) (s : Session) (byRef : Bool) : Prop where
  signed : v.client.generate s.requestObject = .ok s.jwt
  query : b.dcqlQuery = some s.dcqlQuery
  status : s.status = if byRef then .sentRequestByReference else .sentRequest
  object : RequestObject.ofObject s.requestObject.inner = .ok s.requestObject

/-- The parameters the verifier decides. -/
def ownKeys : List Str := [c!"client_id", c!"dcql_query", c!"response_uri"]

/-- The verifier's own values are in the request object, and all else is as the caller gave it. -/
structure OwnValues (v : Verifier) (params : UntypedObject) (s : Session) : Prop where
  clientId : mget c!"client_id" s.requestObject.inner = some (.str v.client.id.val)
  clientIdField : s.requestObject.clientId = some v.client.id
  query : mget c!"dcql_query" s.requestObject.inner = some s.dcqlQuery.toJson
  responseUri : IsDirectPost s.requestObject.responseMode →
    AddressOf v.submissionEndpoint s.uuid s.requestObject.returnUri ∧
    mget c!"response_uri" s.requestObject.inner = some (.str s.requestObject.returnUri.print)
  noResponseUri : IsDcApi s.requestObject.responseMode →
    mget c!"response_uri" s.requestObject.inner = none
  others : ∀ k, k ∉ ownKeys → mget k s.requestObject.inner = mget k params

/-- The wallet supports the client identifier prefix `p`; without a list only `pre-registered`. -/
def SupportsPrefix (wm : UntypedObject) (p : Str) : Prop :=
  (Absent wm c!"client_id_prefixes_supported" ∧ p = c!"pre-registered") ∨
    ∃ l : List Str, mget c!"client_id_prefixes_supported" wm = some (.arr (l.map .str)) ∧ p ∈ l

/-- A URL below which addresses can be made. -/
def HasPath (u : Url) : Prop := u.authority ≠ none ∨ ∃ q, u.path = '/' :: q

/-- The parameters from which a request can be built. -/
structure GoodParams (endpoint : Url) (params : UntypedObject) : Prop where
  redirect : Absent params c!"redirect_uri"
  responseType : ∃ s, HasText params c!"response_type" s
  nonce : ∃ s, HasText params c!"nonce" s
  mode : ∃ s m, HasText params c!"response_mode" s ∧ KnownMode s m ∧
    ((IsDirectPost m ∧ HasPath endpoint) ∨ (IsDcApi m ∧ Absent params c!"response_uri"))

/-- The conditions under which a request can be built for a wallet. -/
structure Buildable (v : Verifier) (b : RequestBuilder) (wm : WalletMetadata) : Prop where
  query : b.dcqlQuery ≠ none
  params : GoodParams v.submissionEndpoint b.params
  supported : SupportsPrefix wm.inner v.client.pre.val
  reference : ∀ base, v.passByReference = .at base → HasPath base
  endpoint : ∃ s u, HasText wm.inner c!"authorization_endpoint" s ∧ Url.parse s = some u

end Oid4vp.Spec
