import Verif.Spec.Fits
/-!
# The whole decision of a wallet about a request, and what it does to reach it
-/

set_option autoImplicit false

namespace Oid4vp.Spec

/-- The parameters `o` are the request object `a`. -/
structure IsRequest (o : UntypedObject) (a : RequestObject) : Prop where
  params : a.inner = o
  redirect : Absent o c!"redirect_uri"
  reports : Reports o a
  dcApi : IsDcApi a.responseMode →
    Absent o c!"response_uri" ∧ Url.parse c!"https://example.com/" = some a.returnUri

/-- The request is, carries or refers to the request object `a`, the JWT being `jwt` if there is one.
The JWT must say that it is a request object, unless the client identifier outside it is a redirect
address. -/
structure ResolvesTo (w : Wallet) (r : AuthorizationRequest) (a : RequestObject) (jwt : Option Str) : Prop where
  source : JwtOf w r.indirection jwt
  typed : ∀ j, jwt = some j → TypedAsRequest j ∨
    ((∃ t, r.clientId = some (c!"redirect_uri:" ++ t)) ∧ ∃ m, JwsHeader j m)
  params : ∃ o, ParamsOf w r o jwt ∧ IsRequest o a

/-- The request comes to the verification method `m` with this object and JWT. -/
structure ReachesMethod (w : Wallet) (r : AuthorizationRequest) (m : VerifyMethod) (a : RequestObject)
    (jwt : Option Str) : Prop where
  resolves : ResolvesTo w r a jwt
  fits : FitsWallet w.metadata.inner a
  method : MethodFor a.clientId m

/-- The client identifiers outside and inside are not different ones. -/
def SameClient (r : AuthorizationRequest) (a : RequestObject) : Prop :=
  ∀ x y, r.clientId = some x → a.clientId = some y → x = y.val

/-- The GET request for a request passed by reference, if the HTTP library accepts the address. -/
inductive FetchEvents (w : Wallet) : RequestIndirection → List Event → Prop
  | value (j : Str) : FetchEvents w (.byValue j) []
  | direct (o : UntypedObject) : FetchEvents w (.direct o) []
  | refused {uri : Url} : w.uriOk uri.print = false → FetchEvents w (.byReference uri) []
  | reference {uri : Url} : w.uriOk uri.print = true → FetchEvents w (.byReference uri)
      [.http ⟨c!"GET", uri.print, [(c!"prefer", c!"OID4VP-1.0.0")], []⟩]

end Oid4vp.Spec
