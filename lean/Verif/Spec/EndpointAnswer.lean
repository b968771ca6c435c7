import Verif.Spec.Example
import Verif.Spec.RequestUrl
/-!
# What the example wallet's endpoint does, case by case
-/

set_option autoImplicit false

namespace Oid4vp.Spec
open Example

/-- The parameters of a call, in the order in which they are handed on. -/
def handed (p : Params) : List (Str × Str) :=
  [(c!"client_id", p.clientId), (c!"request", p.request), (c!"request_uri", p.requestUri),
   (c!"response_type", p.responseType), (c!"nonce", p.nonce), (c!"state", p.state),
   (c!"response_mode", p.responseMode), (c!"response_uri", p.responseUri),
   (c!"dcql_query", p.dcqlQuery)].filterMap fun q => q.2.map fun v => (q.1, v)

/-- The endpoint's address has these fields of its own. -/
def OwnFields (endpoint : Url) (own : List (Str × Str)) : Prop :=
  (endpoint.query = none ∧ own = []) ∨
    ∃ q, endpoint.query = some q ∧ FormList (q.flatMap String.utf8EncodeChar) own

/-- The request a call is taken for: that of the endpoint's own fields and the parameters. -/
def TakenFor (w : Adapter) (p : Params) (r : AuthorizationRequest) : Prop :=
  ∃ own, OwnFields w.endpoint own ∧ MeansClientId (own ++ handed p) r.clientId ∧
    MeansIndirection (own ++ handed p) r.indirection

/-- The requests made for the request object. -/
inductive FetchesOf (w : Wallet) (r : AuthorizationRequest) : List HttpRequest → Prop
  | one {u : Url} : r.indirection = .byReference u → w.uriOk u.print = true →
      FetchesOf w r [⟨c!"GET", u.print, [(c!"prefer", c!"OID4VP-1.0.0")], []⟩]
  | none : (∀ u, r.indirection = .byReference u → w.uriOk u.print = false) → FetchesOf w r []

/-- The verifier's answer has a text that names an address to go to. -/
def GoTo (w : Adapter) (resp : HttpResponse) (addr : Str) : Prop :=
  ∃ t m, w.text resp = some t ∧ jParse t = .ok (.obj m) ∧ mget c!"redirect_uri" m = some (.str addr)

/-- A status of success. -/
def Succeeded (resp : HttpResponse) : Prop := 200 ≤ resp.status ∧ resp.status < 300

/-- What follows a response that was sent. -/
inductive AfterSending (w : Adapter) (st : Option Str) (req : HttpRequest) :
    List HttpRequest → Answer → Prop
  | unsent {e : Err} : w.wallet.http req = .error e →
      AfterSending w st req [] (.failure 502 c!"submission_failed" st)
  | refused {resp : HttpResponse} : w.wallet.http req = .ok resp → ¬ Succeeded resp →
      AfterSending w st req [] (.failure 502 c!"verifier_error" st)
  | done {resp : HttpResponse} : w.wallet.http req = .ok resp → Succeeded resp → (∀ addr, ¬ GoTo w resp addr) →
      AfterSending w st req [] (.success none)
  | goOn {resp : HttpResponse} {addr : Str} : w.wallet.http req = .ok resp → Succeeded resp → GoTo w resp addr →
      AfterSending w st req [⟨c!"GET", addr, [], []⟩] (.success (some addr))

/-- The wallet may and can answer: it has the user's consent and credentials for every query. -/
def Willing (w : Adapter) (a : RequestObject) (sel : Selection) : Prop :=
  w.consent = true ∧ ∃ q, a.dcqlQuery = some (.ok q) ∧ matchQuery w.lower w.store q = .ok sel

/-- The key the response is encrypted to: the verifier's first suitable one, which `josekit` takes. -/
def KeyFor (w : Adapter) (a : RequestObject) (key : List (Str × Json)) : Prop :=
  ∃ cm keys, mget c!"client_metadata" a.inner = some (.obj cm) ∧ KeyList cm keys ∧
    FirstWith SuitableKey keys key ∧ w.jose.jwkOk key = true

/-- The encrypted response. -/
def Sealed (w : Adapter) (key : List (Str × Json)) (tok : VpToken) (st : Option Str) (jwe : Str) : Prop :=
  (∀ m ∈ encPayload tok.toJson st, w.jose.claimOk m.1 m.2 = true) ∧
    w.jose.encrypt key (encHeader c!"A128GCM" (kidOf key)) (encPayload tok.toJson st) = .ok jwe

/-- The POST request with a response. -/
def Sends (a : RequestObject) (body : Str) : HttpRequest :=
  ⟨c!"POST", a.returnUri.print, [(c!"content-type", c!"application/x-www-form-urlencoded")], utf8 body⟩

/-- The requests made and the answer given for a request object. -/
inductive Responds (ord : MapOrder) (w : Adapter) (p : Params) (a : RequestObject) :
    List HttpRequest → Answer → Prop
  | noQuery : (∀ q, a.dcqlQuery ≠ some (.ok q)) →
      Responds ord w p a [] (.failure 400 c!"invalid_request" p.state)
  | denied {q : DcqlQuery} : a.dcqlQuery = some (.ok q) → (∀ sel, ¬ Willing w a sel) →
      Responds ord w p a [] (.failure 400 c!"access_denied" p.state)
  | wrongAddress {sel : Selection} {u : Str} : Willing w a sel → RedirectClient a u →
      a.returnUri.print ≠ u → Responds ord w p a [] (.failure 400 c!"invalid_request" p.state)
  | otherMode {sel : Selection} : Willing w a sel → (∀ u, RedirectClient a u → a.returnUri.print = u) →
      a.responseMode ≠ .directPost → a.responseMode ≠ .directPostJwt →
      Responds ord w p a [] (.failure 400 c!"unsupported_response_mode" p.state)
  | plain {sel : Selection} {aud : Str} {st : Option Str} {more : List HttpRequest} {ans : Answer} :
      Willing w a sel → (∀ u, RedirectClient a u → a.returnUri.print = u) →
      a.responseMode = .directPost → AudienceOf a aud → EchoedState a p st →
      AfterSending w st (Sends a (UnencodedResponse.toForm ord
        ⟨buildVpToken w.holder sel a.nonce.val aud, st.map .mk⟩)) more ans →
      Responds ord w p a (Sends a (UnencodedResponse.toForm ord
        ⟨buildVpToken w.holder sel a.nonce.val aud, st.map .mk⟩) :: more) ans
  | noKey {sel : Selection} {st : Option Str} :
      Willing w a sel → (∀ u, RedirectClient a u → a.returnUri.print = u) →
      a.responseMode = .directPostJwt → EchoedState a p st → (∀ key, ¬ KeyFor w a key) →
      Responds ord w p a [] (.failure 400 c!"invalid_client_metadata" st)
  | unsealed {sel : Selection} {aud : Str} {st : Option Str} {key : List (Str × Json)} :
      Willing w a sel → (∀ u, RedirectClient a u → a.returnUri.print = u) →
      a.responseMode = .directPostJwt → AudienceOf a aud → EchoedState a p st → KeyFor w a key →
      (∀ jwe, ¬ Sealed w key (buildVpToken w.holder sel a.nonce.val aud) st jwe) →
      Responds ord w p a [] (.failure 500 c!"encryption_error" st)
  | encrypted {sel : Selection} {aud : Str} {st : Option Str} {key : List (Str × Json)} {jwe : Str}
      {more : List HttpRequest} {ans : Answer} :
      Willing w a sel → (∀ u, RedirectClient a u → a.returnUri.print = u) →
      a.responseMode = .directPostJwt → AudienceOf a aud → EchoedState a p st → KeyFor w a key →
      Sealed w key (buildVpToken w.holder sel a.nonce.val aud) st jwe →
      AfterSending w st (Sends a (formText [(c!"response", jwe)])) more ans →
      Responds ord w p a (Sends a (formText [(c!"response", jwe)]) :: more) ans

/-- The requests made and the answer given for a call of the endpoint. -/
inductive Handles (ord : MapOrder) (w : Adapter) (p : Params) : List HttpRequest → Answer → Prop
  | notUnderstood : (∀ r, ¬ TakenFor w p r) → Handles ord w p [] (.failure 400 c!"invalid_request" p.state)
  | notObtained {r : AuthorizationRequest} {fetched : List HttpRequest} :
      TakenFor w p r → FetchesOf w.wallet r fetched → (∀ x, (r.resolve w.wallet).2 ≠ .ok x) →
      Handles ord w p fetched (.failure 400 c!"invalid_request" p.state)
  | obtained {r : AuthorizationRequest} {fetched reqs : List HttpRequest} {a : RequestObject}
      {jwt : Option Str} {ans : Answer} :
      TakenFor w p r → FetchesOf w.wallet r fetched → (r.resolve w.wallet).2 = .ok (a, jwt) →
      Responds ord w p a reqs ans → Handles ord w p (fetched ++ reqs) ans

end Oid4vp.Spec
