import Verif.Model.Example
import Verif.Spec.Jwe
/-!
# Specifications for the example wallet
-/

set_option autoImplicit false

namespace Oid4vp.Spec
open Example

/-! ## Matching -/

/-- The same format: equal, or both unknown and equal in lower case. -/
def SameFormat (lower : Str → Str) (a b : ClaimFormatDesignation) : Prop :=
  a = b ∨ ∃ x y, a = .other x ∧ b = .other y ∧ lower x = lower y

/-- The query lists type values. -/
def AsksVct (q : CredentialQuery) (l : List Json) : Prop :=
  mget c!"vct_values" q.metaMap = some (.arr l)

/-- The query names a document type. -/
def AsksDoctype (q : CredentialQuery) (d : Str) : Prop :=
  mget c!"doctype_value" q.metaMap = some (.str d)

/-- Neither is given. -/
def NoType (q : CredentialQuery) : Prop := (∀ l, ¬AsksVct q l) ∧ ∀ d, ¬AsksDoctype q d

/-- A name in a claim path that is not a namespace. -/
def AsksName (q : CredentialQuery) (name : Str) : Prop :=
  ∃ cs, q.claims = some cs ∧ ∃ k ∈ cs.vec, .string name ∈ k.path.vec ∧ '.' ∉ name

/-- A credential the wallet takes for a query: the requested format, the requested type, and,
for a query without a type, a top-level claim for every name in a path. -/
def Answers (lower : Str → Str) (q : CredentialQuery) (c : Credential) : Prop :=
  SameFormat lower c.format q.format ∧
  (∀ l, AsksVct q l → ∃ v, c.vct = some v ∧ .str v ∈ l) ∧
  ((∀ l, ¬AsksVct q l) → ∀ d, AsksDoctype q d → c.doctype = some d) ∧
  (NoType q → ∀ name, AsksName q name → ∃ v, (name, v) ∈ c.claims)

/-- The first credential of the store the wallet takes for a query. -/
def FirstAnswer (lower : Str → Str) (store : List Credential) (q : CredentialQuery)
    (c : Credential) : Prop :=
  ∃ before after, store = before ++ c :: after ∧ Answers lower q c ∧
    ∀ c' ∈ before, ¬Answers lower q c'

/-! ## Claims paths (OpenID4VP 1.0, section 7) -/

/-- `Selects p j r`: the path selects `r` in `j`. -/
inductive Selects : List PathElem → Json → Json → Prop
  | done {j : Json} : Selects [] j j
  | member {k : Str} {p : List PathElem} {m : List (Str × Json)} {v r : Json} :
      (k, v) ∈ m → Selects p v r → Selects (.string k :: p) (.obj m) r
  | index {n : Nat} {p : List PathElem} {l : List Json} {v r : Json} :
      l[n]? = some v → Selects p v r → Selects (.integer n :: p) (.arr l) r
  | all {p : List PathElem} {l : List Json} {v r : Json} :
      v ∈ l → Selects p v r → Selects (.null :: p) (.arr l) r

/-- The credential contains the claim. -/
def Contains (c : Credential) (k : ClaimsQuery) : Prop :=
  ∃ r, Selects k.path.vec (.obj c.claims) r

/-- The credential contains every claim of the query. -/
def ContainsAll (c : Credential) (q : CredentialQuery) : Prop :=
  ∀ cs, q.claims = some cs → ∀ k ∈ cs.vec, Contains c k

/-! ## Selective disclosure -/

/-- An SD-JWT in its parts: issuer JWT, disclosures, and the key-binding part, which may be
empty. -/
structure SdJwt where
  issuer : Str
  disclosures : List Str
  binding : Str

/-- Everything before the key-binding part. -/
def SdJwt.front (s : SdJwt) : Str :=
  s.issuer ++ '~' :: s.disclosures.flatMap (fun d => d ++ ['~'])

/-- The text. -/
def SdJwt.text (s : SdJwt) : Str := s.front ++ s.binding

/-- No part contains the separator. -/
def SdJwt.Proper (s : SdJwt) : Prop :=
  '~' ∉ s.issuer ∧ (∀ d ∈ s.disclosures, '~' ∉ d) ∧ '~' ∉ s.binding

/-- A key-binding JWT of the holder: three parts, the third a signature on the first two, the
header the ES256 `kb+jwt` header, the payload exactly nonce, audience, time and the hash of
everything before. -/
def BoundTo (h : Holder) (front nonce aud : Str) (jwt : Str) : Prop :=
  ∃ hd pl : Str,
    jwt = hd ++ ['.'] ++ pl ++ ['.'] ++ b64Enc .url (h.sign (utf8 (hd ++ ['.'] ++ pl))) ∧
    (∃ b, b64Dec .url hd = some (utf8 b) ∧
      jParse b = .ok (.obj [(c!"alg", .str c!"ES256"), (c!"typ", .str c!"kb+jwt")])) ∧
    (∃ b, b64Dec .url pl = some (utf8 b) ∧
      jParse b = .ok (.obj [(c!"aud", .str aud), (c!"iat", .int (h.now front)),
        (c!"nonce", .str nonce), (c!"sd_hash", .str (b64Enc .url (h.sha256 (utf8 front))))]))

/-- What is presented of a credential: an SD-JWT with a fresh key-binding JWT, anything else as it is. -/
def Presents (h : Holder) (nonce aud raw pres : Str) : Prop :=
  ('~' ∉ raw ∧ pres = raw) ∨ ∃ (s : SdJwt) (kb : Str), s.Proper ∧ raw = s.text ∧ '~' ∉ kb ∧
    pres = SdJwt.text { s with binding := kb } ∧ BoundTo h s.front nonce aud kb

/-! ## The authorization endpoint -/

/-- The request object the wallet obtains from the parameters. -/
def Obtains (w : Adapter) (p : Params) (a : RequestObject) : Prop :=
  ∃ r tr jwt, AuthorizationRequest.fromUrl (buildRequestUrl w.endpoint p) w.endpoint = .ok r ∧
    r.resolve w.wallet = (tr, .ok (a, jwt))

/-- The client identifier is a redirect address. -/
def RedirectClient (a : RequestObject) (u : Str) : Prop :=
  ∃ c, a.clientId = some c ∧ c.val = c!"redirect_uri:" ++ u

end Oid4vp.Spec

namespace Oid4vp.Spec
open Example

/-- The responses sent: the POST requests. -/
def posts (l : List HttpRequest) : List HttpRequest := l.filter (fun r => r.method = c!"POST")

/-- The audience of the presentations: the client identifier, if there is one. -/
def AudienceOf (a : RequestObject) (aud : Str) : Prop :=
  (∃ c, a.clientId = some c ∧ aud = c.val) ∨ (a.clientId = none ∧ aud = c!"unknown-verifier")

/-- The state echoed: that of the request object, or else that of the query parameters. -/
def EchoedState (a : RequestObject) (p : Params) (st : Option Str) : Prop :=
  (∃ s, a.state = some (.ok s) ∧ st = some s.val) ∨ ((∀ s, a.state ≠ some (.ok s)) ∧ st = p.state)

/-- The token the wallet makes for a request object. -/
def TokenFor (w : Adapter) (a : RequestObject) (tok : VpToken) : Prop :=
  ∃ q sel aud, a.dcqlQuery = some (.ok q) ∧ matchQuery w.lower w.store q = .ok sel ∧
    AudienceOf a aud ∧ tok = buildVpToken w.holder sel a.nonce.val aud

/-- The body of the response: the plain form, or one that carries the encrypted token. -/
def BodyFor (ord : MapOrder) (w : Adapter) (p : Params) (a : RequestObject) (body : Str) : Prop :=
  ∃ tok st, TokenFor w a tok ∧ EchoedState a p st ∧
    ((a.responseMode = .directPost ∧ body = UnencodedResponse.toForm ord ⟨tok, st.map .mk⟩) ∨
     (a.responseMode = .directPostJwt ∧ ∃ cm keys key jwe,
        mget c!"client_metadata" a.inner = some (.obj cm) ∧ KeyList cm keys ∧
        FirstWith SuitableKey keys key ∧
        w.jose.encrypt key (encHeader c!"A128GCM" (kidOf key)) (encPayload tok.toJson st) = .ok jwe ∧
        body = jwtToForm jwe))

end Oid4vp.Spec

namespace Oid4vp.Spec
open Example

/-- An optional textual member. -/
def member (k : Str) (v : Option Str) : List (Str × Json) := v.toList.map (fun v => (k, .str v))

/-- The request that endpoint parameters describe. -/
def described (p : Params) : AuthorizationRequest where
  clientId := p.clientId
  indirection := match p.request, p.requestUri.bind Url.parse with
    | some jwt, _ => .byValue jwt
    | none, some u => .byReference u
    | none, none => .direct (member c!"dcql_query" p.dcqlQuery ++ member c!"nonce" p.nonce ++
        member c!"request_uri" p.requestUri ++ member c!"response_mode" p.responseMode ++
        member c!"response_type" p.responseType ++ member c!"response_uri" p.responseUri ++
        member c!"state" p.state)

end Oid4vp.Spec
