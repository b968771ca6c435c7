import Verif.Model.Jwe
import Verif.Model.Session
/-!
# The example wallet (examples/wallet-conformance-adapter) and the HTTP routes of the example
verifier (examples/verifier-conformance-adapter)
-/

set_option autoImplicit false

namespace Oid4vp
namespace Example

/-! ## Credential store -/

/-- `MockCredential` (examples/wallet-conformance-adapter/credentials/store.rs:8-22). -/
structure Credential where
  id : Str
  format : ClaimFormatDesignation
  vct : Option Str
  doctype : Option Str
  raw : Str
  claims : List (Str × Json)
deriving DecidableEq, Repr

/-- `format_matches` (examples/wallet-conformance-adapter/credentials/store.rs:150-166).
`lower` is `str::to_lowercase`, a parameter. -/
def formatMatches (lower : Str → Str) (a b : ClaimFormatDesignation) : Bool :=
  if a = b then true
  else match a, b with
    | .other x, .other y => lower x = lower y
    | _, _ => false

/-- `find_by_format` (examples/wallet-conformance-adapter/credentials/store.rs:69-74). -/
def findByFormat (lower : Str → Str) (store : List Credential) (f : ClaimFormatDesignation) :
    List Credential :=
  store.filter (fun c => formatMatches lower c.format f)

/-- `find_by_format_and_vct` with `Some(vct_values)`
(examples/wallet-conformance-adapter/credentials/store.rs:77-96; the `None` case has no caller). -/
def findByFormatAndVct (lower : Str → Str) (store : List Credential) (f : ClaimFormatDesignation)
    (vcts : List Str) : Option Credential :=
  store.find? (fun c =>
    if !formatMatches lower c.format f then false
    else match c.vct with
      | some v => vcts.any (fun x => x == v)
      | none => false)

/-- `find_by_format_and_doctype` with `Some(doctype)`
(examples/wallet-conformance-adapter/credentials/store.rs:99-118; the `None` case has no caller). -/
def findByFormatAndDoctype (lower : Str → Str) (store : List Credential)
    (f : ClaimFormatDesignation) (dt : Str) : Option Credential :=
  store.find? (fun c =>
    if !formatMatches lower c.format f then false
    else match c.doctype with
      | some d => d == dt
      | none => false)

/-- `find_by_format_and_claims`
(examples/wallet-conformance-adapter/credentials/store.rs:121-135). -/
def findByFormatAndClaims (lower : Str → Str) (store : List Credential)
    (f : ClaimFormatDesignation) (required : List Str) : Option Credential :=
  store.find? (fun c =>
    if !formatMatches lower c.format f then false
    else required.all (fun k => (mget k c.claims).isSome))

/-! ## Matching -/

/-- `meta["vct_values"]` (examples/wallet-conformance-adapter/dcql/matcher.rs:69-77). -/
def vctValues (q : CredentialQuery) : Option (List Str) :=
  ((mget c!"vct_values" q.metaMap).bind Json.asArr?).map (fun l => l.filterMap Json.asStr?)

/-- `meta["doctype_value"]` (examples/wallet-conformance-adapter/dcql/matcher.rs:80-84). -/
def doctypeValue (q : CredentialQuery) : Option Str :=
  (mget c!"doctype_value" q.metaMap).bind Json.asStr?

/-- The names taken from one path
(examples/wallet-conformance-adapter/dcql/matcher.rs:128-135). -/
def pathClaims (path : List PathElem) : List Str :=
  (path.filterMap PathElem.text?).filter
    (fun name => !name.contains '.' && !startsWith c!"org." name)

/-- `extract_required_claims` (examples/wallet-conformance-adapter/dcql/matcher.rs:120-140). -/
def requiredClaims (q : CredentialQuery) : List Str :=
  match q.claims with
  | none => []
  | some cs => (cs.vec.map (fun c => pathClaims c.path.vec)).flatten

/-- `match_credential_query` (examples/wallet-conformance-adapter/dcql/matcher.rs:62-117). -/
def matchCredentialQuery (lower : Str → Str) (store : List Credential) (q : CredentialQuery) :
    Res Credential :=
  orErr .notFound
    (match vctValues q with
      | some vcts => findByFormatAndVct lower store q.format vcts
      | none => match doctypeValue q with
        | some dt => findByFormatAndDoctype lower store q.format dt
        | none =>
          if !(requiredClaims q).isEmpty then
            findByFormatAndClaims lower store q.format (requiredClaims q)
          else (findByFormat lower store q.format).head?)

/-- `CredentialSelection` (examples/wallet-conformance-adapter/engine/types.rs:6-12): a map
from query id to raw credentials. -/
abbrev Selection := List (Str × List Str)

/-- `CredentialSelection::add` (examples/wallet-conformance-adapter/engine/types.rs:23-28). -/
def Selection.add (s : Selection) (id raw : Str) : Selection :=
  mset id ((unwrapOr [] (mget id s)) ++ [raw]) s

/-- The loop of `match_query` (examples/wallet-conformance-adapter/dcql/matcher.rs:24-31). -/
def matchLoop (lower : Str → Str) (store : List Credential) :
    List CredentialQuery → Selection → Res Selection
  | [], s => .ok s
  | q :: qs, s => match matchCredentialQuery lower store q with
    | .error e => .error e
    | .ok c => matchLoop lower store qs (Selection.add s q.id c.raw)

/-- `match_query` (examples/wallet-conformance-adapter/dcql/matcher.rs:21-59). The
`credential_sets` part (34-50) only logs. -/
def matchQuery (lower : Str → Str) (store : List Credential) (q : DcqlQuery) : Res Selection :=
  match matchLoop lower store q.credentials.vec [] with
  | .error e => .error e
  | .ok s => if s.isEmpty then .error .notFound else .ok s

/-! ## Presentations -/

/-- The holder's hash, signature and clock (parameters): SHA-256, ES256 with the holder key,
and the time read while an SD-JWT is being presented (simplified: one reading per SD-JWT text). -/
structure Holder where
  sha256 : Bytes → Bytes
  sign : Bytes → Bytes
  now : Str → Int

/-- `compute_sd_hash` (examples/wallet-conformance-adapter/crypto/keys.rs:73-77). -/
def sdHash (h : Holder) (sdJwt : Str) : Str := b64Enc .url (h.sha256 (utf8 sdJwt))

/-- The payload (examples/wallet-conformance-adapter/crypto/keys.rs:55-60). -/
def kbPayload (h : Holder) (sdJwt nonce aud : Str) : Json :=
  .obj (mofList [(c!"nonce", .str nonce), (c!"aud", .str aud), (c!"iat", .int (h.now sdJwt)),
    (c!"sd_hash", .str (sdHash h sdJwt))])

/-- The header (examples/wallet-conformance-adapter/crypto/keys.rs:54). -/
def kbHeader : Json := .obj [(c!"alg", .str c!"ES256"), (c!"typ", .str c!"kb+jwt")]

/-- `create_key_binding_jwt` (examples/wallet-conformance-adapter/crypto/keys.rs:46-71); it
never fails. -/
def keyBindingJwt (h : Holder) (sdJwt nonce aud : Str) : Str :=
  let input := b64Enc .url (utf8 (jPrint kbHeader)) ++ '.' ::
    b64Enc .url (utf8 (jPrint (kbPayload h sdJwt nonce aud)))
  input ++ '.' :: b64Enc .url (h.sign (utf8 input))

/-- One presentation (examples/wallet-conformance-adapter/engine/headless.rs:110-126). -/
def presentation (h : Holder) (nonce aud credential : Str) : Str :=
  let parts := splitOn '~' credential
  if 2 ≤ parts.length then
    let sdJwt := joinWith '~' parts.dropLast ++ ['~']
    sdJwt ++ keyBindingJwt h sdJwt nonce aud
  else credential

/-- `build_vp_token` (examples/wallet-conformance-adapter/engine/headless.rs:92-136). -/
def buildVpToken (h : Holder) (s : Selection) (nonce aud : Str) : VpToken :=
  ⟨s.map (fun p => (p.1, p.2.map (fun c => VpTokenItem.string (presentation h nonce aud c))))⟩

/-! ## The authorization endpoint -/

/-- `AuthorizationParams` (examples/wallet-conformance-adapter/server/handlers/authorization.rs:25-44). -/
structure Params where
  clientId : Option Str := none
  request : Option Str := none
  requestUri : Option Str := none
  responseType : Option Str := none
  nonce : Option Str := none
  state : Option Str := none
  responseMode : Option Str := none
  responseUri : Option Str := none
  dcqlQuery : Option Str := none
deriving DecidableEq, Repr

/-- An optional query pair. -/
def optPair (k : Str) : Option Str → List (Str × Str)
  | some v => [(k, v)]
  | none => []

/-- The appended pairs
(examples/wallet-conformance-adapter/server/handlers/authorization.rs:289-315). -/
def Params.pairs (p : Params) : List (Str × Str) :=
  optPair c!"client_id" p.clientId ++ (optPair c!"request" p.request ++
    (optPair c!"request_uri" p.requestUri ++ (optPair c!"response_type" p.responseType ++
    (optPair c!"nonce" p.nonce ++ (optPair c!"state" p.state ++
    (optPair c!"response_mode" p.responseMode ++ (optPair c!"response_uri" p.responseUri ++
    optPair c!"dcql_query" p.dcqlQuery)))))))

/-- `build_request_url`
(examples/wallet-conformance-adapter/server/handlers/authorization.rs:283-319):
`query_pairs_mut` keeps an existing query and appends. -/
def buildRequestUrl (endpoint : Url) (p : Params) : Url :=
  endpoint.setQuery (match endpoint.query, p.pairs with
    | none, l => formSer l
    | some [], l => formSer l
    | some q, [] => q
    | some q, l => q ++ '&' :: formSer l)

/-- The answer of the authorization endpoint: success with the verifier's redirect, or an
HTTP error with its `error` code and echoed state
(examples/wallet-conformance-adapter/server/handlers/authorization.rs:46-60,563-576). -/
inductive Answer where
  | success (redirect : Option Str)
  | failure (status : Nat) (error : Str) (state : Option Str)
deriving DecidableEq, Repr

/-- The example wallet: the library's surroundings, its configuration, credential store,
holder key and `josekit`. `text` is `Response::text` (crate `reqwest`): none if the body breaks off, else its text in
the encoding the answer names. -/
structure Adapter where
  wallet : Wallet
  endpoint : Url
  consent : Bool
  store : List Credential
  lower : Str → Str
  holder : Holder
  jose : Josekit
  text : HttpResponse → Option Str

/-- `process_request` of the headless engine
(examples/wallet-conformance-adapter/engine/headless.rs:52-90). -/
def Adapter.selectCredentials (w : Adapter) (a : RequestObject) : Res Selection :=
  if !w.consent then .error .callback
  else match a.dcqlQuery with
    | none => .error .missing
    | some (.error e) => .error e
    | some (.ok q) => matchQuery w.lower w.store q

/-- The security check
(examples/wallet-conformance-adapter/server/handlers/authorization.rs:190-214). -/
def redirectCheck (a : RequestObject) : Bool :=
  match a.clientId with
  | none => true
  | some c => match stripPrefix c!"redirect_uri:" c.val with
    | none => true
    | some expected => a.returnUri.print = expected

/-- The POST made by `submit_direct_post` and `submit_direct_post_jwt`
(examples/wallet-conformance-adapter/server/handlers/authorization.rs:352-357,489-494). -/
def adapterPost (uri : Url) (body : Str) : HttpRequest :=
  ⟨c!"POST", uri.print, [(c!"content-type", c!"application/x-www-form-urlencoded")], utf8 body⟩

/-- The redirect in the verifier's answer
(examples/wallet-conformance-adapter/server/handlers/authorization.rs:365-367). -/
def Adapter.verifierRedirect (w : Adapter) (resp : HttpResponse) : Option Str :=
  match w.text resp with
  | none => none
  | some t => match jParse t with
    | .error _ => none
    | .ok j => (j.get? c!"redirect_uri").bind Json.asStr?

/-- Send the response and read the verifier's answer
(examples/wallet-conformance-adapter/server/handlers/authorization.rs:321-412,489-548; that the body can be
written is part of `toForm`). The requests are those handed to `reqwest::Client`; an address it cannot use fails
there. The redirect is fetched and its result ignored. -/
def Adapter.post (w : Adapter) (uri : Url) (body : Str) (st : Option Str) :
    List HttpRequest × Answer :=
  let req := adapterPost uri body
  match w.wallet.http req with
  | .error _ => ([req], .failure 502 c!"submission_failed" st)
  | .ok resp =>
    if resp.isSuccess then
      match w.verifierRedirect resp with
      | some r => ([req, ⟨c!"GET", r, [], []⟩], .success (some r))
      | none => ([req], .success none)
    else ([req], .failure 502 c!"verifier_error" st)

/-- The key, algorithm and key id of the recipient
(examples/wallet-conformance-adapter/server/handlers/authorization.rs:552-560). -/
def verifierKey (jk : Josekit) (a : RequestObject) : Res EncryptionJwkInfo :=
  match a.clientMetadata with
  | .error e => .error e
  | .ok cm => match parsingError cm.jwks with
    | .error e => .error e
    | .ok jwks => findEncryptionJwk jk jwks.keys

/-- `submit_direct_post_jwt`
(examples/wallet-conformance-adapter/server/handlers/authorization.rs:416-549). -/
def Adapter.postJwt (w : Adapter) (a : RequestObject) (t : VpToken) (st : Option Str) :
    List HttpRequest × Answer :=
  match verifierKey w.jose a with
  | .error _ => ([], .failure 400 c!"invalid_client_metadata" st)
  | .ok info => match joseJwk w.jose info.jwk with
    | .error _ => ([], .failure 500 c!"encryption_error" st)
    | .ok key =>
      match JweBuilder.build w.jose {
          payload := some (responsePayload t (st.map .mk))
          recipientKey := some key
          alg := some info.alg
          enc := none
          kid := info.kid } with
      | .error _ => ([], .failure 500 c!"encryption_error" st)
      | .ok jwe => w.post a.returnUri (jwtToForm jwe) st

/-- The state to echo
(examples/wallet-conformance-adapter/server/handlers/authorization.rs:246-247). -/
def stateToEcho (a : RequestObject) (p : Params) : Option Str :=
  match a.state with
  | some (.ok s) => some s.val
  | _ => p.state

/-- The audience of the presentations
(examples/wallet-conformance-adapter/server/handlers/authorization.rs:218-221). -/
def audience (a : RequestObject) : Str :=
  match a.clientId with
  | some c => c.val
  | none => c!"unknown-verifier"

/-- Steps 4 to 10 of `process_authorization_request`
(examples/wallet-conformance-adapter/server/handlers/authorization.rs:149-279). `ord` is the
enumeration order of the response's hash map. -/
def Adapter.respond (ord : MapOrder) (w : Adapter) (a : RequestObject) (p : Params) :
    List HttpRequest × Answer :=
  match a.dcqlQuery with
  | none => ([], .failure 400 c!"invalid_request" p.state)
  | some (.error _) => ([], .failure 400 c!"invalid_request" p.state)
  | some (.ok _) => match w.selectCredentials a with
    | .error _ => ([], .failure 400 c!"access_denied" p.state)
    | .ok sel =>
      if !redirectCheck a then ([], .failure 400 c!"invalid_request" p.state)
      else
        let tok := buildVpToken w.holder sel a.nonce.val (audience a)
        let st := stateToEcho a p
        match a.responseMode with
        | .directPost =>
          w.post a.returnUri (UnencodedResponse.toForm ord ⟨tok, st.map .mk⟩) st
        | .directPostJwt => w.postJwt a tok st
        | _ => ([], .failure 400 c!"unsupported_response_mode" p.state)

/-- The HTTP requests among a wallet's effects. -/
def httpOf (l : List Event) : List HttpRequest :=
  l.filterMap (fun e => match e with
    | .http r => some r
    | .verify _ _ _ => none)

/-- `process_authorization_request`
(examples/wallet-conformance-adapter/server/handlers/authorization.rs:89-280): the HTTP requests
made and the answer. `ReqwestClient::new` is taken to succeed. -/
def Adapter.process (ord : MapOrder) (w : Adapter) (p : Params) : List HttpRequest × Answer :=
  match AuthorizationRequest.fromUrl (buildRequestUrl w.endpoint p) w.endpoint with
  | .error _ => ([], .failure 400 c!"invalid_request" p.state)
  | .ok r => match r.resolve w.wallet with
    | (tr, .error _) => (httpOf tr, .failure 400 c!"invalid_request" p.state)
    | (tr, .ok (a, _)) =>
      let out := w.respond ord a p
      (httpOf tr ++ out.1, out.2)

/-! ## The example verifier's routes -/

/-- `GET /request/:session_id`
(examples/verifier-conformance-adapter/server/handlers.rs:93-120): HTTP status and, on success,
the body. -/
def getRequest (session : Str) (σ : Store) : Store × Nat × Option Str :=
  match Uuid.parse session with
  | none => (σ, 400, none)
  | some u => match retrieve u σ with
    | (σ', .error _) => (σ', 404, none)
    | (σ', .ok jwt) => (σ', 200, some jwt)

/-- `POST /response/:session_id`
(examples/verifier-conformance-adapter/server/handlers.rs:126-225): HTTP status. `f` is the
validator; the body is a `String`, i.e. valid UTF-8, or the request does not reach the handler. -/
def postResponse (f : Validator) (session : Str) (body : Bytes) (σ : Store) : Store × Nat :=
  match utf8Dec body with
  | none => (σ, 400)
  | some _ => match Uuid.parse session with
    | none => (σ, 400)
    | some u => match AuthorizationResponse.ofForm body with
      | .error _ => (σ, 400)
      | .ok r => match verifyResponse u r f σ with
        | (σ', .error _) => (σ', 500)
        | (σ', .ok ()) => (σ', 200)

/-- `GET /status/:session_id`
(examples/verifier-conformance-adapter/server/handlers.rs:230-277): HTTP status and the status
reported. -/
def getStatus (session : Str) (σ : Store) : Nat × Option Status :=
  match Uuid.parse session with
  | none => (400, none)
  | some u => match pollStatus u σ with
    | .error _ => (404, none)
    | .ok st => (200, some st)

end Example
end Oid4vp
