import Verif.Model.Params
import Verif.Model.Base64
/-!
# Authorization requests (src/core/authorization_request/mod.rs) and their verification
by a wallet (src/core/authorization_request/verification/mod.rs)
-/

set_option autoImplicit false

namespace Oid4vp

/-! ## Request objects -/

/-- `AuthorizationRequestObject` (src/core/authorization_request/mod.rs:34-42). -/
structure RequestObject where
  inner : UntypedObject
  clientId : Option ClientId
  clientIdScheme : Option ClientIdScheme
  responseMode : ResponseMode
  responseType : ResponseType
  returnUri : Url
  nonce : Nonce
deriving DecidableEq, Repr

/-- `.map(|c| c.parsing_error()).transpose()`: an absent parameter is fine, an unreadable
one is an error (src/core/authorization_request/mod.rs:319-322). -/
def transposeGet {α : Type} : Option (Res α) → Res (Option α)
  | none => .ok none
  | some (.ok a) => .ok (some a)
  | some (.error e) => .error e

/-- The literal of src/core/authorization_request/mod.rs:358, `"https://example.com"`. -/
def placeholderUri : Str := c!"https://example.com"

/-- Return address and mode: the `match` of
src/core/authorization_request/mod.rs:328-361, arms in the same order. -/
def returnAddress (redirect : Option (Res RedirectUri)) (response : Option (Res ResponseUri))
    (mode : ResponseMode) : Res Url :=
  match redirect, response, mode with
  | _, _, .unsupported _ => .error .unsupported
  | some _, some _, _ => .error .conflict
  | _, none, .directPost => .error .missing
  | _, none, .directPostJwt => .error .missing
  | _, some uri, .directPost => uri.map (·.val)
  | _, some uri, .directPostJwt => uri.map (·.val)
  | _, some _, .dcApi => .error .conflict
  | _, some _, .dcApiJwt => .error .conflict
  | some _, _, .dcApi => .error .conflict
  | some _, _, .dcApiJwt => .error .conflict
  | none, none, .dcApi => orErr .parse (Url.parse placeholderUri)
  | none, none, .dcApiJwt => orErr .parse (Url.parse placeholderUri)

namespace RequestObject

/-- `TryFrom<UntypedObject>` (src/core/authorization_request/mod.rs:315-375). -/
def ofObject (o : UntypedObject) : Res RequestObject :=
  match transposeGet (UntypedObject.get ClientId o) with
  | .error e => .error e
  | .ok cid =>
    match UntypedObject.getOrDefault ResponseMode o with
    | .error e => .error e
    | .ok mode =>
      match returnAddress (UntypedObject.get RedirectUri o) (UntypedObject.get ResponseUri o)
          mode with
      | .error e => .error e
      | .ok uri =>
        match parsingError (UntypedObject.get ResponseType o) with
        | .error e => .error e
        | .ok rt =>
          match parsingError (UntypedObject.get Nonce o) with
          | .error e => .error e
          | .ok nonce => .ok {
              inner := o
              clientId := cid
              clientIdScheme := match cid with
                | some c => c.resolvePrefix
                | none => none
              responseMode := mode
              responseType := rt
              returnUri := uri
              nonce := nonce }

/-- `From<AuthorizationRequestObject> for UntypedObject`
(src/core/authorization_request/mod.rs:309-313). -/
def toObject (a : RequestObject) : UntypedObject := a.inner

/-- `dcql_query` (src/core/authorization_request/mod.rs:257-259). -/
def dcqlQuery (a : RequestObject) : Option (Res DcqlQuery) := UntypedObject.get DcqlQuery a.inner

/-- `is_id_token_requested` (src/core/authorization_request/mod.rs:261-267). -/
def isIdTokenRequested (a : RequestObject) : Option Bool :=
  match a.responseType with
  | .vpToken => some false
  | .vpTokenIdToken => some true
  | .unsupported _ => none

/-- `client_metadata` (src/core/authorization_request/mod.rs:289-292). -/
def clientMetadata (a : RequestObject) : Res ClientMetadata :=
  match UntypedObject.get ClientMetadata a.inner with
  | none => .error .missing
  | some r => r

/-- `vp_formats` (src/core/authorization_request/mod.rs:295-300). -/
def vpFormats (a : RequestObject) : Res VpFormats :=
  match a.clientMetadata with
  | .error e => .error e
  | .ok cm => match UntypedObject.get VpFormats cm.val with
    | none => .error .missing
    | some r => r

/-- `state` (src/core/authorization_request/mod.rs:304-306). -/
def state (a : RequestObject) : Option (Res State) := UntypedObject.get State a.inner

/-- `DerefMut` (src/core/authorization_request/mod.rs:385-389): the caller may change the
parameters; the other fields stay as they are. -/
def edit (f : UntypedObject → UntypedObject) (a : RequestObject) : RequestObject :=
  { a with inner := f a.inner }

end RequestObject

/-- `ClientMetadata::resolve` (src/core/authorization_request/parameters.rs:165-172). -/
def ClientMetadata.resolve (a : RequestObject) : Res ClientMetadata :=
  match UntypedObject.get ClientMetadata a.inner with
  | some r => r
  | none => .ok ⟨[]⟩

/-! ## Authorization requests and their URLs -/

/-- `RequestIndirection` (src/core/authorization_request/mod.rs:54-60). -/
inductive RequestIndirection where
  | byValue (request : Str)
  | byReference (requestUri : Url)
  | direct (o : UntypedObject)
deriving DecidableEq, Repr

/-- `AuthorizationRequest` (src/core/authorization_request/mod.rs:46-51). -/
structure AuthorizationRequest where
  clientId : Option Str
  indirection : RequestIndirection
deriving DecidableEq, Repr

/-- A JSON value as the value of a form field (`serde_urlencoded`'s value serialiser):
texts, booleans and numbers only. -/
def formValue : Json → Res Str
  | .str s => .ok s
  | .bool true => .ok c!"true"
  | .bool false => .ok c!"false"
  | .int i => .ok (intStr i)
  | .flt lit => .ok lit
  | .null => .error .serialize
  | .arr _ => .error .serialize
  | .obj _ => .error .serialize

/-- The members of a direct request as form fields. -/
def formMembers (o : UntypedObject) : Res (List (Str × Str)) :=
  mapR (fun p => (formValue p.2).map (fun v => (p.1, v))) o

namespace AuthorizationRequest

/-- Derived `Serialize` of the struct with the flattened enum
(src/core/authorization_request/mod.rs:45-60), as form fields in order. -/
def fields (r : AuthorizationRequest) : Res (List (Str × Str)) :=
  let cid : List (Str × Str) := match r.clientId with
    | some c => [(c!"client_id", c)]
    | none => []
  match r.indirection with
  | .byValue jwt => .ok (cid ++ [(c!"request", jwt)])
  | .byReference uri => .ok (cid ++ [(c!"request_uri", uri.print)])
  | .direct o => match formMembers o with
    | .error e => .error e
    | .ok l => .ok (cid ++ l)

/-- `to_url` (src/core/authorization_request/mod.rs:176-180). -/
def toUrl (r : AuthorizationRequest) (endpoint : Url) : Res Url :=
  match r.fields with
  | .error e => .error e
  | .ok l => .ok (endpoint.setQuery (formSer l))

/-- The values of a repeated field, in order. -/
def valuesOf (k : Str) (l : List (Str × Str)) : List Str :=
  (l.filter (fun p => p.1 = k)).map Prod.snd

/-- The untagged enum (src/core/authorization_request/mod.rs:54-60) read from the
flattened fields: a variant's struct refuses a duplicated field and ignores other fields; the
map variant takes everything. -/
def indirectionOfFields (l : List (Str × Str)) : RequestIndirection :=
  match valuesOf c!"request" l with
  | [jwt] => .byValue jwt
  | _ =>
    let direct := RequestIndirection.direct (mofList (l.map (fun p => (p.1, Json.str p.2))))
    match valuesOf c!"request_uri" l with
    | [u] => match Url.parse u with
      | some uri => .byReference uri
      | none => direct
    | _ => direct

/-- `from_query_params` (src/core/authorization_request/mod.rs:237-240): derived
`Deserialize` with `flatten` over `serde_urlencoded`. -/
def fromQueryParams (q : Str) : Res AuthorizationRequest :=
  let l := formParse q
  let rest := l.filter (fun p => p.1 ≠ c!"client_id")
  match valuesOf c!"client_id" l with
  | [] => .ok ⟨none, indirectionOfFields rest⟩
  | [c] => .ok ⟨some c, indirectionOfFields rest⟩
  | _ => .error .parse

/-- `from_url` (src/core/authorization_request/mod.rs:205-221). -/
def fromUrl (url endpoint : Url) : Res AuthorizationRequest :=
  match url.query with
  | none => .error .missing
  | some q =>
    if url.authorityStr ≠ endpoint.authorityStr then .error .wrongEndpoint
    else if url.path ≠ endpoint.path then .error .wrongEndpoint
    else fromQueryParams q

end AuthorizationRequest

/-! ## JWS strings -/

/-- `ssi::claims::jws::split_jws`: `splitn(3, '.')`, all three parts required. The third
part may contain further dots. -/
def splitJws (s : Str) : Res (Str × Str × Str) :=
  match splitOnce '.' s with
  | none => .error .decode
  | some (h, r) => match splitOnce '.' r with
    | none => .error .decode
    | some (b, g) => .ok (h, b, g)

/-- `BASE64_URL_SAFE_NO_PAD.decode` of a text. -/
def b64url (s : Str) : Res Bytes := orErr .decode (b64Dec .url s)

/-- Parsed JSON that must be an object (`serde_json::from_slice::<Map<String, Json>>`). -/
def jsonMap (b : Bytes) : Res (List (Str × Json)) :=
  match jParseBytes b with
  | .error e => .error e
  | .ok (.obj m) => .ok m
  | .ok _ => .error .parse

/-- The protected header as a JSON object: `split_jws`, base64url, JSON
(src/core/authorization_request/mod.rs:401-408). -/
def jwsHeader (jwt : Str) : Res (List (Str × Json)) :=
  match splitJws jwt with
  | .error e => .error e
  | .ok (h, _, _) => match b64url h with
    | .error e => .error e
    | .ok bytes => jsonMap bytes

/-- `REQUEST_OBJECT_TYP` (src/core/authorization_request/mod.rs:27). -/
def requestObjectTyp : Str := c!"oauth-authz-req+jwt"

/-- `validate_request_object_typ` (src/core/authorization_request/mod.rs:400-448). -/
def validateRequestObjectTyp (jwt : Str) (isRedirectUriPrefix : Bool) : Res Unit :=
  match jwsHeader jwt with
  | .error e => .error e
  | .ok m =>
    match (mget c!"typ" m).bind Json.asStr? with
    | some t =>
      if t = requestObjectTyp then .ok ()
      else if isRedirectUriPrefix then .ok () else .error .mismatch
    | none => if isRedirectUriPrefix then .ok () else .error .missing

/-- What `ssi` makes of a decoded JOSE header: a refusal, or the algorithm name and
whether the payload is base64url-encoded (`b64`, RFC 7797). A parameter of the model. -/
abbrev SsiHeader := Bytes → Res (Str × Bool)

/-- `ssi::claims::jwt::decode_unverified::<UntypedObject>`: split, decode the signature,
the header and the payload, parse the payload as a JSON object. -/
def decodeUnverified (hdr : SsiHeader) (jwt : Str) : Res UntypedObject :=
  match splitJws jwt with
  | .error e => .error e
  | .ok (h, b, g) => match b64url g with
    | .error e => .error e
    | .ok _ => match b64url h with
      | .error e => .error e
      | .ok hb => match hdr hb with
        | .error e => .error e
        | .ok (_, enc) =>
          match if enc then b64url b else (.ok (utf8 b) : Res Bytes) with
          | .error e => .error e
          | .ok payload => jsonMap payload

/-! ## HTTP and wallets -/

/-- An HTTP request as built by the library (`http::Request<Vec<u8>>`). -/
structure HttpRequest where
  method : Str
  uri : Str
  headers : List (Str × Str)
  body : Bytes
deriving DecidableEq, Repr

/-- An HTTP response (`http::Response<Vec<u8>>`). -/
structure HttpResponse where
  status : Nat
  body : Bytes
deriving DecidableEq, Repr

/-- `StatusCode::is_success`. -/
def HttpResponse.isSuccess (r : HttpResponse) : Bool := 200 ≤ r.status && r.status < 300

/-- `base_request` (src/core/util/mod.rs:14-16): the header every request starts with. -/
def baseHeaders : List (Str × Str) := [(c!"prefer", c!"OID4VP-1.0.0")]

/-- The methods of `trait RequestVerifier`
(src/core/authorization_request/verification/mod.rs:33-120). -/
inductive VerifyMethod where
  | decentralizedIdentifier
  | openidFederation
  | preregistered
  | redirectUri
  | verifierAttestation
  | x509SanDns
  | x509Hash
  | other (pre : Str)
deriving DecidableEq, Repr

/-- An implementation of `RequestVerifier`: an arbitrary decision per method, request
object and JWT. -/
abbrev RequestVerifier := VerifyMethod → RequestObject → Option Str → Res Unit

/-- The default methods (src/core/authorization_request/verification/mod.rs:36-119): every
one refuses. -/
def defaultVerifier : RequestVerifier := fun _ _ _ => .error .unsupported

/-- `trait Wallet` (src/wallet.rs:17-21) with the behaviour of its surroundings: HTTP
client, verification methods, which texts the `http` crate accepts as a URI, and `ssi`'s header
parser. -/
structure Wallet where
  metadata : WalletMetadata
  http : HttpRequest → Res HttpResponse
  verifier : RequestVerifier
  uriOk : Str → Bool
  ssiHeader : SsiHeader

/-- Observable effects of a wallet. -/
inductive Event where
  | http (r : HttpRequest)
  | verify (m : VerifyMethod) (a : RequestObject) (jwt : Option Str)
deriving DecidableEq, Repr

/-- The part of `resolve_request` that both JWT cases share
(src/core/authorization_request/mod.rs:112-117,140-147). -/
def resolveJwt (hdr : SsiHeader) (lenient : Bool) (jwt : Str) :
    Res (RequestObject × Option Str) :=
  match validateRequestObjectTyp jwt lenient with
  | .error e => .error e
  | .ok () => match decodeUnverified hdr jwt with
    | .error e => .error e
    | .ok o => match RequestObject.ofObject o with
      | .error e => .error e
      | .ok a => .ok (a, some jwt)

/-- Whether the client_id outside the request object starts with `redirect_uri:`
(src/core/authorization_request/mod.rs:104-108). -/
def AuthorizationRequest.isRedirectUriPrefix (r : AuthorizationRequest) : Bool :=
  match r.clientId with
  | some c => startsWith c!"redirect_uri:" c
  | none => false

/-- The GET request of src/core/authorization_request/mod.rs:120-124. -/
def fetchRequest (uri : Url) : HttpRequest := ⟨c!"GET", uri.print, baseHeaders, []⟩

/-- `resolve_request` (src/core/authorization_request/mod.rs:99-159): the HTTP requests
made and the result. -/
def AuthorizationRequest.resolve (w : Wallet) (r : AuthorizationRequest) :
    List Event × Res (RequestObject × Option Str) :=
  match r.indirection with
  | .byValue jwt => ([], resolveJwt w.ssiHeader r.isRedirectUriPrefix jwt)
  | .byReference uri =>
    if w.uriOk uri.print then
      ([.http (fetchRequest uri)],
        match w.http (fetchRequest uri) with
        | .error e => .error e
        | .ok resp => match utf8Dec resp.body with
          | none => .error .decode
          | some body =>
            if resp.isSuccess then resolveJwt w.ssiHeader r.isRedirectUriPrefix body
            else .error .http)
    else ([], .error .http)
  | .direct o =>
    let o := match r.clientId with
      | some c => UntypedObject.put (ClientId.mk c) o
      | none => o
    ([], match RequestObject.ofObject o with
      | .error e => .error e
      | .ok a => .ok (a, none))

/-! ## Verification -/

/-- The algorithms of the encryption keys
(src/core/authorization_request/verification/mod.rs:203-213). -/
def encryptionAlgs (jwks : JWKs) : List Str :=
  (jwks.keys.filter (fun k => (mget c!"use" k).bind Json.asStr? = some c!"enc")).filterMap
    (fun k => (mget c!"alg" k).bind Json.asStr?)

/-- Some offered value is in the wallet's list, if the wallet has one
(src/core/authorization_request/verification/mod.rs:222-234,243-255). -/
def checkSupported (offered : List Str) : Option (Res (List Str)) → Res Unit
  | none => .ok ()
  | some (.error e) => .error e
  | some (.ok l) => if offered.any (fun x => l.contains x) then .ok () else .error .unsupported

/-- The encryption part of `validate_request_against_metadata`
(src/core/authorization_request/verification/mod.rs:195-256). -/
def checkEncryption (wm : WalletMetadata) (cm : ClientMetadata) : Res Unit :=
  match parsingError (UntypedObject.get JWKs cm.val) with
  | .error e => .error e
  | .ok jwks =>
    let algs := encryptionAlgs jwks
    if algs.isEmpty then .error .missing
    else match checkSupported algs
        ((UntypedObject.get AuthorizationEncryptionAlgValuesSupported wm.inner).map
          (fun r => r.map (·.val))) with
      | .error e => .error e
      | .ok () =>
        match transposeGet (UntypedObject.get EncryptedResponseEncValuesSupported cm.val) with
        | .error e => .error e
        | .ok enc =>
          checkSupported (unwrapOr RDefault.dflt enc).val
            ((UntypedObject.get AuthorizationEncryptionEncValuesSupported wm.inner).map
              (fun r => r.map (·.val)))

/-- The prefix part of `validate_request_against_metadata`
(src/core/authorization_request/verification/mod.rs:174-185). -/
def checkPrefix (wm : WalletMetadata) (a : RequestObject) : Res Unit :=
  match a.clientIdScheme with
  | none => .ok ()
  | some p => match UntypedObject.getOrDefault ClientIdPrefixesSupported wm.inner with
    | .error e => .error e
    | .ok l => if l.val.contains p then .ok () else .error .unsupported

/-- `validate_request_against_metadata`
(src/core/authorization_request/verification/mod.rs:166-259). -/
def validateAgainstMetadata (wm : WalletMetadata) (a : RequestObject) : Res Unit :=
  match checkPrefix wm a with
  | .error e => .error e
  | .ok () => match ClientMetadata.resolve a with
    | .error e => .error e
    | .ok cm => match parsingError (UntypedObject.get ResponseMode a.inner) with
      | .error e => .error e
      | .ok mode => match mode.isJarm with
        | .error e => .error e
        | .ok false => .ok ()
        | .ok true => checkEncryption wm cm

/-- The method selected by the prefix, `none` for the refused prefix `origin`
(src/core/authorization_request/verification/mod.rs:133-161). -/
def selectMethod : Option ClientIdScheme → Option VerifyMethod
  | none => some .preregistered
  | some p =>
    if p.val = ClientIdScheme.decentralizedIdentifier then some .decentralizedIdentifier
    else if p.val = ClientIdScheme.openidFederation then some .openidFederation
    else if p.val = ClientIdScheme.redirectUri then some .redirectUri
    else if p.val = ClientIdScheme.verifierAttestation then some .verifierAttestation
    else if p.val = ClientIdScheme.x509SanDns then some .x509SanDns
    else if p.val = ClientIdScheme.x509Hash then some .x509Hash
    else if p.val = ClientIdScheme.origin then none
    else some (.other p.val)

/-- `verify_request` (src/core/authorization_request/verification/mod.rs:122-164). -/
def verifyRequest (w : Wallet) (a : RequestObject) (jwt : Option Str) : List Event × Res Unit :=
  match validateAgainstMetadata w.metadata a with
  | .error e => ([], .error e)
  | .ok () => match selectMethod a.clientIdScheme with
    | none => ([], .error .unsupported)
    | some m => ([.verify m a jwt], w.verifier m a jwt)

/-- `AuthorizationRequest::validate` (src/core/authorization_request/mod.rs:72-90). -/
def AuthorizationRequest.validate (w : Wallet) (r : AuthorizationRequest) :
    List Event × Res RequestObject :=
  match r.resolve w with
  | (tr, .error e) => (tr, .error e)
  | (tr, .ok (a, jwt)) =>
    match verifyRequest w a jwt with
    | (tr', .error e) => (tr ++ tr', .error e)
    | (tr', .ok ()) =>
      (tr ++ tr',
        match transposeGet (UntypedObject.get ClientId a.inner) with
        | .error e => .error e
        | .ok inner => match r.clientId, inner with
          | some x, some y => if x ≠ y.val then .error .mismatch else .ok a
          | _, _ => .ok a)

/-- `Wallet::validate_request` (src/wallet.rs:23-29). -/
def Wallet.validateRequest (w : Wallet) (url : Url) : List Event × Res RequestObject :=
  match AuthorizationRequest.fromUrl url w.metadata.authorizationEndpoint.val with
  | .error e => ([], .error e)
  | .ok r => r.validate w

end Oid4vp
