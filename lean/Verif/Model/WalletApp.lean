import Verif.Model.Example
/-!
# The example wallet as an HTTP server (examples/wallet-conformance-adapter)

What the authorization endpoint does with its parameters is in `Model/Example.lean`.
-/

set_option autoImplicit false

namespace Oid4vp.WalletApp
open Example

/-! ## Parameters -/

/-- `AuthorizationParams` read from form fields by its derived `Deserialize`
(examples/wallet-conformance-adapter/server/handlers/authorization.rs:24-44): a field given twice is
an error, unknown fields are ignored, an empty value is a value. -/
def paramsOf (l : List (Str × Str)) : Res Params :=
  match formOpt c!"client_id" l with
  | .error e => .error e
  | .ok clientId => match formOpt c!"request" l with
    | .error e => .error e
    | .ok request => match formOpt c!"request_uri" l with
      | .error e => .error e
      | .ok requestUri => match formOpt c!"response_type" l with
        | .error e => .error e
        | .ok responseType => match formOpt c!"nonce" l with
          | .error e => .error e
          | .ok nonce => match formOpt c!"state" l with
            | .error e => .error e
            | .ok state => match formOpt c!"response_mode" l with
              | .error e => .error e
              | .ok responseMode => match formOpt c!"response_uri" l with
                | .error e => .error e
                | .ok responseUri => match formOpt c!"dcql_query" l with
                  | .error e => .error e
                  | .ok dcqlQuery => .ok ⟨clientId, request, requestUri, responseType, nonce,
                      state, responseMode, responseUri, dcqlQuery⟩

/-! ## Documents -/

/-- The formats announced (examples/wallet-conformance-adapter/server/handlers/metadata.rs:24-31). -/
def formats : ClaimFormatMap :=
  ClaimFormatMap.insert (.other c!"dc+sd-jwt")
    (.other (.obj [(c!"alg_values_supported", strsToJson [c!"ES256"]),
      (c!"kb-jwt_alg_values_supported", strsToJson [c!"ES256"])])) []

/-- The metadata before it is written
(examples/wallet-conformance-adapter/server/handlers/metadata.rs:33-47). -/
def metadata (endpoint : Url) : WalletMetadata :=
  let w := WalletMetadata.new ⟨endpoint⟩ ⟨formats⟩ none
  let w := w.setInner (UntypedObject.put (ResponseTypesSupported.mk [.vpToken]) w.inner)
  let w := w.setInner (UntypedObject.put (ClientIdPrefixesSupported.mk [⟨c!"redirect_uri"⟩]) w.inner)
  let w := w.setInner
    (UntypedObject.put (AuthorizationEncryptionAlgValuesSupported.mk [c!"ECDH-ES"]) w.inner)
  w.setInner (UntypedObject.put (AuthorizationEncryptionEncValuesSupported.mk [c!"A256GCM"]) w.inner)

/-- `GET /.well-known/openid-configuration`
(examples/wallet-conformance-adapter/server/handlers/metadata.rs:22-60). -/
def metadataJson (endpoint : Url) : Json :=
  .obj (mset c!"response_modes_supported" (strsToJson [c!"direct_post", c!"direct_post.jwt"])
    (metadata endpoint).toObject)

/-- `public_jwk` (examples/wallet-conformance-adapter/crypto/keys.rs:26-43), members sorted; `x` and
`y` are the coordinates of the holder's public key. -/
def publicJwk (x y : Bytes) : List (Str × Json) :=
  [(c!"alg", .str c!"ES256"), (c!"crv", .str c!"P-256"), (c!"kid", .str c!"holder-key"),
    (c!"kty", .str c!"EC"), (c!"use", .str c!"sig"), (c!"x", .str (b64Enc .url x)),
    (c!"y", .str (b64Enc .url y))]

/-- `GET /.well-known/jwks.json`
(examples/wallet-conformance-adapter/server/handlers/metadata.rs:62-71,
examples/wallet-conformance-adapter/engine/headless.rs:136-138). -/
def jwksJson (x y : Bytes) : Json := .obj [(c!"keys", .arr [.obj (publicJwk x y)])]

/-- The body of a successful or failed authorization
(examples/wallet-conformance-adapter/server/handlers/authorization.rs:46-60,563-576); `description`
stands for the error text, which is not modelled. -/
def answerJson (description : Str) : Answer → Json
  | .success redirect => .obj (match redirect with
    | some r => [(c!"redirect_uri", .str r)]
    | none => [])
  | .failure _ error state => .obj ((c!"error", .str error) ::
      (c!"error_description", .str description) :: match state with
    | some s => [(c!"state", .str s)]
    | none => [])

/-- The HTTP status of the answer
(examples/wallet-conformance-adapter/server/handlers/authorization.rs:390,563-576). -/
def answerStatus : Answer → Nat
  | .success _ => 200
  | .failure status _ _ => status

/-! ## The server -/

/-- An HTTP request as the server sees it. Simplified: a body is announced with its length. -/
structure Call where
  method : Str
  path : Str
  query : Option Str
  contentType : Option Str
  body : Bytes
deriving DecidableEq, Repr

/-- Status and JSON document of the answer; no document for empty and plain text bodies. -/
structure Reply where
  status : Nat
  document : Option Json
deriving DecidableEq, Repr

/-- `AppState` (examples/wallet-conformance-adapter/server/state.rs:5-18) and what the handlers take
from elsewhere: the crate's version, the coordinates of the holder's public key
(examples/wallet-conformance-adapter/crypto/keys.rs:11-31), error texts. -/
structure App where
  adapter : Adapter
  publicUrl : Url
  version : Str
  x : Bytes
  y : Bytes
  describe : Params → Answer → Str

/-- The authorization endpoint for parameters that could be read
(examples/wallet-conformance-adapter/server/handlers/authorization.rs:62-90). -/
def authorize (ord : MapOrder) (app : App) (p : Params) : List HttpRequest × Reply :=
  let (reqs, ans) := app.adapter.process ord p
  (reqs, ⟨answerStatus ans, some (answerJson (app.describe p ans) ans)⟩)

/-- `GET /authorize` (examples/wallet-conformance-adapter/server/handlers/authorization.rs:62-73);
`Query` refuses with 400. -/
def authorizeGet (ord : MapOrder) (app : App) (c : Call) : List HttpRequest × Reply :=
  match paramsOf (formParse (unwrapOr [] c.query)) with
  | .error _ => ([], ⟨400, none⟩)
  | .ok p => authorize ord app p

/-- Whether `Form` takes the content type: it begins with the one of forms. -/
def isForm (contentType : Option Str) : Bool :=
  match contentType with
  | none => false
  | some t => (stripPrefix c!"application/x-www-form-urlencoded" t).isSome

/-- `POST /authorize` (examples/wallet-conformance-adapter/server/handlers/authorization.rs:75-87);
`Form` refuses another content type with 415 and other fields with 422. -/
def authorizePost (ord : MapOrder) (app : App) (c : Call) : List HttpRequest × Reply :=
  if isForm c.contentType then
    match paramsOf (formParseB c.body) with
    | .error _ => ([], ⟨422, none⟩)
    | .ok p => authorize ord app p
  else ([], ⟨415, none⟩)

/-- `GET /health` (examples/wallet-conformance-adapter/server/handlers/health.rs:6-15), members
sorted. -/
def healthJson (version : Str) : Json :=
  .obj [(c!"engine", .str c!"headless"), (c!"status", .str c!"ok"), (c!"version", .str version)]

/-- `GET /debug/config` (examples/wallet-conformance-adapter/server/handlers/health.rs:17-27). -/
def configJson (app : App) : Json :=
  .obj [(c!"authorization_endpoint", .str app.adapter.endpoint.print),
    (c!"credentials_count", .int app.adapter.store.length), (c!"public_url", .str app.publicUrl.print)]

/-- `GET /debug/credentials` (examples/wallet-conformance-adapter/server/handlers/health.rs:29-37). -/
def credentialsJson (app : App) : Json :=
  .obj [(c!"count", .int app.adapter.store.length),
    (c!"formats", strsToJson [c!"dc+sd-jwt", c!"vc+sd-jwt"])]

/-- The GET routes other than the authorization endpoint
(examples/wallet-conformance-adapter/server/routes.rs:28-39). -/
def getDocument (app : App) (path : Str) : Option Json :=
  if path = c!"/.well-known/openid-configuration" then some (metadataJson app.adapter.endpoint)
  else if path = c!"/.well-known/jwks.json" then some (jwksJson app.x app.y)
  else if path = c!"/health" then some (healthJson app.version)
  else if path = c!"/debug/config" then some (configJson app)
  else if path = c!"/debug/credentials" then some (credentialsJson app)
  else if path = c!"/" then some (healthJson app.version)
  else none

/-- A request with method GET (examples/wallet-conformance-adapter/server/routes.rs:24-39). -/
def get (ord : MapOrder) (app : App) (c : Call) : List HttpRequest × Reply :=
  if c.path = c!"/authorize" then authorizeGet ord app c
  else match getDocument app c.path with
    | some j => ([], ⟨200, some j⟩)
    | none => ([], ⟨404, none⟩)

/-- The router with its layers (examples/wallet-conformance-adapter/server/routes.rs:16-49). `axum`:
an unknown path is 404, another method 405, HEAD is GET without the body; `tower_http`: a body above
the limit is 413, every OPTIONS request is a preflight request. Time-outs are not modelled. -/
def serve (ord : MapOrder) (app : App) (c : Call) : List HttpRequest × Reply :=
  if 1024 * 1024 < c.body.length then ([], ⟨413, none⟩)
  else if c.method = c!"OPTIONS" then ([], ⟨200, none⟩)
  else if c.method = c!"GET" then get ord app c
  else if c.method = c!"HEAD" then
    let (reqs, rep) := get ord app c
    (reqs, { rep with document := none })
  else if c.path = c!"/authorize" then
    if c.method = c!"POST" then authorizePost ord app c else ([], ⟨405, none⟩)
  else match getDocument app c.path with
    | some _ => ([], ⟨405, none⟩)
    | none => ([], ⟨404, none⟩)

/-- The address of the authorization endpoint
(examples/wallet-conformance-adapter/main.rs:54-62), from the public address or host and port. -/
def endpointOf (publicUrl : Option Str) (host port : Str) : Option Url :=
  Url.parse (unwrapOr (c!"http://" ++ (host ++ ':' :: port)) publicUrl ++ c!"/authorize")

/-! ## The credentials file -/

/-- No field of a derived `struct` is given twice; `serde` refuses that when reading text. -/
def fieldsOnce (names : List Str) (m : List (Str × Json)) : Bool :=
  names.all fun k => (m.filter (fun p => p.1 = k)).length ≤ 1

/-- The fields of a derived `struct` read from text. -/
def structText (names : List Str) (j : Json) : Res (List (Str × Json)) :=
  match structFields names j with
  | .error e => .error e
  | .ok m => if fieldsOnce names m then .ok m else .error .parse

/-- `HashMap<String, serde_json::Value>` read from text: the last of duplicates wins, in the keys and
inside the values. -/
def claimsOfJson : Json → Res (List (Str × Json))
  | .obj m => .ok (mofList (m.map fun p => (p.1, p.2.norm)))
  | _ => .error .parse

/-- `CredentialConfig` and its conversion
(examples/wallet-conformance-adapter/credentials/store.rs:29-39,55-62,168-171). -/
def credentialOf (j : Json) : Res Credential :=
  match structText [c!"id", c!"format", c!"vct", c!"doctype", c!"raw_credential", c!"claims"] j with
  | .error e => .error e
  | .ok m => match fieldReq c!"id" strOfJson m with
    | .error e => .error e
    | .ok id => match fieldReq c!"format" strOfJson m with
      | .error e => .error e
      | .ok format => match fieldOpt c!"vct" strOfJson m with
        | .error e => .error e
        | .ok vct => match fieldOpt c!"doctype" strOfJson m with
          | .error e => .error e
          | .ok doctype => match fieldReq c!"raw_credential" strOfJson m with
            | .error e => .error e
            | .ok raw => match fieldReq c!"claims" claimsOfJson m with
              | .error e => .error e
              | .ok claims => .ok ⟨id, .fromName format, vct, doctype, raw, claims⟩

/-- `CredentialStore::with_mock_credentials` on the text of the file
(examples/wallet-conformance-adapter/credentials/store.rs:24-27,47-67); the `expect` becomes an
error. Simplified: the values of unknown members must be JSON of at most 127 nested brackets, `serde`
passes over them with less care. -/
def loadStore (text : Str) : Res (List Credential) :=
  match jParseRaw text with
  | .error e => .error e
  | .ok j => match structText [c!"credentials"] j with
    | .error e => .error e
    | .ok m => fieldReq c!"credentials" (vecOfJson credentialOf) m

/-- `credentials.json` (examples/wallet-conformance-adapter/credentials.json:1-16), the file that is
embedded (examples/wallet-conformance-adapter/credentials/store.rs:48). -/
def embeddedText : Str := List.flatten [
  c!"{\n",
  c!"  \"credentials\": [\n",
  c!"    {\n",
  c!"      \"id\": \"pid_credential\",\n",
  c!"      \"format\": \"dc+sd-jwt\",\n",
  c!"      \"vct\": \"https://credentials.example.com/pid/1.0\",\n",
  c!"      \"raw_credential\": \"eyJhbGciOiJFUzI1NiIsInR5cCI6InZjK3NkLWp3dCJ9.eyJpc3MiOi",
  c!"JodHRwczovL2lzc3Vlci5leGFtcGxlLmNvbSIsInN1YiI6ImRpZDpleGFtcGxlOmhvbGRlcjEyMyIsIm",
  c!"lhdCI6MTcwMDAwMDAwMCwiZXhwIjoyMDAwMDAwMDAwLCJ2Y3QiOiJodHRwczovL2NyZWRlbnRpYWxzLm",
  c!"V4YW1wbGUuY29tL3BpZC8xLjAiLCJjbmYiOnsiandrIjp7Imt0eSI6IkVDIiwiY3J2IjoiUC0yNTYiLC",
  c!"J4IjoiQ3dOU0tXZGRFbnpkeXN1QlcwYWlRMnJ2Smw4VURMNm81MXFYZXV3MWdvWSIsInkiOiJFTmxFNj",
  c!"JTeHpza3dHTXUzUG9xMFNETlJDeFI3UDR0aHlveGRVUkRvbkhzIn19LCJfc2QiOlsiaGFzaF9naXZlbl",
  c!"9uYW1lIiwiaGFzaF9mYW1pbHlfbmFtZSIsImhhc2hfbmF0aW9uYWxpdHkiLCJoYXNoX2FnZV9vdmVyXz",
  c!"E4Il0sIl9zZF9hbGciOiJzaGEtMjU2In0.MOCK_SD_JWT_SIG~WyJzYWx0X2dpdmVuX25hbWUiLCJnaX",
  c!"Zlbl9uYW1lIiwiSm9obiJd~WyJzYWx0X2ZhbWlseV9uYW1lIiwiZmFtaWx5X25hbWUiLCJEb2UiXQ~Wy",
  c!"JzYWx0X25hdGlvbmFsaXR5IiwibmF0aW9uYWxpdHkiLCJVUyJd~WyJzYWx0X2FnZV9vdmVyXzE4IiwiY",
  c!"WdlX292ZXJfMTgiLHRydWVd~eyJhbGciOiJFUzI1NiIsInR5cCI6ImtiK2p3dCJ9.eyJub25jZSI6IlB",
  c!"MQUNFSE9MREVSX05PTkNFIiwiYXVkIjoiUExBQ0VIT0xERVJfQVVESUVOQ0UiLCJpYXQiOjE3MDAwMDA",
  c!"wMDB9.MOCK_KB_SIG\",\n",
  c!"      \"claims\": {\n",
  c!"        \"given_name\": \"John\",\n",
  c!"        \"family_name\": \"Doe\",\n",
  c!"        \"nationality\": \"US\",\n",
  c!"        \"age_over_18\": true\n",
  c!"      }\n",
  c!"    }\n",
  c!"  ]\n",
  c!"}\n"]

end Oid4vp.WalletApp
