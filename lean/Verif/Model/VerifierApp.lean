import Verif.Model.Example
import Verif.Model.WalletApp
import Verif.Model.JsonPretty
import Verif.Model.UrlJoin
/-!
# The example verifier (examples/verifier-conformance-adapter)

Its three session routes are in `Model/Example.lean`.
-/

set_option autoImplicit false

namespace Oid4vp.VerifierApp

/-! ## URLs -/

/-- The host in an authority: after the user information, before the port. -/
def hostOfAuthority (a : Str) : Str :=
  let h := match rsplitOnce '@' a with
    | some (_, h) => h
    | none => a
  match h with
  | '[' :: _ => match splitOnce ']' h with
    | some (x, _) => x ++ [']']
    | none => h
  | _ => match splitOnce ':' h with
    | some (x, _) => x
    | none => h

/-- `Url::host_str` (crate `url`): an empty host is no host. -/
def hostStr (u : Url) : Option Str :=
  match u.authority with
  | none => none
  | some a => match hostOfAuthority a with
    | [] => none
    | h => some h

/-! ## Certificates -/

/-- What the certificate functions use of other libraries: X.509, and reading a PKCS#8 key into a
signer (`SigningKey::from_pkcs8_der`, `P256Signer::new`). Simplified: the second step, which is done by
the caller (examples/verifier-conformance-adapter/server/state.rs:85), fails together with the first. -/
structure Pki where
  x509 : X509
  key : Bytes → Res Signer

/-- A signing key and its certificate with the DER form, as returned by `get_or_generate_cert`
(examples/verifier-conformance-adapter/server/state.rs:156). -/
structure Identity (p : Pki) where
  key : Signer
  cert : p.x509.Cert
  der : Bytes

/-- What `rcgen` draws for a domain in one run
(examples/verifier-conformance-adapter/server/state.rs:238-264): the DER certificate and the PKCS#8
key, or an error. -/
abbrev Draw := Str → Res (Bytes × Bytes)

/-- `generate_cert` (examples/verifier-conformance-adapter/server/state.rs:235-268): signer,
certificate, PKCS#8 key. -/
def generateCert (p : Pki) (draw : Draw) (domain : Str) : Res (Signer × p.x509.Cert × Bytes) :=
  match draw domain with
  | .error e => .error e
  | .ok (der, pkcs8) => match p.x509.fromDer der with
    | none => .error .decode
    | some c => match p.key pkcs8 with
      | .error e => .error e
      | .ok s => .ok (s, c, pkcs8)

/-- The files of the cache directory: name to content. -/
abbrev Files := List (Str × Str)

/-- `domain.replace('.', "_") + ".json"`
(examples/verifier-conformance-adapter/server/state.rs:158). -/
def cacheName (domain : Str) : Str :=
  domain.map (fun c => if c = '.' then '_' else c) ++ c!".json"

/-- `CachedCredentials` as JSON
(examples/verifier-conformance-adapter/server/state.rs:60-68,222-226), members in the order of the
fields. -/
def cachedJson (domain : Str) (der pkcs8 : Bytes) : Json :=
  .obj [(c!"domain", .str domain), (c!"cert_der_b64", .str (b64EncPad .std der)),
    (c!"key_pkcs8_b64", .str (b64EncPad .std pkcs8))]

/-- `BASE64_STANDARD.decode` (examples/verifier-conformance-adapter/server/state.rs:198,202):
padding is required. -/
def b64Std (s : Str) : Res Bytes :=
  match b64Dec .std (trimEndChar '=' s) with
  | none => .error .decode
  | some b => if b64EncPad .std b = s then .ok b else .error .decode

/-- `load_cached_cert` (examples/verifier-conformance-adapter/server/state.rs:186-207) on the
content of the file. Simplified as `loadStore` is. -/
def loadCached (p : Pki) (content : Str) (domain : Str) : Res (Identity p) :=
  match jParseRaw content with
  | .error e => .error e
  | .ok j => match WalletApp.structText [c!"domain", c!"cert_der_b64", c!"key_pkcs8_b64"] j with
    | .error e => .error e
    | .ok m => match fieldReq c!"domain" strOfJson m with
      | .error e => .error e
      | .ok d => match fieldReq c!"cert_der_b64" strOfJson m with
        | .error e => .error e
        | .ok c64 => match fieldReq c!"key_pkcs8_b64" strOfJson m with
          | .error e => .error e
          | .ok k64 =>
            if d ≠ domain then .error .mismatch
            else match b64Std k64 with
              | .error e => .error e
              | .ok pkcs8 => match p.key pkcs8 with
                | .error e => .error e
                | .ok s => match b64Std c64 with
                  | .error e => .error e
                  | .ok der => match p.x509.fromDer der with
                    | none => .error .decode
                    | some c => .ok ⟨s, c, der⟩

/-- `save_cert_to_cache` (examples/verifier-conformance-adapter/server/state.rs:209-233). `writable`
says whether the file system lets the file be written. -/
def saveCached (p : Pki) (writable : Bool) (domain : Str) (c : p.x509.Cert) (pkcs8 : Bytes)
    (f : Files) : Files :=
  if writable then match p.x509.toDer c with
    | .error _ => f
    | .ok der => mset (cacheName domain) (jPretty 0 (cachedJson domain der pkcs8)) f
  else f

/-- The part of `get_or_generate_cert` after the cache has been found wanting
(examples/verifier-conformance-adapter/server/state.rs:169-182). -/
def freshIdentity (p : Pki) (draw : Draw) (writable : Bool) (domain : Str) (f : Files) :
    Files × Res (Identity p) :=
  match generateCert p draw domain with
  | .error e => (f, .error e)
  | .ok (s, c, pkcs8) => match p.x509.toDer c with
    | .error e => (f, .error e)
    | .ok der => (saveCached p writable domain c pkcs8 f, .ok ⟨s, c, der⟩)

/-- `get_or_generate_cert` (examples/verifier-conformance-adapter/server/state.rs:156-183). -/
def getOrGenerate (p : Pki) (draw : Draw) (writable : Bool) (domain : Str) (f : Files) :
    Files × Res (Identity p) :=
  match mget (cacheName domain) f with
  | none => freshIdentity p draw writable domain f
  | some content => match loadCached p content domain with
    | .ok i => (f, .ok i)
    | .error _ => freshIdentity p draw writable domain f

/-! ## Start -/

/-- `WALLET_AUTHORIZATION_ENDPOINT`
(examples/verifier-conformance-adapter/server/state.rs:38-39). -/
def walletEndpoint : Str :=
  c!"https://demo.certification.openid.net/test/a/my-verifier-oid4vp1/authorize"

/-- The formats announced (examples/verifier-conformance-adapter/server/state.rs:316-320,336-340). -/
def formats : ClaimFormatMap := ClaimFormatMap.insert (.other c!"dc+sd-jwt") (.other (.obj [])) []

/-- `build_client_metadata` (examples/verifier-conformance-adapter/server/state.rs:313-333). -/
def clientMetadata (key : Option (List (Str × Json))) : ClientMetadata :=
  ⟨match key with
    | none => UntypedObject.put (VpFormatsSupported.mk formats) []
    | some k => UntypedObject.put (JWKs.mk [k]) (UntypedObject.put (VpFormatsSupported.mk formats) [])⟩

/-- `create_wallet_metadata` (examples/verifier-conformance-adapter/server/state.rs:335-353). -/
def walletMetadata (endpoint : Url) : WalletMetadata :=
  let w := WalletMetadata.new ⟨endpoint⟩ ⟨formats⟩ none
  w.setInner (UntypedObject.put (ClientIdPrefixesSupported.mk [⟨ClientIdScheme.x509SanDns⟩]) w.inner)

/-- `build_dcql_query` (examples/verifier-conformance-adapter/server/state.rs:135-152). -/
def pidQuery : DcqlQuery :=
  DcqlQuery.new ⟨[(CredentialQuery.new c!"pid" (.other c!"dc+sd-jwt")).setMeta
    [(c!"vct_values", strsToJson [c!"urn:eudi:pid:1"])]]⟩

/-- The public key as published (examples/verifier-conformance-adapter/server/state.rs:300-305);
`jwk` is the text `to_jwk_string` yields, parsed. -/
def publishedJwk (jwk : List (Str × Json)) : List (Str × Json) :=
  mset c!"kid" (.str c!"enc-key-1") (mset c!"alg" (.str c!"ECDH-ES") (mset c!"use" (.str c!"enc") jwk))

/-- `AppState` (examples/verifier-conformance-adapter/server/state.rs:52-58); the display
configuration is in `VerifierMain`, and the decryption key is held as the decryption function it is used for
(examples/verifier-conformance-adapter/crypto/jwe.rs:8-17). -/
structure App where
  verifier : Verifier
  walletMetadata : WalletMetadata
  publicUrl : Url
  decrypt : Str → Res Bytes

/-- An ECDH key pair (examples/verifier-conformance-adapter/server/state.rs:287-307): the public JWK
and decryption with the private key. -/
structure EncKey where
  jwk : List (Str × Json)
  decrypt : Str → Res Bytes

/-- The verifier (examples/verifier-conformance-adapter/server/state.rs:105-122). -/
def buildVerifier (client : Client) (submission base : Url) (encrypted : Bool) (key : EncKey) :
    Res Verifier :=
  VerifierBuilder.build
    (VerifierBuilder.withDefaultRequestParameter
      (clientMetadata (if encrypted then some (publishedJwk key.jwk) else none))
      (VerifierBuilder.withDefaultRequestParameter
        (if encrypted then ResponseMode.directPostJwt else ResponseMode.directPost)
        (VerifierBuilder.withDefaultRequestParameter ResponseType.vpToken
          (VerifierBuilder.byReference base
            (VerifierBuilder.withSubmissionEndpoint submission
              (VerifierBuilder.withSessionStore (VerifierBuilder.withClient client {})))))))

/-- `AppState::new` (examples/verifier-conformance-adapter/server/state.rs:71-133). -/
def start (p : Pki) (draw : Draw) (writable : Bool) (key : EncKey) (publicUrl : Url)
    (encrypted : Bool) (f : Files) : Files × Res App :=
  match Url.parse walletEndpoint with
  | none => (f, .error .parse)
  | some we => match hostStr publicUrl with
    | none => (f, .error .missing)
    | some domain => match getOrGenerate p draw writable domain f with
      | (f, .error e) => (f, .error e)
      | (f, .ok i) => (f, match sanClientNew p.x509 [i.cert] i.key with
        | .error e => .error e
        | .ok client => match orErr .parse (publicUrl.join c!"response") with
          | .error e => .error e
          | .ok submission => match orErr .parse (publicUrl.join c!"request") with
            | .error e => .error e
            | .ok base => match buildVerifier client submission base encrypted key with
              | .error e => .error e
              | .ok v => .ok ⟨v, walletMetadata we, publicUrl, key.decrypt⟩)

/-! ## Requests -/

/-- `POST /initiate` (examples/verifier-conformance-adapter/server/handlers.rs:47-87): the store and
either the members of the answer (session id, authorization URL, status URL) or a failure (status
500). `uuid` is the id the builder draws, `drawn` the nonce used if the caller gives none. -/
def initiate (app : App) (nonce : Option Str) (uuid : Uuid) (drawn : Str) (σ : Store) :
    Store × Res (Str × Str × Str) :=
  let b := ((RequestBuilder.new app.verifier).withDcqlQuery pidQuery).withRequestParameter
    (Nonce.mk (unwrapOr drawn nonce))
  match b.buildWithSessionId app.verifier uuid app.walletMetadata false σ with
  | (σ, .error e) => (σ, .error e)
  | (σ, .ok url) => (σ, .ok (uuid.print, url.print, app.publicUrl.print ++ (c!"/status/" ++ uuid.print)))

/-- `decrypt_jwe` (examples/verifier-conformance-adapter/crypto/jwe.rs:8-23). -/
def decryptJwe (decrypt : Str → Res Bytes) (jwe : Str) : Res Json :=
  match decrypt jwe with
  | .error e => .error e
  | .ok b => jParseBytes b

/-- The validator (examples/verifier-conformance-adapter/server/handlers.rs:151-214). Simplified: the
cause of an error outcome is only its fixed beginning. -/
def validator (decrypt : Str → Res Bytes) : Validator := fun _ r => match r with
  | .unencoded u => .success (.obj [(c!"credentials_received", .int u.vpToken.map.length),
      (c!"message", .str c!"Verification successful")])
  | .jwt jwe => match decryptJwe decrypt jwe with
    | .ok j => .success (.obj [(c!"decrypted_payload", j),
        (c!"message", .str c!"JARM response decrypted and verified")])
    | .error _ => .error c!"Failed to decrypt JARM: "

/-- The status document (examples/verifier-conformance-adapter/server/handlers.rs:244-274), members
sorted. -/
def statusJson : Status → Json
  | .sentRequestByReference => .obj [(c!"message", .str c!"Waiting for wallet to fetch request"),
      (c!"status", .str c!"sent_request_by_reference")]
  | .receivedResponse => .obj [(c!"message", .str c!"Response received, processing"),
      (c!"status", .str c!"received_response")]
  | .sentRequest => .obj [(c!"message", .str c!"Request sent to wallet, waiting for response"),
      (c!"status", .str c!"sent_request")]
  | .complete (.success info) => .obj [(c!"info", info), (c!"result", .str c!"success"),
      (c!"status", .str c!"complete")]
  | .complete (.failure reason) => .obj [(c!"reason", .str reason), (c!"result", .str c!"failure"),
      (c!"status", .str c!"complete")]
  | .complete (.error cause) => .obj [(c!"cause", .str cause), (c!"result", .str c!"error"),
      (c!"status", .str c!"complete")]

/-- `POST /response/:session_id` with the example's validator. -/
def receive (app : App) (session : Str) (body : Bytes) (σ : Store) : Store × Nat :=
  Example.postResponse (validator app.decrypt) session body σ

/-- `GET /status/:session_id`: HTTP status and document
(examples/verifier-conformance-adapter/server/handlers.rs:230-277). -/
def status (session : Str) (σ : Store) : Nat × Option Json :=
  ((Example.getStatus session σ).1, (Example.getStatus session σ).2.map statusJson)

/-- A call of one of the session routes
(examples/verifier-conformance-adapter/server/mod.rs, examples/verifier-conformance-adapter/server/handlers.rs:89-277). -/
inductive Call where
  | fetch (session : Str)
  | respond (session : Str) (body : Bytes)
  | status (session : Str)

/-- The store after calls handled one after the other. -/
def serve (app : App) (σ : Store) : List Call → Store
  | [] => σ
  | .fetch s :: cs => serve app (Example.getRequest s σ).1 cs
  | .respond s b :: cs => serve app (receive app s b σ).1 cs
  | .status _ :: cs => serve app σ cs

end Oid4vp.VerifierApp
