import Verif.Spec.Routes
import Verif.Spec.CertCache
import Verif.Spec.Example
import Verif.Spec.EndToEnd
/-!
# The example wallet and the example verifier together
-/

set_option autoImplicit false

namespace Oid4vp.Spec
open Example VerifierApp

/-- The address beside `u`: what follows the last `/` of its path is replaced, and it has neither query
nor fragment. -/
def Beside (u : Url) (seg : Str) (v : Url) : Prop :=
  ∃ dir last, (u.path = dir ++ '/' :: last ∨ (u.path = [] ∧ dir = [])) ∧ '/' ∉ last ∧
    v = { u with path := dir ++ '/' :: seg, query := none, fragment := none }

/-- The address of a session beside `u`: the segment, `/` and the id. -/
def SessionAddress (u : Url) (seg : Str) (id : Uuid) (v : Url) : Prop :=
  Beside u (seg ++ '/' :: id.print) v

/-- A PID in SD-JWT format. -/
def IsPid (lower : Str → Str) (c : Credential) : Prop :=
  SameFormat lower c.format .dcSdJwt ∧ c.vct = some c!"urn:eudi:pid:1"

/-- The first PID in the wallet. -/
def FirstPid (lower : Str → Str) (store : List Credential) (c : Credential) : Prop :=
  ∃ before after, store = before ++ c :: after ∧ IsPid lower c ∧ ∀ c' ∈ before, ¬IsPid lower c'

/-- A started verifier, after any earlier starts on the same cache directory: certificates are drawn
for the host of the public address, can be read from and written as DER, and the keys sign with
ES256. -/
structure Started (p : Pki) (rs : List Run) (draw : Draw) (w : Bool) (key : EncKey) (u : Url)
    (encrypted : Bool) (host : Str) (app : App) : Prop where
  der : ∀ c, ∃ b, p.x509.toDer c = .ok b ∧ p.x509.fromDer b = some c
  names : ∀ r ∈ rs ++ [⟨host, draw, w⟩], DrawsName p r
  es256 : ∀ b s, p.key b = .ok s → s.alg = .ok c!"ES256"
  address : u.WF
  host : HostIs u host
  started : (start p draw w key u encrypted (runs p [] rs).1).2 = .ok app

/-- The query for a PID in SD-JWT format, under the id `pid`. -/
def pidAsked : DcqlQuery where
  credentials := ⟨[{
    id := c!"pid", format := .dcSdJwt,
    metaMap := [(c!"vct_values", .arr [.str c!"urn:eudi:pid:1"])],
    claims := none, claimSets := none, trustedAuthorities := none, requireBinding := none,
    multiple := none }]⟩
  credentialSets := none

/-- The request that the example verifier makes for a session. -/
structure PidRequest (key : EncKey) (u : Url) (encrypted : Bool) (host nonce : Str) (id : Uuid)
    (s : Session) : Prop where
  status : s.status = .sentRequestByReference
  clientId : s.requestObject.clientId = some ⟨c!"x509_san_dns:" ++ host⟩
  query : s.requestObject.dcqlQuery = some (.ok pidAsked)
  nonce : s.requestObject.nonce = ⟨nonce⟩
  state : s.requestObject.state = none
  mode : s.requestObject.responseMode = if encrypted then .directPostJwt else .directPost
  address : SessionAddress u c!"response" id s.requestObject.returnUri
  keys : ∃ cm, mget c!"client_metadata" s.requestObject.inner = some (.obj cm) ∧
    if encrypted then KeyList cm [publishedJwk key.jwk] else mget c!"jwks" cm = none

/-- The key pair of the verifier and the wallet's encryption: the public key is an elliptic curve key on
P-256 that the wallet's library accepts, and decryption with the private key undoes encryption under the
header that the wallet writes for it. -/
structure KeyWorks (key : EncKey) (jose : Josekit) : Prop where
  proper : (Json.obj key.jwk).WF FltLit ∧ (Json.obj key.jwk).depth ≤ 100
  curve : mget c!"crv" key.jwk = some (.str c!"P-256")
  accepted : jose.jwkOk (publishedJwk key.jwk) = true
  claims : ∀ j st, jose.claimOk c!"vp_token" j = true ∧ jose.claimOk c!"state" st = true
  works : ∀ m, ∃ jwe, jose.encrypt (publishedJwk key.jwk) (encHeader c!"A128GCM" (some c!"enc-key-1")) m =
    .ok jwe ∧ key.decrypt jwe = .ok (utf8 (jPrint (.obj m)))

/-- A token with one presentation, for the id `pid`. -/
def pidToken (pres : Str) : VpToken := ⟨[(c!"pid", [.string pres])]⟩

/-- The content of an encrypted response with that token. -/
def pidContent (pres : Str) (state : Option Str) : Json :=
  .obj (state.toList.map (fun s => (c!"state", .str s)) ++
    [(c!"vp_token", .obj [(c!"pid", .arr [.str pres])])])

/-- The wallet is allowed to present, has a PID, has a clock within 64 bits, and its JWS library reads
the header of requests signed with ES256 and a certificate chain. Its own address has no query. -/
structure ReadyWallet (a : Adapter) (c : Credential) : Prop where
  consent : a.consent = true
  pid : FirstPid a.lower a.store c
  clock : ∀ t, -(2 ^ 63) ≤ a.holder.now t ∧ a.holder.now t < 2 ^ 64
  header : ∀ chain : List Str, a.wallet.ssiHeader (utf8 (jPrint (.obj [(c!"alg", .str c!"ES256"),
    (c!"typ", .str c!"oauth-authz-req+jwt"), (c!"x5c", .arr (chain.map .str))]))) = .ok (c!"ES256", true)
  endpoint : a.endpoint.query = none ∨ a.endpoint.query = some []

/-- The parameters refer to the request of the session, and the wallet's HTTP client gets what the
verifier answers there. -/
structure Refers (u : Url) (id : Uuid) (sid : Str) (σ : Store) (a : Adapter) (prm : Params) : Prop where
  noRequest : prm.request = none
  uri : ∃ addr, SessionAddress u c!"request" id addr ∧ prm.requestUri.bind Url.parse = some addr
  reached : ∀ addr jwt, SessionAddress u c!"request" id addr → (getRequest sid σ).2 = (200, some jwt) →
    Fetched a.wallet addr jwt

end Oid4vp.Spec
