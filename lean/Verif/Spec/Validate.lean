import Verif.Spec.Request
/-!
# What validation of a request by a wallet must ensure
-/

set_option autoImplicit false

namespace Oid4vp.Spec

/-- The three parts of a compact JWS. -/
def JwsParts (jwt h b g : Str) : Prop := jwt = h ++ '.' :: (b ++ '.' :: g) ∧ '.' ∉ h ∧ '.' ∉ b

/-- The protected header of a compact JWS, as a JSON object. -/
def JwsHeader (jwt : Str) (m : List (Str × Json)) : Prop :=
  ∃ h b g bytes, JwsParts jwt h b g ∧ b64Dec .url h = some bytes ∧ jParseBytes bytes = .ok (.obj m)

/-- The header says that the JWS is a request object. -/
def TypedAsRequest (jwt : Str) : Prop :=
  ∃ m, JwsHeader jwt m ∧ mget c!"typ" m = some (.str c!"oauth-authz-req+jwt")

/-- The payload of a compact JWS whose header is acceptable to the JWS library. -/
def JwsPayload (hdr : SsiHeader) (jwt : Str) (o : UntypedObject) : Prop :=
  ∃ h b g hb alg enc bytes, JwsParts jwt h b g ∧ b64Dec .url h = some hb ∧ hdr hb = .ok (alg, enc) ∧
    (if enc = true then b64Dec .url b = some bytes else bytes = utf8 b) ∧
    (∃ sig, b64Dec .url g = some sig) ∧ jParseBytes bytes = .ok (.obj o)

/-- The body of the answer to the GET request for `uri`. -/
def Fetched (w : Wallet) (uri : Url) (body : Str) : Prop :=
  ∃ resp, w.http ⟨c!"GET", uri.print, [(c!"prefer", c!"OID4VP-1.0.0")], []⟩ = .ok resp ∧
    200 ≤ resp.status ∧ resp.status < 300 ∧ utf8Dec resp.body = some body ∧ w.uriOk uri.print = true

/-- The JWT that a request carries or refers to. -/
def JwtOf (w : Wallet) : RequestIndirection → Option Str → Prop
  | .byValue j, jwt => jwt = some j
  | .byReference uri, jwt => ∃ body, Fetched w uri body ∧ jwt = some body
  | .direct _, jwt => jwt = none

/-- The parameters of the request: the payload of the JWT, or the direct parameters with the
outer client_id. -/
def ParamsOf (w : Wallet) (r : AuthorizationRequest) (o : UntypedObject) : Option Str → Prop
  | some jwt => JwsPayload w.ssiHeader jwt o
  | none => ∃ d, r.indirection = .direct d ∧
      o = match r.clientId with
        | some c => mset c!"client_id" (.str c) d
        | none => d

/-- The reserved and known prefixes. -/
def knownPrefixes : List Str :=
  [c!"decentralized_identifier", c!"openid_federation", c!"redirect_uri", c!"verifier_attestation",
   c!"x509_san_dns", c!"x509_hash", c!"origin"]

/-- The verification method that a client identifier asks for. There is none for `origin:…`. -/
inductive MethodFor : Option ClientId → VerifyMethod → Prop
  | absent : MethodFor none .preregistered
  | plain {c : ClientId} : ':' ∉ c.val → MethodFor (some c) .preregistered
  | did (t : Str) : MethodFor (some ⟨c!"decentralized_identifier:" ++ t⟩) .decentralizedIdentifier
  | federation (t : Str) : MethodFor (some ⟨c!"openid_federation:" ++ t⟩) .openidFederation
  | redirectUri (t : Str) : MethodFor (some ⟨c!"redirect_uri:" ++ t⟩) .redirectUri
  | attestation (t : Str) : MethodFor (some ⟨c!"verifier_attestation:" ++ t⟩) .verifierAttestation
  | sanDns (t : Str) : MethodFor (some ⟨c!"x509_san_dns:" ++ t⟩) .x509SanDns
  | hash (t : Str) : MethodFor (some ⟨c!"x509_hash:" ++ t⟩) .x509Hash
  | other {p : Str} (t : Str) : ':' ∉ p → p ∉ knownPrefixes →
      MethodFor (some ⟨p ++ ':' :: t⟩) (.other p)

/-- The calls of verification methods among the effects. -/
def verifyCalls : List Event → List (VerifyMethod × RequestObject × Option Str)
  | [] => []
  | .verify m a j :: tr => (m, a, j) :: verifyCalls tr
  | .http _ :: tr => verifyCalls tr

/-- The HTTP requests among the effects. -/
def httpCalls : List Event → List HttpRequest
  | [] => []
  | .verify _ _ _ :: tr => httpCalls tr
  | .http r :: tr => r :: httpCalls tr

/-- An offered value is in the wallet's list, if the wallet has a list under `k`. -/
def ListedIfAny (wm : UntypedObject) (k : Str) (offered : Str → Prop) : Prop :=
  ∀ j, mget k wm = some j → ∃ l : List Str, j = .arr (l.map .str) ∧ ∃ v ∈ l, offered v

/-- A key of the key set: its members. -/
def KeyIn (cm : UntypedObject) (key : List (Str × Json)) : Prop :=
  ∃ ks, .obj key ∈ ks ∧
    ((∃ m, mget c!"jwks" cm = some (.obj m) ∧ mget c!"keys" m = some (.arr ks)) ∨
      mget c!"jwks" cm = some (.arr [.arr ks]))

/-- Some key of the verifier for encryption names the algorithm `v`. -/
def OffersAlg (cm : UntypedObject) (v : Str) : Prop :=
  ∃ key, KeyIn cm key ∧ mget c!"use" key = some (.str c!"enc") ∧ mget c!"alg" key = some (.str v)

/-- The verifier offers the content encryption algorithm `v` (by default only A128GCM). -/
def OffersEnc (cm : UntypedObject) (v : Str) : Prop :=
  (mget c!"encrypted_response_enc_values_supported" cm = none ∧ v = c!"A128GCM") ∨
    ∃ l : List Str, mget c!"encrypted_response_enc_values_supported" cm = some (.arr (l.map .str)) ∧ v ∈ l

end Oid4vp.Spec
