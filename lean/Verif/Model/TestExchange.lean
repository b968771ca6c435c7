import Verif.Model.Session
/-!
# The wallet and the network of the end-to-end test

* tests/jwt_vc.rs: a wallet with DID verification, and an HTTP client that hands what is posted to a
  verifier in the same process
-/

set_option autoImplicit false

namespace Oid4vp.TestExchange

/-- `Uri::path` (crate `http`) of an absolute address: what follows the authority, up to `?` or `#`, and
`/` if that is empty. Simplified: for other addresses, which a `Url` never prints as an HTTP address,
there is no path. -/
def uriPath (uri : Str) : Str :=
  match splitOnce ':' uri with
  | some (_, '/' :: '/' :: r) =>
    match (r.dropWhile fun c => c ≠ '/' ∧ c ≠ '?' ∧ c ≠ '#').takeWhile fun c => c ≠ '?' ∧ c ≠ '#' with
    | [] => ['/']
    | p => p
  | _ => []

/-- `MockHttpClient::execute` (tests/jwt_vc.rs:150-181) for the verifier whose sessions are `σ`: the
method and the headers of the request are not looked at. The validator is a parameter, in the test it
always succeeds. -/
def execute (f : Validator) (σ : Store) (q : HttpRequest) : Store × Res HttpResponse :=
  match stripPrefix c!"/submission/" (uriPath q.uri) with
  | none => (σ, .error .missing)
  | some id => match Uuid.parse id with
    | none => (σ, .error .parse)
    | some u => match AuthorizationResponse.ofForm q.body with
      | .error e => (σ, .error e)
      | .ok r => match verifyResponse u r f σ with
        | (σ', .error e) => (σ', .error e)
        | (σ', .ok ()) => (σ', .ok ⟨200, []⟩)

/-- `impl RequestVerifier for JwtVcWallet` (tests/jwt_vc.rs:125-148): DIDs are verified against a list
of trusted ones and need a signed request, the other methods are the failing ones of the trait. -/
def requestVerifier (ssi : Ssi) (resolver : Str → Res Jwk) (trusted : List Str) (wm : WalletMetadata) :
    RequestVerifier
  | .decentralizedIdentifier, a, some jwt => didVerify ssi resolver (some trusted) wm a jwt
  | .decentralizedIdentifier, _, none => .error .missing
  | _, _, _ => .error .unsupported

/-- `JwtVcWallet` (tests/jwt_vc.rs:97-123) whose HTTP client reaches the verifier while its sessions
are `σ`. -/
def wallet (ssi : Ssi) (resolver : Str → Res Jwk) (trusted : List Str) (wm : WalletMetadata)
    (uriOk : Str → Bool) (f : Validator) (σ : Store) : Wallet where
  metadata := wm
  http q := (execute f σ q).2
  verifier := requestVerifier ssi resolver trusted wm
  uriOk := uriOk
  ssiHeader := ssi.header

/-- The sessions after the HTTP requests made by a wallet. -/
def after (f : Validator) (σ : Store) (qs : List HttpRequest) : Store :=
  qs.foldl (fun σ q => (execute f σ q).1) σ

end Oid4vp.TestExchange
