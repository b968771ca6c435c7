import Verif.Model.Session
/-!
# The command-line verifier (examples/cli-verifier/main.rs)
-/

set_option autoImplicit false

namespace Oid4vp.Cli

/-! ## The client -/

/-- The header of the unsigned request object (examples/cli-verifier/main.rs:124-127). -/
def unsignedHeader : Json :=
  .obj [(c!"alg", .str c!"none"), (c!"typ", .str c!"oauth-authz-req+jwt")]

/-- `generate_request_object_jwt` (examples/cli-verifier/main.rs:118-134): header and body, and
an empty signature. -/
def unsignedJwt (body : RequestObject) : Str :=
  b64Enc .url (utf8 (jPrint unsignedHeader)) ++
    '.' :: (b64Enc .url (utf8 (jPrint (.obj body.toObject))) ++ ['.'])

/-- `RedirectUriClient::new` (examples/cli-verifier/main.rs:98-105) and its `Client`
implementation (examples/cli-verifier/main.rs:109-134). -/
def redirectUriClient (responseUri : Url) : Client where
  id := prefixedId ClientIdScheme.redirectUri responseUri.print
  pre := ⟨ClientIdScheme.redirectUri⟩
  generate body := .ok (unsignedJwt body)

/-! ## The query -/

/-- `build_ldp_vc_credential_query` (examples/cli-verifier/main.rs:318-321). -/
def ldpVcQuery : CredentialQuery := CredentialQuery.new c!"ldp_vc_0" .ldpVc

/-- `build_jwt_vc_credential_query` (examples/cli-verifier/main.rs:324-327). -/
def jwtVcQuery : CredentialQuery := CredentialQuery.new c!"jwt_vc_0" .jwtVcJson

/-- `build_vcdm2_sd_jwt_credential_query` (examples/cli-verifier/main.rs:334-340). -/
def vcdm2Query : CredentialQuery :=
  CredentialQuery.new c!"vcdm2_sd_jwt_0" (.other c!"vcdm2_sd_jwt")

/-- A claim of the mDL name space (examples/cli-verifier/main.rs:357-371). -/
def mdlClaim (name : Str) : ClaimsQuery :=
  ClaimsQuery.new ⟨[.string c!"org.iso.18013.5.1", .string name]⟩

/-- `build_mdl_credential_query` (examples/cli-verifier/main.rs:343-376). -/
def mdlQuery : CredentialQuery :=
  ((CredentialQuery.new c!"mdl_0" .msoMDoc).setMeta
      [(c!"doctype_value", .str c!"org.iso.18013.5.1.mDL")]).setClaims
    (some ⟨[mdlClaim c!"given_name", mdlClaim c!"family_name"]⟩)

/-- One round of the loop (examples/cli-verifier/main.rs:393-431): the credential queries, the
description and the options of the credential set added for a type. -/
def addType (t : Str) : Res (List CredentialQuery × Str × List (List Str)) :=
  if t = c!"mdl" then .ok ([mdlQuery], c!"mDL", [[c!"mdl_0"]])
  else if t = c!"ldp_vc" then .ok ([ldpVcQuery], c!"LDP VC", [[c!"ldp_vc_0"]])
  else if t = c!"jwt_vc" then .ok ([jwtVcQuery], c!"JWT VC", [[c!"jwt_vc_0"]])
  else if t = c!"vcdm2_sd_jwt" then
    .ok ([vcdm2Query], c!"VCDM2 SD-JWT", [[c!"vcdm2_sd_jwt_0"]])
  else if t = c!"ldp_or_mdl" then
    .ok ([ldpVcQuery, mdlQuery], c!"(LDP VC OR mDL)", [[c!"ldp_vc_0"], [c!"mdl_0"]])
  else .error .unsupported

/-- The loop of `build_dcql_query_for_types` (examples/cli-verifier/main.rs:388-431). -/
def typesLoop : List Str → List CredentialQuery → List Str → List (List (List Str)) →
    Res (List CredentialQuery × List Str × List (List (List Str)))
  | [], qs, ds, sets => .ok (qs, ds, sets)
  | t :: ts, qs, ds, sets => match addType t with
    | .error e => .error e
    | .ok (q, d, s) => typesLoop ts (qs ++ q) (ds ++ [d]) (sets ++ [s])

/-- `descriptions.join(" + ")` (examples/cli-verifier/main.rs:457). -/
def joinPlus : List Str → Str
  | [] => []
  | [p] => p
  | p :: ps => p ++ (c!" + " ++ joinPlus ps)

/-- The credential sets (examples/cli-verifier/main.rs:442-455); an `expect` that fails is a
panic. -/
def credentialSets (sets : List (List (List Str))) : Res (List CredentialSetQuery) :=
  mapR (fun o => match NonEmptyVec.tryFrom o with
    | .ok v => .ok (CredentialSetQuery.new v)
    | .error _ => .error .panic) sets

/-- `build_dcql_query_for_types` (examples/cli-verifier/main.rs:387-458). -/
def dcqlForTypes (types : List Str) : Res (DcqlQuery × Str) :=
  match typesLoop types [] [] [] with
  | .error e => .error e
  | .ok (qs, ds, sets) =>
    if qs.isEmpty then .error .missing
    else match NonEmptyVec.tryFrom qs with
      | .error _ => .error .panic
      | .ok creds =>
        let q := DcqlQuery.new creds
        if sets.isEmpty then .ok (q, joinPlus ds)
        else match credentialSets sets with
          | .error e => .error e
          | .ok l => match NonEmptyVec.tryFrom l with
            | .error _ => .error .panic
            | .ok v => .ok (q.setCredentialSets (some v), joinPlus ds)

/-! ## Metadata -/

/-- The proof types announced for `ldp_vc` (examples/cli-verifier/main.rs:487-496,531-539). -/
def ldpProofTypes : List Str :=
  [c!"Ed25519Signature2018", c!"Ed25519Signature2020", c!"JsonWebSignature2020",
    c!"DataIntegrityProof", c!"ecdsa-rdfc-2019", c!"ecdsa-sd-2023", c!"ecdsa-jcs-2019"]

/-- The payload announced for `vcdm2_sd_jwt` (examples/cli-verifier/main.rs:518-520,586-588). -/
def vcdm2Payload : ClaimFormatPayload :=
  .other (.obj [(c!"alg_values", strsToJson [c!"ES256", c!"ES384", c!"EdDSA"])])

/-- One round of the loop of `build_client_metadata` (examples/cli-verifier/main.rs:472-544). -/
def addFormats (t : Str) (m : ClaimFormatMap) : ClaimFormatMap :=
  if t = c!"mdl" then m.insert .msoMDoc (.other (.obj []))
  else if t = c!"ldp_vc" then m.insert .ldpVc (.proofTypeValues ldpProofTypes)
  else if t = c!"jwt_vc" then
    m.insert .jwtVcJson (.algValues [c!"ES256", c!"ES384", c!"ES512", c!"EdDSA"])
  else if t = c!"vcdm2_sd_jwt" then m.insert (.other c!"vcdm2_sd_jwt") vcdm2Payload
  else if t = c!"ldp_or_mdl" then
    (m.insert .msoMDoc (.other (.obj []))).insert .ldpVc (.proofTypeValues ldpProofTypes)
  else m

/-- The formats announced for the types (examples/cli-verifier/main.rs:470-544). -/
def formatsFor (types : List Str) : ClaimFormatMap := types.foldl (fun m t => addFormats t m) []

/-- `build_client_metadata` (examples/cli-verifier/main.rs:469-550). -/
def clientMetadata (types : List Str) : ClientMetadata :=
  ⟨UntypedObject.put (VpFormatsSupported.mk (formatsFor types)) []⟩

/-- The formats ascribed to the wallet (examples/cli-verifier/main.rs:562-589). -/
def walletFormats : ClaimFormatMap :=
  ClaimFormatMap.insert (.other c!"vcdm2_sd_jwt") vcdm2Payload
    (ClaimFormatMap.insert .jwtVcJson (.algValues [c!"ES256", c!"ES384", c!"EdDSA"])
      (ClaimFormatMap.insert .ldpVc
        (.proofTypeValues [c!"Ed25519Signature2018", c!"Ed25519Signature2020",
          c!"JsonWebSignature2020"])
        (ClaimFormatMap.insert .msoMDoc (.other (.obj [])) [])))

/-- `create_wallet_metadata` (examples/cli-verifier/main.rs:557-603). -/
def walletMetadata : Res WalletMetadata :=
  match Url.parse c!"openid4vp://" with
  | none => .error .parse
  | some u =>
    let w := WalletMetadata.new ⟨u⟩ ⟨walletFormats⟩ none
    .ok (w.setInner (UntypedObject.put
      (ClientIdPrefixesSupported.mk [⟨ClientIdScheme.redirectUri⟩]) w.inner))

/-! ## The program -/

/-- `Url::set_path` for a path that needs no encoding (examples/cli-verifier/main.rs:699-703):
no effect on a URL that cannot be a base. -/
def setPath (p : Str) (u : Url) : Url :=
  match u.authority, u.path with
  | none, '/' :: _ => { u with path := p }
  | none, _ => u
  | some _, _ => { u with path := p }

/-- The address responses are sent to (examples/cli-verifier/main.rs:699-700). -/
def responseUri (publicUrl : Url) : Url := setPath c!"/response" publicUrl

/-- The verifier (examples/cli-verifier/main.rs:698-721). -/
def verifier (publicUrl : Url) : Res Verifier :=
  VerifierBuilder.build
    (VerifierBuilder.withDefaultRequestParameter ResponseMode.directPost
      (VerifierBuilder.withDefaultRequestParameter ResponseType.vpToken
        (VerifierBuilder.byReference (setPath c!"/request" publicUrl)
          (VerifierBuilder.withSubmissionEndpoint (responseUri publicUrl)
            (VerifierBuilder.withSessionStore
              (VerifierBuilder.withClient (redirectUriClient (responseUri publicUrl)) {}))))))

/-- The request builder of `main` (examples/cli-verifier/main.rs:742-749). `nonce` is the random
nonce. -/
def requestBuilder (v : Verifier) (q : DcqlQuery) (nonce : Str) (types : List Str) :
    RequestBuilder :=
  (((RequestBuilder.new v).withDcqlQuery q).withRequestParameter (Nonce.mk nonce)).withRequestParameter
    (clientMetadata types)

/-- `main` up to the display of the request (examples/cli-verifier/main.rs:698-753): the verifier,
its store with the session, and the URL shown. `uuid` and `nonce` are drawn at random. -/
def start (publicUrl : Url) (types : List Str) (uuid : Uuid) (nonce : Str) :
    Res (Verifier × Store × Url) :=
  match verifier publicUrl with
  | .error e => .error e
  | .ok v => match walletMetadata with
    | .error e => .error e
    | .ok wm => match dcqlForTypes types with
      | .error e => .error e
      | .ok (q, _) =>
        match (requestBuilder v q nonce types).buildWithSessionId v uuid wm false [] with
        | (_, .error e) => .error e
        | (σ, .ok url) => .ok (v, σ, url)

/-! ## The handlers -/

/-- `DisplayStatus` (examples/cli-verifier/main.rs:142-149). -/
inductive Display where
  | initializing
  | waitingForWallet
  | requestFetched
  | responseReceived
  | success (info : Json)
  | failed (reason : Str)
deriving DecidableEq, Repr

/-- `AppState` (examples/cli-verifier/main.rs:151-156): the store, what is displayed, and whether
completion has been notified (the program then stops, examples/cli-verifier/main.rs:782-796). -/
structure App where
  store : Store
  display : Display
  complete : Bool

/-- The reason given for an encrypted response (examples/cli-verifier/main.rs:256-258). -/
def encryptedReason : Str :=
  c!"Encrypted responses (direct_post.jwt) not supported in this example"

/-- The outcome decided by the handler (examples/cli-verifier/main.rs:238-264). The ids are listed
in the enumeration order of the hash map. -/
def outcome (ord : MapOrder) : AuthorizationResponse → Outcome
  | .unencoded u => .success (.obj [(c!"credential_query_ids", strsToJson ((ord u.vpToken.map).map Prod.fst)),
      (c!"credentials_received", .int u.vpToken.map.length)])
  | .jwt _ => .failure encryptedReason

/-- What is displayed for an outcome (examples/cli-verifier/main.rs:248,259). -/
def displayOf : Outcome → Display
  | .success info => .success info
  | .failure reason => .failed reason
  | .error cause => .failed cause

/-- `GET /request/{session_id}` (examples/cli-verifier/main.rs:194-217): status and body. -/
def getRequest (session : Str) (a : App) : App × Nat × Option Str :=
  match Uuid.parse session with
  | none => (a, 500, none)
  | some u => match retrieve u a.store with
    | (σ, .error _) => ({ a with store := σ }, 500, none)
    | (σ, .ok jwt) => ({ a with store := σ, display := .requestFetched }, 200, some jwt)

/-- `POST /response/{session_id}` (examples/cli-verifier/main.rs:220-272), run without
interruption: the outcome is displayed and completion notified while the response is being verified.
The body is a `String`, i.e. valid UTF-8, or the request does not reach the handler. -/
def postResponse (ord : MapOrder) (session : Str) (body : Bytes) (a : App) : App × Nat :=
  match utf8Dec body with
  | none => (a, 400)
  | some _ => match Uuid.parse session with
    | none => (a, 500)
    | some u =>
      let a := { a with display := .responseReceived }
      match AuthorizationResponse.ofForm body with
      | .error _ => (a, 500)
      | .ok r => match a.store.get u with
        | none => (a, 500)
        | some _ =>
          match verifyResponse u r (fun _ r => outcome ord r) a.store with
          | (σ, .error _) => (⟨σ, displayOf (outcome ord r), true⟩, 500)
          | (σ, .ok ()) => (⟨σ, displayOf (outcome ord r), true⟩, 200)

/-- A request to the server. -/
inductive Call where
  | fetch (session : Str)
  | respond (session : Str) (body : Bytes)

/-- The server handling calls one after the other, until completion has been notified
(examples/cli-verifier/main.rs:782-796). -/
def serve (ord : MapOrder) (a : App) : List Call → App
  | [] => a
  | c :: cs =>
    if a.complete then a
    else match c with
      | .fetch s => serve ord (getRequest s a).1 cs
      | .respond s b => serve ord (postResponse ord s b a).1 cs

end Oid4vp.Cli
