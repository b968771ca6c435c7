import Verif.Model.Dcql
import Verif.Model.Url
/-!
# Typed parameters

* src/core/authorization_request/parameters.rs
* src/core/metadata/parameters/verifier.rs, src/core/metadata/parameters/wallet.rs
* src/core/response/parameters.rs
-/

set_option autoImplicit false

namespace Oid4vp

/-! ## Request parameters -/

/-- `ClientId` (src/core/authorization_request/parameters.rs:14-15). -/
structure ClientId where
  val : Str
deriving DecidableEq, Repr

/-- (src/core/authorization_request/parameters.rs:40-56) -/
instance : TypedParameter ClientId where
  key := c!"client_id"
  ofJson j := (strOfJson j).map .mk
  toJson v := .ok (.str v.val)

/-- `ClientIdScheme` (src/core/authorization_request/parameters.rs:61-62), a Client
Identifier Prefix. -/
structure ClientIdScheme where
  val : Str
deriving DecidableEq, Repr

namespace ClientIdScheme
/-- (src/core/authorization_request/parameters.rs:82) -/
def decentralizedIdentifier : Str := c!"decentralized_identifier"
/-- (src/core/authorization_request/parameters.rs:85) -/
def openidFederation : Str := c!"openid_federation"
/-- (src/core/authorization_request/parameters.rs:88) -/
def preregistered : Str := c!"pre-registered"
/-- (src/core/authorization_request/parameters.rs:92) -/
def redirectUri : Str := c!"redirect_uri"
/-- (src/core/authorization_request/parameters.rs:97) -/
def verifierAttestation : Str := c!"verifier_attestation"
/-- (src/core/authorization_request/parameters.rs:102) -/
def x509SanDns : Str := c!"x509_san_dns"
/-- (src/core/authorization_request/parameters.rs:106) -/
def x509Hash : Str := c!"x509_hash"
/-- (src/core/authorization_request/parameters.rs:110) -/
def origin : Str := c!"origin"

/-- `TryFrom<Json>` (src/core/authorization_request/parameters.rs:65-71). -/
def ofJson (j : Json) : Res ClientIdScheme := (strOfJson j).map .mk
/-- `From<ClientIdScheme> for Json` (src/core/authorization_request/parameters.rs:73-77). -/
def toJson (s : ClientIdScheme) : Json := .str s.val
end ClientIdScheme

/-- `ClientId::resolve_prefix` (src/core/authorization_request/parameters.rs:28-38). -/
def ClientId.resolvePrefix (c : ClientId) : Option ClientIdScheme :=
  if contains c!":" c.val then
    match splitOn ':' c.val with
    | [] => none
    | p :: _ => some ⟨p⟩
  else none

/-- `ClientMetadata` (src/core/authorization_request/parameters.rs:139-140). -/
structure ClientMetadata where
  val : UntypedObject
deriving DecidableEq, Repr

/-- (src/core/authorization_request/parameters.rs:142-158) -/
instance : TypedParameter ClientMetadata where
  key := c!"client_metadata"
  ofJson j := (objOfJson j).map .mk
  toJson v := .ok (.obj v.val)

/-- `Nonce` (src/core/authorization_request/parameters.rs:237-238). -/
structure Nonce where
  val : Str
deriving DecidableEq, Repr

/-- (src/core/authorization_request/parameters.rs:275-291) -/
instance : TypedParameter Nonce where
  key := c!"nonce"
  ofJson j := (strOfJson j).map .mk
  toJson v := .ok (.str v.val)

/-- `Audience` (src/core/authorization_request/parameters.rs:293-294). -/
structure Audience where
  val : Str
deriving DecidableEq, Repr

/-- (src/core/authorization_request/parameters.rs:296-312) -/
instance : TypedParameter Audience where
  key := c!"aud"
  ofJson j := (strOfJson j).map .mk
  toJson v := .ok (.str v.val)

/-- `RedirectUri` (src/core/authorization_request/parameters.rs:315-316). -/
structure RedirectUri where
  val : Url
deriving DecidableEq, Repr

/-- (src/core/authorization_request/parameters.rs:318-334) -/
instance : TypedParameter RedirectUri where
  key := c!"redirect_uri"
  ofJson j := (Url.ofJson j).map .mk
  toJson v := .ok (.str v.val.print)

/-- `ResponseUri` (src/core/authorization_request/parameters.rs:337-338). -/
structure ResponseUri where
  val : Url
deriving DecidableEq, Repr

/-- (src/core/authorization_request/parameters.rs:340-356) -/
instance : TypedParameter ResponseUri where
  key := c!"response_uri"
  ofJson j := (Url.ofJson j).map .mk
  toJson v := .ok (.str v.val.print)

/-- `ResponseMode` (src/core/authorization_request/parameters.rs:363-377). -/
inductive ResponseMode where
  | directPost
  | directPostJwt
  | dcApi
  | dcApiJwt
  | unsupported (s : Str)
deriving DecidableEq, Repr

namespace ResponseMode
/-- `From<String>` (src/core/authorization_request/parameters.rs:383-393). -/
def ofStr (s : Str) : ResponseMode :=
  if s = c!"direct_post" then .directPost
  else if s = c!"direct_post.jwt" then .directPostJwt
  else if s = c!"dc_api" then .dcApi
  else if s = c!"dc_api.jwt" then .dcApiJwt
  else .unsupported s

/-- `From<ResponseMode> for String` and `Display`
(src/core/authorization_request/parameters.rs:395-405,422-433). -/
def print : ResponseMode → Str
  | .directPost => c!"direct_post"
  | .directPostJwt => c!"direct_post.jwt"
  | .dcApi => c!"dc_api"
  | .dcApiJwt => c!"dc_api.jwt"
  | .unsupported s => s

/-- `ResponseMode::is_jarm` (src/core/authorization_request/parameters.rs:435-445). -/
def isJarm : ResponseMode → Res Bool
  | .directPost => .ok false
  | .directPostJwt => .ok true
  | .dcApi => .ok false
  | .dcApiJwt => .ok true
  | .unsupported _ => .error .unsupported
end ResponseMode

/-- (src/core/authorization_request/parameters.rs:379-381,407-420) -/
instance : TypedParameter ResponseMode where
  key := c!"response_mode"
  ofJson j := (strOfJson j).map ResponseMode.ofStr
  toJson v := .ok (.str v.print)

/-- `#[default] DirectPost` (src/core/authorization_request/parameters.rs:363-367). -/
instance : RDefault ResponseMode := ⟨.directPost⟩

/-- `ResponseType` (src/core/authorization_request/parameters.rs:450-456). -/
inductive ResponseType where
  | vpToken
  | vpTokenIdToken
  | unsupported (s : Str)
deriving DecidableEq, Repr

namespace ResponseType
/-- `From<String>` (src/core/authorization_request/parameters.rs:468-476). -/
def ofStr (s : Str) : ResponseType :=
  if s = c!"vp_token" then .vpToken
  else if s = c!"vp_token id_token" then .vpTokenIdToken
  else .unsupported s

/-- `From<ResponseType> for String` (src/core/authorization_request/parameters.rs:458-466). -/
def print : ResponseType → Str
  | .vpToken => c!"vp_token"
  | .vpTokenIdToken => c!"vp_token id_token"
  | .unsupported s => s
end ResponseType

/-- (src/core/authorization_request/parameters.rs:478-495) -/
instance : TypedParameter ResponseType where
  key := c!"response_type"
  ofJson j := (strOfJson j).map ResponseType.ofStr
  toJson v := .ok (.str v.print)

/-- `State` (src/core/authorization_request/parameters.rs:497-498). -/
structure State where
  val : Str
deriving DecidableEq, Repr

/-- (src/core/authorization_request/parameters.rs:500-516) -/
instance : TypedParameter State where
  key := c!"state"
  ofJson j := (strOfJson j).map .mk
  toJson v := .ok (.str v.val)

/-- `ExpectedOrigins` (src/core/authorization_request/parameters.rs:518-519). -/
structure ExpectedOrigins where
  val : List Str
deriving DecidableEq, Repr

/-- (src/core/authorization_request/parameters.rs:521-537) -/
instance : TypedParameter ExpectedOrigins where
  key := c!"expected_origins"
  ofJson j := (strsOfJson j).map .mk
  toJson v := .ok (strsToJson v.val)

/-- `TransactionData` (src/core/authorization_request/parameters.rs:550-551). -/
structure TransactionData where
  val : List Str
deriving DecidableEq, Repr

/-- (src/core/authorization_request/parameters.rs:553-569) -/
instance : TypedParameter TransactionData where
  key := c!"transaction_data"
  ofJson j := (strsOfJson j).map .mk
  toJson v := .ok (strsToJson v.val)

/-- `VerifierInfo` (src/core/authorization_request/parameters.rs:583-584). -/
structure VerifierInfo where
  val : List Json
deriving DecidableEq, Repr

/-- (src/core/authorization_request/parameters.rs:586-602) -/
instance : TypedParameter VerifierInfo where
  key := c!"verifier_info"
  ofJson j := (vecOfJson .ok j).map .mk
  toJson v := .ok (.arr v.val)

/-- `RequestUriMethod` (src/core/authorization_request/parameters.rs:611-616). -/
inductive RequestUriMethod where
  | get
  | post
deriving DecidableEq, Repr

/-- (src/core/authorization_request/parameters.rs:618-642) -/
instance : TypedParameter RequestUriMethod where
  key := c!"request_uri_method"
  ofJson j := match strOfJson j with
    | .error e => .error e
    | .ok s =>
      if s = c!"get" then .ok .get
      else if s = c!"post" then .ok .post
      else .error .parse
  toJson v := .ok (.str (match v with | .get => c!"get" | .post => c!"post"))

/-- (src/core/authorization_request/parameters.rs:611-613) -/
instance : RDefault RequestUriMethod := ⟨.get⟩

/-! ## Response parameters -/

/-- `IdToken` (src/core/response/parameters.rs:14-15). -/
structure IdToken where
  val : Str
deriving DecidableEq, Repr

/-- (src/core/response/parameters.rs:17-33) -/
instance : TypedParameter IdToken where
  key := c!"id_token"
  ofJson j := (strOfJson j).map .mk
  toJson v := .ok (.str v.val)

/-- `VpTokenItem` (src/core/response/parameters.rs:129-134). -/
inductive VpTokenItem where
  | string (s : Str)
  | jsonObject (m : List (Str × Json))
deriving DecidableEq, Repr

/-- `VpToken` (src/core/response/parameters.rs:57-59): a hash map, as a list sorted by key. -/
structure VpToken where
  map : List (Str × List VpTokenItem)
deriving DecidableEq, Repr

/-- Derived `Deserialize`, untagged (src/core/response/parameters.rs:129-134). Inside the
JSON object of an item later duplicates of a key win. -/
def VpTokenItem.ofJson : Json → Res VpTokenItem
  | .str s => .ok (.string s)
  | .obj m => .ok (.jsonObject (mofList (Json.normM m)))
  | _ => .error .parse

/-- Derived `Serialize`, untagged (src/core/response/parameters.rs:129-134). -/
def VpTokenItem.toJson : VpTokenItem → Json
  | .string s => .str s
  | .jsonObject m => .obj m

/-- The six conversions from presentations (src/core/response/parameters.rs:142-224). All have the same body,
which serialises the presentation with `serde_json::to_value` (of other crates; its result is the argument) and
takes the members of the object; anything else panics. -/
def VpTokenItem.ofSerialised : Res Json → Res VpTokenItem
  | .ok (.obj m) => .ok (.jsonObject m)
  | _ => .error .panic

namespace VpToken
/-- `VpToken::new` (src/core/response/parameters.rs:63-65). -/
def new : VpToken := ⟨[]⟩
/-- `VpToken::with_credential` (src/core/response/parameters.rs:68-75). -/
def withCredential (id : Str) (ps : List VpTokenItem) : VpToken := ⟨[(id, ps)]⟩
/-- `VpToken::insert` (src/core/response/parameters.rs:78-80). -/
def insert (id : Str) (ps : List VpTokenItem) (t : VpToken) : VpToken := ⟨mset id ps t.map⟩
/-- `VpToken::get` (src/core/response/parameters.rs:83-85). -/
def get (id : Str) (t : VpToken) : Option (List VpTokenItem) := mget id t.map
/-- `VpToken::is_empty` (src/core/response/parameters.rs:88-90). -/
def isEmpty (t : VpToken) : Bool := t.map.isEmpty
/-- `VpToken::len` (src/core/response/parameters.rs:93-95). -/
def len (t : VpToken) : Nat := t.map.length

/-- One member of the token. -/
def memberOfJson (p : Str × Json) : Res (Str × List VpTokenItem) :=
  (vecOfJson VpTokenItem.ofJson p.2).map (fun l => (p.1, l))

/-- `TryFrom<Json>`/`Deserialize` (src/core/response/parameters.rs:57-59,113-119): every
member must parse, later duplicates of a key win. -/
def ofJson : Json → Res VpToken
  | .obj m => match mapR memberOfJson m with
    | .error e => .error e
    | .ok l => .ok ⟨mofList l⟩
  | _ => .error .parse

/-- `From<VpToken> for Json` (src/core/response/parameters.rs:121-127). -/
def toJson (t : VpToken) : Json :=
  .obj (t.map.map (fun p => (p.1, .arr (p.2.map VpTokenItem.toJson))))
end VpToken

/-- (src/core/response/parameters.rs:109-127) -/
instance : TypedParameter VpToken where
  key := c!"vp_token"
  ofJson := VpToken.ofJson
  toJson v := .ok v.toJson

/-! ## Verifier metadata parameters -/

/-- `VpFormats` (src/core/metadata/parameters/verifier.rs:9-10). -/
structure VpFormats where
  val : ClaimFormatMap
deriving DecidableEq, Repr

/-- `VpFormats::supports_security_method`
(src/core/metadata/parameters/verifier.rs:25-37). -/
def VpFormats.supportsSecurityMethod (f : VpFormats) (format : ClaimFormatDesignation)
    (method : Str) : Bool :=
  match ClaimFormatMap.get format f.val with
  | some (.algValues l) => l.contains method
  | some (.proofTypeValues l) => l.contains method
  | _ => false

/-- (src/core/metadata/parameters/verifier.rs:40-58) -/
instance : TypedParameter VpFormats where
  key := c!"vp_formats_supported"
  ofJson j := (ClaimFormatMap.ofJson j).map .mk
  toJson v := .ok (ClaimFormatMap.toJson v.val)

/-- `JWKs` (src/core/metadata/parameters/verifier.rs:60-63). -/
structure JWKs where
  keys : List (List (Str × Json))
deriving DecidableEq, Repr

/-- (src/core/metadata/parameters/verifier.rs:65-84) -/
instance : TypedParameter JWKs where
  key := c!"jwks"
  ofJson j := do
    let m ← structFields [c!"keys"] j
    let ks ← fieldReq c!"keys" (vecOfJson objOfJson) m
    return ⟨ks⟩
  toJson v := .ok (.obj [(c!"keys", .arr (v.keys.map .obj))])

/-- `EncryptedResponseEncValuesSupported`
(src/core/metadata/parameters/verifier.rs:90-91). -/
structure EncryptedResponseEncValuesSupported where
  val : List Str
deriving DecidableEq, Repr

/-- (src/core/metadata/parameters/verifier.rs:93-109) -/
instance : TypedParameter EncryptedResponseEncValuesSupported where
  key := c!"encrypted_response_enc_values_supported"
  ofJson j := (strsOfJson j).map .mk
  toJson v := .ok (strsToJson v.val)

/-- (src/core/metadata/parameters/verifier.rs:111-116) -/
instance : RDefault EncryptedResponseEncValuesSupported := ⟨⟨[c!"A128GCM"]⟩⟩

/-! ## Wallet metadata parameters -/

/-- `Issuer` (src/core/metadata/parameters/wallet.rs:11-12). -/
structure Issuer where
  val : Str
deriving DecidableEq, Repr

/-- (src/core/metadata/parameters/wallet.rs:14-30) -/
instance : TypedParameter Issuer where
  key := c!"issuer"
  ofJson j := (strOfJson j).map .mk
  toJson v := .ok (.str v.val)

/-- `AuthorizationEndpoint` (src/core/metadata/parameters/wallet.rs:32-33). -/
structure AuthorizationEndpoint where
  val : Url
deriving DecidableEq, Repr

/-- (src/core/metadata/parameters/wallet.rs:35-51) -/
instance : TypedParameter AuthorizationEndpoint where
  key := c!"authorization_endpoint"
  ofJson j := (Url.ofJson j).map .mk
  toJson v := .ok (.str v.val.print)

/-- `ResponseTypesSupported` (src/core/metadata/parameters/wallet.rs:53-54). -/
structure ResponseTypesSupported where
  val : List ResponseType
deriving DecidableEq, Repr

/-- (src/core/metadata/parameters/wallet.rs:56-80) -/
instance : TypedParameter ResponseTypesSupported where
  key := c!"response_types_supported"
  ofJson j := (vecOfJson (fun j => (strOfJson j).map ResponseType.ofStr) j).map .mk
  toJson v := .ok (.arr (v.val.map (fun t => .str t.print)))

/-- `ClientIdPrefixesSupported` (src/core/metadata/parameters/wallet.rs:83-84). -/
structure ClientIdPrefixesSupported where
  val : List ClientIdScheme
deriving DecidableEq, Repr

/-- (src/core/metadata/parameters/wallet.rs:86-108) -/
instance : TypedParameter ClientIdPrefixesSupported where
  key := c!"client_id_prefixes_supported"
  ofJson j := match j with
    | .arr xs => (mapR ClientIdScheme.ofJson xs).map .mk
    | _ => .error .parse
  toJson v := .ok (.arr (v.val.map ClientIdScheme.toJson))

/-- (src/core/metadata/parameters/wallet.rs:110-116) -/
instance : RDefault ClientIdPrefixesSupported := ⟨⟨[⟨ClientIdScheme.preregistered⟩]⟩⟩

/-- `RequestObjectSigningAlgValuesSupported` (src/core/metadata/parameters/wallet.rs:118-119). -/
structure RequestObjectSigningAlgValuesSupported where
  val : List Str
deriving DecidableEq, Repr

/-- (src/core/metadata/parameters/wallet.rs:121-137) -/
instance : TypedParameter RequestObjectSigningAlgValuesSupported where
  key := c!"request_object_signing_alg_values_supported"
  ofJson j := (strsOfJson j).map .mk
  toJson v := .ok (strsToJson v.val)

/-- Derived `Default` (src/core/metadata/parameters/wallet.rs:118). -/
instance : RDefault RequestObjectSigningAlgValuesSupported := ⟨⟨[]⟩⟩

/-- `VpFormatsSupported` (src/core/metadata/parameters/wallet.rs:139-140). -/
structure VpFormatsSupported where
  val : ClaimFormatMap
deriving DecidableEq, Repr

/-- (src/core/metadata/parameters/wallet.rs:142-160) -/
instance : TypedParameter VpFormatsSupported where
  key := c!"vp_formats_supported"
  ofJson j := (ClaimFormatMap.ofJson j).map .mk
  toJson v := .ok (ClaimFormatMap.toJson v.val)

/-- `is_claim_format_supported` (src/core/metadata/parameters/wallet.rs:163-165). -/
def VpFormatsSupported.isClaimFormatSupported (f : VpFormatsSupported)
    (d : ClaimFormatDesignation) : Bool := (ClaimFormatMap.get d f.val).isSome

/-- `AuthorizationEncryptionAlgValuesSupported`
(src/core/metadata/parameters/wallet.rs:168-169). -/
structure AuthorizationEncryptionAlgValuesSupported where
  val : List Str
deriving DecidableEq, Repr

/-- (src/core/metadata/parameters/wallet.rs:171-187) -/
instance : TypedParameter AuthorizationEncryptionAlgValuesSupported where
  key := c!"authorization_encryption_alg_values_supported"
  ofJson j := (strsOfJson j).map .mk
  toJson v := .ok (strsToJson v.val)

/-- `AuthorizationEncryptionEncValuesSupported`
(src/core/metadata/parameters/wallet.rs:189-190). -/
structure AuthorizationEncryptionEncValuesSupported where
  val : List Str
deriving DecidableEq, Repr

/-- (src/core/metadata/parameters/wallet.rs:192-208) -/
instance : TypedParameter AuthorizationEncryptionEncValuesSupported where
  key := c!"authorization_encryption_enc_values_supported"
  ofJson j := (strsOfJson j).map .mk
  toJson v := .ok (strsToJson v.val)

/-! ## Accessors of `client_metadata` -/

/-- `ClientMetadata::jwks` (src/core/authorization_request/parameters.rs:192-194). -/
def ClientMetadata.jwks (c : ClientMetadata) : Option (Res JWKs) := UntypedObject.get JWKs c.val

/-- `ClientMetadata::vp_formats` (src/core/authorization_request/parameters.rs:203-205). -/
def ClientMetadata.vpFormats (c : ClientMetadata) : Res VpFormats :=
  match UntypedObject.get VpFormats c.val with
  | none => .error .missing
  | some r => r

/-- `ClientMetadata::encrypted_response_enc_values_supported`
(src/core/authorization_request/parameters.rs:226-234). -/
def ClientMetadata.encValues (c : ClientMetadata) : Res EncryptedResponseEncValuesSupported :=
  match UntypedObject.get EncryptedResponseEncValuesSupported c.val with
  | none => .ok RDefault.dflt
  | some r => r

/-! ## `WalletMetadata` (src/core/metadata/mod.rs) -/

/-- `WalletMetadata` (src/core/metadata/mod.rs:21-23). -/
structure WalletMetadata where
  inner : UntypedObject
  endpoint : AuthorizationEndpoint
  formats : VpFormatsSupported
deriving DecidableEq, Repr

namespace WalletMetadata

/-- `WalletMetadata::new` (src/core/metadata/mod.rs:26-36). -/
def new (endpoint : AuthorizationEndpoint) (formats : VpFormatsSupported)
    (other : Option UntypedObject) : WalletMetadata :=
  ⟨UntypedObject.put formats (UntypedObject.put endpoint (unwrapOr [] other)), endpoint, formats⟩

/-- `authorization_endpoint` (src/core/metadata/mod.rs:38-40). -/
def authorizationEndpoint (w : WalletMetadata) : AuthorizationEndpoint := w.endpoint

/-- `vp_formats_supported` (src/core/metadata/mod.rs:43-45). -/
def vpFormatsSupported (w : WalletMetadata) : VpFormatsSupported := w.formats

/-- `vp_formats_supported_mut` (src/core/metadata/mod.rs:48-50), used to replace the value. -/
def setVpFormats (f : VpFormatsSupported) (w : WalletMetadata) : WalletMetadata :=
  { w with formats := f }

/-- `DerefMut` (src/core/metadata/mod.rs:169-173): replace the underlying parameters. -/
def setInner (o : UntypedObject) (w : WalletMetadata) : WalletMetadata := { w with inner := o }

/-- `add_request_object_signing_alg_values_supported` (src/core/metadata/mod.rs:54-69).
The algorithm is given by its printed name. -/
def addSigningAlg (alg : Str) (w : WalletMetadata) : Res WalletMetadata :=
  match UntypedObject.getOrDefault RequestObjectSigningAlgValuesSupported w.inner with
  | .error e => .error e
  | .ok s =>
    .ok { w with inner :=
      UntypedObject.put (RequestObjectSigningAlgValuesSupported.mk (s.val ++ [alg])) w.inner }

/-- `add_client_id_prefixes_supported` (src/core/metadata/mod.rs:76-89). -/
def addClientIdPrefixes (ps : List ClientIdScheme) (w : WalletMetadata) : Res WalletMetadata :=
  match UntypedObject.getOrDefault ClientIdPrefixesSupported w.inner with
  | .error e => .error e
  | .ok s =>
    .ok { w with inner := UntypedObject.put (ClientIdPrefixesSupported.mk (s.val ++ ps)) w.inner }

/-- `From<WalletMetadata> for UntypedObject` (src/core/metadata/mod.rs:142-149). -/
def toObject (w : WalletMetadata) : UntypedObject :=
  UntypedObject.put w.formats (UntypedObject.put w.endpoint w.inner)

/-- `TryFrom<UntypedObject>` (src/core/metadata/mod.rs:151-159). -/
def ofObject (o : UntypedObject) : Res WalletMetadata :=
  match parsingError (UntypedObject.get AuthorizationEndpoint o) with
  | .error e => .error e
  | .ok e => match parsingError (UntypedObject.get VpFormatsSupported o) with
    | .error e => .error e
    | .ok f => .ok ⟨o, e, f⟩

/-- `openid4vp_scheme_static` (src/core/metadata/mod.rs:111-139); the two unwraps become
error values. -/
def openid4vpSchemeStatic : Res WalletMetadata :=
  match Url.parse c!"openid4vp:" with
  | none => .error .panic
  | some u =>
    let o : UntypedObject := []
    let o := UntypedObject.put (AuthorizationEndpoint.mk u) o
    let o := UntypedObject.put (ResponseTypesSupported.mk [.vpToken]) o
    let o := UntypedObject.put (VpFormatsSupported.mk
      (ClaimFormatMap.insert .jwtVcJson (.algValues [c!"ES256"]) [])) o
    let o := UntypedObject.put (RequestObjectSigningAlgValuesSupported.mk [c!"ES256"]) o
    match ofObject o with
    | .error _ => .error .panic
    | .ok w => .ok w

end WalletMetadata

end Oid4vp
