import Verif.Spec.Params
/-!
# Reading a parameter from an object and writing it back
-/

set_option autoImplicit false

namespace Oid4vp.Spec.AnyParam

/-- The member of an object that holds the parameter. -/
def member : AnyParam → Str
  | clientId _ => c!"client_id"
  | clientMetadata _ => c!"client_metadata"
  | nonce _ => c!"nonce"
  | audience _ => c!"aud"
  | redirectUri _ => c!"redirect_uri"
  | responseUri _ => c!"response_uri"
  | responseMode _ => c!"response_mode"
  | responseType _ => c!"response_type"
  | state _ => c!"state"
  | expectedOrigins _ => c!"expected_origins"
  | transactionData _ => c!"transaction_data"
  | verifierInfo _ => c!"verifier_info"
  | requestUriMethod _ => c!"request_uri_method"
  | dcqlQuery _ => c!"dcql_query"
  | idToken _ => c!"id_token"
  | vpToken _ => c!"vp_token"
  | vpFormats _ => c!"vp_formats_supported"
  | jwks _ => c!"jwks"
  | encValues _ => c!"encrypted_response_enc_values_supported"
  | issuer _ => c!"issuer"
  | endpoint _ => c!"authorization_endpoint"
  | responseTypes _ => c!"response_types_supported"
  | prefixes _ => c!"client_id_prefixes_supported"
  | signingAlgs _ => c!"request_object_signing_alg_values_supported"
  | vpFormatsSupported _ => c!"vp_formats_supported"
  | encryptionAlgs _ => c!"authorization_encryption_alg_values_supported"
  | encryptionEncs _ => c!"authorization_encryption_enc_values_supported"

/-- The object is read as having this value of the parameter. -/
def ReadIn (o : UntypedObject) : AnyParam → Prop
  | clientId v => UntypedObject.get ClientId o = some (.ok v)
  | clientMetadata v => UntypedObject.get ClientMetadata o = some (.ok v)
  | nonce v => UntypedObject.get Nonce o = some (.ok v)
  | audience v => UntypedObject.get Audience o = some (.ok v)
  | redirectUri v => UntypedObject.get RedirectUri o = some (.ok v)
  | responseUri v => UntypedObject.get ResponseUri o = some (.ok v)
  | responseMode v => UntypedObject.get ResponseMode o = some (.ok v)
  | responseType v => UntypedObject.get ResponseType o = some (.ok v)
  | state v => UntypedObject.get State o = some (.ok v)
  | expectedOrigins v => UntypedObject.get ExpectedOrigins o = some (.ok v)
  | transactionData v => UntypedObject.get TransactionData o = some (.ok v)
  | verifierInfo v => UntypedObject.get VerifierInfo o = some (.ok v)
  | requestUriMethod v => UntypedObject.get RequestUriMethod o = some (.ok v)
  | dcqlQuery v => UntypedObject.get DcqlQuery o = some (.ok v)
  | idToken v => UntypedObject.get IdToken o = some (.ok v)
  | vpToken v => UntypedObject.get VpToken o = some (.ok v)
  | vpFormats v => UntypedObject.get VpFormats o = some (.ok v)
  | jwks v => UntypedObject.get JWKs o = some (.ok v)
  | encValues v => UntypedObject.get EncryptedResponseEncValuesSupported o = some (.ok v)
  | issuer v => UntypedObject.get Issuer o = some (.ok v)
  | endpoint v => UntypedObject.get AuthorizationEndpoint o = some (.ok v)
  | responseTypes v => UntypedObject.get ResponseTypesSupported o = some (.ok v)
  | prefixes v => UntypedObject.get ClientIdPrefixesSupported o = some (.ok v)
  | signingAlgs v => UntypedObject.get RequestObjectSigningAlgValuesSupported o = some (.ok v)
  | vpFormatsSupported v => UntypedObject.get VpFormatsSupported o = some (.ok v)
  | encryptionAlgs v => UntypedObject.get AuthorizationEncryptionAlgValuesSupported o = some (.ok v)
  | encryptionEncs v => UntypedObject.get AuthorizationEncryptionEncValuesSupported o = some (.ok v)

/-- The object after the value was written to it. -/
def putIn (o : UntypedObject) : AnyParam → UntypedObject
  | clientId v => UntypedObject.put v o
  | clientMetadata v => UntypedObject.put v o
  | nonce v => UntypedObject.put v o
  | audience v => UntypedObject.put v o
  | redirectUri v => UntypedObject.put v o
  | responseUri v => UntypedObject.put v o
  | responseMode v => UntypedObject.put v o
  | responseType v => UntypedObject.put v o
  | state v => UntypedObject.put v o
  | expectedOrigins v => UntypedObject.put v o
  | transactionData v => UntypedObject.put v o
  | verifierInfo v => UntypedObject.put v o
  | requestUriMethod v => UntypedObject.put v o
  | dcqlQuery v => UntypedObject.put v o
  | idToken v => UntypedObject.put v o
  | vpToken v => UntypedObject.put v o
  | vpFormats v => UntypedObject.put v o
  | jwks v => UntypedObject.put v o
  | encValues v => UntypedObject.put v o
  | issuer v => UntypedObject.put v o
  | endpoint v => UntypedObject.put v o
  | responseTypes v => UntypedObject.put v o
  | prefixes v => UntypedObject.put v o
  | signingAlgs v => UntypedObject.put v o
  | vpFormatsSupported v => UntypedObject.put v o
  | encryptionAlgs v => UntypedObject.put v o
  | encryptionEncs v => UntypedObject.put v o

/-- The same value; a map of formats is the same whatever the order of its entries. -/
def SameValue : AnyParam → AnyParam → Prop
  | vpFormats a, q => ∃ b, q = vpFormats b ∧ SameMap a.val b.val
  | vpFormatsSupported a, q => ∃ b, q = vpFormatsSupported b ∧ SameMap a.val b.val
  | p, q => p = q

end Oid4vp.Spec.AnyParam
