import Verif.Spec.Format
import Verif.Model.Params
/-!
# All typed parameters of the library, and which of their values are proper
-/

set_option autoImplicit false

namespace Oid4vp.Spec

/-- A value of any typed parameter of the library. -/
inductive AnyParam where
  | clientId (v : ClientId)
  | clientMetadata (v : ClientMetadata)
  | nonce (v : Nonce)
  | audience (v : Audience)
  | redirectUri (v : RedirectUri)
  | responseUri (v : ResponseUri)
  | responseMode (v : ResponseMode)
  | responseType (v : ResponseType)
  | state (v : State)
  | expectedOrigins (v : ExpectedOrigins)
  | transactionData (v : TransactionData)
  | verifierInfo (v : VerifierInfo)
  | requestUriMethod (v : RequestUriMethod)
  | dcqlQuery (v : DcqlQuery)
  | idToken (v : IdToken)
  | vpToken (v : VpToken)
  | vpFormats (v : VpFormats)
  | jwks (v : JWKs)
  | encValues (v : EncryptedResponseEncValuesSupported)
  | issuer (v : Issuer)
  | endpoint (v : AuthorizationEndpoint)
  | responseTypes (v : ResponseTypesSupported)
  | prefixes (v : ClientIdPrefixesSupported)
  | signingAlgs (v : RequestObjectSigningAlgValuesSupported)
  | vpFormatsSupported (v : VpFormatsSupported)
  | encryptionAlgs (v : AuthorizationEncryptionAlgValuesSupported)
  | encryptionEncs (v : AuthorizationEncryptionEncValuesSupported)

/-- The value becomes JSON, and that JSON is read as the same value. -/
def Survives {α : Type} [TypedParameter α] (t : α) : Prop :=
  ∃ j, TypedParameter.toJson t = .ok j ∧ TypedParameter.ofJson j = .ok t

/-- The same, up to the order in which a hash map is enumerated. -/
def SurvivesUpTo {α : Type} [TypedParameter α] (same : α → α → Prop) (t : α) : Prop :=
  ∃ j t', TypedParameter.toJson t = .ok j ∧ TypedParameter.ofJson j = .ok t' ∧ same t' t

namespace AnyParam

/-- The trip through JSON preserves the value. -/
def Survives : AnyParam → Prop
  | clientId v => Spec.Survives v
  | clientMetadata v => Spec.Survives v
  | nonce v => Spec.Survives v
  | audience v => Spec.Survives v
  | redirectUri v => Spec.Survives v
  | responseUri v => Spec.Survives v
  | responseMode v => Spec.Survives v
  | responseType v => Spec.Survives v
  | state v => Spec.Survives v
  | expectedOrigins v => Spec.Survives v
  | transactionData v => Spec.Survives v
  | verifierInfo v => Spec.Survives v
  | requestUriMethod v => Spec.Survives v
  | dcqlQuery v => Spec.Survives v
  | idToken v => Spec.Survives v
  | vpToken v => Spec.Survives v
  | vpFormats v => SurvivesUpTo (fun a b => SameMap a.val b.val) v
  | jwks v => Spec.Survives v
  | encValues v => Spec.Survives v
  | issuer v => Spec.Survives v
  | endpoint v => Spec.Survives v
  | responseTypes v => Spec.Survives v
  | prefixes v => Spec.Survives v
  | signingAlgs v => Spec.Survives v
  | vpFormatsSupported v => SurvivesUpTo (fun a b => SameMap a.val b.val) v
  | encryptionAlgs v => Spec.Survives v
  | encryptionEncs v => Spec.Survives v

/-- What the Rust types guarantee by construction: a `Url` is a parsed URL, the hash map of a
VP token has one value per key, JSON objects are maps. -/
def Rep : AnyParam → Prop
  | redirectUri v => v.val.WF
  | responseUri v => v.val.WF
  | endpoint v => v.val.WF
  | vpToken v => Sorted v.map ∧
      ∀ p ∈ v.map, ∀ m, VpTokenItem.jsonObject m ∈ p.2 → (Json.obj m).WF (fun _ => True)
  | vpFormats v => DistinctKeys v.val
  | vpFormatsSupported v => DistinctKeys v.val
  | _ => True

/-- No catch-all variant carries a known name or a known shape. -/
def Proper : AnyParam → Prop
  | responseMode (.unsupported s) =>
      s ∉ [c!"direct_post", c!"direct_post.jwt", c!"dc_api", c!"dc_api.jwt"]
  | responseType (.unsupported s) => s ∉ [c!"vp_token", c!"vp_token id_token"]
  | responseTypes v => ∀ s, ResponseType.unsupported s ∈ v.val →
      s ∉ [c!"vp_token", c!"vp_token id_token"]
  | dcqlQuery v => DcqlOk v
  | vpFormats v => ∀ e ∈ v.val, FormatOk e.1 ∧ PayloadOk e.2
  | vpFormatsSupported v => ∀ e ∈ v.val, FormatOk e.1 ∧ PayloadOk e.2
  | _ => True

end AnyParam
end Oid4vp.Spec
