import Verif.Spec.Url
import Verif.Model.Params
/-!
# What parameters are called and what their JSON means

The tables of OpenID4VP 1.0, without reference to the conversions of the model.
-/

set_option autoImplicit false

namespace Oid4vp.Spec

/-- The parameter called `name` has the values that `means` gives its JSON, and is written as `json`. -/
structure ParamMeans (α : Type) [TypedParameter α] (name : Str) (means : Json → α → Prop) (json : α → Json) :
    Prop where
  absent : ∀ o, UntypedObject.get α o = none ↔ mget name o = none
  read : ∀ o v, UntypedObject.get α o = some (.ok v) ↔ ∃ j, mget name o = some j ∧ means j v
  write : ∀ v o k, mget k (UntypedObject.put v o) = if k = name then some (json v) else mget k o

/-! ## Shapes of JSON -/

/-- An array whose elements have the meanings in the list, in order. -/
def ArrayOf {α : Type} (means : Json → α → Prop) (j : Json) (l : List α) : Prop :=
  ∃ js, j = .arr js ∧ js.length = l.length ∧ ∀ p ∈ js.zip l, means p.1 p.2

/-- The same with at least one element. -/
def SomeOf {α : Type} (means : Json → α → Prop) (j : Json) (v : NonEmptyVec α) : Prop :=
  ArrayOf means j v.vec ∧ v.vec ≠ []

/-- A text. -/
def IsText (j : Json) (s : Str) : Prop := j = .str s

/-- A truth value. -/
def IsBool (j : Json) (b : Bool) : Prop := j = .bool b

/-- An object. -/
def IsObject (j : Json) (m : List (Str × Json)) : Prop := j = .obj m

/-- A URL. -/
def IsUrl (j : Json) (u : Url) : Prop := ∃ s, j = .str s ∧ UrlText s u

/-- The fields of a structure: members of an object, or the elements of an array in the order of the
fields. -/
def Fields (names : List Str) (j : Json) (field : Str → Option Json) : Prop :=
  (∃ m, j = .obj m ∧ field = fun k => mget k m) ∨
    ∃ l, j = .arr l ∧ l.length = names.length ∧ field = fun k => mget k (names.zip l)

/-- A field that must be there. -/
def Mandatory {α : Type} (field : Str → Option Json) (name : Str) (means : Json → α → Prop) (v : α) : Prop :=
  ∃ j, field name = some j ∧ means j v

/-- A field that may be absent or null. -/
def Optional {α : Type} (field : Str → Option Json) (name : Str) (means : Json → α → Prop) (v : Option α) :
    Prop :=
  (v = none ∧ (field name = none ∨ field name = some .null)) ∨
    ∃ j x, field name = some j ∧ j ≠ .null ∧ means j x ∧ v = some x

/-! ## Names of the standard -/

/-- Response modes. -/
inductive IsMode : Json → ResponseMode → Prop
  | directPost : IsMode (.str c!"direct_post") .directPost
  | directPostJwt : IsMode (.str c!"direct_post.jwt") .directPostJwt
  | dcApi : IsMode (.str c!"dc_api") .dcApi
  | dcApiJwt : IsMode (.str c!"dc_api.jwt") .dcApiJwt
  | other {s} : s ∉ [c!"direct_post", c!"direct_post.jwt", c!"dc_api", c!"dc_api.jwt"] →
      IsMode (.str s) (.unsupported s)

/-- Response types. -/
inductive IsType : Json → ResponseType → Prop
  | vpToken : IsType (.str c!"vp_token") .vpToken
  | vpTokenIdToken : IsType (.str c!"vp_token id_token") .vpTokenIdToken
  | other {s} : s ∉ [c!"vp_token", c!"vp_token id_token"] → IsType (.str s) (.unsupported s)

/-- Methods of fetching the request object. -/
inductive IsMethod : Json → RequestUriMethod → Prop
  | get : IsMethod (.str c!"get") .get
  | post : IsMethod (.str c!"post") .post

/-- Client identifier prefixes. -/
def IsPrefix (j : Json) (p : ClientIdScheme) : Prop := j = .str p.val

/-- Names of credential formats. -/
inductive FormatName : Str → ClaimFormatDesignation → Prop
  | jwt : FormatName c!"jwt_vc_json" .jwtVcJson
  | ldp : FormatName c!"ldp_vc" .ldpVc
  | mdoc : FormatName c!"mso_mdoc" .msoMDoc
  | sdJwt : FormatName c!"dc+sd-jwt" .dcSdJwt
  | other {s} : s ∉ [c!"jwt_vc_json", c!"ldp_vc", c!"mso_mdoc", c!"dc+sd-jwt"] → FormatName s (.other s)

/-- The name of a format. -/
def IsFormat (j : Json) (d : ClaimFormatDesignation) : Prop := ∃ s, j = .str s ∧ FormatName s d

/-- What is supported of a format. -/
inductive IsPayload : Json → ClaimFormatPayload → Prop
  | algs {l} : IsPayload (.obj [(c!"alg_values", .arr (l.map .str))]) (.algValues l)
  | proofs {l} : IsPayload (.obj [(c!"proof_type_values", .arr (l.map .str))]) (.proofTypeValues l)
  | other {j} : (∀ l : List Str, j ≠ .obj [(c!"alg_values", .arr (l.map .str))] ∧
      j ≠ .obj [(c!"proof_type_values", .arr (l.map .str))]) → IsPayload j (.other j)

/-! ## Queries -/

/-- An element of a claims path. -/
inductive IsPathElem : Json → PathElem → Prop
  | text {s} : IsPathElem (.str s) (.string s)
  | all : IsPathElem .null .null
  | index {n : Nat} : n < 2 ^ 64 → IsPathElem (.int n) (.integer n)

/-- An expected value. -/
inductive IsClaimValue : Json → ClaimValue → Prop
  | text {s} : IsClaimValue (.str s) (.string s)
  | int {i} : -(2 ^ 63) ≤ i → i < 2 ^ 63 → IsClaimValue (.int i) (.integer i)
  | bool {b} : IsClaimValue (.bool b) (.boolean b)

/-- Names of kinds of trusted authorities. -/
inductive AuthorityName : Str → TrustedAuthorityType → Prop
  | aki : AuthorityName c!"aki" .aki
  | etsi : AuthorityName c!"etsi_tl" .etsiTl
  | federation : AuthorityName c!"openid_federation" .openidFederation

/-- A kind of trusted authority: a text, or an object that has a known name as its only member, with
null. -/
inductive IsAuthority : Json → TrustedAuthorityType → Prop
  | known {s t} : AuthorityName s t → IsAuthority (.str s) t
  | other {s} : s ∉ [c!"aki", c!"etsi_tl", c!"openid_federation"] → IsAuthority (.str s) (.other s)
  | member {s t} : AuthorityName s t → IsAuthority (.obj [(s, .null)]) t

/-- A claims query. -/
def IsClaims (j : Json) (q : ClaimsQuery) : Prop :=
  ∃ f, Fields [c!"id", c!"path", c!"values", c!"intent_to_retain"] j f ∧
    Optional f c!"id" IsText q.id ∧ Mandatory f c!"path" (SomeOf IsPathElem) q.path ∧
    Optional f c!"values" (SomeOf IsClaimValue) q.values ∧
    Optional f c!"intent_to_retain" IsBool q.intentToRetain

/-- A query for trusted authorities. -/
def IsAuthorities (j : Json) (q : TrustedAuthoritiesQuery) : Prop :=
  ∃ f, Fields [c!"type", c!"values"] j f ∧ Mandatory f c!"type" IsAuthority q.authorityType ∧
    Mandatory f c!"values" (SomeOf IsText) q.values

/-- A query for credential sets. -/
def IsCredentialSet (j : Json) (q : CredentialSetQuery) : Prop :=
  ∃ f, Fields [c!"options", c!"required"] j f ∧
    Mandatory f c!"options" (SomeOf (ArrayOf IsText)) q.options ∧ Optional f c!"required" IsBool q.required

/-- A credential query. Without `meta` nothing is restricted. -/
def IsCredential (j : Json) (q : CredentialQuery) : Prop :=
  ∃ f, Fields [c!"id", c!"format", c!"meta", c!"claims", c!"claim_sets", c!"trusted_authorities",
      c!"require_cryptographic_holder_binding", c!"multiple"] j f ∧
    Mandatory f c!"id" IsText q.id ∧ Mandatory f c!"format" IsFormat q.format ∧
    ((f c!"meta" = none ∧ q.metaMap = []) ∨ f c!"meta" = some (.obj q.metaMap)) ∧
    Optional f c!"claims" (SomeOf IsClaims) q.claims ∧
    Optional f c!"claim_sets" (SomeOf (ArrayOf IsText)) q.claimSets ∧
    Optional f c!"trusted_authorities" (SomeOf IsAuthorities) q.trustedAuthorities ∧
    Optional f c!"require_cryptographic_holder_binding" IsBool q.requireBinding ∧
    Optional f c!"multiple" IsBool q.multiple

/-- A DCQL query. -/
def IsQuery (j : Json) (q : DcqlQuery) : Prop :=
  ∃ f, Fields [c!"credentials", c!"credential_sets"] j f ∧
    Mandatory f c!"credentials" (SomeOf IsCredential) q.credentials ∧
    Optional f c!"credential_sets" (SomeOf IsCredentialSet) q.credentialSets

/-! ## Keys and tokens -/

/-- A key set. -/
def IsKeySet (j : Json) (v : JWKs) : Prop :=
  ∃ f, Fields [c!"keys"] j f ∧ Mandatory f c!"keys" (ArrayOf IsObject) v.keys

/-- A presentation. -/
inductive IsPresentation : Json → VpTokenItem → Prop
  | text {s} : IsPresentation (.str s) (.string s)
  | object {m} : IsPresentation (.obj m) (.jsonObject m)

/-- A `vp_token`: presentations by the id of the credential query. -/
def IsToken (j : Json) (t : VpToken) : Prop :=
  ∃ m, j = .obj m ∧ m.length = t.map.length ∧
    ∀ p ∈ m.zip t.map, p.1.1 = p.2.1 ∧ ArrayOf IsPresentation p.1.2 p.2.2

/-- The last of the entries with that key. -/
def LastEntry {α : Type} (l : List (Str × α)) (k : Str) (v : α) : Prop :=
  ∃ a b, l = a ++ (k, v) :: b ∧ ∀ v', (k, v') ∉ b

end Oid4vp.Spec
