import Verif.Model.Format
/-!
# DCQL queries (src/core/dcql_query.rs) and `NonEmptyVec` (src/utils.rs)
-/

set_option autoImplicit false

namespace Oid4vp

/-! ## `NonEmptyVec` -/

/-- `NonEmptyVec<T>` (src/utils.rs:5-7). The emptiness invariant is not part of the type
because `Default` breaks it. -/
structure NonEmptyVec (α : Type) where
  vec : List α
deriving DecidableEq, Repr

namespace NonEmptyVec
variable {α : Type}

/-- `NonEmptyVec::new` (src/utils.rs:10-12). -/
def new (t : α) : NonEmptyVec α := ⟨[t]⟩

/-- `TryFrom<Vec<T>>` (src/utils.rs:27-36). -/
def tryFrom (v : List α) : Res (NonEmptyVec α) :=
  if v.isEmpty then .error .missing else .ok ⟨v⟩

/-- `NonEmptyVec::maybe_new` (src/utils.rs:14-16). -/
def maybeNew (v : List α) : Option (NonEmptyVec α) :=
  match tryFrom v with
  | .ok x => some x
  | .error _ => none

/-- `NonEmptyVec::push` (src/utils.rs:18-20). -/
def push (t : α) (v : NonEmptyVec α) : NonEmptyVec α := ⟨v.vec ++ [t]⟩

/-- `NonEmptyVec::into_inner` (src/utils.rs:22-24). -/
def intoInner (v : NonEmptyVec α) : List α := v.vec

/-- Derived `Default` (src/utils.rs:5). -/
def default : NonEmptyVec α := ⟨[]⟩

/-- Derived `Deserialize` with `try_from = "Vec<T>"` (src/utils.rs:5-7). -/
def ofJson (f : Json → Res α) (j : Json) : Res (NonEmptyVec α) :=
  match vecOfJson f j with
  | .error e => .error e
  | .ok v => tryFrom v

/-- `Serialize` (src/utils.rs:76-83). -/
def toJson (f : α → Json) (v : NonEmptyVec α) : Json := .arr (v.vec.map f)

end NonEmptyVec

/-! ## Query types -/

/-- `DcqlCredentialClaimsQueryPath` (src/core/dcql_query.rs:480-486). `integer` is `usize`. -/
inductive PathElem where
  | string (s : Str)
  | null
  | integer (n : Nat)
deriving DecidableEq, Repr

/-- `DcqlCredentialClaimsQueryValue` (src/core/dcql_query.rs:472-478). `integer` is `isize`. -/
inductive ClaimValue where
  | string (s : Str)
  | integer (i : Int)
  | boolean (b : Bool)
deriving DecidableEq, Repr

/-- `DcqlCredentialClaimsQuery` (src/core/dcql_query.rs:353-371). -/
structure ClaimsQuery where
  id : Option Str
  path : NonEmptyVec PathElem
  values : Option (NonEmptyVec ClaimValue)
  intentToRetain : Option Bool
deriving DecidableEq, Repr

/-- `TrustedAuthorityType` (src/core/dcql_query.rs:283-296). -/
inductive TrustedAuthorityType where
  | aki
  | etsiTl
  | openidFederation
  | other (s : Str)
deriving DecidableEq, Repr

/-- `TrustedAuthoritiesQuery` (src/core/dcql_query.rs:239-250). -/
structure TrustedAuthoritiesQuery where
  authorityType : TrustedAuthorityType
  values : NonEmptyVec Str
deriving DecidableEq, Repr

/-- `DcqlCredentialSetQuery` (src/core/dcql_query.rs:300-309). -/
structure CredentialSetQuery where
  options : NonEmptyVec (List Str)
  required : Option Bool
deriving DecidableEq, Repr

/-- `DcqlCredentialQuery` (src/core/dcql_query.rs:72-113). -/
structure CredentialQuery where
  id : Str
  format : ClaimFormatDesignation
  metaMap : List (Str × Json)
  claims : Option (NonEmptyVec ClaimsQuery)
  claimSets : Option (NonEmptyVec (List Str))
  trustedAuthorities : Option (NonEmptyVec TrustedAuthoritiesQuery)
  requireBinding : Option Bool
  multiple : Option Bool
deriving DecidableEq, Repr

/-- `DcqlQuery` (src/core/dcql_query.rs:9-14). -/
structure DcqlQuery where
  credentials : NonEmptyVec CredentialQuery
  credentialSets : Option (NonEmptyVec CredentialSetQuery)
deriving DecidableEq, Repr

/-! ## Accessors with defaults -/

/-- `DcqlCredentialQuery::new` (src/core/dcql_query.rs:116-127). -/
def CredentialQuery.new (id : Str) (format : ClaimFormatDesignation) : CredentialQuery :=
  ⟨id, format, [], none, none, none, none, none⟩

/-- `DcqlQuery::new` (src/core/dcql_query.rs:17-22). -/
def DcqlQuery.new (credentials : NonEmptyVec CredentialQuery) : DcqlQuery := ⟨credentials, none⟩

/-- `DcqlCredentialSetQuery::new` (src/core/dcql_query.rs:312-317). -/
def CredentialSetQuery.new (options : NonEmptyVec (List Str)) : CredentialSetQuery := ⟨options, none⟩

/-- `DcqlCredentialClaimsQuery::new` (src/core/dcql_query.rs:374-381). -/
def ClaimsQuery.new (path : NonEmptyVec PathElem) : ClaimsQuery := ⟨none, path, none, none⟩

/-- `Option::unwrap_or`. -/
def unwrapOr {α : Type} (d : α) : Option α → α
  | some a => a
  | none => d

/-- `require_cryptographic_holder_binding` (src/core/dcql_query.rs:206-208). -/
def CredentialQuery.requiresBinding (q : CredentialQuery) : Bool := unwrapOr true q.requireBinding

/-- `multiple` (src/core/dcql_query.rs:223-225). -/
def CredentialQuery.allowsMultiple (q : CredentialQuery) : Bool := unwrapOr false q.multiple

/-- `is_required` (src/core/dcql_query.rs:333-335). -/
def CredentialSetQuery.isRequired (q : CredentialSetQuery) : Bool := unwrapOr true q.required

/-- `namespace` (src/core/dcql_query.rs:435-440). -/
def ClaimsQuery.namespace (q : ClaimsQuery) : Option Str :=
  match q.path.vec with
  | .string s :: _ => some s
  | _ => none

/-- `element_identifier` (src/core/dcql_query.rs:447-452). -/
def ClaimsQuery.elementIdentifier (q : ClaimsQuery) : Option Str :=
  match q.path.vec with
  | _ :: .string s :: _ => some s
  | _ => none

/-- The text of a path element. -/
def PathElem.text? : PathElem → Option Str
  | .string s => some s
  | _ => none

/-- `claim_name` (src/core/dcql_query.rs:461-469): last textual element. -/
def ClaimsQuery.claimName (q : ClaimsQuery) : Option Str :=
  q.path.vec.reverse.findSome? PathElem.text?

/-! ## Setters and mutable views

A mutable view (`…_mut`) hands out `&mut` to a field: the caller can replace the field (the
setter) or, for a `NonEmptyVec`, `push` to it; `NonEmptyVec` has no other mutating method
(src/utils.rs:9-25, `Deref` but no `DerefMut`). -/

/-- `set_credentials` (src/core/dcql_query.rs:47-49), `credentials_mut` (43-45). -/
def DcqlQuery.setCredentials (v : NonEmptyVec CredentialQuery) (q : DcqlQuery) : DcqlQuery :=
  { q with credentials := v }
/-- `set_credential_sets` (src/core/dcql_query.rs:24-29), `credential_sets_mut` (35-37). -/
def DcqlQuery.setCredentialSets (v : Option (NonEmptyVec CredentialSetQuery)) (q : DcqlQuery) :
    DcqlQuery := { q with credentialSets := v }
/-- `set_id` (src/core/dcql_query.rs:137-139), `id_mut` (133-135). -/
def CredentialQuery.setId (v : Str) (q : CredentialQuery) : CredentialQuery := { q with id := v }
/-- `set_format` (src/core/dcql_query.rs:149-151), `format_mut` (145-147). -/
def CredentialQuery.setFormat (v : ClaimFormatDesignation) (q : CredentialQuery) : CredentialQuery :=
  { q with format := v }
/-- `set_meta` (src/core/dcql_query.rs:161-163), `meta_mut` (157-159). -/
def CredentialQuery.setMeta (v : List (Str × Json)) (q : CredentialQuery) : CredentialQuery :=
  { q with metaMap := v }
/-- `set_claims` (src/core/dcql_query.rs:173-175), `claims_mut` (169-171). -/
def CredentialQuery.setClaims (v : Option (NonEmptyVec ClaimsQuery)) (q : CredentialQuery) :
    CredentialQuery := { q with claims := v }
/-- `set_claim_sets` (src/core/dcql_query.rs:185-187), `claim_sets_mut` (181-183). -/
def CredentialQuery.setClaimSets (v : Option (NonEmptyVec (List Str))) (q : CredentialQuery) :
    CredentialQuery := { q with claimSets := v }
/-- `set_trusted_authorities` (src/core/dcql_query.rs:197-202),
`trusted_authorities_mut` (193-195). -/
def CredentialQuery.setTrustedAuthorities (v : Option (NonEmptyVec TrustedAuthoritiesQuery))
    (q : CredentialQuery) : CredentialQuery := { q with trustedAuthorities := v }
/-- `set_require_cryptographic_holder_binding` (src/core/dcql_query.rs:214-219). -/
def CredentialQuery.setRequireBinding (v : Option Bool) (q : CredentialQuery) : CredentialQuery :=
  { q with requireBinding := v }
/-- `set_multiple` (src/core/dcql_query.rs:231-233). -/
def CredentialQuery.setMultiple (v : Option Bool) (q : CredentialQuery) : CredentialQuery :=
  { q with multiple := v }
/-- `set_authority_type` (src/core/dcql_query.rs:264-266). -/
def TrustedAuthoritiesQuery.setType (t : TrustedAuthorityType) (q : TrustedAuthoritiesQuery) :
    TrustedAuthoritiesQuery := { q with authorityType := t }
/-- `set_values` (src/core/dcql_query.rs:276-278), `values_mut` (272-274). -/
def TrustedAuthoritiesQuery.setValues (v : NonEmptyVec Str) (q : TrustedAuthoritiesQuery) :
    TrustedAuthoritiesQuery := { q with values := v }
/-- `set_options` (src/core/dcql_query.rs:327-329), `options_mut` (323-325). -/
def CredentialSetQuery.setOptions (v : NonEmptyVec (List Str)) (q : CredentialSetQuery) :
    CredentialSetQuery := { q with options := v }
/-- `set_required` (src/core/dcql_query.rs:346-348), `required_mut` (342-344). -/
def CredentialSetQuery.setRequired (v : Option Bool) (q : CredentialSetQuery) : CredentialSetQuery :=
  { q with required := v }
/-- `set_id` (src/core/dcql_query.rs:390-392), `id_mut` (386-388). -/
def ClaimsQuery.setId (v : Option Str) (q : ClaimsQuery) : ClaimsQuery := { q with id := v }
/-- `set_path` (src/core/dcql_query.rs:402-404), `path_mut` (398-400). -/
def ClaimsQuery.setPath (v : NonEmptyVec PathElem) (q : ClaimsQuery) : ClaimsQuery :=
  { q with path := v }
/-- `set_values` (src/core/dcql_query.rs:414-416), `values_mut` (410-412). -/
def ClaimsQuery.setValues (v : Option (NonEmptyVec ClaimValue)) (q : ClaimsQuery) : ClaimsQuery :=
  { q with values := v }
/-- `set_intent_to_retain` (src/core/dcql_query.rs:426-428), `intent_to_retain_mut` (422-424). -/
def ClaimsQuery.setIntentToRetain (v : Option Bool) (q : ClaimsQuery) : ClaimsQuery :=
  { q with intentToRetain := v }

/-! ## JSON -/

/-- Derived `Deserialize`, untagged (src/core/dcql_query.rs:480-486). -/
def PathElem.ofJson : Json → Res PathElem
  | .str s => .ok (.string s)
  | .null => .ok .null
  | .int i => if 0 ≤ i ∧ i < 2 ^ 64 then .ok (.integer i.toNat) else .error .parse
  | _ => .error .parse

/-- Derived `Serialize`, untagged (src/core/dcql_query.rs:480-486). -/
def PathElem.toJson : PathElem → Json
  | .string s => .str s
  | .null => .null
  | .integer n => .int n

/-- Derived `Deserialize`, untagged (src/core/dcql_query.rs:472-478). -/
def ClaimValue.ofJson : Json → Res ClaimValue
  | .str s => .ok (.string s)
  | .int i => if -(2 ^ 63) ≤ i ∧ i < 2 ^ 63 then .ok (.integer i) else .error .parse
  | .bool b => .ok (.boolean b)
  | _ => .error .parse

/-- Derived `Serialize`, untagged (src/core/dcql_query.rs:472-478). -/
def ClaimValue.toJson : ClaimValue → Json
  | .string s => .str s
  | .integer i => .int i
  | .boolean b => .bool b

/-- The name of a trusted authority type (src/core/dcql_query.rs:284-296, `snake_case`). -/
def TrustedAuthorityType.name : TrustedAuthorityType → Str
  | .aki => c!"aki"
  | .etsiTl => c!"etsi_tl"
  | .openidFederation => c!"openid_federation"
  | .other s => s

/-- Derived `Serialize` (src/core/dcql_query.rs:283-296). -/
def TrustedAuthorityType.toJson (t : TrustedAuthorityType) : Json := .str t.name

/-- The unit variants, by name. -/
def TrustedAuthorityType.known (s : Str) : Option TrustedAuthorityType :=
  if s = c!"aki" then some .aki
  else if s = c!"etsi_tl" then some .etsiTl
  else if s = c!"openid_federation" then some .openidFederation
  else none

/-- Derived `Deserialize` (src/core/dcql_query.rs:283-296): externally tagged unit variants
(a text, or an object with that single key and `null`), otherwise any text. -/
def TrustedAuthorityType.ofJson : Json → Res TrustedAuthorityType
  | .str s => match known s with
    | some t => .ok t
    | none => .ok (.other s)
  | .obj [(k, .null)] => orErr .parse (known k)
  | _ => .error .parse

/-- Derived `Serialize` (src/core/dcql_query.rs:353-371). -/
def ClaimsQuery.toJson (q : ClaimsQuery) : Json :=
  .obj (msetOpt c!"intent_to_retain" (q.intentToRetain.map .bool)
    (msetOpt c!"values" (q.values.map (NonEmptyVec.toJson ClaimValue.toJson))
    (mset c!"path" (q.path.toJson PathElem.toJson)
    (msetOpt c!"id" (q.id.map .str) []))))

/-- Derived `Deserialize` (src/core/dcql_query.rs:353-371). -/
def ClaimsQuery.ofJson (j : Json) : Res ClaimsQuery := do
  let m ← structFields [c!"id", c!"path", c!"values", c!"intent_to_retain"] j
  let id ← fieldOpt c!"id" strOfJson m
  let path ← fieldReq c!"path" (NonEmptyVec.ofJson PathElem.ofJson) m
  let values ← fieldOpt c!"values" (NonEmptyVec.ofJson ClaimValue.ofJson) m
  let intent ← fieldOpt c!"intent_to_retain" boolOfJson m
  return ⟨id, path, values, intent⟩

/-- Derived `Serialize` (src/core/dcql_query.rs:239-250). -/
def TrustedAuthoritiesQuery.toJson (q : TrustedAuthoritiesQuery) : Json :=
  .obj (mset c!"values" (q.values.toJson .str) (mset c!"type" q.authorityType.toJson []))

/-- Derived `Deserialize` (src/core/dcql_query.rs:239-250). -/
def TrustedAuthoritiesQuery.ofJson (j : Json) : Res TrustedAuthoritiesQuery := do
  let m ← structFields [c!"type", c!"values"] j
  let t ← fieldReq c!"type" TrustedAuthorityType.ofJson m
  let v ← fieldReq c!"values" (NonEmptyVec.ofJson strOfJson) m
  return ⟨t, v⟩

/-- Derived `Serialize` (src/core/dcql_query.rs:300-309). -/
def CredentialSetQuery.toJson (q : CredentialSetQuery) : Json :=
  .obj (msetOpt c!"required" (q.required.map .bool)
    (mset c!"options" (q.options.toJson strsToJson) []))

/-- Derived `Deserialize` (src/core/dcql_query.rs:300-309). -/
def CredentialSetQuery.ofJson (j : Json) : Res CredentialSetQuery := do
  let m ← structFields [c!"options", c!"required"] j
  let o ← fieldReq c!"options" (NonEmptyVec.ofJson strsOfJson) m
  let r ← fieldOpt c!"required" boolOfJson m
  return ⟨o, r⟩

/-- Derived `Serialize` (src/core/dcql_query.rs:72-113). -/
def CredentialQuery.toJson (q : CredentialQuery) : Json :=
  .obj (msetOpt c!"multiple" (q.multiple.map .bool)
    (msetOpt c!"require_cryptographic_holder_binding" (q.requireBinding.map .bool)
    (msetOpt c!"trusted_authorities" (q.trustedAuthorities.map (NonEmptyVec.toJson TrustedAuthoritiesQuery.toJson))
    (msetOpt c!"claim_sets" (q.claimSets.map (NonEmptyVec.toJson strsToJson))
    (msetOpt c!"claims" (q.claims.map (NonEmptyVec.toJson ClaimsQuery.toJson))
    (mset c!"meta" (.obj q.metaMap)
    (mset c!"format" q.format.toJson
    (mset c!"id" (.str q.id) []))))))))

/-- A `#[serde(default)]` field of type `Map` (src/core/dcql_query.rs:87-88). -/
def metaField (m : List (Str × Json)) : Res (List (Str × Json)) :=
  match mget c!"meta" m with
  | none => .ok []
  | some j => objOfJson j

/-- Derived `Deserialize` (src/core/dcql_query.rs:72-113). -/
def CredentialQuery.ofJson (j : Json) : Res CredentialQuery := do
  let m ← structFields [c!"id", c!"format", c!"meta", c!"claims", c!"claim_sets",
    c!"trusted_authorities", c!"require_cryptographic_holder_binding", c!"multiple"] j
  let id ← fieldReq c!"id" strOfJson m
  let format ← fieldReq c!"format" ClaimFormatDesignation.ofJson m
  let mt ← metaField m
  let claims ← fieldOpt c!"claims" (NonEmptyVec.ofJson ClaimsQuery.ofJson) m
  let claimSets ← fieldOpt c!"claim_sets" (NonEmptyVec.ofJson strsOfJson) m
  let ta ← fieldOpt c!"trusted_authorities" (NonEmptyVec.ofJson TrustedAuthoritiesQuery.ofJson) m
  let rb ← fieldOpt c!"require_cryptographic_holder_binding" boolOfJson m
  let mu ← fieldOpt c!"multiple" boolOfJson m
  return ⟨id, format, mt, claims, claimSets, ta, rb, mu⟩

/-- `From<DcqlQuery> for Json` (src/core/dcql_query.rs:64-68), derived `Serialize` (9-14). -/
def DcqlQuery.toJson (q : DcqlQuery) : Json :=
  .obj (msetOpt c!"credential_sets" (q.credentialSets.map (NonEmptyVec.toJson CredentialSetQuery.toJson))
    (mset c!"credentials" (q.credentials.toJson CredentialQuery.toJson) []))

/-- `TryFrom<Json> for DcqlQuery` (src/core/dcql_query.rs:56-62), derived `Deserialize` (9-14). -/
def DcqlQuery.ofJson (j : Json) : Res DcqlQuery := do
  let m ← structFields [c!"credentials", c!"credential_sets"] j
  let c ← fieldReq c!"credentials" (NonEmptyVec.ofJson CredentialQuery.ofJson) m
  let s ← fieldOpt c!"credential_sets" (NonEmptyVec.ofJson CredentialSetQuery.ofJson) m
  return ⟨c, s⟩

/-- `TypedParameter for DcqlQuery` (src/core/dcql_query.rs:52-54). -/
instance : TypedParameter DcqlQuery where
  key := c!"dcql_query"
  ofJson := DcqlQuery.ofJson
  toJson q := .ok q.toJson

end Oid4vp
