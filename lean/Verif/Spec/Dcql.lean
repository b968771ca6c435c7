import Verif.Model.Dcql
/-!
# Which DCQL queries are proper

Independent of the JSON conversions.
-/

set_option autoImplicit false

namespace Oid4vp.Spec

/-- Array indices are `usize`. -/
def PathOk : PathElem → Prop
  | .integer n => n < 2 ^ 64
  | _ => True

/-- Expected integer values are `isize`. -/
def ValueOk : ClaimValue → Prop
  | .integer i => -(2 ^ 63) ≤ i ∧ i < 2 ^ 63
  | _ => True

/-- The catch-all does not spell a known type. -/
def AuthorityOk : TrustedAuthorityType → Prop
  | .other s => s ∉ [c!"aki", c!"etsi_tl", c!"openid_federation"]
  | _ => True

/-- The catch-all does not spell a known format. -/
def FormatOk : ClaimFormatDesignation → Prop
  | .other s => s ∉ [c!"jwt_vc_json", c!"ldp_vc", c!"mso_mdoc", c!"dc+sd-jwt"]
  | _ => True

/-- A non-empty list all of whose elements are proper. -/
def ListOk {α : Type} (P : α → Prop) (v : NonEmptyVec α) : Prop := v.vec ≠ [] ∧ ∀ x ∈ v.vec, P x

/-- An optional non-empty list. -/
def OptListOk {α : Type} (P : α → Prop) (o : Option (NonEmptyVec α)) : Prop :=
  ∀ v, o = some v → ListOk P v

/-- A proper claims query. -/
def ClaimsOk (q : ClaimsQuery) : Prop := ListOk PathOk q.path ∧ OptListOk ValueOk q.values

/-- A proper trusted-authorities query. -/
def AuthoritiesOk (q : TrustedAuthoritiesQuery) : Prop :=
  AuthorityOk q.authorityType ∧ ListOk (fun _ => True) q.values

/-- A proper credential-set query. -/
def CredentialSetOk (q : CredentialSetQuery) : Prop := ListOk (fun _ => True) q.options

/-- A proper credential query. -/
def CredentialOk (q : CredentialQuery) : Prop :=
  FormatOk q.format ∧ OptListOk ClaimsOk q.claims ∧ OptListOk (fun _ => True) q.claimSets ∧
    OptListOk AuthoritiesOk q.trustedAuthorities

/-- A proper DCQL query. -/
def DcqlOk (q : DcqlQuery) : Prop :=
  ListOk CredentialOk q.credentials ∧ OptListOk CredentialSetOk q.credentialSets

/-! ## Non-emptiness alone -/

/-- All lists of a claims query that must be non-empty are. -/
def ClaimsFull (q : ClaimsQuery) : Prop :=
  ListOk (fun _ => True) q.path ∧ OptListOk (fun _ => True) q.values

/-- All lists of a credential query that must be non-empty are. -/
def CredentialFull (q : CredentialQuery) : Prop :=
  OptListOk ClaimsFull q.claims ∧ OptListOk (fun _ => True) q.claimSets ∧
    OptListOk (fun t : TrustedAuthoritiesQuery => ListOk (fun _ => True) t.values) q.trustedAuthorities

/-- All lists of a query that must be non-empty are. -/
def DcqlFull (q : DcqlQuery) : Prop :=
  ListOk CredentialFull q.credentials ∧ OptListOk CredentialSetOk q.credentialSets

/-! ## Values reachable through the public API -/

/-- Lists made by the constructors and `push`. -/
inductive NevApi {α : Type} (P : α → Prop) : NonEmptyVec α → Prop
  | new {t : α} : P t → NevApi P (NonEmptyVec.new t)
  | tryFrom {l : List α} {v : NonEmptyVec α} : (∀ x ∈ l, P x) → NonEmptyVec.tryFrom l = .ok v →
      NevApi P v
  | maybeNew {l : List α} {v : NonEmptyVec α} : (∀ x ∈ l, P x) → NonEmptyVec.maybeNew l = some v →
      NevApi P v
  | push {t : α} {v : NonEmptyVec α} : P t → NevApi P v → NevApi P (v.push t)

/-- An optional such list. -/
def OptNevApi {α : Type} (P : α → Prop) (o : Option (NonEmptyVec α)) : Prop :=
  ∀ v, o = some v → NevApi P v

/-- Claims queries made by parsing, the constructor and the setters, in any order. -/
inductive ClaimsApi : ClaimsQuery → Prop
  | parsed {j : Json} {q : ClaimsQuery} : ClaimsQuery.ofJson j = .ok q → ClaimsApi q
  | new {v : NonEmptyVec PathElem} : NevApi (fun _ => True) v → ClaimsApi (.new v)
  | setId {q : ClaimsQuery} (i : Option Str) : ClaimsApi q → ClaimsApi (q.setId i)
  | setPath {q : ClaimsQuery} {v : NonEmptyVec PathElem} : ClaimsApi q → NevApi (fun _ => True) v →
      ClaimsApi (q.setPath v)
  | pushPath {q : ClaimsQuery} (p : PathElem) : ClaimsApi q → ClaimsApi (q.setPath (q.path.push p))
  | setValues {q : ClaimsQuery} {v : Option (NonEmptyVec ClaimValue)} : ClaimsApi q →
      OptNevApi (fun _ => True) v → ClaimsApi (q.setValues v)
  | pushValue {q : ClaimsQuery} {v : NonEmptyVec ClaimValue} (x : ClaimValue) : ClaimsApi q →
      q.values = some v → ClaimsApi (q.setValues (some (v.push x)))
  | setIntent {q : ClaimsQuery} (b : Option Bool) : ClaimsApi q → ClaimsApi (q.setIntentToRetain b)

/-- Trusted-authorities queries, likewise. -/
inductive AuthoritiesApi : TrustedAuthoritiesQuery → Prop
  | parsed {j : Json} {q : TrustedAuthoritiesQuery} : TrustedAuthoritiesQuery.ofJson j = .ok q →
      AuthoritiesApi q
  | new (t : TrustedAuthorityType) {v : NonEmptyVec Str} : NevApi (fun _ => True) v →
      AuthoritiesApi ⟨t, v⟩
  | setType {q : TrustedAuthoritiesQuery} (t : TrustedAuthorityType) : AuthoritiesApi q →
      AuthoritiesApi (q.setType t)
  | setValues {q : TrustedAuthoritiesQuery} {v : NonEmptyVec Str} : AuthoritiesApi q →
      NevApi (fun _ => True) v → AuthoritiesApi (q.setValues v)
  | pushValue {q : TrustedAuthoritiesQuery} (x : Str) : AuthoritiesApi q →
      AuthoritiesApi (q.setValues (q.values.push x))

/-- Credential-set queries, likewise. -/
inductive CredentialSetApi : CredentialSetQuery → Prop
  | parsed {j : Json} {q : CredentialSetQuery} : CredentialSetQuery.ofJson j = .ok q →
      CredentialSetApi q
  | new {v : NonEmptyVec (List Str)} : NevApi (fun _ => True) v → CredentialSetApi (.new v)
  | setOptions {q : CredentialSetQuery} {v : NonEmptyVec (List Str)} : CredentialSetApi q →
      NevApi (fun _ => True) v → CredentialSetApi (q.setOptions v)
  | pushOption {q : CredentialSetQuery} (x : List Str) : CredentialSetApi q →
      CredentialSetApi (q.setOptions (q.options.push x))
  | setRequired {q : CredentialSetQuery} (b : Option Bool) : CredentialSetApi q →
      CredentialSetApi (q.setRequired b)

/-- Credential queries, likewise. -/
inductive CredentialApi : CredentialQuery → Prop
  | parsed {j : Json} {q : CredentialQuery} : CredentialQuery.ofJson j = .ok q → CredentialApi q
  | new (i : Str) (f : ClaimFormatDesignation) : CredentialApi (.new i f)
  | setId {q : CredentialQuery} (i : Str) : CredentialApi q → CredentialApi (q.setId i)
  | setFormat {q : CredentialQuery} (f : ClaimFormatDesignation) : CredentialApi q →
      CredentialApi (q.setFormat f)
  | setMeta {q : CredentialQuery} (m : List (Str × Json)) : CredentialApi q →
      CredentialApi (q.setMeta m)
  | setClaims {q : CredentialQuery} {v : Option (NonEmptyVec ClaimsQuery)} : CredentialApi q →
      OptNevApi ClaimsApi v → CredentialApi (q.setClaims v)
  | pushClaim {q : CredentialQuery} {v : NonEmptyVec ClaimsQuery} {x : ClaimsQuery} :
      CredentialApi q → q.claims = some v → ClaimsApi x → CredentialApi (q.setClaims (some (v.push x)))
  | setClaimSets {q : CredentialQuery} {v : Option (NonEmptyVec (List Str))} : CredentialApi q →
      OptNevApi (fun _ => True) v → CredentialApi (q.setClaimSets v)
  | pushClaimSet {q : CredentialQuery} {v : NonEmptyVec (List Str)} (x : List Str) :
      CredentialApi q → q.claimSets = some v → CredentialApi (q.setClaimSets (some (v.push x)))
  | setAuthorities {q : CredentialQuery} {v : Option (NonEmptyVec TrustedAuthoritiesQuery)} :
      CredentialApi q → OptNevApi AuthoritiesApi v → CredentialApi (q.setTrustedAuthorities v)
  | pushAuthority {q : CredentialQuery} {v : NonEmptyVec TrustedAuthoritiesQuery}
      {x : TrustedAuthoritiesQuery} : CredentialApi q → q.trustedAuthorities = some v →
      AuthoritiesApi x → CredentialApi (q.setTrustedAuthorities (some (v.push x)))
  | setBinding {q : CredentialQuery} (b : Option Bool) : CredentialApi q →
      CredentialApi (q.setRequireBinding b)
  | setMultiple {q : CredentialQuery} (b : Option Bool) : CredentialApi q →
      CredentialApi (q.setMultiple b)

/-- DCQL queries, likewise. -/
inductive DcqlApi : DcqlQuery → Prop
  | parsed {j : Json} {q : DcqlQuery} : DcqlQuery.ofJson j = .ok q → DcqlApi q
  | new {v : NonEmptyVec CredentialQuery} : NevApi CredentialApi v → DcqlApi (.new v)
  | setCredentials {q : DcqlQuery} {v : NonEmptyVec CredentialQuery} : DcqlApi q →
      NevApi CredentialApi v → DcqlApi (q.setCredentials v)
  | pushCredential {q : DcqlQuery} {x : CredentialQuery} : DcqlApi q → CredentialApi x →
      DcqlApi (q.setCredentials (q.credentials.push x))
  | setCredentialSets {q : DcqlQuery} {v : Option (NonEmptyVec CredentialSetQuery)} : DcqlApi q →
      OptNevApi CredentialSetApi v → DcqlApi (q.setCredentialSets v)
  | pushCredentialSet {q : DcqlQuery} {v : NonEmptyVec CredentialSetQuery} {x : CredentialSetQuery} :
      DcqlApi q → q.credentialSets = some v → CredentialSetApi x →
      DcqlApi (q.setCredentialSets (some (v.push x)))

/-! ## Empty lists in JSON documents -/

/-- The member `k` of a JSON object is an empty array. -/
def EmptyAt (k : Str) (j : Json) : Prop := j.get? k = some (.arr [])

/-- Some element of the array under member `k` of a JSON object satisfies `P`. -/
def SomeIn (k : Str) (P : Json → Prop) (j : Json) : Prop :=
  ∃ l, j.get? k = some (.arr l) ∧ ∃ x ∈ l, P x

/-- A claims query, as JSON, with an empty list. -/
def ClaimsEmptyJson (j : Json) : Prop := EmptyAt c!"path" j ∨ EmptyAt c!"values" j

/-- A credential query, as JSON, with an empty list. -/
def CredentialEmptyJson (j : Json) : Prop :=
  EmptyAt c!"claims" j ∨ EmptyAt c!"claim_sets" j ∨ EmptyAt c!"trusted_authorities" j ∨
    SomeIn c!"claims" ClaimsEmptyJson j ∨ SomeIn c!"trusted_authorities" (EmptyAt c!"values") j

/-- A DCQL query, as JSON, with an empty list. -/
def DcqlEmptyJson (j : Json) : Prop :=
  EmptyAt c!"credentials" j ∨ EmptyAt c!"credential_sets" j ∨
    SomeIn c!"credentials" CredentialEmptyJson j ∨
    SomeIn c!"credential_sets" (EmptyAt c!"options") j

end Oid4vp.Spec
