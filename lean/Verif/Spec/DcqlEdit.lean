import Verif.Model.Dcql
/-!
# Editing a query, seen in the document it is written as
-/

set_option autoImplicit false

namespace Oid4vp.Spec

/-- The second document is the first with the member `k` set to the value, or without it; everything else is
as before. -/
def Edited (doc : Json) (k : Str) (v : Option Json) (doc' : Json) : Prop :=
  ∃ m m', doc = .obj m ∧ doc' = .obj m' ∧ mget k m' = v ∧ ∀ k', k' ≠ k → mget k' m' = mget k' m

/-- A sequence of such edits. -/
inductive EditedBy : Json → List (Str × Option Json) → Json → Prop
  | nil {doc} : EditedBy doc [] doc
  | cons {doc doc' doc'' k v es} : Edited doc k v doc' → EditedBy doc' es doc'' →
      EditedBy doc ((k, v) :: es) doc''

/-- The value of a member after the edits: that of the last edit of it, otherwise as before. -/
inductive After (before : Str → Option Json) : List (Str × Option Json) → Str → Option Json → Prop
  | untouched {es k} : (∀ e ∈ es, e.1 ≠ k) → After before es k (before k)
  | last {pre post k v} : (∀ e ∈ post, e.1 ≠ k) → After before (pre ++ (k, v) :: post) k v

/-- The array of these values. -/
def list {α : Type} (f : α → Json) (v : NonEmptyVec α) : Json := .arr (v.vec.map f)

/-- One edit of a credential query: the setters, and assignment through the mutable views. -/
inductive CredentialEdit where
  | id (v : Str)
  | format (v : ClaimFormatDesignation)
  | metadata (v : List (Str × Json))
  | claims (v : Option (NonEmptyVec ClaimsQuery))
  | claimSets (v : Option (NonEmptyVec (List Str)))
  | authorities (v : Option (NonEmptyVec TrustedAuthoritiesQuery))
  | binding (v : Option Bool)
  | multiple (v : Option Bool)

/-- The edit done. -/
def CredentialEdit.run : CredentialEdit → CredentialQuery → CredentialQuery
  | .id v => .setId v
  | .format v => .setFormat v
  | .metadata v => .setMeta v
  | .claims v => .setClaims v
  | .claimSets v => .setClaimSets v
  | .authorities v => .setTrustedAuthorities v
  | .binding v => .setRequireBinding v
  | .multiple v => .setMultiple v

/-- What the edit says about the document. -/
def CredentialEdit.says : CredentialEdit → Str × Option Json
  | .id v => (c!"id", some (.str v))
  | .format v => (c!"format", some v.toJson)
  | .metadata v => (c!"meta", some (.obj v))
  | .claims v => (c!"claims", v.map (list ClaimsQuery.toJson))
  | .claimSets v => (c!"claim_sets", v.map (list fun ids => .arr (ids.map .str)))
  | .authorities v => (c!"trusted_authorities", v.map (list TrustedAuthoritiesQuery.toJson))
  | .binding v => (c!"require_cryptographic_holder_binding", v.map .bool)
  | .multiple v => (c!"multiple", v.map .bool)

end Oid4vp.Spec
