import Verif.Spec.Disclosure
/-! # Which presentations a DCQL query asks for together (OpenID4VP 1.0, section 6.4.2) -/

set_option autoImplicit false

namespace Oid4vp.Spec
open Example

/-- Presentations for the query ids `ret` are what the query asks for: without `credential_sets`, one for each of its
credential queries; with them, for each set that is not optional all of one of its options. -/
def MeetsSets (q : DcqlQuery) (ret : Str → Prop) : Prop :=
  (q.credentialSets = none → ∀ k ∈ q.credentials.vec, ret k.id) ∧
    ∀ sets, q.credentialSets = some sets → ∀ s ∈ sets.vec, s.required ≠ some false →
      ∃ option ∈ s.options.vec, ∀ id ∈ option, ret id

/-- The id of one of the credential queries. -/
def QueryId (q : DcqlQuery) (id : Str) : Prop := ∃ k ∈ q.credentials.vec, k.id = id

/-- The store can answer the credential query of this id. -/
def CanAnswer (lower : Str → Str) (store : List Credential) (q : DcqlQuery) (id : Str) : Prop :=
  ∃ k ∈ q.credentials.vec, k.id = id ∧ ∃ c ∈ store, Answers lower k c

/-- Each set that is not optional has an option that names credential queries of the query only. -/
def SetsRefer (q : DcqlQuery) : Prop :=
  ∀ sets, q.credentialSets = some sets → ∀ s ∈ sets.vec, s.required ≠ some false →
    ∃ option ∈ s.options.vec, ∀ id ∈ option, QueryId q id

/-- No two credential queries have the same id. -/
def DistinctIds (q : DcqlQuery) : Prop := q.credentials.vec.Pairwise (fun k k' => k.id ≠ k'.id)

end Oid4vp.Spec
