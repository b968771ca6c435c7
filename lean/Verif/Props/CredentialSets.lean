import Verif.Spec.CredentialSets
import Verif.Props.Disclosure
/-! # C115: the example wallet and the sets of credentials a query asks for -/

set_option autoImplicit false

namespace Oid4vp
open Spec Example

theorem meetsSets_iff {q : DcqlQuery} {ret : Str → Prop} (h : ∀ id, ret id ↔ QueryId q id) :
    MeetsSets q ret ↔ SetsRefer q := by
  have hr : ret = QueryId q := funext fun id => propext (h id)
  subst hr
  exact ⟨fun h => h.2, fun h' => ⟨fun _ k hk => ⟨k, hk, rfl⟩, h'⟩⟩

theorem filter_distinct {l : List CredentialQuery} (hd : l.Pairwise (fun k k' => k.id ≠ k'.id)) {k : CredentialQuery}
    (hk : k ∈ l) : l.filter (fun k' => k'.id = k.id) = [k] := by
  induction l with
  | nil => cases hk
  | cons x l ih =>
    obtain ⟨hx, hl⟩ := List.pairwise_cons.mp hd
    rcases List.mem_cons.mp hk with rfl | hk
    · have : l.filter (fun k' => k'.id = k.id) = [] := by
        rw [List.filter_eq_nil_iff]
        intro y hy
        simpa using (hx y hy).symm
      simp [this]
    · rw [List.filter_cons_of_neg (by simpa using hx k hk)]
      exact ih hl hk

/-- **C115** A selection has credentials for the ids of all credential queries, and for no others, whatever the sets
say. -/
theorem C115_all_ids (lower : Str → Str) (store : List Credential) (q : DcqlQuery) {s : Selection}
    (h : matchQuery lower store q = .ok s) (id : Str) : (∃ l, mget id s = some l ∧ l ≠ []) ↔ QueryId q id := by
  constructor
  · rintro ⟨l, hl, -⟩
    by_contra hn
    have := (C53_selection lower store q h id).2.mpr fun k hk e => hn ⟨k, hk, e⟩
    rw [hl] at this
    cases this
  · rintro ⟨k, hk, rfl⟩
    obtain ⟨l, h1, h2, -⟩ := C53_every_query_answered lower store q h k hk
    exact ⟨l, h1, h2⟩

/-- **C115** A selection is what the query asks for exactly if each set that is not optional has an option that names
credential queries of the query only; so always if the query has no sets. -/
theorem C115_selection_meets_iff (lower : Str → Str) (store : List Credential) (q : DcqlQuery) {s : Selection}
    (h : matchQuery lower store q = .ok s) :
    MeetsSets q (fun id => ∃ l, mget id s = some l ∧ l ≠ []) ↔ SetsRefer q :=
  meetsSets_iff (C115_all_ids lower store q h)

/-- **C115** The same of what the example wallet discloses: for a request object whose query is `q`, the VP token has
presentations for all that `q` asks for exactly if the sets of `q` refer to its credential queries. -/
theorem C115_disclosure_meets_iff {w : Adapter} {o : UntypedObject} {m : List (Str × Json)} (h : Disclosed w o m) :
    ∃ j q, mget c!"dcql_query" o = some j ∧ IsQuery j q ∧
      (MeetsSets q (fun id => ∃ t ts, mget id m = some (.arr (.str t :: ts))) ↔ SetsRefer q) := by
  obtain ⟨j, q, nonce, aud, h1, h2, -, -, h3⟩ := h
  refine ⟨j, q, h1, h2, meetsSets_iff fun id => ?_⟩
  obtain ⟨g1, g2⟩ := h3 id
  constructor
  · rintro ⟨t, ts, ht⟩
    by_contra hn
    have := g1.mpr fun k hk e => hn ⟨k, hk, e⟩
    rw [ht] at this
    cases this
  · rintro ⟨k, hk, rfl⟩
    cases hm : mget k.id m with
    | none => exact absurd rfl (g1.mp hm k hk)
    | some v =>
      obtain ⟨ts, rfl, hall⟩ := g2 v hm
      cases ts with
      | cons t ts => exact ⟨t, _, rfl⟩
      | nil =>
        have hmem : k ∈ q.credentials.vec.filter (fun k' => k'.id = k.id) := by simp [hk]
        rw [List.forall₂_nil_right_iff.mp hall] at hmem
        cases hmem

/-- **C115** Where the example wallet selects, the query could be answered from the store, if its sets refer to its
credential queries. -/
theorem C115_only_if_possible (lower : Str → Str) (store : List Credential) (q : DcqlQuery) {s : Selection}
    (h : matchQuery lower store q = .ok s) (hs : SetsRefer q) : MeetsSets q (CanAnswer lower store q) := by
  refine (meetsSets_iff fun id => ⟨?_, ?_⟩).mpr hs
  · rintro ⟨k, hk, e, -⟩
    exact ⟨k, hk, e⟩
  · rintro ⟨k, hk, e⟩
    obtain ⟨-, -, -, c, hc, ha, -⟩ := C53_every_query_answered lower store q h k hk
    exact ⟨k, hk, e, c, hc, ha⟩

/-- **C115** Without sets, the wallet selects exactly if the query can be answered from the store, provided that it
has a credential query and none twice under the same id. -/
theorem C115_without_sets (lower : Str → Str) (store : List Credential) (q : DcqlQuery) (hq : q.credentials.vec ≠ [])
    (hd : DistinctIds q) (hn : q.credentialSets = none) :
    (∃ s, matchQuery lower store q = .ok s) ↔ MeetsSets q (CanAnswer lower store q) := by
  constructor
  · rintro ⟨s, hs⟩
    exact C115_only_if_possible lower store q hs (by intro sets e; rw [hn] at e; cases e)
  · intro h
    cases hm : matchQuery lower store q with
    | ok s => exact ⟨s, rfl⟩
    | error e =>
      exfalso
      rcases (C53_fails_iff lower store q).mp ⟨e, hm⟩ with h0 | ⟨k, hk, hno⟩
      · exact hq h0
      · obtain ⟨k', hk', e', c, hc, ha⟩ := h.1 hn k hk
        have : k' ∈ q.credentials.vec.filter (fun x => x.id = k.id) := by simp [hk', e']
        rw [filter_distinct hd hk, List.mem_singleton] at this
        subst this
        exact hno c hc ha

/-- **C115** (A finding.) With sets the wallet refuses whatever has a credential query that the store cannot answer, be
it in optional sets only or one of several options. -/
theorem C115_refused_with_one_missing (lower : Str → Str) (store : List Credential) (q : DcqlQuery) (id : Str)
    (hi : QueryId q id) (hno : ¬ CanAnswer lower store q id) : ∃ e, matchQuery lower store q = .error e := by
  obtain ⟨k, hk, e⟩ := hi
  exact (C53_fails_iff lower store q).mpr (.inr ⟨k, hk, fun c hc ha => hno ⟨k, hk, e, c, hc, ha⟩⟩)

/-- **C115** (A finding.) Where the wallet selects, it selects for all options of all sets at once, though one option
is enough and optional sets are not needed: it discloses more than is asked for. -/
theorem C115_all_options_disclosed (lower : Str → Str) (store : List Credential) (q : DcqlQuery) {s : Selection}
    (h : matchQuery lower store q = .ok s) (sets : NonEmptyVec CredentialSetQuery) (_ : q.credentialSets = some sets) :
    ∀ set ∈ sets.vec, ∀ option ∈ set.options.vec, ∀ id ∈ option, QueryId q id → ∃ l, mget id s = some l ∧ l ≠ [] :=
  fun _ _ _ _ id _ hi => (C115_all_ids lower store q h id).mpr hi

/-- **C115** If no two credential queries have the same id, there is one credential for each. -/
theorem C115_one_each (lower : Str → Str) (store : List Credential) (q : DcqlQuery) {s : Selection}
    (h : matchQuery lower store q = .ok s) (hd : DistinctIds q) :
    ∀ k ∈ q.credentials.vec, ∃ c, FirstAnswer lower store k c ∧ mget k.id s = some [c.raw] := by
  intro k hk
  obtain ⟨h1, h2⟩ := C53_selection lower store q h k.id
  cases hg : mget k.id s with
  | none => exact absurd rfl (h2.1 hg k hk)
  | some l =>
    obtain ⟨-, hall⟩ := h1 l hg
    rw [filter_distinct hd hk] at hall
    cases hall with
    | cons hc ht =>
      cases ht
      obtain ⟨c, hc, rfl⟩ := hc
      exact ⟨c, hc, rfl⟩

/-! ## Cases -/

/-- A query for a driving licence or, instead of it, an SD-JWT of a type. -/
def eitherQuery (vct : Str) : DcqlQuery :=
  ⟨⟨[mdlQuery c!"a", vctQuery c!"b" vct]⟩, some ⟨[.new ⟨[[c!"a"], [c!"b"]]⟩]⟩⟩

theorem either_refers (vct : Str) : SetsRefer (eitherQuery vct) := by
  intro sets hs set hset _
  cases hs
  cases List.mem_singleton.mp hset
  exact ⟨[c!"a"], by decide, fun id hid => ⟨mdlQuery c!"a", by simp [eitherQuery],
    by cases List.mem_singleton.mp hid; rfl⟩⟩

/-- **C115** (A finding.) A query that asks for one of two credentials and can be answered with the first is refused
because the wallet does not hold the second. -/
theorem C115_alternative_refused : ∃ (lower : Str → Str) (store : List Credential) (q : DcqlQuery),
    DistinctIds q ∧ SetsRefer q ∧ MeetsSets q (CanAnswer lower store q) ∧
      matchQuery lower store q = .error .notFound := by
  refine ⟨lowerText, credStore, eitherQuery c!"urn:library", by unfold DistinctIds; decide, either_refers _, ?_,
    by decide⟩
  refine ⟨fun h => (by cases h), fun sets hs set hset _ => ?_⟩
  cases hs
  cases List.mem_singleton.mp hset
  refine ⟨[c!"a"], by decide, fun id hid => ?_⟩
  cases List.mem_singleton.mp hid
  have hq : ∃ s, matchQuery lowerText credStore (.new ⟨[mdlQuery c!"a"]⟩) = .ok s :=
    ⟨[(c!"a", [c!"MDL"])], by decide⟩
  obtain ⟨s, hs⟩ := hq
  obtain ⟨-, -, -, c, hc, ha, -⟩ := C53_every_query_answered _ _ _ hs (mdlQuery c!"a") (by simp [DcqlQuery.new])
  exact ⟨mdlQuery c!"a", by simp [eitherQuery], rfl, c, hc, ha⟩

/-- **C115** (A finding.) Asked for one of two credentials, a wallet that holds both discloses both, though the first
alone is what the query asks for. -/
theorem C115_both_alternatives : ∃ (lower : Str → Str) (store : List Credential) (q : DcqlQuery) (a b : Str)
    (ca cb : Str), a ≠ b ∧ MeetsSets q (· = a) ∧ matchQuery lower store q = .ok [(a, [ca]), (b, [cb])] := by
  refine ⟨lowerText, credStore, eitherQuery c!"urn:gym", c!"a", c!"b", c!"MDL", c!"GYM~", by decide, ?_, by decide⟩
  refine ⟨fun h => (by cases h), fun sets hs set hset _ => ?_⟩
  cases hs
  cases List.mem_singleton.mp hset
  exact ⟨[c!"a"], by decide, fun id hid => List.mem_singleton.mp hid⟩

/-- **C115** (A finding.) Nothing checks that sets refer to credential queries or that ids are distinct: a query read
from JSON may have neither, and a selection for it is not what it asks for. -/
theorem C115_references_unchecked : ∃ (lower : Str → Str) (store : List Credential) (j : Json) (q : DcqlQuery)
    (s : Selection), DcqlQuery.ofJson j = .ok q ∧ ¬ DistinctIds q ∧ ¬ SetsRefer q ∧
      matchQuery lower store q = .ok s ∧ ¬ MeetsSets q (fun id => ∃ l, mget id s = some l ∧ l ≠ []) := by
  let q : DcqlQuery :=
    ⟨⟨[mdlQuery c!"a", vctQuery c!"a" c!"urn:gym"]⟩, some ⟨[.new ⟨[[c!"a", c!"zz"]]⟩]⟩⟩
  have hm : matchQuery lowerText credStore q = .ok [(c!"a", [c!"MDL", c!"GYM~"])] := by decide
  have hr : ¬ SetsRefer q := by
    intro h
    obtain ⟨option, ho, hid⟩ := h _ rfl _ (List.mem_singleton.mpr rfl) (by decide)
    cases List.mem_singleton.mp ho
    obtain ⟨k, hk, e⟩ := hid c!"zz" (by decide)
    have : ∀ k ∈ q.credentials.vec, k.id ≠ c!"zz" := by decide
    exact this k hk e
  exact ⟨lowerText, credStore, q.toJson, q, _, by decide, by unfold DistinctIds; decide, hr, hm,
    fun h => hr ((C115_selection_meets_iff _ _ _ hm).mp h)⟩

-- without sets: both queries can be answered, and one credential is selected for each
example : DistinctIds (.new ⟨[mdlQuery c!"a", vctQuery c!"b" c!"urn:gym"]⟩) ∧
    matchQuery lowerText credStore (.new ⟨[mdlQuery c!"a", vctQuery c!"b" c!"urn:gym"]⟩) =
      .ok [(c!"a", [c!"MDL"]), (c!"b", [c!"GYM~"])] := by
  refine ⟨by unfold DistinctIds; decide, by decide⟩

end Oid4vp
