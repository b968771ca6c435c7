import Verif.Spec.Dcql
import Verif.Lemmas.Fields
/-!
# C45–C48: DCQL queries
-/

set_option autoImplicit false

namespace Oid4vp

open Spec

/-! ## C45 -/

theorem pathElem_roundtrip (p : PathElem) : PathElem.ofJson p.toJson = .ok p ↔ PathOk p := by
  cases p with
  | string s => simp [PathElem.toJson, PathElem.ofJson, PathOk]
  | null => simp [PathElem.toJson, PathElem.ofJson, PathOk]
  | integer n =>
    simp only [PathElem.toJson, PathElem.ofJson, PathOk]
    split
    · simp; omega
    · simp; omega

theorem claimValue_roundtrip (v : ClaimValue) : ClaimValue.ofJson v.toJson = .ok v ↔ ValueOk v := by
  cases v with
  | string s => simp [ClaimValue.toJson, ClaimValue.ofJson, ValueOk]
  | boolean b => simp [ClaimValue.toJson, ClaimValue.ofJson, ValueOk]
  | integer i =>
    simp only [ClaimValue.toJson, ClaimValue.ofJson, ValueOk]
    split
    · simpa
    · simp; omega

theorem authorityType_roundtrip (t : TrustedAuthorityType) :
    TrustedAuthorityType.ofJson t.toJson = .ok t ↔ AuthorityOk t := by
  cases t with
  | aki => simp [AuthorityOk]; decide
  | etsiTl => simp [AuthorityOk]; decide
  | openidFederation => simp [AuthorityOk]; decide
  | other s =>
    simp only [TrustedAuthorityType.toJson, TrustedAuthorityType.name, TrustedAuthorityType.ofJson,
      TrustedAuthorityType.known, AuthorityOk, List.mem_cons, List.not_mem_nil, or_false, not_or]
    by_cases h1 : s = c!"aki"
    · simp [h1]
    by_cases h2 : s = c!"etsi_tl"
    · simp [h2]
    by_cases h3 : s = c!"openid_federation"
    · simp [h3]
    simp [h1, h2, h3]

theorem format_roundtrip (d : ClaimFormatDesignation) :
    ClaimFormatDesignation.ofJson d.toJson = .ok d ↔ FormatOk d := by
  cases d with
  | jwtVcJson => simp [FormatOk]; decide
  | ldpVc => simp [FormatOk]; decide
  | msoMDoc => simp [FormatOk]; decide
  | dcSdJwt => simp [FormatOk]; decide
  | other s =>
    simp only [ClaimFormatDesignation.toJson, ClaimFormatDesignation.name,
      ClaimFormatDesignation.ofJson, ClaimFormatDesignation.fromName, FormatOk, List.mem_cons,
      List.not_mem_nil, or_false, formatJwtVcJson, formatLdpVc, formatMsoMdoc, formatDcSdJwt,
      Except.ok.injEq, not_or]
    by_cases h1 : s = c!"jwt_vc_json"
    · simp [h1]
    by_cases h2 : s = c!"ldp_vc"
    · simp [h2]
    by_cases h3 : s = c!"mso_mdoc"
    · simp [h3]
    by_cases h4 : s = c!"dc+sd-jwt"
    · simp [h4]
    simp [h1, h2, h3, h4]

theorem nev_toJson_ne_null {α : Type} (g : α → Json) (v : NonEmptyVec α) : v.toJson g ≠ .null := by
  simp [NonEmptyVec.toJson]

/-- Round trip of a list whose elements' round trips are characterised by `P`. -/
theorem nev_iff {α : Type} {f : Json → Res α} {g : α → Json} {P : α → Prop}
    (h : ∀ x, f (g x) = .ok x ↔ P x) (v : NonEmptyVec α) :
    NonEmptyVec.ofJson f (v.toJson g) = .ok v ↔ ListOk P v := by
  rw [nev_roundtrip, ListOk]
  simp only [h]

theorem optNev_iff {α : Type} {k : Str} {f : Json → Res α} {g : α → Json} {P : α → Prop}
    {o : Option (NonEmptyVec α)} {m : List (Str × Json)} (h : ∀ x, f (g x) = .ok x ↔ P x)
    (hm : mget k m = o.map (NonEmptyVec.toJson g)) :
    fieldOpt k (NonEmptyVec.ofJson f) m = .ok o ↔ OptListOk P o := by
  rw [fieldOpt_roundtrip hm (nev_toJson_ne_null g), OptListOk]
  simp only [nev_iff h]

theorem optBool_ok {k : Str} {o : Option Bool} {m : List (Str × Json)}
    (hm : mget k m = o.map .bool) : fieldOpt k boolOfJson m = .ok o :=
  (fieldOpt_roundtrip hm (by simp)).mpr fun _ _ => rfl

theorem optStr_ok {k : Str} {o : Option Str} {m : List (Str × Json)}
    (hm : mget k m = o.map .str) : fieldOpt k strOfJson m = .ok o :=
  (fieldOpt_roundtrip hm (by simp)).mpr fun _ _ => rfl

/-- A lookup in a chain of `mset`/`msetOpt` with literal keys. -/
macro "lookup" : tactic =>
  `(tactic| (simp only [mget_msetOpt, mget_mset]
             first
               | decide
               | (repeat (first | rw [if_pos (by decide)] | rw [if_neg (by decide)]))
             try simp only [mget, Option.or_none]
             try rfl))

theorem reqNev_iff {α : Type} {k : Str} {f : Json → Res α} {g : α → Json} {P : α → Prop}
    {v : NonEmptyVec α} {m : List (Str × Json)} (h : ∀ x, f (g x) = .ok x ↔ P x)
    (hm : mget k m = some (v.toJson g)) :
    fieldReq k (NonEmptyVec.ofJson f) m = .ok v ↔ ListOk P v := by
  rw [fieldReq_roundtrip hm, nev_iff h]

theorem claimsQuery_roundtrip (q : ClaimsQuery) : ClaimsQuery.ofJson q.toJson = .ok q ↔ ClaimsOk q := by
  obtain ⟨id, path, values, intent⟩ := q
  simp only [ClaimsQuery.toJson, ClaimsQuery.ofJson, structFields, ClaimsOk]
  generalize hm : msetOpt c!"intent_to_retain" _ _ = m
  have h1 := optStr_ok (show mget c!"id" m = id.map .str by subst hm; lookup)
  have h2 := reqNev_iff pathElem_roundtrip
    (show mget c!"path" m = some (path.toJson PathElem.toJson) by subst hm; lookup)
  have h3 := optNev_iff claimValue_roundtrip
    (show mget c!"values" m = values.map (NonEmptyVec.toJson ClaimValue.toJson) by subst hm; lookup)
  have h4 := optBool_ok (show mget c!"intent_to_retain" m = intent.map .bool by subst hm; lookup)
  rw [← h2, ← h3]
  simp only [bind_ok_iff, pure, Except.pure, Except.ok.injEq, ClaimsQuery.mk.injEq]
  constructor
  · rintro ⟨_, rfl, a, ha, p, hp, v, hv, b, hb, rfl, rfl, rfl, rfl⟩
    exact ⟨hp, hv⟩
  · rintro ⟨hp, hv⟩
    exact ⟨_, rfl, _, h1, _, hp, _, hv, _, h4, rfl, rfl, rfl, rfl⟩

theorem authorities_roundtrip (q : TrustedAuthoritiesQuery) :
    TrustedAuthoritiesQuery.ofJson q.toJson = .ok q ↔ AuthoritiesOk q := by
  obtain ⟨t, values⟩ := q
  simp only [TrustedAuthoritiesQuery.toJson, TrustedAuthoritiesQuery.ofJson, structFields, AuthoritiesOk]
  generalize hm : mset c!"values" _ _ = m
  have h1 := fieldReq_roundtrip (f := TrustedAuthorityType.ofJson)
    (show mget c!"type" m = some t.toJson by subst hm; lookup)
  have h2 := reqNev_iff (P := fun _ => True) (f := strOfJson) (g := .str) (by simp [strOfJson])
    (show mget c!"values" m = some (values.toJson .str) by subst hm; lookup)
  rw [← authorityType_roundtrip, ← h2, ← h1]
  simp only [bind_ok_iff, pure, Except.pure, Except.ok.injEq, TrustedAuthoritiesQuery.mk.injEq]
  constructor
  · rintro ⟨_, rfl, _, ht, v, hv, rfl, rfl⟩
    exact ⟨ht, hv⟩
  · rintro ⟨ht, hv⟩
    exact ⟨_, rfl, _, ht, _, hv, rfl, rfl⟩

theorem credentialSet_roundtrip (q : CredentialSetQuery) :
    CredentialSetQuery.ofJson q.toJson = .ok q ↔ CredentialSetOk q := by
  obtain ⟨options, required⟩ := q
  simp only [CredentialSetQuery.toJson, CredentialSetQuery.ofJson, structFields, CredentialSetOk]
  generalize hm : msetOpt c!"required" _ _ = m
  have h1 := reqNev_iff (P := fun _ => True) (f := strsOfJson) (g := strsToJson)
    (by simp [strs_roundtrip])
    (show mget c!"options" m = some (options.toJson strsToJson) by subst hm; lookup)
  have h2 := optBool_ok (show mget c!"required" m = required.map .bool by subst hm; lookup)
  rw [← h1]
  simp only [bind_ok_iff, pure, Except.pure, Except.ok.injEq, CredentialSetQuery.mk.injEq]
  constructor
  · rintro ⟨_, rfl, _, hv, _, _, rfl, rfl⟩
    exact hv
  · intro hv
    exact ⟨_, rfl, _, hv, _, h2, rfl, rfl⟩

theorem credential_roundtrip (q : CredentialQuery) :
    CredentialQuery.ofJson q.toJson = .ok q ↔ CredentialOk q := by
  obtain ⟨id, format, metaMap, claims, claimSets, tas, rb, mu⟩ := q
  simp only [CredentialQuery.toJson, CredentialQuery.ofJson, structFields, CredentialOk]
  generalize hm : msetOpt c!"multiple" _ _ = m
  have h1 := fieldReq_roundtrip (f := strOfJson)
    (show mget c!"id" m = some (.str id) by subst hm; lookup)
  have h2 := fieldReq_roundtrip (f := ClaimFormatDesignation.ofJson)
    (show mget c!"format" m = some format.toJson by subst hm; lookup)
  have h3 : metaField m = .ok metaMap := by
    have : mget c!"meta" m = some (.obj metaMap) := by subst hm; lookup
    simp only [metaField, this, objOfJson]
  have h4 := optNev_iff claimsQuery_roundtrip
    (show mget c!"claims" m = claims.map (NonEmptyVec.toJson ClaimsQuery.toJson) by subst hm; lookup)
  have h5 := optNev_iff (P := fun _ => True) (f := strsOfJson) (g := strsToJson)
    (by simp [strs_roundtrip])
    (show mget c!"claim_sets" m = claimSets.map (NonEmptyVec.toJson strsToJson) by subst hm; lookup)
  have h6 := optNev_iff authorities_roundtrip
    (show mget c!"trusted_authorities" m =
      tas.map (NonEmptyVec.toJson TrustedAuthoritiesQuery.toJson) by subst hm; lookup)
  have h7 := optBool_ok
    (show mget c!"require_cryptographic_holder_binding" m = rb.map .bool by subst hm; lookup)
  have h8 := optBool_ok (show mget c!"multiple" m = mu.map .bool by subst hm; lookup)
  rw [← format_roundtrip, ← h2, ← h4, ← h5, ← h6]
  simp only [bind_ok_iff, pure, Except.pure, Except.ok.injEq, CredentialQuery.mk.injEq]
  constructor
  · rintro ⟨_, rfl, _, _, _, ha, _, _, _, hb, _, hc, _, hd, _, _, _, _, rfl, rfl, rfl, rfl, rfl, rfl,
      rfl, rfl⟩
    exact ⟨ha, hb, hc, hd⟩
  · rintro ⟨ha, hb, hc, hd⟩
    exact ⟨_, rfl, _, h1, _, ha, _, h3, _, hb, _, hc, _, hd, _, h7, _, h8, rfl, rfl, rfl, rfl, rfl,
      rfl, rfl, rfl⟩

/-- **C45** A DCQL query survives the trip through JSON exactly if it is proper: its
catch-all names do not spell a known name, its integers are in range and its required lists
are not empty. -/
theorem C45_dcql_roundtrip (q : DcqlQuery) : DcqlQuery.ofJson q.toJson = .ok q ↔ DcqlOk q := by
  obtain ⟨credentials, sets⟩ := q
  simp only [DcqlQuery.toJson, DcqlQuery.ofJson, structFields, DcqlOk]
  generalize hm : msetOpt c!"credential_sets" _ _ = m
  have h1 := reqNev_iff credential_roundtrip
    (show mget c!"credentials" m = some (credentials.toJson CredentialQuery.toJson) by
      subst hm; lookup)
  have h2 := optNev_iff credentialSet_roundtrip
    (show mget c!"credential_sets" m = sets.map (NonEmptyVec.toJson CredentialSetQuery.toJson) by
      subst hm; lookup)
  rw [← h1, ← h2]
  simp only [bind_ok_iff, pure, Except.pure, Except.ok.injEq, DcqlQuery.mk.injEq]
  constructor
  · rintro ⟨_, rfl, _, ha, _, hb, rfl, rfl⟩
    exact ⟨ha, hb⟩
  · rintro ⟨ha, hb⟩
    exact ⟨_, rfl, _, ha, _, hb, rfl, rfl⟩

/-- A proper query using every feature. -/
def dcqlSample : DcqlQuery :=
  ⟨⟨[⟨c!"pid", .dcSdJwt, [(c!"vct_values", .arr [.str c!"urn:pid"])],
      some ⟨[⟨some c!"a", ⟨[.string c!"degrees", .null, .integer 3]⟩,
        some ⟨[.string c!"x", .integer (-7), .boolean true]⟩, some false⟩]⟩,
      some ⟨[[c!"a"], []]⟩, some ⟨[⟨.other c!"x", ⟨[c!"v"]⟩⟩, ⟨.aki, ⟨[c!"w"]⟩⟩]⟩, some false, none⟩,
     ⟨c!"m", .other c!"acme", [], none, none, none, none, some true⟩]⟩,
   some ⟨[⟨⟨[[c!"pid"], [c!"m"]]⟩, some false⟩]⟩⟩

theorem dcqlSample_ok : DcqlOk dcqlSample := by
  simp [dcqlSample, DcqlOk, ListOk, OptListOk, CredentialOk, FormatOk, ClaimsOk, PathOk, ValueOk,
    AuthoritiesOk, AuthorityOk, CredentialSetOk]

example : DcqlQuery.ofJson dcqlSample.toJson = .ok dcqlSample :=
  (C45_dcql_roundtrip dcqlSample).mpr dcqlSample_ok

/-- A catch-all that spells a known name comes back as the known name. -/
theorem C45_collision : ∃ q q' : DcqlQuery, q ≠ q' ∧ DcqlQuery.ofJson q.toJson = .ok q' :=
  ⟨⟨⟨[.new c!"a" (.other c!"mso_mdoc")]⟩, none⟩, ⟨⟨[.new c!"a" .msoMDoc]⟩, none⟩, by decide, by decide⟩

/-- **C45** Two proper queries never have the same JSON. -/
theorem C45_dcql_injective {q q' : DcqlQuery} (h : DcqlOk q) (h' : DcqlOk q')
    (he : q.toJson = q'.toJson) : q = q' := by
  have h1 := (C45_dcql_roundtrip q).mpr h
  rw [he, (C45_dcql_roundtrip q').mpr h'] at h1
  exact (Except.ok.inj h1).symm

/-! ## C46 -/

theorem listOk_true {α : Type} {v : NonEmptyVec α} (h : v.vec ≠ []) : ListOk (fun _ => True) v :=
  ⟨h, fun _ _ => trivial⟩

theorem listOk_of_json {α : Type} {f : Json → Res α} {P : α → Prop} (hf : ∀ j x, f j = .ok x → P x)
    {j : Json} {v : NonEmptyVec α} (h : NonEmptyVec.ofJson f j = .ok v) : ListOk P v := by
  obtain ⟨hne, l, -, hl⟩ := nev_ofJson_ok h
  refine ⟨hne, fun x hx => ?_⟩
  obtain ⟨y, -, hy⟩ := (mapR_mem hl).1 x hx
  exact hf y x hy

theorem optListOk_of_field {α : Type} {k : Str} {f : Json → Res α} {P : α → Prop}
    (hf : ∀ j x, f j = .ok x → P x) {m : List (Str × Json)} {o : Option (NonEmptyVec α)}
    (h : fieldOpt k (NonEmptyVec.ofJson f) m = .ok o) : OptListOk P o := by
  intro v hv
  obtain ⟨j, -, hj⟩ := (fieldOpt_ok h).1 v hv
  exact listOk_of_json hf hj

theorem claims_full_of_json (j : Json) (q : ClaimsQuery) (h : ClaimsQuery.ofJson j = .ok q) :
    ClaimsFull q := by
  simp only [ClaimsQuery.ofJson, bind_ok_iff, pure, Except.pure, Except.ok.injEq] at h
  obtain ⟨m, -, i, -, p, hp, v, hv, b, -, rfl⟩ := h
  obtain ⟨j', -, hj'⟩ := fieldReq_ok hp
  exact ⟨listOk_of_json (fun _ _ _ => trivial) hj', optListOk_of_field (fun _ _ _ => trivial) hv⟩

theorem authorities_full_of_json (j : Json) (q : TrustedAuthoritiesQuery)
    (h : TrustedAuthoritiesQuery.ofJson j = .ok q) : ListOk (fun _ => True) q.values := by
  simp only [TrustedAuthoritiesQuery.ofJson, bind_ok_iff, pure, Except.pure, Except.ok.injEq] at h
  obtain ⟨m, -, i, -, p, hp, rfl⟩ := h
  obtain ⟨j', -, hj'⟩ := fieldReq_ok hp
  exact listOk_of_json (fun _ _ _ => trivial) hj'

theorem credentialSet_full_of_json (j : Json) (q : CredentialSetQuery)
    (h : CredentialSetQuery.ofJson j = .ok q) : CredentialSetOk q := by
  simp only [CredentialSetQuery.ofJson, bind_ok_iff, pure, Except.pure, Except.ok.injEq] at h
  obtain ⟨m, -, i, hp, p, -, rfl⟩ := h
  obtain ⟨j', -, hj'⟩ := fieldReq_ok hp
  exact listOk_of_json (fun _ _ _ => trivial) hj'

theorem credential_full_of_json (j : Json) (q : CredentialQuery)
    (h : CredentialQuery.ofJson j = .ok q) : CredentialFull q := by
  simp only [CredentialQuery.ofJson, bind_ok_iff, pure, Except.pure, Except.ok.injEq] at h
  obtain ⟨m, -, i, -, f, -, mt, -, c, hc, cs, hcs, ta, hta, rb, -, mu, -, rfl⟩ := h
  exact ⟨optListOk_of_field claims_full_of_json hc, optListOk_of_field (fun _ _ _ => trivial) hcs,
    optListOk_of_field authorities_full_of_json hta⟩

/-- **C46** Every required list of a query obtained by parsing (any JSON) is non-empty. -/
theorem C46_parsed_nonempty {j : Json} {q : DcqlQuery} (h : DcqlQuery.ofJson j = .ok q) :
    DcqlFull q := by
  simp only [DcqlQuery.ofJson, bind_ok_iff, pure, Except.pure, Except.ok.injEq] at h
  obtain ⟨m, -, c, hc, s, hs, rfl⟩ := h
  obtain ⟨j', -, hj'⟩ := fieldReq_ok hc
  exact ⟨listOk_of_json credential_full_of_json hj', optListOk_of_field credentialSet_full_of_json hs⟩

theorem nevApi_ok {α : Type} {P Q : α → Prop} (h : ∀ x, P x → Q x) {v : NonEmptyVec α}
    (hv : NevApi P v) : ListOk Q v := by
  induction hv with
  | new hp => exact ⟨by simp [NonEmptyVec.new], by simpa [NonEmptyVec.new] using h _ hp⟩
  | tryFrom hl ht =>
    simp only [NonEmptyVec.tryFrom] at ht
    split at ht
    · simp at ht
    · rename_i hne
      simp only [Except.ok.injEq] at ht
      subst ht
      exact ⟨by simpa using hne, fun x hx => h x (hl x hx)⟩
  | maybeNew hl ht =>
    simp only [NonEmptyVec.maybeNew, NonEmptyVec.tryFrom] at ht
    split at ht
    · rename_i hne
      split at hne
      · simp at hne
      · rename_i hne'
        simp only [Except.ok.injEq, Option.some.injEq] at ht hne
        subst ht; subst hne
        exact ⟨by simpa using hne', fun x hx => h x (hl x hx)⟩
    · simp at ht
  | push hp _ ih =>
    refine ⟨by simp [NonEmptyVec.push], fun x hx => ?_⟩
    rcases List.mem_append.mp hx with hx | hx
    · exact ih.2 x hx
    · rw [List.mem_singleton.mp hx]; exact h _ hp

theorem listOk_push {α : Type} {P : α → Prop} {v : NonEmptyVec α} {x : α} (hv : ListOk P v) (hx : P x) :
    ListOk P (v.push x) := by
  refine ⟨by simp [NonEmptyVec.push], fun y hy => ?_⟩
  rcases List.mem_append.mp hy with hy | hy
  · exact hv.2 y hy
  · rw [List.mem_singleton.mp hy]; exact hx

theorem optListOk_some {α : Type} {P : α → Prop} {v : NonEmptyVec α} (h : ListOk P v) :
    OptListOk P (some v) := by
  intro v' hv'; cases hv'; exact h

theorem claimsApi_full {q : ClaimsQuery} (h : ClaimsApi q) : ClaimsFull q := by
  induction h with
  | parsed hj => exact claims_full_of_json _ _ hj
  | new hv => exact ⟨nevApi_ok (fun _ _ => trivial) hv, by intro v hv'; simp [ClaimsQuery.new] at hv'⟩
  | setId _ _ ih => exact ih
  | setPath _ hv ih => exact ⟨nevApi_ok (fun _ _ => trivial) hv, ih.2⟩
  | pushPath p _ ih => exact ⟨listOk_push ih.1 trivial, ih.2⟩
  | setValues _ hv ih => exact ⟨ih.1, fun v hv' => nevApi_ok (fun _ _ => trivial) (hv v hv')⟩
  | pushValue x _ hv ih => exact ⟨ih.1, optListOk_some (listOk_push (ih.2 _ hv) trivial)⟩
  | setIntent _ _ ih => exact ih

theorem authoritiesApi_full {q : TrustedAuthoritiesQuery} (h : AuthoritiesApi q) :
    ListOk (fun _ => True) q.values := by
  induction h with
  | parsed hj => exact authorities_full_of_json _ _ hj
  | new _ hv => exact nevApi_ok (fun _ _ => trivial) hv
  | setType _ _ ih => exact ih
  | setValues _ hv ih => exact nevApi_ok (fun _ _ => trivial) hv
  | pushValue p _ ih => exact listOk_push ih trivial

theorem credentialSetApi_full {q : CredentialSetQuery} (h : CredentialSetApi q) : CredentialSetOk q := by
  induction h with
  | parsed hj => exact credentialSet_full_of_json _ _ hj
  | new hv => exact nevApi_ok (fun _ _ => trivial) hv
  | setOptions _ hv ih => exact nevApi_ok (fun _ _ => trivial) hv
  | pushOption p _ ih => exact listOk_push ih trivial
  | setRequired _ _ ih => exact ih

theorem credentialApi_full {q : CredentialQuery} (h : CredentialApi q) : CredentialFull q := by
  induction h with
  | parsed hj => exact credential_full_of_json _ _ hj
  | new i f => exact ⟨by simp [OptListOk, CredentialQuery.new], by simp [OptListOk, CredentialQuery.new],
      by simp [OptListOk, CredentialQuery.new]⟩
  | setId _ _ ih => exact ih
  | setFormat _ _ ih => exact ih
  | setMeta _ _ ih => exact ih
  | setClaims _ hv ih =>
    exact ⟨fun v hv' => nevApi_ok (fun _ => claimsApi_full) (hv v hv'), ih.2⟩
  | pushClaim _ hv hx ih => exact ⟨optListOk_some (listOk_push (ih.1 _ hv) (claimsApi_full hx)), ih.2⟩
  | setClaimSets _ hv ih => exact ⟨ih.1, fun v hv' => nevApi_ok (fun _ _ => trivial) (hv v hv'), ih.2.2⟩
  | pushClaimSet _ _ hv ih => exact ⟨ih.1, optListOk_some (listOk_push (ih.2.1 _ hv) trivial), ih.2.2⟩
  | setAuthorities _ hv ih =>
    exact ⟨ih.1, ih.2.1, fun v hv' => nevApi_ok (fun _ => authoritiesApi_full) (hv v hv')⟩
  | pushAuthority _ hv hx ih =>
    exact ⟨ih.1, ih.2.1, optListOk_some (listOk_push (ih.2.2 _ hv) (authoritiesApi_full hx))⟩
  | setBinding _ _ ih => exact ih
  | setMultiple _ _ ih => exact ih

/-- **C46** Every required list is non-empty in every query made by parsing, constructors,
setters and `push` in any order. -/
theorem C46_api_nonempty {q : DcqlQuery} (h : DcqlApi q) : DcqlFull q := by
  induction h with
  | parsed hj => exact C46_parsed_nonempty hj
  | new hv => exact ⟨nevApi_ok (fun _ => credentialApi_full) hv, by simp [OptListOk, DcqlQuery.new]⟩
  | setCredentials _ hv ih => exact ⟨nevApi_ok (fun _ => credentialApi_full) hv, ih.2⟩
  | pushCredential _ hx ih => exact ⟨listOk_push ih.1 (credentialApi_full hx), ih.2⟩
  | setCredentialSets _ hv ih =>
    exact ⟨ih.1, fun v hv' => nevApi_ok (fun _ => credentialSetApi_full) (hv v hv')⟩
  | pushCredentialSet _ hv hx ih =>
    exact ⟨ih.1, optListOk_some (listOk_push (ih.2 _ hv) (credentialSetApi_full hx))⟩

example : DcqlApi (DcqlQuery.setCredentialSets (some (.new (.new (.new [c!"a"]))))
    (.new ((NonEmptyVec.new (.new c!"a" .ldpVc)).push (.new c!"b" .msoMDoc)))) := by
  refine .setCredentialSets (.new (.push (.new _ _) (.new (.new _ _)))) ?_
  intro v hv; cases hv
  exact .new (.new (.new trivial))

theorem empty_vec_refused {α : Type} {f : Json → Res α} {v : NonEmptyVec α} :
    NonEmptyVec.ofJson f (.arr []) ≠ .ok v := by
  simp [NonEmptyVec.ofJson, vecOfJson, mapR, NonEmptyVec.tryFrom]

/-- The derived `Default` of the list type is the one way to get an empty list; the query it
is put into cannot be read back from its JSON. -/
theorem C46_default_is_empty : ∃ v : NonEmptyVec CredentialQuery, v = NonEmptyVec.default ∧
    v.intoInner = [] ∧ ∀ s q', DcqlQuery.ofJson (DcqlQuery.toJson ⟨v, s⟩) ≠ .ok q' := by
  refine ⟨_, rfl, rfl, fun s q' h => ?_⟩
  simp only [DcqlQuery.ofJson, DcqlQuery.toJson, structFields, bind_ok_iff] at h
  obtain ⟨m, hm, c, hc, -⟩ := h
  cases hm
  have hg : mget c!"credentials" (msetOpt c!"credential_sets"
      (s.map (NonEmptyVec.toJson CredentialSetQuery.toJson))
      (mset c!"credentials" (NonEmptyVec.default.toJson CredentialQuery.toJson) [])) =
      some (.arr []) := by lookup
  rw [fieldReq_roundtrip hg] at hc
  exact empty_vec_refused hc

theorem req_emptyAt {α : Type} {k : Str} {f : Json → Res α} {m : List (Str × Json)} {v : NonEmptyVec α}
    (h : fieldReq k (NonEmptyVec.ofJson f) m = .ok v) : ¬ EmptyAt k (.obj m) := by
  intro he
  rw [fieldReq_roundtrip he] at h
  exact empty_vec_refused h

theorem opt_emptyAt {α : Type} {k : Str} {f : Json → Res α} {m : List (Str × Json)}
    {o : Option (NonEmptyVec α)} (h : fieldOpt k (NonEmptyVec.ofJson f) m = .ok o) :
    ¬ EmptyAt k (.obj m) := by
  intro he
  obtain ⟨x, -, hx⟩ := (fieldOpt_ok h).2 _ he (by simp)
  exact empty_vec_refused hx

theorem nev_someIn {α : Type} {f : Json → Res α} {P : Json → Prop}
    (hf : ∀ j x, P j → f j ≠ .ok x) {l : List Json} {v : NonEmptyVec α}
    (h : NonEmptyVec.ofJson f (.arr l) = .ok v) : ¬ ∃ x ∈ l, P x := by
  rintro ⟨x, hx, hp⟩
  obtain ⟨-, l', hl', hm⟩ := nev_ofJson_ok h
  cases hl'
  obtain ⟨y, -, hy⟩ := (mapR_mem hm).2.1 x hx
  exact hf x y hp hy

theorem req_someIn {α : Type} {k : Str} {f : Json → Res α} {P : Json → Prop}
    (hf : ∀ j x, P j → f j ≠ .ok x) {m : List (Str × Json)} {v : NonEmptyVec α}
    (h : fieldReq k (NonEmptyVec.ofJson f) m = .ok v) : ¬ SomeIn k P (.obj m) := by
  rintro ⟨l, hl, hx⟩
  rw [fieldReq_roundtrip hl] at h
  exact nev_someIn hf h hx

theorem opt_someIn {α : Type} {k : Str} {f : Json → Res α} {P : Json → Prop}
    (hf : ∀ j x, P j → f j ≠ .ok x) {m : List (Str × Json)} {o : Option (NonEmptyVec α)}
    (h : fieldOpt k (NonEmptyVec.ofJson f) m = .ok o) : ¬ SomeIn k P (.obj m) := by
  rintro ⟨l, hl, hx⟩
  obtain ⟨x, -, hx'⟩ := (fieldOpt_ok h).2 _ hl (by simp)
  exact nev_someIn hf hx' hx

theorem emptyAt_obj {k : Str} {j : Json} (h : EmptyAt k j) : ∃ m, j = .obj m := by
  cases j <;> simp [EmptyAt, Json.get?] at h ⊢

theorem someIn_obj {k : Str} {P : Json → Prop} {j : Json} (h : SomeIn k P j) : ∃ m, j = .obj m := by
  obtain ⟨l, hl, -⟩ := h
  cases j <;> simp [Json.get?] at hl ⊢

theorem claims_empty_refused (j : Json) (q : ClaimsQuery) (h : ClaimsEmptyJson j) :
    ClaimsQuery.ofJson j ≠ .ok q := by
  obtain ⟨m, rfl⟩ : ∃ m, j = .obj m := by rcases h with h | h <;> exact emptyAt_obj h
  intro hq
  simp only [ClaimsQuery.ofJson, structFields, bind_ok_iff, pure, Except.pure, Except.ok.injEq] at hq
  obtain ⟨_, rfl, i, -, p, hp, v, hv, b, -, rfl⟩ := hq
  rcases h with h | h
  · exact req_emptyAt hp h
  · exact opt_emptyAt hv h

theorem authorities_empty_refused (j : Json) (q : TrustedAuthoritiesQuery)
    (h : EmptyAt c!"values" j) : TrustedAuthoritiesQuery.ofJson j ≠ .ok q := by
  obtain ⟨m, rfl⟩ := emptyAt_obj h
  intro hq
  simp only [TrustedAuthoritiesQuery.ofJson, structFields, bind_ok_iff, pure, Except.pure,
    Except.ok.injEq] at hq
  obtain ⟨_, rfl, i, -, p, hp, rfl⟩ := hq
  exact req_emptyAt hp h

theorem credentialSet_empty_refused (j : Json) (q : CredentialSetQuery)
    (h : EmptyAt c!"options" j) : CredentialSetQuery.ofJson j ≠ .ok q := by
  obtain ⟨m, rfl⟩ := emptyAt_obj h
  intro hq
  simp only [CredentialSetQuery.ofJson, structFields, bind_ok_iff, pure, Except.pure,
    Except.ok.injEq] at hq
  obtain ⟨_, rfl, i, hp, p, -, rfl⟩ := hq
  exact req_emptyAt hp h

theorem credential_empty_refused (j : Json) (q : CredentialQuery) (h : CredentialEmptyJson j) :
    CredentialQuery.ofJson j ≠ .ok q := by
  obtain ⟨m, rfl⟩ : ∃ m, j = .obj m := by
    rcases h with h | h | h | h | h
    · exact emptyAt_obj h
    · exact emptyAt_obj h
    · exact emptyAt_obj h
    · exact someIn_obj h
    · exact someIn_obj h
  intro hq
  simp only [CredentialQuery.ofJson, structFields, bind_ok_iff, pure, Except.pure,
    Except.ok.injEq] at hq
  obtain ⟨_, rfl, i, -, f, -, mt, -, c, hc, cs, hcs, ta, hta, rb, -, mu, -, rfl⟩ := hq
  rcases h with h | h | h | h | h
  · exact opt_emptyAt hc h
  · exact opt_emptyAt hcs h
  · exact opt_emptyAt hta h
  · exact opt_someIn claims_empty_refused hc h
  · exact opt_someIn authorities_empty_refused hta h

/-- **C46** A JSON document with an empty array in one of these places is refused. -/
theorem C46_empty_refused (j : Json) (h : DcqlEmptyJson j) (q : DcqlQuery) :
    DcqlQuery.ofJson j ≠ .ok q := by
  obtain ⟨m, rfl⟩ : ∃ m, j = .obj m := by
    rcases h with h | h | h | h
    · exact emptyAt_obj h
    · exact emptyAt_obj h
    · exact someIn_obj h
    · exact someIn_obj h
  intro hq
  simp only [DcqlQuery.ofJson, structFields, bind_ok_iff, pure, Except.pure, Except.ok.injEq] at hq
  obtain ⟨_, rfl, c, hc, s, hs, rfl⟩ := hq
  rcases h with h | h | h | h
  · exact req_emptyAt hc h
  · exact opt_emptyAt hs h
  · exact req_someIn credential_empty_refused hc h
  · exact opt_someIn credentialSet_empty_refused hs h

example : DcqlEmptyJson (.obj [(c!"credentials", .arr [.obj [(c!"claims", .arr [.obj [(c!"path", .arr [])]]),
    (c!"format", .str c!"ldp_vc"), (c!"id", .str c!"a")]])]) :=
  .inr (.inr (.inl ⟨_, rfl, _, List.mem_singleton.mpr rfl, .inr (.inr (.inr (.inl
    ⟨_, rfl, _, List.mem_singleton.mpr rfl, .inl rfl⟩)))⟩))

/-! Parsed queries are proper, so that printing and parsing them again changes nothing. -/

theorem pathElem_ok (j : Json) (p : PathElem) (h : PathElem.ofJson j = .ok p) : PathOk p := by
  cases j with
  | int i =>
    simp only [PathElem.ofJson] at h
    split at h
    · simp only [Except.ok.injEq] at h; subst h; simp only [PathOk]; omega
    · simp at h
  | null => simp only [PathElem.ofJson, Except.ok.injEq] at h; subst h; trivial
  | str s => simp only [PathElem.ofJson, Except.ok.injEq] at h; subst h; trivial
  | _ => simp [PathElem.ofJson] at h

theorem claimValue_ok (j : Json) (v : ClaimValue) (h : ClaimValue.ofJson j = .ok v) : ValueOk v := by
  cases j with
  | int i =>
    simp only [ClaimValue.ofJson] at h
    split at h
    · rename_i hi; simp only [Except.ok.injEq] at h; subst h; exact hi
    · simp at h
  | bool b => simp only [ClaimValue.ofJson, Except.ok.injEq] at h; subst h; trivial
  | str s => simp only [ClaimValue.ofJson, Except.ok.injEq] at h; subst h; trivial
  | _ => simp [ClaimValue.ofJson] at h

theorem authority_known_ok {s : Str} {t : TrustedAuthorityType}
    (h : TrustedAuthorityType.known s = some t) : AuthorityOk t := by
  simp only [TrustedAuthorityType.known] at h
  split at h
  · cases h; trivial
  · split at h
    · cases h; trivial
    · split at h
      · cases h; trivial
      · simp at h

theorem authority_unknown {s : Str} (h : TrustedAuthorityType.known s = none) :
    AuthorityOk (.other s) := by
  simp only [TrustedAuthorityType.known] at h
  simp only [AuthorityOk, List.mem_cons, List.not_mem_nil, or_false, not_or]
  refine ⟨fun e => ?_, fun e => ?_, fun e => ?_⟩
  · rw [if_pos e] at h; simp at h
  · rw [e] at h; simp at h
  · rw [e] at h; simp at h

theorem authorityType_ok (j : Json) (t : TrustedAuthorityType)
    (h : TrustedAuthorityType.ofJson j = .ok t) : AuthorityOk t := by
  unfold TrustedAuthorityType.ofJson at h
  split at h
  · rename_i s
    split at h
    · rename_i hk
      simp only [Except.ok.injEq] at h; subst h
      exact authority_known_ok hk
    · rename_i hk
      simp only [Except.ok.injEq] at h; subst h
      exact authority_unknown hk
  · rename_i k
    cases hk : TrustedAuthorityType.known k with
    | none => simp [hk, orErr] at h
    | some t' =>
      simp only [hk, orErr, Except.ok.injEq] at h; subst h
      exact authority_known_ok hk
  · simp at h

theorem fromName_ok (s : Str) : FormatOk (ClaimFormatDesignation.fromName s) := by
  simp only [ClaimFormatDesignation.fromName]
  by_cases h1 : s = formatJwtVcJson
  · rw [if_pos h1]; trivial
  by_cases h2 : s = formatLdpVc
  · rw [if_neg h1, if_pos h2]; trivial
  by_cases h3 : s = formatMsoMdoc
  · rw [if_neg h1, if_neg h2, if_pos h3]; trivial
  by_cases h4 : s = formatDcSdJwt
  · rw [if_neg h1, if_neg h2, if_neg h3, if_pos h4]; trivial
  rw [if_neg h1, if_neg h2, if_neg h3, if_neg h4]
  simp only [FormatOk, List.mem_cons, List.not_mem_nil, or_false, not_or]
  exact ⟨h1, h2, h3, h4⟩

theorem format_ok (j : Json) (d : ClaimFormatDesignation)
    (h : ClaimFormatDesignation.ofJson j = .ok d) : FormatOk d := by
  cases j with
  | str s =>
    simp only [ClaimFormatDesignation.ofJson, Except.ok.injEq] at h
    subst h; exact fromName_ok s
  | _ => simp [ClaimFormatDesignation.ofJson] at h

theorem claims_ok (j : Json) (q : ClaimsQuery) (h : ClaimsQuery.ofJson j = .ok q) : ClaimsOk q := by
  simp only [ClaimsQuery.ofJson, bind_ok_iff, pure, Except.pure, Except.ok.injEq] at h
  obtain ⟨m, -, i, -, p, hp, v, hv, b, -, rfl⟩ := h
  obtain ⟨j', -, hj'⟩ := fieldReq_ok hp
  exact ⟨listOk_of_json pathElem_ok hj', optListOk_of_field claimValue_ok hv⟩

theorem authorities_ok (j : Json) (q : TrustedAuthoritiesQuery)
    (h : TrustedAuthoritiesQuery.ofJson j = .ok q) : AuthoritiesOk q := by
  simp only [TrustedAuthoritiesQuery.ofJson, bind_ok_iff, pure, Except.pure, Except.ok.injEq] at h
  obtain ⟨m, -, t, ht, p, hp, rfl⟩ := h
  obtain ⟨j', -, hj'⟩ := fieldReq_ok hp
  obtain ⟨j'', -, hj''⟩ := fieldReq_ok ht
  exact ⟨authorityType_ok _ _ hj'', listOk_of_json (fun _ _ _ => trivial) hj'⟩

theorem credential_ok (j : Json) (q : CredentialQuery) (h : CredentialQuery.ofJson j = .ok q) :
    CredentialOk q := by
  simp only [CredentialQuery.ofJson, bind_ok_iff, pure, Except.pure, Except.ok.injEq] at h
  obtain ⟨m, -, i, -, f, hf, mt, -, c, hc, cs, hcs, ta, hta, rb, -, mu, -, rfl⟩ := h
  obtain ⟨j', -, hj'⟩ := fieldReq_ok hf
  exact ⟨format_ok _ _ hj', optListOk_of_field claims_ok hc,
    optListOk_of_field (fun _ _ _ => trivial) hcs, optListOk_of_field authorities_ok hta⟩

theorem dcqlOk_of_json {j : Json} {q : DcqlQuery} (h : DcqlQuery.ofJson j = .ok q) : DcqlOk q := by
  simp only [DcqlQuery.ofJson, bind_ok_iff, pure, Except.pure, Except.ok.injEq] at h
  obtain ⟨m, -, c, hc, s, hs, rfl⟩ := h
  obtain ⟨j', -, hj'⟩ := fieldReq_ok hc
  exact ⟨listOk_of_json credential_ok hj', optListOk_of_field credentialSet_full_of_json hs⟩

/-- **C45** A query obtained by parsing any JSON value is proper; printing and parsing it
again gives the same query. -/
theorem C45_parse_stable {j : Json} {q : DcqlQuery} (h : DcqlQuery.ofJson j = .ok q) :
    DcqlOk q ∧ DcqlQuery.ofJson q.toJson = .ok q :=
  ⟨dcqlOk_of_json h, (C45_dcql_roundtrip q).mpr (dcqlOk_of_json h)⟩

/-! ## C47 -/

theorem fieldOpt_bool {k : Str} {m : List (Str × Json)} {x : Option Bool} (h : fieldOpt k boolOfJson m = .ok x)
    (b : Bool) : x = some b ↔ mget k m = some (.bool b) := by
  unfold fieldOpt at h
  cases hm : mget k m with
  | none => rw [hm] at h; cases h; simp
  | some j =>
    rw [hm] at h
    cases j <;> simp [boolOfJson, Except.map] at h <;> subst h <;> simp

/-- **C47** What a parsed credential query reports about holder binding and multiplicity is
what the document says, with the defaults of the specification where it says nothing. -/
theorem C47_credential_defaults {m : List (Str × Json)} {q : CredentialQuery}
    (h : CredentialQuery.ofJson (.obj m) = .ok q) :
    (mget c!"require_cryptographic_holder_binding" m = none → q.requiresBinding = true) ∧
    (∀ b, mget c!"require_cryptographic_holder_binding" m = some (.bool b) → q.requiresBinding = b) ∧
    (mget c!"multiple" m = none → q.allowsMultiple = false) ∧
    (∀ b, mget c!"multiple" m = some (.bool b) → q.allowsMultiple = b) ∧
    (q.requiresBinding = false ↔ mget c!"require_cryptographic_holder_binding" m = some (.bool false)) ∧
    (q.allowsMultiple = true ↔ mget c!"multiple" m = some (.bool true)) := by
  simp only [CredentialQuery.ofJson, structFields, bind_ok_iff, pure, Except.pure,
    Except.ok.injEq] at h
  obtain ⟨_, rfl, i, -, f, -, mt, -, c, hc, cs, hcs, ta, hta, rb, hrb, mu, hmu, rfl⟩ := h
  refine ⟨fun hn => ?_, fun b hb => ?_, fun hn => ?_, fun b hb => ?_, ?_, ?_⟩
  · simp only [fieldOpt, hn, Except.ok.injEq] at hrb; subst hrb; rfl
  · rw [fieldOpt_some hb (by simp)] at hrb
    simp only [boolOfJson, Except.map, Except.ok.injEq] at hrb; subst hrb; rfl
  · simp only [fieldOpt, hn, Except.ok.injEq] at hmu; subst hmu; rfl
  · rw [fieldOpt_some hb (by simp)] at hmu
    simp only [boolOfJson, Except.map, Except.ok.injEq] at hmu; subst hmu; rfl
  · have := fieldOpt_bool hrb false
    rw [← this]
    rcases rb with _ | _ | _ <;> simp [CredentialQuery.requiresBinding, unwrapOr]
  · have := fieldOpt_bool hmu true
    rw [← this]
    rcases mu with _ | _ | _ <;> simp [CredentialQuery.allowsMultiple, unwrapOr]

/-- **C47** Likewise for a parsed credential set. -/
theorem C47_set_defaults {m : List (Str × Json)} {q : CredentialSetQuery}
    (h : CredentialSetQuery.ofJson (.obj m) = .ok q) :
    (mget c!"required" m = none → q.isRequired = true) ∧
    (∀ b, mget c!"required" m = some (.bool b) → q.isRequired = b) ∧
    (q.isRequired = false ↔ mget c!"required" m = some (.bool false)) := by
  simp only [CredentialSetQuery.ofJson, structFields, bind_ok_iff, pure, Except.pure,
    Except.ok.injEq] at h
  obtain ⟨_, rfl, i, hp, p, hr, rfl⟩ := h
  refine ⟨fun hn => ?_, fun b hb => ?_, ?_⟩
  · simp only [fieldOpt, hn, Except.ok.injEq] at hr; subst hr; rfl
  · rw [fieldOpt_some hb (by simp)] at hr
    simp only [boolOfJson, Except.map, Except.ok.injEq] at hr; subst hr; rfl
  · have := fieldOpt_bool hr false
    rw [← this]
    rcases p with _ | _ | _ <;> simp [CredentialSetQuery.isRequired, unwrapOr]

/-- **C47** New queries have the defaults; a setting is reported as given, survives JSON,
and its removal restores the default. -/
theorem C47_settings (q : CredentialQuery) (s : CredentialSetQuery) (b : Bool) :
    (q.setRequireBinding (some b)).requiresBinding = b ∧
    (q.setRequireBinding none).requiresBinding = true ∧
    (q.setMultiple (some b)).allowsMultiple = b ∧ (q.setMultiple none).allowsMultiple = false ∧
    (s.setRequired (some b)).isRequired = b ∧ (s.setRequired none).isRequired = true ∧
    (∀ i f, (CredentialQuery.new i f).requiresBinding = true ∧
      (CredentialQuery.new i f).allowsMultiple = false) ∧
    (∀ o, (CredentialSetQuery.new o).isRequired = true) ∧
    (∀ q', CredentialQuery.ofJson q.toJson = .ok q' → q'.requiresBinding = q.requiresBinding ∧
      q'.allowsMultiple = q.allowsMultiple) ∧
    (∀ s', CredentialSetQuery.ofJson s.toJson = .ok s' → s'.isRequired = s.isRequired) := by
  refine ⟨rfl, rfl, rfl, rfl, rfl, rfl, fun _ _ => ⟨rfl, rfl⟩, fun _ => rfl, ?_, ?_⟩
  · intro q' h
    obtain ⟨id, format, metaMap, claims, claimSets, tas, rb, mu⟩ := q
    simp only [CredentialQuery.toJson] at h
    generalize hm : msetOpt c!"multiple" _ _ = m at h
    have h7 := show mget c!"require_cryptographic_holder_binding" m = rb.map .bool by subst hm; lookup
    have h8 := show mget c!"multiple" m = mu.map .bool by subst hm; lookup
    obtain ⟨d1, d2, d3, d4, -, -⟩ := C47_credential_defaults h
    constructor
    · cases rb with
      | none => rw [d1 h7]; rfl
      | some b => rw [d2 b h7]; rfl
    · cases mu with
      | none => rw [d3 h8]; rfl
      | some b => rw [d4 b h8]; rfl
  · intro s' h
    obtain ⟨options, required⟩ := s
    simp only [CredentialSetQuery.toJson] at h
    generalize hm : msetOpt c!"required" _ _ = m at h
    have h1 := show mget c!"required" m = required.map .bool by subst hm; lookup
    obtain ⟨d1, d2, -⟩ := C47_set_defaults h
    cases required with
    | none => rw [d1 h1]; rfl
    | some b => rw [d2 b h1]; rfl

example : ∃ q, CredentialQuery.ofJson (.obj [(c!"format", .str c!"ldp_vc"), (c!"id", .str c!"a"),
    (c!"multiple", .bool true)]) = .ok q ∧ q.requiresBinding = true ∧ q.allowsMultiple = true :=
  ⟨_, rfl, rfl, rfl⟩

/-! ## C48 -/

/-- **C48** The claim name is the last textual element of the path: there is one exactly if
some element is textual, and nothing textual comes after it. -/
theorem C48_claim_name (q : ClaimsQuery) (s : Str) :
    q.claimName = some s ↔ ∃ pre post, q.path.vec = pre ++ PathElem.string s :: post ∧
      ∀ t, PathElem.string t ∉ post := by
  simp only [ClaimsQuery.claimName]
  generalize q.path.vec = l
  constructor
  · intro h
    obtain ⟨l1, a, l2, hl, ha, hn⟩ := List.findSome?_eq_some_iff.mp h
    cases a with
    | string t =>
      simp only [PathElem.text?, Option.some.injEq] at ha
      subst ha
      refine ⟨l2.reverse, l1.reverse, ?_, ?_⟩
      · have := congrArg List.reverse hl
        simpa using this
      · intro t ht
        have := hn _ (List.mem_reverse.mp ht)
        simp [PathElem.text?] at this
    | null => simp [PathElem.text?] at ha
    | integer n => simp [PathElem.text?] at ha
  · rintro ⟨pre, post, rfl, hn⟩
    rw [List.findSome?_eq_some_iff]
    refine ⟨post.reverse, .string s, pre.reverse, by simp, rfl, ?_⟩
    intro a ha
    cases a with
    | string t => exact absurd (List.mem_reverse.mp ha) (hn t)
    | null => rfl
    | integer n => rfl

/-- **C48** There is no claim name exactly if no element is textual. -/
theorem C48_claim_name_none (q : ClaimsQuery) :
    q.claimName = none ↔ ∀ t, PathElem.string t ∉ q.path.vec := by
  simp only [ClaimsQuery.claimName, List.findSome?_eq_none_iff, List.mem_reverse]
  constructor
  · intro h t ht
    have := h _ ht
    simp [PathElem.text?] at this
  · intro h x hx
    cases x with
    | string t => exact absurd hx (h t)
    | null => rfl
    | integer n => rfl

/-- **C48** The namespace is the first element, if that is textual. -/
theorem C48_namespace (q : ClaimsQuery) (s : Str) :
    q.namespace = some s ↔ q.path.vec[0]? = some (.string s) := by
  simp only [ClaimsQuery.namespace]
  cases q.path.vec with
  | nil => simp
  | cons a l => cases a <;> simp

/-- **C48** The element identifier is the second element, if that is textual. -/
theorem C48_element_identifier (q : ClaimsQuery) (s : Str) :
    q.elementIdentifier = some s ↔ q.path.vec[1]? = some (.string s) := by
  simp only [ClaimsQuery.elementIdentifier]
  match q.path.vec with
  | [] => simp
  | [a] => simp
  | a :: b :: l => cases b <;> simp

example : (ClaimsQuery.new ⟨[.string c!"ns", .string c!"degrees", .null, .integer 2]⟩).claimName =
    some c!"degrees" ∧
    (ClaimsQuery.new ⟨[.string c!"ns", .string c!"degrees", .null]⟩).namespace = some c!"ns" ∧
    (ClaimsQuery.new ⟨[.string c!"ns", .string c!"degrees", .null]⟩).elementIdentifier =
      some c!"degrees" ∧
    (ClaimsQuery.new ⟨[.integer 1, .null]⟩).claimName = none := by decide

end Oid4vp
