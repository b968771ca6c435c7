import Verif.Spec.Cli
import Verif.Props.Formats
/-!
# C63, C64: the query and the metadata of the command-line verifier
-/

set_option autoImplicit false

namespace Oid4vp
open Spec Cli

/-! ## C63 -/

/-- What a type asks for, as a list. -/
def asked (t : Str) : List (Str × ClaimFormatDesignation) :=
  (credentialTypes.filter (fun e => e.1 = t)).map Prod.snd

theorem asksFor_iff {t id : Str} {f : ClaimFormatDesignation} : AsksFor t id f ↔ (id, f) ∈ asked t := by
  simp only [AsksFor, asked, List.mem_map, List.mem_filter, decide_eq_true_eq]
  constructor
  · intro h; exact ⟨_, ⟨h, rfl⟩, rfl⟩
  · rintro ⟨⟨t', p⟩, ⟨h, rfl⟩, rfl⟩; exact h

/-- The queries the program has. -/
def cliQueries : List CredentialQuery := [ldpVcQuery, jwtVcQuery, vcdm2Query, mdlQuery]

theorem addType_ok {t : Str} {q : List CredentialQuery} {d : Str} {s : List (List Str)}
    (h : addType t = .ok (q, d, s)) :
    q.map (fun c => (c.id, c.format)) = asked t ∧ s = (asked t).map (fun p => [p.1]) ∧ q ≠ [] ∧
      ∀ c ∈ q, c ∈ cliQueries := by
  unfold addType at h
  iterate 5
    split at h
    · rename_i h1; cases h; subst h1; decide +kernel
  cases h

theorem addType_error {t : Str} {e : Err} (h : addType t = .error e) : ¬KnownType t := by
  unfold addType at h
  iterate 5
    split at h
    · cases h
  rename_i h1 h2 h3 h4 h5
  rintro ⟨id, f, hk⟩
  simp only [AsksFor, credentialTypes, List.mem_cons, Prod.mk.injEq, List.not_mem_nil, or_false] at hk
  rcases hk with ⟨hk, -⟩ | ⟨hk, -⟩ | ⟨hk, -⟩ | ⟨hk, -⟩ | ⟨hk, -⟩ | ⟨hk, -⟩ <;> contradiction

theorem addType_known {t : Str} {r : List CredentialQuery × Str × List (List Str)}
    (h : addType t = .ok r) : KnownType t := by
  obtain ⟨q, d, s⟩ := r
  obtain ⟨h1, -, h3, -⟩ := addType_ok h
  cases q with
  | nil => exact absurd rfl h3
  | cons c q =>
    refine ⟨c.id, c.format, asksFor_iff.2 ?_⟩
    rw [← h1]; exact List.mem_cons_self

theorem typesLoop_ok {ts : List Str} : ∀ {qs ds sets qs' ds' sets'},
    typesLoop ts qs ds sets = .ok (qs', ds', sets') → (∀ t ∈ ts, KnownType t) ∧
    qs'.map (fun c => (c.id, c.format)) = qs.map (fun c => (c.id, c.format)) ++ ts.flatMap asked ∧
    sets' = sets ++ ts.map (fun t => (asked t).map (fun p => [p.1])) ∧
    ∀ c ∈ qs', c ∈ qs ∨ c ∈ cliQueries := by
  induction ts with
  | nil =>
    intro qs ds sets qs' ds' sets' h
    simp only [typesLoop, Except.ok.injEq, Prod.mk.injEq] at h
    obtain ⟨rfl, rfl, rfl⟩ := h
    exact ⟨by simp, by simp, by simp, fun c h => .inl h⟩
  | cons t ts ih =>
    intro qs ds sets qs' ds' sets' h
    simp only [typesLoop] at h
    split at h
    · cases h
    · rename_i q d s ha
      obtain ⟨a1, a2, -, a4⟩ := addType_ok ha
      obtain ⟨b1, b2, b3, b4⟩ := ih h
      refine ⟨List.forall_mem_cons.2 ⟨addType_known ha, b1⟩, ?_, ?_, ?_⟩
      · rw [b2, List.map_append, a1]; simp
      · rw [b3, a2]; simp
      · intro c hc
        rcases b4 c hc with hc | hc
        · rcases List.mem_append.1 hc with hc | hc
          · exact .inl hc
          · exact .inr (a4 c hc)
        · exact .inr hc

theorem typesLoop_error {ts : List Str} : ∀ {qs ds sets e},
    typesLoop ts qs ds sets = .error e → ∃ t ∈ ts, ¬KnownType t := by
  induction ts with
  | nil => intro qs ds sets e h; simp [typesLoop] at h
  | cons t ts ih =>
    intro qs ds sets e h
    simp only [typesLoop] at h
    split at h
    · rename_i ha
      exact ⟨t, List.mem_cons_self, addType_error ha⟩
    · obtain ⟨t, ht, hk⟩ := ih h
      exact ⟨t, List.mem_cons_of_mem _ ht, hk⟩

theorem asked_ne {t : Str} (h : KnownType t) : asked t ≠ [] := by
  obtain ⟨id, f, h⟩ := h
  exact List.ne_nil_of_mem (asksFor_iff.1 h)

theorem credentialSets_asked {ts : List Str} (h : ∀ t ∈ ts, KnownType t) :
    credentialSets (ts.map (fun t => (asked t).map (fun p => [p.1]))) =
      .ok (ts.map (fun t => ⟨⟨(asked t).map (fun p => [p.1])⟩, none⟩)) := by
  unfold credentialSets
  induction ts with
  | nil => rfl
  | cons t ts ih =>
    have := asked_ne (h t List.mem_cons_self)
    have he : ((asked t).map (fun p => [p.1])).isEmpty = false := by
      cases ha : asked t with
      | nil => exact absurd ha this
      | cons a l => rfl
    simp only [List.map_cons, mapR, NonEmptyVec.tryFrom, he, Bool.false_eq_true, if_false] at *
    rw [ih fun t ht => h t (List.mem_cons_of_mem _ ht)]
    rfl

/-- All there is to know about the query. -/
theorem dcqlForTypes_ok {ts : List Str} {q : DcqlQuery} {d : Str} (h : dcqlForTypes ts = .ok (q, d)) :
    ts ≠ [] ∧ (∀ t ∈ ts, KnownType t) ∧
    q.credentials.vec.map (fun c => (c.id, c.format)) = ts.flatMap asked ∧
    q.credentialSets = some ⟨ts.map (fun t => ⟨⟨(asked t).map (fun p => [p.1])⟩, none⟩)⟩ ∧
    ∀ c ∈ q.credentials.vec, c ∈ cliQueries := by
  unfold dcqlForTypes at h
  split at h
  · cases h
  · rename_i qs ds sets hl
    obtain ⟨h1, h2, h3, h4⟩ := typesLoop_ok hl
    simp only [List.map_nil, List.nil_append, List.not_mem_nil, false_or] at h2 h3 h4
    split at h
    · cases h
    · rename_i hq
      simp only [NonEmptyVec.tryFrom, hq] at h
      have hts : ts ≠ [] := by
        rintro rfl
        simp at h2
        exact hq (by simp [h2])
      have hse : sets.isEmpty = false := by
        rw [h3]
        cases ts with
        | nil => exact absurd rfl hts
        | cons t ts => rfl
      simp only [hse, Bool.false_eq_true, if_false] at h
      rw [h3, credentialSets_asked h1] at h
      cases ts with
      | nil => exact absurd rfl hts
      | cons t ts =>
        simp only [List.map_cons, List.isEmpty_cons, Bool.false_eq_true, if_false, Except.ok.injEq,
          Prod.mk.injEq] at h
        obtain ⟨rfl, -⟩ := h
        exact ⟨by simp, h1, h2, rfl, h4⟩

/-- **C63** The query can be built exactly if at least one type is given and all are known. -/
theorem C63_succeeds_iff (ts : List Str) :
    (∃ r, dcqlForTypes ts = .ok r) ↔ ts ≠ [] ∧ ∀ t ∈ ts, KnownType t := by
  constructor
  · rintro ⟨⟨q, d⟩, h⟩
    exact ⟨(dcqlForTypes_ok h).1, (dcqlForTypes_ok h).2.1⟩
  · rintro ⟨hts, hk⟩
    unfold dcqlForTypes
    cases hl : typesLoop ts [] [] [] with
    | error e =>
      obtain ⟨t, ht, hn⟩ := typesLoop_error hl
      exact absurd (hk t ht) hn
    | ok r =>
      obtain ⟨qs, ds, sets⟩ := r
      obtain ⟨h1, h2, h3, h4⟩ := typesLoop_ok hl
      simp only [List.map_nil, List.nil_append] at h2 h3
      cases ts with
      | nil => exact absurd rfl hts
      | cons t ts =>
        have hq : qs.isEmpty = false := by
          cases qs with
          | nil =>
            simp only [List.map_nil, List.flatMap_cons] at h2
            have := (List.append_eq_nil_iff.1 h2.symm).1
            exact absurd this (asked_ne (hk t List.mem_cons_self))
          | cons => rfl
        simp only [hq, Bool.false_eq_true, if_false, NonEmptyVec.tryFrom, h3, credentialSets_asked hk]
        simp

/-- **C63** The query asks for exactly the credentials of the types. -/
theorem C63_credentials (ts : List Str) (q : DcqlQuery) (d : Str) (h : dcqlForTypes ts = .ok (q, d))
    (id : Str) (f : ClaimFormatDesignation) :
    (∃ c ∈ q.credentials.vec, c.id = id ∧ c.format = f) ↔ ∃ t ∈ ts, AsksFor t id f := by
  obtain ⟨-, -, h3, -⟩ := dcqlForTypes_ok h
  have : (∃ c ∈ q.credentials.vec, c.id = id ∧ c.format = f) ↔
      (id, f) ∈ q.credentials.vec.map (fun c => (c.id, c.format)) := by
    simp
  rw [this, h3]
  simp only [List.mem_flatMap, asksFor_iff]

theorem typesLoop_names {ts : List Str} : ∀ {qs ds sets qs' ds' sets'},
    typesLoop ts qs ds sets = .ok (qs', ds', sets') → ∃ names, List.Forall₂ TypeName ts names ∧ ds' = ds ++ names := by
  induction ts with
  | nil =>
    intro qs ds sets qs' ds' sets' h
    simp only [typesLoop, Except.ok.injEq, Prod.mk.injEq] at h
    exact ⟨[], .nil, by simp [h.2.1]⟩
  | cons t ts ih =>
    intro qs ds sets qs' ds' sets' h
    simp only [typesLoop] at h
    split at h
    · cases h
    · rename_i q d s ha
      obtain ⟨names, h1, h2⟩ := ih h
      refine ⟨d :: names, .cons ?_ h1, by simp [h2]⟩
      clear h h1 h2 ih
      unfold addType at ha
      repeat' split at ha
      all_goals cases ha
      all_goals rename_i h
      all_goals subst h
      exacts [.mdl, .ldp, .jwt, .sdJwt, .either]

theorem joinPlus_intercalate (l : List Str) : joinPlus l = List.intercalate c!" + " l := by
  induction l with
  | nil => rfl
  | cons a l ih =>
    cases l with
    | nil => simp [joinPlus, List.intercalate]
    | cons b l => rw [joinPlus, ih]; simp [List.intercalate]; simp

/-- **C63** The query is described by the names of the types in their order, with " + " between them. -/
theorem C63_description (ts : List Str) (q : DcqlQuery) (d : Str) (h : dcqlForTypes ts = .ok (q, d)) :
    ∃ names, List.Forall₂ TypeName ts names ∧ d = List.intercalate c!" + " names := by
  unfold dcqlForTypes at h
  split at h
  · cases h
  · rename_i qs ds sets hl
    obtain ⟨names, h1, h2⟩ := typesLoop_names hl
    refine ⟨names, h1, ?_⟩
    rw [List.nil_append] at h2
    rw [← joinPlus_intercalate, ← h2]
    simp only at h
    repeat' split at h
    all_goals first | cases h; rfl | cases h

/-- **C63** The credential sets mean what the types mean: whatever credentials a wallet has, its answer
satisfies the sets exactly if for each type it has one of the credentials the type asks for. -/
theorem C63_sets_mean_types (ts : List Str) (q : DcqlQuery) (d : Str)
    (h : dcqlForTypes ts = .ok (q, d)) : ∃ sets, q.credentialSets = some sets ∧
    ∀ avail : Str → Prop,
      SetsSatisfied sets.vec avail ↔ ∀ t ∈ ts, ∃ id f, AsksFor t id f ∧ avail id := by
  obtain ⟨-, -, -, h4, -⟩ := dcqlForTypes_ok h
  refine ⟨_, h4, fun avail => ?_⟩
  simp only [SetsSatisfied, List.mem_map, forall_exists_index, and_imp, forall_apply_eq_imp_iff₂,
    CredentialSetQuery.isRequired, unwrapOr, forall_const, asksFor_iff]
  refine forall_congr' fun t => forall_congr' fun _ => ?_
  constructor
  · rintro ⟨o, ⟨⟨id, f⟩, hp, rfl⟩, ho⟩
    exact ⟨id, f, hp, ho id (by simp)⟩
  · rintro ⟨id, f, hp, ho⟩
    exact ⟨_, ⟨_, hp, rfl⟩, by simpa using ho⟩

/-- **C63** Of an mdoc the query asks for given name and family name of a driving licence; of the other
credentials for everything. -/
theorem C63_claims (ts : List Str) (q : DcqlQuery) (d : Str) (h : dcqlForTypes ts = .ok (q, d))
    (c : CredentialQuery) (hc : c ∈ q.credentials.vec) :
    (c.format = .msoMDoc → c.metaMap = [(c!"doctype_value", .str c!"org.iso.18013.5.1.mDL")] ∧
      ∃ l, c.claims = some l ∧ l.vec.map (fun q => (q.namespace, q.elementIdentifier, q.values)) =
        [(some c!"org.iso.18013.5.1", some c!"given_name", none),
         (some c!"org.iso.18013.5.1", some c!"family_name", none)]) ∧
    (c.format ≠ .msoMDoc → c.metaMap = [] ∧ c.claims = none) ∧
    c.claimSets = none ∧ c.trustedAuthorities = none ∧ c.requiresBinding = true ∧
      c.allowsMultiple = false := by
  have := (dcqlForTypes_ok h).2.2.2.2 c hc
  simp only [cliQueries, List.mem_cons, List.not_mem_nil, or_false] at this
  rcases this with rfl | rfl | rfl | rfl
  · decide +kernel
  · decide +kernel
  · decide +kernel
  · refine ⟨fun _ => ⟨rfl, _, rfl, by decide +kernel⟩, fun h => absurd rfl h, rfl, rfl, rfl, rfl⟩

theorem asked_nodup {t : Str} (h : KnownType t) : ((asked t).map Prod.fst).Nodup := by
  obtain ⟨id, f, h⟩ := h
  simp only [AsksFor, credentialTypes, List.mem_cons, Prod.mk.injEq, List.not_mem_nil, or_false] at h
  rcases h with ⟨rfl, -⟩ | ⟨rfl, -⟩ | ⟨rfl, -⟩ | ⟨rfl, -⟩ | ⟨rfl, -⟩ | ⟨rfl, -⟩ <;> decide +kernel

/-- **C63** The ids of the query are different, as OpenID4VP demands, exactly if no two of the types
overlap. (Repeating a type, or giving `ldp_or_mdl` and `mdl`, makes a query with a repeated id.) -/
theorem C63_ids_distinct_iff (ts : List Str) (q : DcqlQuery) (d : Str)
    (h : dcqlForTypes ts = .ok (q, d)) :
    (q.credentials.vec.map CredentialQuery.id).Nodup ↔ ts.Pairwise (fun a b => ¬Overlap a b) := by
  obtain ⟨-, h2, h3, -⟩ := dcqlForTypes_ok h
  have : q.credentials.vec.map CredentialQuery.id = (ts.flatMap asked).map Prod.fst := by
    rw [← h3, List.map_map]; rfl
  rw [this]
  clear this h3 h
  have ho : ∀ a b, Overlap a b ↔ ∃ id, id ∈ (asked a).map Prod.fst ∧ id ∈ (asked b).map Prod.fst := by
    intro a b
    simp only [Overlap, asksFor_iff, List.mem_map]
    constructor
    · rintro ⟨id, f, g, h1, h2⟩; exact ⟨id, ⟨_, h1, rfl⟩, ⟨_, h2, rfl⟩⟩
    · rintro ⟨id, ⟨⟨i, f⟩, h1, rfl⟩, ⟨⟨j, g⟩, h2, rfl⟩⟩; exact ⟨_, _, _, h1, h2⟩
  induction ts with
  | nil => simp
  | cons t ts ih =>
    have ih := ih fun t ht => h2 t (List.mem_cons_of_mem _ ht)
    simp only [List.flatMap_cons, List.map_append, List.nodup_append, List.pairwise_cons, ih,
      asked_nodup (h2 t List.mem_cons_self), true_and]
    rw [And.comm]
    refine and_congr ?_ Iff.rfl
    constructor
    · intro h b hb hov
      obtain ⟨id, h1, h3⟩ := (ho t b).1 hov
      refine h id h1 id ?_ rfl
      obtain ⟨p, hp, rfl⟩ := List.mem_map.1 h3
      exact List.mem_map.2 ⟨p, List.mem_flatMap.2 ⟨b, hb, hp⟩, rfl⟩
    · intro h id h1 id' h3 he
      subst he
      obtain ⟨p, hp, rfl⟩ := List.mem_map.1 h3
      obtain ⟨b, hb, hp⟩ := List.mem_flatMap.1 hp
      exact h b hb ((ho t b).2 ⟨_, h1, List.mem_map.2 ⟨p, hp, rfl⟩⟩)

/-- A query with two types, and its parts. -/
example : ∃ q d, dcqlForTypes [c!"jwt_vc", c!"ldp_or_mdl"] = .ok (q, d) ∧
    (q.credentials.vec.map CredentialQuery.id) = [c!"jwt_vc_0", c!"ldp_vc_0", c!"mdl_0"] ∧
    d = c!"JWT VC + (LDP VC OR mDL)" :=
  ⟨_, _, rfl, by decide +kernel, by decide +kernel⟩

/-- A query with a repeated id. -/
example : ∃ q d, dcqlForTypes [c!"mdl", c!"ldp_or_mdl"] = .ok (q, d) ∧
    ¬(q.credentials.vec.map CredentialQuery.id).Nodup := ⟨_, _, rfl, by decide +kernel⟩

/-- An unknown type, or none. -/
example : dcqlForTypes [c!"mdl", c!"MDL"] = .error .unsupported ∧ dcqlForTypes [] = .error .missing := by
  decide +kernel

/-! ## C64 -/

/-- The payload announced for a format. -/
def announced : ClaimFormatDesignation → ClaimFormatPayload
  | .msoMDoc => .other (.obj [])
  | .ldpVc => .proofTypeValues ldpProofTypes
  | .jwtVcJson => .algValues [c!"ES256", c!"ES384", c!"ES512", c!"EdDSA"]
  | _ => vcdm2Payload

theorem distinct_insert (d : ClaimFormatDesignation) (p : ClaimFormatPayload) {m : ClaimFormatMap}
    (h : DistinctKeys m) : DistinctKeys (m.insert d p) ∧ ∀ e ∈ m.insert d p, e.1 = d ∨ e ∈ m := by
  induction m with
  | nil => simp [ClaimFormatMap.insert, DistinctKeys]
  | cons e m ih =>
    obtain ⟨d', p'⟩ := e
    obtain ⟨h1, h2⟩ := h
    obtain ⟨i1, i2⟩ := ih h2
    simp only [ClaimFormatMap.insert]
    split
    · rename_i hd
      subst hd
      refine ⟨⟨h1, h2⟩, fun e he => ?_⟩
      rcases List.mem_cons.1 he with rfl | he
      · exact .inl rfl
      · exact .inr (List.mem_cons_of_mem _ he)
    · rename_i hd
      refine ⟨⟨fun e he => ?_, i1⟩, fun e he => ?_⟩
      · rcases i2 e he with he | he
        · rw [he]; exact hd
        · exact h1 e he
      · rcases List.mem_cons.1 he with rfl | he
        · exact .inr List.mem_cons_self
        · rcases i2 e he with he | he
          · exact .inl he
          · exact .inr (List.mem_cons_of_mem _ he)

theorem addFormats_spec (t : Str) {m : ClaimFormatMap} (hm : DistinctKeys m) :
    DistinctKeys (addFormats t m) ∧ ∀ d, ClaimFormatMap.get d (addFormats t m) =
      if d ∈ (asked t).map Prod.snd then some (announced d) else ClaimFormatMap.get d m := by
  unfold addFormats
  split
  · rename_i h; subst h
    refine ⟨(distinct_insert _ _ hm).1, fun d => ?_⟩
    rw [get_insert, show (asked c!"mdl").map Prod.snd = [.msoMDoc] by decide +kernel]
    by_cases h : d = .msoMDoc <;> simp [h, announced]
  split
  · rename_i h; subst h
    refine ⟨(distinct_insert _ _ hm).1, fun d => ?_⟩
    rw [get_insert, show (asked c!"ldp_vc").map Prod.snd = [.ldpVc] by decide +kernel]
    by_cases h : d = .ldpVc <;> simp [h, announced]
  split
  · rename_i h; subst h
    refine ⟨(distinct_insert _ _ hm).1, fun d => ?_⟩
    rw [get_insert, show (asked c!"jwt_vc").map Prod.snd = [.jwtVcJson] by decide +kernel]
    by_cases h : d = .jwtVcJson <;> simp [h, announced]
  split
  · rename_i h; subst h
    refine ⟨(distinct_insert _ _ hm).1, fun d => ?_⟩
    rw [get_insert, show (asked c!"vcdm2_sd_jwt").map Prod.snd = [.other c!"vcdm2_sd_jwt"] by decide +kernel]
    by_cases h : d = .other c!"vcdm2_sd_jwt" <;> simp [h, announced]
  split
  · rename_i h; subst h
    refine ⟨(distinct_insert _ _ (distinct_insert _ _ hm).1).1, fun d => ?_⟩
    rw [get_insert, get_insert,
      show (asked c!"ldp_or_mdl").map Prod.snd = [.ldpVc, .msoMDoc] by decide +kernel]
    by_cases h : d = .ldpVc
    · simp [h, announced]
    · by_cases h' : d = .msoMDoc <;> simp [h, h', announced]
  · rename_i h1 h2 h3 h4 h5
    refine ⟨hm, fun d => ?_⟩
    rw [show asked t = [] from ?_]
    · simp
    · simp [asked, credentialTypes, Ne.symm h1, Ne.symm h2, Ne.symm h3, Ne.symm h4,
        Ne.symm h5]

theorem formatsFor_spec (ts : List Str) : DistinctKeys (formatsFor ts) ∧
    ∀ d, ClaimFormatMap.get d (formatsFor ts) =
      if d ∈ (ts.flatMap asked).map Prod.snd then some (announced d) else none := by
  have key : ∀ (ts : List Str) (m : ClaimFormatMap), DistinctKeys m →
      DistinctKeys (ts.foldl (fun m t => addFormats t m) m) ∧
      ∀ d, ClaimFormatMap.get d (ts.foldl (fun m t => addFormats t m) m) =
        if d ∈ (ts.flatMap asked).map Prod.snd then some (announced d) else ClaimFormatMap.get d m := by
    intro ts
    induction ts with
    | nil => intro m hm; exact ⟨hm, by simp⟩
    | cons t ts ih =>
      intro m hm
      obtain ⟨a, b⟩ := addFormats_spec t hm
      obtain ⟨c, d⟩ := ih _ a
      refine ⟨c, fun f => ?_⟩
      rw [List.foldl_cons, d f, b f]
      simp only [List.flatMap_cons, List.map_append, List.mem_append]
      by_cases h1 : f ∈ (ts.flatMap asked).map Prod.snd
      · simp [h1]
      · by_cases h2 : f ∈ (asked t).map Prod.snd <;> simp [h1, h2]
  exact key ts [] trivial

theorem mem_asked_snd {ts : List Str} {f : ClaimFormatDesignation} :
    f ∈ (ts.flatMap asked).map Prod.snd ↔ ∃ t ∈ ts, ∃ id, AsksFor t id f := by
  simp only [List.mem_map, List.mem_flatMap, asksFor_iff]
  constructor
  · rintro ⟨⟨id, f⟩, ⟨t, ht, h⟩, rfl⟩; exact ⟨t, ht, id, h⟩
  · rintro ⟨t, ht, id, h⟩; exact ⟨_, ⟨t, ht, h⟩, rfl⟩

theorem asked_formatOk {t id : Str} {f : ClaimFormatDesignation} (h : AsksFor t id f) : FormatOk f := by
  simp only [AsksFor, credentialTypes, List.mem_cons, Prod.mk.injEq, List.not_mem_nil, or_false] at h
  rcases h with ⟨-, -, rfl⟩ | ⟨-, -, rfl⟩ | ⟨-, -, rfl⟩ | ⟨-, -, rfl⟩ | ⟨-, -, rfl⟩ | ⟨-, -, rfl⟩ <;>
    simp [FormatOk]

/-- What a wallet reads from the client metadata. -/
theorem clientMetadata_formats (ts : List Str) : ∃ m, (clientMetadata ts).vpFormats = .ok ⟨m⟩ ∧
    ∀ d, ClaimFormatMap.get d m = if d ∈ (ts.flatMap asked).map Prod.snd then
      some (ClaimFormatPayload.ofJson (announced d).toJson) else none := by
  obtain ⟨h1, h2⟩ := formatsFor_spec ts
  have hok : ∀ e ∈ formatsFor ts, FormatOk e.1 := by
    intro e he
    have := get_of_mem h1 he
    rw [h2] at this
    split at this
    · rename_i hm
      obtain ⟨t, -, id, ha⟩ := mem_asked_snd.1 hm
      exact asked_formatOk ha
    · cases this
  have hs := mofList_sorted ((formatsFor ts).map (fun e => (e.1.name, e.2.toJson)))
  refine ⟨_, rfl, fun d => ?_⟩
  rw [get_ofJson hs rfl]
  by_cases hd : FormatOk d
  · rw [if_pos hd, mget_toJson h1 hok, fromName_name.mpr hd, h2]
    split <;> rfl
  · rw [if_neg hd, if_neg]
    intro hm
    obtain ⟨t, -, id, ha⟩ := mem_asked_snd.1 hm
    exact hd (asked_formatOk ha)

/-- **C64** The client metadata names exactly the formats the query asks for. -/
theorem C64_formats_announced (ts : List Str) : ∃ m, (clientMetadata ts).vpFormats = .ok ⟨m⟩ ∧
    ∀ f, (∃ p, ClaimFormatMap.get f m = some p) ↔ ∃ t ∈ ts, ∃ id, AsksFor t id f := by
  obtain ⟨m, h1, h2⟩ := clientMetadata_formats ts
  refine ⟨m, h1, fun f => ?_⟩
  rw [h2, ← mem_asked_snd]
  split <;> rename_i h <;> simp [h]

/-- **C64** The formats of every query built are announced with it. -/
theorem C64_query_covered (ts : List Str) (q : DcqlQuery) (d : Str) (h : dcqlForTypes ts = .ok (q, d)) :
    ∃ m, (clientMetadata ts).vpFormats = .ok ⟨m⟩ ∧
    ∀ f, (∃ p, ClaimFormatMap.get f m = some p) ↔ ∃ c ∈ q.credentials.vec, c.format = f := by
  obtain ⟨m, h1, h2⟩ := C64_formats_announced ts
  refine ⟨m, h1, fun f => ?_⟩
  rw [h2]
  constructor
  · rintro ⟨t, ht, id, ha⟩
    obtain ⟨c, hc, -, hf⟩ := (C63_credentials ts q d h id f).2 ⟨t, ht, ha⟩
    exact ⟨c, hc, hf⟩
  · rintro ⟨c, hc, hf⟩
    obtain ⟨t, ht, ha⟩ := (C63_credentials ts q d h c.id f).1 ⟨c, hc, rfl, hf⟩
    exact ⟨t, ht, _, ha⟩

/-- **C64** A wallet that reads the client metadata finds exactly the security methods meant for the
formats asked for. -/
theorem C64_methods (ts : List Str) : ∃ m, (clientMetadata ts).vpFormats = .ok m ∧
    ∀ f method, m.supportsSecurityMethod f method = true ↔
      (∃ t ∈ ts, ∃ id, AsksFor t id f) ∧ method ∈ methodsFor f := by
  obtain ⟨m, h1, h2⟩ := clientMetadata_formats ts
  refine ⟨⟨m⟩, h1, fun f method => ?_⟩
  simp only [VpFormats.supportsSecurityMethod, h2]
  by_cases ha : ∃ t ∈ ts, ∃ id, AsksFor t id f
  · rw [if_pos (mem_asked_snd.2 ha)]
    simp only [ha, true_and]
    obtain ⟨t, -, id, ha⟩ := ha
    simp only [AsksFor, credentialTypes, List.mem_cons, Prod.mk.injEq, List.not_mem_nil, or_false] at ha
    have e1 : ClaimFormatPayload.ofJson (announced .msoMDoc).toJson = .other (.obj []) := by decide +kernel
    have e2 : ClaimFormatPayload.ofJson (announced .ldpVc).toJson = .proofTypeValues (methodsFor .ldpVc) := by
      decide +kernel
    have e3 : ClaimFormatPayload.ofJson (announced .jwtVcJson).toJson =
        .algValues (methodsFor .jwtVcJson) := by decide +kernel
    have e4 : ClaimFormatPayload.ofJson (announced (.other c!"vcdm2_sd_jwt")).toJson =
        .algValues (methodsFor (.other c!"vcdm2_sd_jwt")) := by decide +kernel
    rcases ha with ⟨-, -, rfl⟩ | ⟨-, -, rfl⟩ | ⟨-, -, rfl⟩ | ⟨-, -, rfl⟩ | ⟨-, -, rfl⟩ | ⟨-, -, rfl⟩
    · simp only [e1]; simp [methodsFor]
    · simp only [e2, List.contains_iff_mem]
    · simp only [e3, List.contains_iff_mem]
    · simp only [e4, List.contains_iff_mem]
    · simp only [e2, List.contains_iff_mem]
    · simp only [e1]; simp [methodsFor]
  · rw [if_neg (mt mem_asked_snd.1 ha)]
    simp [ha]

/-- **C64** The map inside the program does not name the methods of `vcdm2_sd_jwt`: its payload is a
catch-all that only looks like a list of algorithms. (A difference visible to the program itself, gone
after one trip through JSON.) -/
theorem C64_vcdm2_unreadable_before_sending (ts : List Str) (method : Str) :
    (VpFormats.mk (formatsFor ts)).supportsSecurityMethod (.other c!"vcdm2_sd_jwt") method = false := by
  simp only [VpFormats.supportsSecurityMethod, (formatsFor_spec ts).2]
  split
  · rename_i h; split at h <;> simp [announced, vcdm2Payload] at h
  · rename_i h; split at h <;> simp [announced, vcdm2Payload] at h
  · rfl

/-- **C64** The wallet the program assumes is at `openid4vp://`, accepts the prefix of the program's
client, and can answer every query the program builds. -/
theorem C64_wallet_fits : ∃ wm ep, walletMetadata = .ok wm ∧
    UntypedObject.get AuthorizationEndpoint wm.inner = some (.ok ep) ∧
    ep.val.print = c!"openid4vp://" ∧
    UntypedObject.getOrDefault ClientIdPrefixesSupported wm.inner =
      .ok ⟨[⟨ClientIdScheme.redirectUri⟩]⟩ ∧
    ∀ ts q d, dcqlForTypes ts = .ok (q, d) → ∀ c ∈ q.credentials.vec,
      wm.vpFormatsSupported.isClaimFormatSupported c.format = true := by
  refine ⟨_, _, rfl, rfl, by decide +kernel, by decide +kernel, fun ts q d h c hc => ?_⟩
  have := (dcqlForTypes_ok h).2.2.2.2 c hc
  simp only [cliQueries, List.mem_cons, List.not_mem_nil, or_false] at this
  rcases this with rfl | rfl | rfl | rfl <;> decide +kernel

/-- **C64** The metadata of that wallet, as it is written. -/
theorem C64_wallet_metadata : walletMetadata.map WalletMetadata.toObject = .ok [
    (c!"authorization_endpoint", .str c!"openid4vp://"),
    (c!"client_id_prefixes_supported", .arr [.str c!"redirect_uri"]),
    (c!"vp_formats_supported", .obj [
      (c!"jwt_vc_json", .obj [(c!"alg_values", .arr [.str c!"ES256", .str c!"ES384", .str c!"EdDSA"])]),
      (c!"ldp_vc", .obj [(c!"proof_type_values", .arr [.str c!"Ed25519Signature2018",
        .str c!"Ed25519Signature2020", .str c!"JsonWebSignature2020"])]),
      (c!"mso_mdoc", .obj []),
      (c!"vcdm2_sd_jwt", .obj [(c!"alg_values", .arr [.str c!"ES256", .str c!"ES384", .str c!"EdDSA"])])])] := by
  decide +kernel

/-- The metadata for two types. -/
example : (clientMetadata [c!"jwt_vc", c!"mdl"]).val =
    [(c!"vp_formats_supported", .obj [
      (c!"jwt_vc_json", .obj [(c!"alg_values",
        .arr [.str c!"ES256", .str c!"ES384", .str c!"ES512", .str c!"EdDSA"])]),
      (c!"mso_mdoc", .obj [])])] := by decide +kernel

end Oid4vp
