import Verif.Lemmas.Base64
import Verif.Lemmas.JsonText
import Verif.Spec.Example
/-!
# The example wallet: C53–C56
-/

set_option autoImplicit false

namespace Oid4vp
open Example Spec

/-! ## C53 -/

theorem formatMatches_iff {lower : Str → Str} {a b : ClaimFormatDesignation} :
    formatMatches lower a b = true ↔ SameFormat lower a b := by
  unfold formatMatches SameFormat
  by_cases h : a = b
  · simp [h]
  · rw [if_neg h]
    cases a <;> cases b <;> simp_all

theorem isSome_mget {α : Type} {k : Str} {m : List (Str × α)} :
    (mget k m).isSome = true ↔ ∃ v, (k, v) ∈ m := by
  constructor
  · intro h
    obtain ⟨v, hv⟩ := Option.isSome_iff_exists.1 h
    exact ⟨v, mem_of_mget hv⟩
  · rintro ⟨v, hv⟩
    cases h : mget k m with
    | some x => rfl
    | none =>
      exfalso
      induction m with
      | nil => cases hv
      | cons p m ih =>
        obtain ⟨k', v'⟩ := p
        simp only [mget] at h
        split at h
        · cases h
        · rcases List.mem_cons.1 hv with e | e
          · simp only [Prod.mk.injEq] at e; simp_all
          · exact ih e h

theorem vctValues_some {q : CredentialQuery} {vs : List Str} (h : vctValues q = some vs) :
    ∃ l, AsksVct q l ∧ ∀ v, v ∈ vs ↔ .str v ∈ l := by
  unfold vctValues at h
  cases hm : mget c!"vct_values" q.metaMap with
  | none => simp [hm] at h
  | some j =>
    cases j with
    | arr l =>
      simp only [hm, Option.bind_some, Json.asArr?, Option.map_some, Option.some.injEq] at h
      subst h
      refine ⟨l, hm, fun v => ?_⟩
      simp only [List.mem_filterMap]
      constructor
      · rintro ⟨j, hj, e⟩
        cases j <;> simp [Json.asStr?] at e
        subst e; exact hj
      · intro hj; exact ⟨_, hj, rfl⟩
    | _ => simp [hm, Json.asArr?] at h

theorem vctValues_none {q : CredentialQuery} (h : vctValues q = none) : ∀ l, ¬AsksVct q l := by
  intro l hl
  unfold AsksVct at hl
  simp [vctValues, hl, Json.asArr?] at h

theorem doctypeValue_eq {q : CredentialQuery} {d : Str} : doctypeValue q = some d ↔ AsksDoctype q d := by
  unfold doctypeValue AsksDoctype
  cases hm : mget c!"doctype_value" q.metaMap with
  | none => simp
  | some j => cases j <;> simp [Json.asStr?]

theorem mem_requiredClaims {q : CredentialQuery} {name : Str} :
    name ∈ requiredClaims q ↔ AsksName q name := by
  unfold requiredClaims AsksName
  have hdot : ∀ s : Str, (!s.contains '.' && !startsWith c!"org." s) = true ↔ '.' ∉ s := by
    intro s
    constructor
    · intro h; simp at h; exact h.1
    · intro h
      have : ¬startsWith c!"org." s = true := by
        intro hs
        obtain ⟨r, rfl⟩ := startsWith_iff.1 hs
        simp at h
      simp_all
  cases hq : q.claims with
  | none => simp
  | some cs =>
    simp only [List.mem_flatten, List.mem_map, Option.some.injEq, exists_eq_left']
    constructor
    · rintro ⟨_, ⟨k, hk, rfl⟩, hn⟩
      simp only [pathClaims, List.mem_filter, List.mem_filterMap, hdot] at hn
      obtain ⟨⟨p, hp, e⟩, hd⟩ := hn
      cases p <;> simp [PathElem.text?] at e
      subst e
      exact ⟨k, hk, hp, hd⟩
    · rintro ⟨k, hk, hp, hd⟩
      refine ⟨_, ⟨k, hk, rfl⟩, ?_⟩
      simp only [pathClaims, List.mem_filter, List.mem_filterMap, hdot]
      exact ⟨⟨_, hp, rfl⟩, hd⟩

/-- The matcher searches with a test that decides `Answers`. -/
theorem match_find (lower : Str → Str) (store : List Credential) (q : CredentialQuery) :
    ∃ t : Credential → Bool, (∀ c, t c = true ↔ Answers lower q c) ∧
      matchCredentialQuery lower store q = orErr .notFound (store.find? t) := by
  unfold matchCredentialQuery
  cases hv : vctValues q with
  | some vs =>
    obtain ⟨l, hl, hmem⟩ := vctValues_some hv
    refine ⟨_, fun c => ?_, rfl⟩
    have hNo : ¬∀ l, ¬AsksVct q l := fun h => h l hl
    by_cases hf : formatMatches lower c.format q.format = true
    · simp only [hf, Bool.not_true, Bool.false_eq_true, if_false]
      have hu : ∀ l', AsksVct q l' → l' = l := by
        intro l' hl'
        unfold AsksVct at hl hl'
        rw [hl] at hl'
        simpa using hl'.symm
      cases hc : c.vct with
      | none =>
        simp only [Bool.false_eq_true, false_iff]
        rintro ⟨-, h, -⟩
        obtain ⟨v, hv, _⟩ := h l hl
        rw [hc] at hv; cases hv
      | some v =>
        simp only [List.any_eq_true, beq_iff_eq, exists_eq_right]
        constructor
        · intro h
          refine ⟨formatMatches_iff.1 hf, fun l' hl' => ⟨v, hc, ?_⟩, fun h => absurd h hNo,
            fun h => absurd h.1 hNo⟩
          rw [hu l' hl']; exact (hmem v).1 h
        · rintro ⟨-, h, -⟩
          obtain ⟨v', hv', hm⟩ := h l hl
          rw [hc] at hv'; cases hv'
          exact (hmem v).2 hm
    · simp only [hf, Bool.not_false, if_true, Bool.false_eq_true, false_iff]
      exact fun h => hf (formatMatches_iff.2 h.1)
  | none =>
    have hNo := vctValues_none hv
    cases hd : doctypeValue q with
    | some d =>
      have hd := doctypeValue_eq.1 hd
      refine ⟨_, fun c => ?_, rfl⟩
      by_cases hf : formatMatches lower c.format q.format = true
      · simp only [hf, Bool.not_true, Bool.false_eq_true, if_false]
        have hu : ∀ d', AsksDoctype q d' → d' = d := by
          intro d' hd'
          unfold AsksDoctype at hd hd'
          rw [hd] at hd'
          simpa using hd'.symm
        cases hc : c.doctype with
        | none =>
          simp only [Bool.false_eq_true, false_iff]
          rintro ⟨-, -, h, -⟩
          have := h hNo d hd
          rw [hc] at this; cases this
        | some x =>
          simp only [beq_iff_eq]
          constructor
          · rintro rfl
            exact ⟨formatMatches_iff.1 hf, fun l hl => absurd hl (hNo l),
              fun _ d' hd' => by rw [hc, hu d' hd'], fun h => absurd hd (h.2 _)⟩
          · rintro ⟨-, -, h, -⟩
            have := h hNo d hd
            rw [hc] at this; simpa using this
      · simp only [hf, Bool.not_false, if_true, Bool.false_eq_true, false_iff]
        exact fun h => hf (formatMatches_iff.2 h.1)
    | none =>
      have hD : ∀ d, ¬AsksDoctype q d := by
        intro d h
        rw [doctypeValue_eq.2 h] at hd; cases hd
      by_cases hr : requiredClaims q = []
      · refine ⟨fun c => formatMatches lower c.format q.format, fun c => ?_, ?_⟩
        · rw [formatMatches_iff]
          constructor
          · intro h
            refine ⟨h, fun l hl => absurd hl (hNo l), fun _ d h => absurd h (hD d), fun _ n hn => ?_⟩
            have := mem_requiredClaims.2 hn
            rw [hr] at this; cases this
          · exact fun h => h.1
        · simp [hr, findByFormat]
      · refine ⟨fun c => if !formatMatches lower c.format q.format then false
          else (requiredClaims q).all (fun k => (mget k c.claims).isSome), fun c => ?_, ?_⟩
        · by_cases hf : formatMatches lower c.format q.format = true
          · simp only [hf, Bool.not_true, Bool.false_eq_true, if_false, List.all_eq_true, isSome_mget]
            constructor
            · intro h
              exact ⟨formatMatches_iff.1 hf, fun l hl => absurd hl (hNo l),
                fun _ d h => absurd h (hD d), fun _ n hn => h n (mem_requiredClaims.2 hn)⟩
            · rintro ⟨-, -, -, h⟩ n hn
              exact h ⟨hNo, hD⟩ n (mem_requiredClaims.1 hn)
          · simp only [hf, Bool.not_false, if_true, Bool.false_eq_true, false_iff]
            exact fun h => hf (formatMatches_iff.2 h.1)
        · simp [hr, findByFormatAndClaims]

/-- One query is matched by the first credential that answers it. -/
theorem match_ok {lower : Str → Str} {store : List Credential} {q : CredentialQuery} {c : Credential} :
    matchCredentialQuery lower store q = .ok c ↔ FirstAnswer lower store q c := by
  obtain ⟨t, ht, e⟩ := match_find lower store q
  rw [e]
  cases hf : store.find? t with
  | none =>
    simp only [orErr, reduceCtorEq, false_iff]
    rintro ⟨x, y, rfl, h, -⟩
    rw [List.find?_eq_none] at hf
    exact hf c (by simp) ((ht c).2 h)
  | some c' =>
    simp only [orErr, Except.ok.injEq]
    obtain ⟨h1, x, y, h2, h3⟩ := List.find?_eq_some_iff_append.1 hf
    constructor
    · rintro rfl
      exact ⟨x, y, h2, (ht _).1 h1, fun z hz ha => by
        have := h3 z hz
        rw [(ht z).2 ha] at this; cases this⟩
    · rintro ⟨x', y', e', ha, hb⟩
      have : store.find? t = some c :=
        List.find?_eq_some_iff_append.2 ⟨(ht c).2 ha, x', y', e', fun z hz => by
          cases hz' : t z with
          | false => rfl
          | true => exact absurd ((ht z).1 hz') (hb z hz)⟩
      rw [hf] at this
      simpa using this

/-- One query is not matched if no credential answers it. -/
theorem match_error {lower : Str → Str} {store : List Credential} {q : CredentialQuery} :
    (∃ e, matchCredentialQuery lower store q = .error e) ↔ ∀ c ∈ store, ¬Answers lower q c := by
  obtain ⟨t, ht, e⟩ := match_find lower store q
  rw [e]
  cases hf : store.find? t with
  | none =>
    rw [List.find?_eq_none] at hf
    simp only [orErr, Except.error.injEq, exists_eq', true_iff]
    exact fun c hc ha => hf c hc ((ht c).2 ha)
  | some c' =>
    simp only [orErr, reduceCtorEq, exists_false, false_iff]
    intro h
    have := List.find?_some hf
    exact h c' (List.mem_of_find?_eq_some hf) ((ht c').1 this)

/-- What the loop adds: for each id, in order, the texts for the queries of that id. -/
theorem matchLoop_ok {lower : Str → Str} {store : List Credential} {qs : List CredentialQuery}
    {s s' : Selection} (h : matchLoop lower store qs s = .ok s') :
    ∃ cs, List.Forall₂ (FirstAnswer lower store) qs cs ∧
      ∀ id, mget id s' = match ((qs.zip cs).filter (fun p => p.1.id = id)).map (fun p => p.2.raw) with
        | [] => mget id s
        | l => some (unwrapOr [] (mget id s) ++ l) := by
  induction qs generalizing s with
  | nil =>
    simp only [matchLoop, Except.ok.injEq] at h
    subst h
    exact ⟨[], .nil, fun id => rfl⟩
  | cons q qs ih =>
    simp only [matchLoop] at h
    split at h
    · cases h
    · rename_i c hc
      obtain ⟨cs, h1, h2⟩ := ih h
      refine ⟨c :: cs, .cons (match_ok.1 hc) h1, fun id => ?_⟩
      rw [h2 id]
      simp only [Selection.add, mget_mset, List.zip_cons_cons, List.filter_cons]
      by_cases hid : q.id = id
      · subst hid
        simp only [if_true, decide_true, List.map_cons]
        split
        · rename_i h; simp [h]
        · simp [unwrapOr]
      · rw [if_neg (Ne.symm hid)]
        have : decide (q.id = id) = false := by simp [hid]
        simp [this]

theorem matchLoop_error {lower : Str → Str} {store : List Credential} {qs : List CredentialQuery}
    {s : Selection} : (∃ e, matchLoop lower store qs s = .error e) ↔
      ∃ q ∈ qs, ∀ c ∈ store, ¬Answers lower q c := by
  induction qs generalizing s with
  | nil => simp [matchLoop]
  | cons q qs ih =>
    simp only [matchLoop, List.mem_cons, exists_eq_or_imp]
    rw [← match_error]
    cases hm : matchCredentialQuery lower store q with
    | error e => simp
    | ok c => simpa using ih

/-- **C53** The matcher fails exactly if some credential query has no answer in the store (or
there is no credential query at all, which a query read from JSON never lacks: C46). -/
theorem C53_fails_iff (lower : Str → Str) (store : List Credential) (q : DcqlQuery) :
    (∃ e, matchQuery lower store q = .error e) ↔
      q.credentials.vec = [] ∨ ∃ k ∈ q.credentials.vec, ∀ c ∈ store, ¬Answers lower k c := by
  unfold matchQuery
  cases hl : matchLoop lower store q.credentials.vec [] with
  | error e =>
    have := (matchLoop_error (s := [])).1 ⟨e, hl⟩
    simp only [Except.error.injEq, exists_eq', true_iff]
    exact .inr this
  | ok s =>
    have hno : ¬∃ k ∈ q.credentials.vec, ∀ c ∈ store, ¬Answers lower k c := by
      rw [← matchLoop_error (s := []), hl]; simp
    obtain ⟨cs, h1, h2⟩ := matchLoop_ok hl
    have hs : s = [] ↔ q.credentials.vec = [] := by
      constructor
      · rintro rfl
        cases hv : q.credentials.vec with
        | nil => rfl
        | cons k ks =>
          rw [hv] at h1 h2
          cases h1 with
          | cons hc hcs =>
            have := h2 k.id
            simp [mget] at this
      · intro hv
        rw [hv] at hl
        simpa [matchLoop] using hl.symm
    simp only [List.isEmpty_iff, hs]
    by_cases hv : q.credentials.vec = []
    · simp [hv]
    · simp [hv, hno]

/-- **C53** A selection has, for exactly the ids of the credential queries, in query order,
the text of the first credential in the store that answers each query of that id. -/
theorem C53_selection (lower : Str → Str) (store : List Credential) (q : DcqlQuery)
    {s : Selection} (h : matchQuery lower store q = .ok s) (id : Str) :
    (∀ l, mget id s = some l → l ≠ [] ∧
      List.Forall₂ (fun k raw => ∃ c, FirstAnswer lower store k c ∧ c.raw = raw)
        (q.credentials.vec.filter (fun k => k.id = id)) l) ∧
    (mget id s = none ↔ ∀ k ∈ q.credentials.vec, k.id ≠ id) := by
  unfold matchQuery at h
  split at h
  · cases h
  · rename_i s' hl
    split at h
    · cases h
    · simp only [Except.ok.injEq] at h
      subst h
      obtain ⟨cs, h1, h2⟩ := matchLoop_ok hl
      have key : ∀ (qs : List CredentialQuery) (cs : List Credential),
          List.Forall₂ (FirstAnswer lower store) qs cs →
          List.Forall₂ (fun k raw => ∃ c, FirstAnswer lower store k c ∧ c.raw = raw)
            (qs.filter (fun k => k.id = id))
            (((qs.zip cs).filter (fun p => p.1.id = id)).map (fun p => p.2.raw)) := by
        intro qs cs h
        induction h with
        | nil => exact .nil
        | cons hc _ ih =>
          simp only [List.zip_cons_cons, List.filter_cons]
          split
          · exact .cons ⟨_, hc, rfl⟩ ih
          · exact ih
      have hk := key _ _ h1
      have h2 := h2 id
      cases hf : ((q.credentials.vec.zip cs).filter (fun p => p.1.id = id)).map (fun p => p.2.raw) with
      | nil =>
        rw [hf] at h2 hk
        simp only [mget] at h2
        refine ⟨fun l hl => (by rw [h2] at hl; cases hl), ?_⟩
        simp only [h2, true_iff]
        intro k hkm he
        have : q.credentials.vec.filter (fun k => k.id = id) = [] := by
          exact List.forall₂_nil_right_iff.1 hk
        rw [List.filter_eq_nil_iff] at this
        exact this k hkm (by simpa using he)
      | cons x xs =>
        rw [hf] at h2 hk
        simp only [mget, unwrapOr, List.nil_append] at h2
        refine ⟨fun l hl => ?_, ?_⟩
        · rw [h2] at hl
          simp only [Option.some.injEq] at hl
          subst hl
          exact ⟨by simp, hk⟩
        · simp only [h2, reduceCtorEq, false_iff]
          intro hall
          have : q.credentials.vec.filter (fun k => k.id = id) = [] := by
            rw [List.filter_eq_nil_iff]
            intro k hkm; simpa using hall k hkm
          rw [this] at hk; cases hk

/-- **C53** Every credential query id has at least one credential in the selection. -/
theorem C53_every_query_answered (lower : Str → Str) (store : List Credential) (q : DcqlQuery)
    {s : Selection} (h : matchQuery lower store q = .ok s) :
    ∀ k ∈ q.credentials.vec, ∃ l, mget k.id s = some l ∧ l ≠ [] ∧
      ∃ c ∈ store, Answers lower k c ∧ c.raw ∈ l := by
  intro k hk
  obtain ⟨h1, h2⟩ := C53_selection lower store q h k.id
  cases hg : mget k.id s with
  | none => exact absurd rfl (h2.1 hg k hk)
  | some l =>
    obtain ⟨hne, hall⟩ := h1 l hg
    refine ⟨l, rfl, hne, ?_⟩
    have hmem : k ∈ q.credentials.vec.filter (fun k' => k'.id = k.id) := by simp [hk]
    generalize q.credentials.vec.filter (fun k' => k'.id = k.id) = ks at hall hmem
    clear h1 h2 hg hne
    induction hall with
    | nil => cases hmem
    | cons hc _ ih =>
      rcases List.mem_cons.1 hmem with rfl | hm
      · obtain ⟨c, ⟨x, y, e, ha, _⟩, rfl⟩ := hc
        exact ⟨c, by simp [e], ha, by simp⟩
      · obtain ⟨c, hc', ha, hr⟩ := ih hm
        exact ⟨c, hc', ha, by simp [hr]⟩

/-- Samples: a store with two SD-JWT credentials and a mobile document. -/
def pidCred : Credential :=
  ⟨c!"pid", .other c!"vc+sd-jwt", some c!"urn:pid", none, c!"PID~", [(c!"family_name", .str c!"Doe")]⟩
/-- A credential of another type. -/
def gymCred : Credential :=
  ⟨c!"gym", .other c!"VC+SD-JWT", some c!"urn:gym", none, c!"GYM~", [(c!"member", .bool true)]⟩
/-- A mobile document. -/
def mdlCred : Credential :=
  ⟨c!"mdl", .msoMDoc, none, some c!"org.iso.18013.5.1.mDL", c!"MDL", [(c!"portrait", .str c!"x")]⟩
/-- The store. -/
def credStore : List Credential := [pidCred, gymCred, mdlCred]
/-- ASCII lower case. -/
def lowerText (s : Str) : Str := s.map asciiLower
/-- A query on type. -/
def vctQuery (id : Str) (v : Str) : CredentialQuery :=
  { CredentialQuery.new id (.other c!"vc+sd-jwt") with
    metaMap := [(c!"vct_values", .arr [.str c!"urn:none", .str v])] }
/-- A query on the document type. -/
def mdlQuery (id : Str) : CredentialQuery :=
  { CredentialQuery.new id .msoMDoc with
    metaMap := [(c!"doctype_value", .str c!"org.iso.18013.5.1.mDL")] }

/-- C53 on three queries, two with the same id: the format `VC+SD-JWT` matches. -/
example : matchQuery lowerText credStore
    (.new ⟨[vctQuery c!"b" c!"urn:gym", mdlQuery c!"a", vctQuery c!"b" c!"urn:pid"]⟩) =
      .ok [(c!"a", [c!"MDL"]), (c!"b", [c!"GYM~", c!"PID~"])] := by decide

/-- C53: no credential of that type. -/
example : matchQuery lowerText credStore
    (.new ⟨[mdlQuery c!"a", vctQuery c!"b" c!"urn:library"]⟩) = .error .notFound := by decide

/-! ## C54 -/

/-- A claims query for one path. -/
def claimAt (p : List PathElem) : ClaimsQuery := ClaimsQuery.new ⟨p⟩

/-- **C54** fails for queries with a type: the wallet selects a credential of that type that
lacks the requested claim, although another one of the type has it. -/
theorem C54_claims_ignored :
    ∃ (store : List Credential) (q : CredentialQuery) (c good : Credential),
      matchCredentialQuery lowerText store q = .ok c ∧ ¬ContainsAll c q ∧
      good ∈ store ∧ Answers lowerText q good ∧ ContainsAll good q := by
  refine ⟨[{ pidCred with claims := [] }, pidCred],
    { vctQuery c!"b" c!"urn:pid" with claims := some ⟨[claimAt [.string c!"family_name"]]⟩ },
    { pidCred with claims := [] }, pidCred, by decide, ?_, by simp, ?_, ?_⟩
  · intro h
    obtain ⟨r, hr⟩ := h _ rfl (claimAt [.string c!"family_name"]) (by simp)
    cases hr with
    | member hm _ => cases hm
  · refine ⟨.inl rfl, fun l hl => ?_, fun h => absurd rfl (h [.str c!"urn:none", .str c!"urn:pid"]),
      fun h => absurd rfl (h.1 [.str c!"urn:none", .str c!"urn:pid"])⟩
    have : l = [.str c!"urn:none", .str c!"urn:pid"] := by
      simpa [AsksVct, vctQuery, mget] using hl.symm
    exact ⟨c!"urn:pid", rfl, by simp [this]⟩
  · rintro cs hcs k hk
    simp only [Option.some.injEq] at hcs
    subst hcs
    simp only [List.mem_singleton] at hk
    subst hk
    exact ⟨_, .member (by simp [pidCred]; rfl) .done⟩

/-- **C54** fails for nested claims even without a type: every name of the path is looked up at
the top level, so a credential without the nested claim is selected, and the one that has it is
refused. -/
theorem C54_nested_claims_misread :
    ∃ (q : CredentialQuery) (bad good : Credential), NoType q ∧
      matchCredentialQuery lowerText [good, bad] q = .ok bad ∧
      ¬ContainsAll bad q ∧ ContainsAll good q := by
  refine ⟨{ CredentialQuery.new c!"b" .msoMDoc with
      claims := some ⟨[claimAt [.string c!"address", .string c!"street"]]⟩ },
    { mdlCred with claims := [(c!"address", .null), (c!"street", .null)] },
    { mdlCred with claims := [(c!"address", .obj [(c!"street", .str c!"Main St")])] },
    ⟨fun l h => (by simp [AsksVct, CredentialQuery.new] at h),
     fun d h => (by simp [AsksDoctype, CredentialQuery.new] at h)⟩, by decide, ?_, ?_⟩
  · intro h
    obtain ⟨r, hr⟩ := h _ rfl (claimAt [.string c!"address", .string c!"street"]) (by simp)
    cases hr with
    | member hm hr =>
      simp at hm
      subst hm
      cases hr
  · rintro cs hcs k hk
    simp only [Option.some.injEq] at hcs
    subst hcs
    simp only [List.mem_singleton] at hk
    subst hk
    exact ⟨_, .member (List.mem_singleton.2 rfl) (.member (List.mem_singleton.2 rfl) .done)⟩

/-- **C54** fails for claim names with a dot: they are taken for namespaces and not looked
up. -/
theorem C54_dotted_claims_ignored :
    ∃ (q : CredentialQuery) (bad : Credential), NoType q ∧
      matchCredentialQuery lowerText [bad] q = .ok bad ∧ ¬ContainsAll bad q := by
  refine ⟨{ CredentialQuery.new c!"b" .msoMDoc with
      claims := some ⟨[claimAt [.string c!"eu.age"]]⟩ }, mdlCred,
    ⟨fun l h => (by simp [AsksVct, CredentialQuery.new] at h),
     fun d h => (by simp [AsksDoctype, CredentialQuery.new] at h)⟩, by decide, ?_⟩
  intro h
  obtain ⟨r, hr⟩ := h _ rfl (claimAt [.string c!"eu.age"]) (by simp)
  cases hr with
  | member hm _ => simp [mdlCred] at hm

/-- **C54**, the part that holds: without a type in the query, and with every claim path a
single name without a dot, the selected credential contains every requested claim. Missing:
queries with `vct_values` or `doctype_value`, nested paths and dotted names, for which the
property is false (see the three theorems above). -/
theorem C54_flat_claims_partial (lower : Str → Str) (store : List Credential) (q : CredentialQuery)
    {c : Credential} (ht : NoType q)
    (hp : ∀ cs, q.claims = some cs → ∀ k ∈ cs.vec, ∃ name, k.path.vec = [.string name] ∧ '.' ∉ name)
    (h : matchCredentialQuery lower store q = .ok c) : ContainsAll c q := by
  obtain ⟨x, y, -, ⟨-, -, -, hc⟩, -⟩ := match_ok.1 h
  intro cs hcs k hk
  obtain ⟨name, e, hd⟩ := hp cs hcs k hk
  obtain ⟨v, hv⟩ := hc ht name ⟨cs, hcs, k, hk, by simp [e], hd⟩
  exact ⟨v, by rw [e]; exact .member hv .done⟩

/-- C54: the second mobile document is chosen because it has the claim. -/
example :
    let q := { CredentialQuery.new c!"b" .msoMDoc with
      claims := some ⟨[claimAt [.string c!"portrait"]]⟩ }
    NoType q ∧ matchCredentialQuery lowerText [{ mdlCred with claims := [] }, mdlCred] q = .ok mdlCred := by
  refine ⟨⟨fun l h => (by simp [AsksVct, CredentialQuery.new] at h),
     fun d h => (by simp [AsksDoctype, CredentialQuery.new] at h)⟩, by decide⟩

/-- The members with these names and null under them. -/
def nulls : List Str → List (Str × Json)
  | [] => []
  | n :: l => mset n .null (nulls l)

theorem nulls_sorted (l : List Str) : Sorted (nulls l) := by
  induction l with
  | nil => simp [nulls, Sorted]
  | cons n l ih => exact sorted_mset ih

theorem mget_nulls (l : List Str) (n : Str) : mget n (nulls l) = if n ∈ l then some .null else none := by
  induction l with
  | nil => simp [nulls, mget]
  | cons m l ih =>
    rw [nulls, mget_mset, ih]
    by_cases h : n = m <;> simp [h]

/-- **C54** Exactly for which queries every credential selected, from whatever store, contains the requested
claims: those that list no type that a credential can have (nothing is selected for them), and those without a type all
of whose claim paths are a single name without a dot. (A path cannot be empty.) In particular for no query that gives
a type and asks for claims. -/
theorem C54_exactly_which_queries (lower : Str → Str) (q : CredentialQuery)
    (hne : ∀ cs, q.claims = some cs → ∀ k ∈ cs.vec, k.path.vec ≠ []) :
    (∀ store c, (∀ c ∈ store, Sorted c.claims) → matchCredentialQuery lower store q = .ok c → ContainsAll c q) ↔
      (∃ l, AsksVct q l ∧ ∀ v, .str v ∉ l) ∨
      ∀ cs, q.claims = some cs → ∀ k ∈ cs.vec, NoType q ∧ ∃ name, k.path.vec = [.string name] ∧ '.' ∉ name := by
  constructor
  · intro h
    have key : ∀ c, Sorted c.claims → Answers lower q c → ContainsAll c q := by
      intro c hs hc
      refine h [c] c (by simpa using hs) (match_ok.mpr ⟨[], [], rfl, hc, by simp⟩)
    by_cases hv : ∃ l, AsksVct q l
    · obtain ⟨l, hl⟩ := hv
      by_cases hx : ∃ v, .str v ∈ l
      · obtain ⟨v, hx⟩ := hx
        refine .inr fun cs hcs k hk => ?_
        have hall := key ⟨[], q.format, some v, none, [], []⟩ (by simp [Sorted])
          ⟨.inl rfl, fun l' hl' => ⟨v, rfl, by
            have : l = l' := by simpa [AsksVct, show mget _ _ = _ from hl] using hl'
            exact this ▸ hx⟩, fun hn => absurd hl (hn l), fun hn => absurd hl (hn.1 l)⟩
        obtain ⟨r, hr⟩ := hall cs hcs k hk
        have hp := hne cs hcs k hk
        generalize k.path.vec = p at hr hp
        cases hr with
        | done => exact absurd rfl hp
        | member hm _ => cases hm
      · exact .inl ⟨l, hl, fun v hv => hx ⟨v, hv⟩⟩
    · have hv' : ∀ l, ¬AsksVct q l := fun l hl => hv ⟨l, hl⟩
      refine .inr fun cs hcs k hk => ?_
      by_cases hd : ∃ d, AsksDoctype q d
      · obtain ⟨d, hd⟩ := hd
        have hall := key ⟨[], q.format, none, some d, [], []⟩ (by simp [Sorted])
          ⟨.inl rfl, fun l hl => absurd hl (hv' l), fun _ d' hd' => by
            have : d = d' := by simpa [AsksDoctype, show mget _ _ = _ from hd] using hd'
            rw [this], fun hn => absurd hd (hn.2 d)⟩
        obtain ⟨r, hr⟩ := hall cs hcs k hk
        have hp := hne cs hcs k hk
        generalize k.path.vec = p at hr hp
        cases hr with
        | done => exact absurd rfl hp
        | member hm _ => cases hm
      · have hd' : ∀ d, ¬AsksDoctype q d := fun d h => hd ⟨d, h⟩
        have hall := key ⟨[], q.format, none, none, [], nulls (requiredClaims q)⟩ (nulls_sorted _)
          ⟨.inl rfl, fun l hl => absurd hl (hv' l), fun _ d hd => absurd hd (hd' d), fun _ name hn => by
            refine ⟨.null, mem_of_mget ?_⟩
            rw [mget_nulls, if_pos (mem_requiredClaims.mpr hn)]⟩
        obtain ⟨r, hr⟩ := hall cs hcs k hk
        have hp := hne cs hcs k hk
        refine ⟨⟨hv', hd'⟩, ?_⟩
        generalize k.path.vec = p at hr hp
        cases hr with
        | done => exact absurd rfl hp
        | @member name p m v r hm hr =>
          have hm := mget_of_mem (nulls_sorted _) hm
          rw [mget_nulls] at hm
          split at hm
          · rename_i hmem
            cases hm
            cases hr
            obtain ⟨cs, -, k, -, -, hdot⟩ := mem_requiredClaims.mp hmem
            exact ⟨name, rfl, hdot⟩
          · cases hm
  · rintro (⟨l, hl, hn⟩ | h) store c - hc
    · obtain ⟨x, y, -, ⟨-, ha, -, -⟩, -⟩ := match_ok.1 hc
      obtain ⟨v, -, hv⟩ := ha l hl
      exact absurd hv (hn v)
    · intro cs hcs k hk
      obtain ⟨hnt, name, e, hd⟩ := h cs hcs k hk
      obtain ⟨x, y, -, ⟨-, -, -, ha⟩, -⟩ := match_ok.1 hc
      obtain ⟨v, hv⟩ := ha hnt name ⟨cs, hcs, k, hk, by simp [e], hd⟩
      exact ⟨v, by rw [e]; exact .member hv .done⟩

-- C54: the query for a portrait, without a type, is one of them; with a document type it is not
example :
    let q := { CredentialQuery.new c!"b" .msoMDoc with claims := some ⟨[claimAt [.string c!"portrait"]]⟩ }
    (∀ store c, (∀ c ∈ store, Sorted c.claims) → matchCredentialQuery lowerText store q = .ok c → ContainsAll c q) ∧
    ¬ ∀ store c, (∀ c ∈ store, Sorted c.claims) →
      matchCredentialQuery lowerText store { q with metaMap := [(c!"doctype_value", .str c!"d")] } = .ok c →
        ContainsAll c { q with metaMap := [(c!"doctype_value", .str c!"d")] } := by
  intro q
  have hcl : ∀ cs, q.claims = some cs → ∀ k ∈ cs.vec, k = claimAt [.string c!"portrait"] := by
    rintro cs hcs k hk
    cases hcs
    simpa using hk
  constructor
  · refine (C54_exactly_which_queries lowerText q (fun cs hcs k hk => by rw [hcl cs hcs k hk]; decide)).mpr (.inr ?_)
    intro cs hcs k hk
    refine ⟨⟨fun l h => (by simp [q, AsksVct, CredentialQuery.new] at h),
      fun d h => (by simp [q, AsksDoctype, CredentialQuery.new] at h)⟩, c!"portrait", ?_, by decide⟩
    rw [hcl cs hcs k hk]
    rfl
  · rw [C54_exactly_which_queries lowerText _ (fun cs hcs k hk => by rw [hcl cs hcs k hk]; decide)]
    rintro (⟨l, hl, -⟩ | h)
    · cases hl
    · exact (h _ rfl _ (List.mem_singleton_self _)).1.2 c!"d" rfl

/-- The two credential queries agree in id, format, `meta` and in the paths of the claims; they may
differ in the demanded values of claims, in claim sets, in trusted authorities, in `multiple`, in the
demand for holder binding, and in the intents to retain. -/
def SameAsked (k k' : CredentialQuery) : Prop :=
  k.id = k'.id ∧ k.format = k'.format ∧ k.metaMap = k'.metaMap ∧
  (k.claims.map (fun cs => cs.vec.map (·.path))) = k'.claims.map (fun cs => cs.vec.map (·.path))

theorem requiredClaims_same {k k' : CredentialQuery} (h : SameAsked k k') :
    requiredClaims k = requiredClaims k' := by
  obtain ⟨-, -, -, h⟩ := h
  have key : ∀ (l l' : List ClaimsQuery), l.map (·.path) = l'.map (·.path) →
      (l.map (fun c => pathClaims c.path.vec)) = l'.map (fun c => pathClaims c.path.vec) := by
    intro l l' h
    have e : ∀ m : List ClaimsQuery, m.map (fun c => pathClaims c.path.vec) =
        (m.map (·.path)).map (fun p => pathClaims p.vec) := fun m => by rw [List.map_map]; rfl
    rw [e, e, h]
  unfold requiredClaims
  cases h1 : k.claims <;> cases h2 : k'.claims <;> rw [h1, h2] at h <;> simp only [Option.map_none,
    Option.map_some, Option.some.injEq, reduceCtorEq] at h
  exact congrArg List.flatten (key _ _ h)

theorem matchCredentialQuery_same {lower : Str → Str} {store : List Credential} {k k' : CredentialQuery}
    (h : SameAsked k k') : matchCredentialQuery lower store k = matchCredentialQuery lower store k' := by
  have hr := requiredClaims_same h
  obtain ⟨-, hf, hm, -⟩ := h
  unfold matchCredentialQuery vctValues doctypeValue
  rw [hr, hf, hm]

/-- **C54** The matcher looks at nothing but the ids, formats, `meta` members and claim paths of the
credential queries: the demanded values of claims, claim sets, trusted authorities, `multiple`,
holder binding and the whole of `credential_sets` make no difference. -/
theorem C54_not_looked_at (lower : Str → Str) (store : List Credential) (q q' : DcqlQuery)
    (h : List.Forall₂ SameAsked q.credentials.vec q'.credentials.vec) :
    matchQuery lower store q = matchQuery lower store q' := by
  have loop : ∀ (l l' : List CredentialQuery) (s : Selection), List.Forall₂ SameAsked l l' →
      matchLoop lower store l s = matchLoop lower store l' s := by
    intro l l' s h
    induction h generalizing s with
    | nil => rfl
    | cons hk _ ih =>
      simp only [matchLoop, matchCredentialQuery_same hk, hk.1]
      split
      · rfl
      · exact ih _
  unfold matchQuery
  rw [loop _ _ _ h]

/-- C54: a credential with another value of the claim than the one demanded is selected, although the
set of credentials demanded is not satisfied. -/
example :
    let k := { CredentialQuery.new c!"b" .msoMDoc with
      claims := some ⟨[{ claimAt [.string c!"portrait"] with values := some ⟨[.string c!"none"]⟩ }]⟩ }
    let q : DcqlQuery := ⟨⟨[k]⟩, some ⟨[⟨⟨[[c!"other"]]⟩, some true⟩]⟩⟩
    matchQuery lowerText [mdlCred] q = matchQuery lowerText [mdlCred]
      (DcqlQuery.new ⟨[{ k with claims := some ⟨[claimAt [.string c!"portrait"]]⟩ }]⟩) ∧
    matchQuery lowerText [mdlCred] q = .ok [(c!"b", [mdlCred.raw])] := by
  refine ⟨C54_not_looked_at _ _ _ _ (.cons ⟨rfl, rfl, rfl, rfl⟩ .nil), by decide⟩

end Oid4vp
