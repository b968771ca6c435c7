import Verif.Props.WalletApp
import Verif.Props.Vocabulary
import Verif.Props.Example
import Verif.Lemmas.JsonRaw
import Verif.Spec.WalletStore
/-!
# The credentials of the example wallet (C80), and JSON texts with repeated members (C73)
-/

set_option autoImplicit false

namespace Oid4vp
open Spec Example WalletApp

mutual
theorem settles_norm : ∀ j : Json, Settles j j.norm
  | .null => .null
  | .bool _ => .bool
  | .int _ => .int
  | .flt _ => .flt
  | .str _ => .str
  | .arr l => .arr (settles_normL l).1 (settles_normL l).2
  | .obj m => .obj (settles_normM m).1 (settles_normM m).2 (lastMembers_iff.2 rfl)
theorem settles_normL : ∀ l : List Json, l.length = (Json.normL l).length ∧
    ∀ p ∈ l.zip (Json.normL l), Settles p.1 p.2
  | [] => ⟨rfl, by simp⟩
  | j :: l => by
    refine ⟨by simp [Json.normL, ← (settles_normL l).1], ?_⟩
    simp only [Json.normL, List.zip_cons_cons, List.mem_cons, forall_eq_or_imp]
    exact ⟨settles_norm j, (settles_normL l).2⟩
theorem settles_normM : ∀ l : List (Str × Json), l.map Prod.fst = (Json.normM l).map Prod.fst ∧
    ∀ p ∈ l.zip (Json.normM l), Settles p.1.2 p.2.2
  | [] => ⟨rfl, by simp⟩
  | (k, j) :: l => by
    refine ⟨by simp [Json.normM, ← (settles_normM l).1], ?_⟩
    simp only [Json.normM, List.zip_cons_cons, List.mem_cons, forall_eq_or_imp]
    exact ⟨settles_norm j, (settles_normM l).2⟩
end

theorem normL_of_zip {l l' : List Json} (h : l.length = l'.length) (hp : ∀ p ∈ l.zip l', p.2 = p.1.norm) :
    l' = Json.normL l := by
  induction l generalizing l' with
  | nil => cases l' with
    | nil => rfl
    | cons _ _ => simp at h
  | cons j l ih => cases l' with
    | nil => simp at h
    | cons j' l' =>
      simp only [List.zip_cons_cons, List.mem_cons, forall_eq_or_imp] at hp
      rw [Json.normL, ← ih (by simpa using h) hp.2, hp.1]

theorem normM_of_zip {l l' : List (Str × Json)} (h : l.map Prod.fst = l'.map Prod.fst)
    (hp : ∀ p ∈ l.zip l', p.2.2 = p.1.2.norm) : l' = Json.normM l := by
  induction l generalizing l' with
  | nil => cases l' with
    | nil => rfl
    | cons _ _ => simp at h
  | cons j l ih => cases l' with
    | nil => simp at h
    | cons j' l' =>
      obtain ⟨k, v⟩ := j
      obtain ⟨k', v'⟩ := j'
      simp only [List.zip_cons_cons, List.mem_cons, forall_eq_or_imp] at hp
      simp only [List.map_cons, List.cons.injEq] at h
      rw [Json.normM, ← ih h.2 hp.2, h.1, hp.1]

theorem settles_iff {j j' : Json} : Settles j j' ↔ j' = j.norm := by
  constructor
  · intro h
    induction h with
    | arr h1 _ ih => rw [Json.norm, ← normL_of_zip h1 ih]
    | obj h1 _ h3 ih => rw [Json.norm, ← normM_of_zip h1 ih, lastMembers_iff.1 h3]
    | _ => rfl
  · rintro rfl; exact settles_norm j

/-- **C73** Where members may be repeated: exactly the JSON texts of at most 127 nested brackets are
read, each as the value with all its members in order. -/
theorem C73_json_members (s : Str) (j : Json) : jParseRaw s = .ok j ↔ RawText s j := RawJson.jParseRaw_iff

/-- **C73** The value of a text is what is left when only the last member of each name is kept. -/
theorem C73_json_settles (s : Str) (j : Json) : JsonText s j ↔ ∃ raw, RawText s raw ∧ Settles raw j := by
  rw [← jParse_iff]
  simp only [← RawJson.jParseRaw_iff, settles_iff]
  unfold jParse
  cases jParseRaw s with
  | error e => simp
  | ok raw => simp [eq_comm]

theorem normM_map (m : List (Str × Json)) : m.map (fun p => (p.1, p.2.norm)) = Json.normM m := by
  induction m with
  | nil => rfl
  | cons p m ih => obtain ⟨k, j⟩ := p; simp [Json.normM, ih]

theorem claims_iff {j : Json} {cs : List (Str × Json)} : claimsOfJson j = .ok cs ↔ IsClaimMap j cs := by
  unfold IsClaimMap
  cases j with
  | obj m => simp [claimsOfJson, settles_iff, normM_map, Json.norm, eq_comm]
  | _ => simp [claimsOfJson]

theorem once_split {m : List (Str × Json)} {k : Str} :
    (m.filter (fun p => p.1 = k)).length ≤ 1 ↔
      (∀ v, (k, v) ∉ m) ∨ ∃ a v b, m = a ++ (k, v) :: b ∧ ∀ x, (k, x) ∉ a ∧ (k, x) ∉ b := by
  induction m with
  | nil => simp
  | cons p m ih =>
    obtain ⟨k', v⟩ := p
    by_cases hk : k' = k
    · subst hk
      simp only [List.filter_cons, decide_true, if_true, List.length_cons]
      have h0 : (m.filter (fun p => decide (p.1 = k'))).length + 1 ≤ 1 ↔ ∀ v, (k', v) ∉ m := by
        have e1 : ∀ n : Nat, n + 1 ≤ 1 ↔ n = 0 := by omega
        simp only [e1, List.length_eq_zero_iff, List.filter_eq_nil_iff, decide_eq_true_eq]
        constructor
        · intro h v hv; exact h _ hv rfl
        · rintro h ⟨a, b⟩ hp rfl; exact h b hp
      rw [h0]
      constructor
      · intro h; exact .inr ⟨[], v, m, rfl, fun x => ⟨by simp, h x⟩⟩
      · rintro (h | ⟨a, v', b, e, h⟩)
        · exact absurd (by simp) (h v)
        · cases a with
          | nil => simp only [List.nil_append, List.cons.injEq] at e; rw [e.2]; exact fun x => (h x).2
          | cons q a =>
            simp only [List.cons_append, List.cons.injEq] at e
            exact absurd (by rw [← e.1]; simp) (h v).1
    · simp only [List.filter_cons, decide_eq_true_eq, if_neg hk, ih]
      constructor
      · rintro (h | ⟨a, v', b, rfl, h⟩)
        · left; intro x hx
          rcases List.mem_cons.1 hx with e | hx
          · cases e; exact hk rfl
          · exact h x hx
        · refine .inr ⟨(k', v) :: a, v', b, rfl, fun x => ⟨?_, (h x).2⟩⟩
          intro hx
          rcases List.mem_cons.1 hx with e | hx
          · cases e; exact hk rfl
          · exact (h x).1 hx
      · rintro (h | ⟨a, v', b, e, h⟩)
        · exact .inl fun x hx => h x (List.mem_cons_of_mem _ hx)
        · cases a with
          | nil =>
            simp only [List.nil_append, List.cons.injEq, Prod.mk.injEq] at e
            exact absurd e.1.1 hk
          | cons q a =>
            simp only [List.cons_append, List.cons.injEq] at e
            exact .inr ⟨a, v', b, e.2, fun x => ⟨fun hx => (h x).1 (List.mem_cons_of_mem _ hx), (h x).2⟩⟩

theorem mget_none_iff {m : List (Str × Json)} {k : Str} : mget k m = none ↔ ∀ v, (k, v) ∉ m := by
  refine ⟨fun h v hv => ?_, mget_none_of_notMem⟩
  induction m with
  | nil => simp at hv
  | cons p m ih =>
    obtain ⟨k', v'⟩ := p
    simp only [mget] at h
    split at h
    · cases h
    · rename_i hk
      rcases List.mem_cons.1 hv with e | hv
      · cases e; exact hk rfl
      · exact ih h hv

theorem mget_split {a b : List (Str × Json)} {k : Str} {v : Json} (h : ∀ x, (k, x) ∉ a) :
    mget k (a ++ (k, v) :: b) = some v := by
  rw [mget_append, mget_none_iff.2 h]
  simp [mget]

theorem mget_zip {names : List Str} (hn : names.Nodup) {l : List Json} {p : Str × Json}
    (hp : p ∈ names.zip l) : mget p.1 (names.zip l) = some p.2 := by
  induction names generalizing l with
  | nil => simp at hp
  | cons k names ih =>
    cases l with
    | nil => simp at hp
    | cons j l =>
      simp only [List.zip_cons_cons, List.mem_cons] at hp ⊢
      rw [List.nodup_cons] at hn
      rcases hp with rfl | hp
      · simp [mget]
      · have : p.1 ≠ k := by rintro rfl; exact hn.1 (List.of_mem_zip hp).1
        rw [mget, if_neg this]
        exact ih hn.2 hp

theorem zip_once {names : List Str} (hn : names.Nodup) (l : List Json) : fieldsOnce names (names.zip l) = true := by
  simp only [fieldsOnce, List.all_eq_true, decide_eq_true_eq]
  intro k _
  clear * - hn
  induction names generalizing l with
  | nil => simp
  | cons k' names ih =>
    cases l with
    | nil => simp
    | cons j l =>
      rw [List.nodup_cons] at hn
      simp only [List.zip_cons_cons, List.filter_cons, decide_eq_true_eq]
      split
      · rename_i hk
        subst hk
        have : ((names.zip l).filter fun p => decide (p.1 = k')) = [] := by
          rw [List.filter_eq_nil_iff]
          intro p hp h
          rw [decide_eq_true_eq] at h
          exact hn.1 (h ▸ (List.of_mem_zip hp).1)
        simp [this]
      · exact ih hn.2 l

theorem fieldsOnce_means {names : List Str} (hn : names.Nodup) {j : Json} {m : List (Str × Json)}
    (h : structText names j = .ok m) : FieldsOnce names j fun k => mget k m := by
  unfold structText at h
  split at h
  · cases h
  rename_i m' hm
  split at h
  swap
  · cases h
  rename_i ho
  cases h
  cases j with
  | obj l =>
    simp only [structFields, Except.ok.injEq] at hm
    subst hm
    refine .inl ⟨_, rfl, ?_⟩
    intro k hk
    simp only [fieldsOnce, List.all_eq_true, decide_eq_true_eq] at ho
    rcases once_split.1 (ho k hk) with h | ⟨a, v, b, rfl, h⟩
    · exact .inl ⟨mget_none_iff.2 h, h⟩
    · exact .inr ⟨a, v, b, rfl, mget_split fun x => (h x).1, h⟩
  | arr l =>
    simp only [structFields] at hm
    split at hm
    · cases hm
      exact .inr ⟨l, rfl, by assumption, fun p hp => mget_zip hn hp⟩
    · cases hm
  | _ => simp [structFields] at hm

theorem fieldsOnce_read {names : List Str} (hn : names.Nodup) {j : Json} {f : Str → Option Json}
    (h : FieldsOnce names j f) : ∃ m, structText names j = .ok m ∧ ∀ k ∈ names, f k = mget k m := by
  rcases h with ⟨m, rfl, h⟩ | ⟨l, rfl, hl, h⟩
  · have ho : fieldsOnce names m = true := by
      simp only [fieldsOnce, List.all_eq_true, decide_eq_true_eq]
      intro k hk
      rw [once_split]
      rcases h k hk with h | ⟨a, v, b, e, -, h⟩
      · exact .inl h.2
      · exact .inr ⟨a, v, b, e, h⟩
    refine ⟨m, by simp [structText, structFields, ho], ?_⟩
    intro k hk
    rcases h k hk with ⟨h1, h2⟩ | ⟨a, v, b, rfl, e, h⟩
    · rw [h1, mget_none_iff.2 h2]
    · rw [e, mget_split fun x => (h x).1]
  · refine ⟨names.zip l, by simp [structText, structFields, hl, zip_once hn], ?_⟩
    intro k hk
    obtain ⟨i, hi, rfl⟩ := List.mem_iff_getElem.1 hk
    have hp : (names[i], l[i]'(by omega)) ∈ names.zip l :=
      List.mem_iff_getElem.2 ⟨i, by simp; omega, by simp⟩
    rw [h _ hp, mget_zip hn hp]

theorem mandatory_congr {α : Type} {f g : Str → Option Json} {k : Str} {means : Json → α → Prop} {v : α}
    (h : f k = g k) : Mandatory f k means v ↔ Mandatory g k means v := by
  simp only [Mandatory, h]

theorem optional_congr {α : Type} {f g : Str → Option Json} {k : Str} {means : Json → α → Prop} {v : Option α}
    (h : f k = g k) : Optional f k means v ↔ Optional g k means v := by
  simp only [Optional, h]

theorem credential_iff {j : Json} {c : Credential} : credentialOf j = .ok c ↔ IsStored j c := by
  have hn : [c!"id", c!"format", c!"vct", c!"doctype", c!"raw_credential", c!"claims"].Nodup := by decide
  have hf : ∀ {m : List (Str × Json)} {k : Str} {d : ClaimFormatDesignation},
      (∃ s, fieldReq k strOfJson m = .ok s ∧ ClaimFormatDesignation.fromName s = d) ↔
        Mandatory (fun k => mget k m) k IsFormat d := by
    intro m k d
    simp only [required_means (fun _ _ => text_means), formatName_iff, Mandatory, IsFormat, IsText]
    constructor
    · rintro ⟨s, ⟨j, h1, h2⟩, h3⟩; exact ⟨j, h1, s, h2, h3⟩
    · rintro ⟨j, h1, s, h2, h3⟩; exact ⟨s, ⟨j, h1, h2⟩, h3⟩
  constructor
  · intro h
    unfold credentialOf at h
    split at h
    · cases h
    rename_i m hm
    repeat' (split at h; · cases h)
    cases h
    refine ⟨_, fieldsOnce_means hn hm, ?_, hf.1 ⟨_, by assumption, rfl⟩, ?_, ?_, ?_, ?_⟩
    · exact (required_means fun _ _ => text_means).1 ‹_›
    · exact (optional_means fun _ _ => text_means).1 ‹_›
    · exact (optional_means fun _ _ => text_means).1 ‹_›
    · exact (required_means fun _ _ => text_means).1 ‹_›
    · exact (required_means fun _ _ => claims_iff).1 ‹_›
  · rintro ⟨f, hF, h1, h2, h3, h4, h5, h6⟩
    obtain ⟨m, hm, e⟩ := fieldsOnce_read hn hF
    simp only [List.mem_cons, List.not_mem_nil, or_false, forall_eq_or_imp, forall_eq] at e
    obtain ⟨e1, e2, e3, e4, e5, e6⟩ := e
    rw [mandatory_congr (g := fun k => mget k m) e1, ← required_means (fun _ _ => text_means)] at h1
    rw [mandatory_congr (g := fun k => mget k m) e2, ← hf] at h2
    rw [optional_congr (g := fun k => mget k m) e3, ← optional_means (fun _ _ => text_means)] at h3
    rw [optional_congr (g := fun k => mget k m) e4, ← optional_means (fun _ _ => text_means)] at h4
    rw [mandatory_congr (g := fun k => mget k m) e5, ← required_means (fun _ _ => text_means)] at h5
    rw [mandatory_congr (g := fun k => mget k m) e6, ← required_means (fun _ _ => claims_iff)] at h6
    obtain ⟨s, h2, h2'⟩ := h2
    simp only [credentialOf, hm, h1, h2, h3, h4, h5, h6, h2']

/-- **C80** Exactly the texts that are credentials files are loaded, each as its credentials. -/
theorem C80_store_file (text : Str) (cs : List Credential) : loadStore text = .ok cs ↔ IsStore text cs := by
  have hn : [c!"credentials"].Nodup := by decide
  constructor
  · intro h
    unfold loadStore at h
    split at h
    · cases h
    rename_i j hj
    split at h
    · cases h
    rename_i m hm
    exact ⟨j, _, RawJson.jParseRaw_iff.1 hj, fieldsOnce_means hn hm,
      (required_means fun _ _ => vec_means fun _ _ => credential_iff).1 h⟩
  · rintro ⟨j, f, hj, hF, h⟩
    obtain ⟨m, hm, e⟩ := fieldsOnce_read hn hF
    rw [mandatory_congr (g := fun k => mget k m) (e _ (by simp)),
      ← required_means (fun _ _ => vec_means fun _ _ => credential_iff)] at h
    simp only [loadStore, RawJson.jParseRaw_iff.2 hj, hm, h]

/-! ## The embedded file -/

/-- The parts of the embedded SD-JWT. -/
def embeddedSdJwt : SdJwt where
  issuer := List.flatten [
    c!"eyJhbGciOiJFUzI1NiIsInR5cCI6InZjK3NkLWp3dCJ9.eyJpc3MiOiJodHRwczovL2lzc3Vlci5leGF",
    c!"tcGxlLmNvbSIsInN1YiI6ImRpZDpleGFtcGxlOmhvbGRlcjEyMyIsImlhdCI6MTcwMDAwMDAwMCwiZXh",
    c!"wIjoyMDAwMDAwMDAwLCJ2Y3QiOiJodHRwczovL2NyZWRlbnRpYWxzLmV4YW1wbGUuY29tL3BpZC8xLjA",
    c!"iLCJjbmYiOnsiandrIjp7Imt0eSI6IkVDIiwiY3J2IjoiUC0yNTYiLCJ4IjoiQ3dOU0tXZGRFbnpkeXN",
    c!"1QlcwYWlRMnJ2Smw4VURMNm81MXFYZXV3MWdvWSIsInkiOiJFTmxFNjJTeHpza3dHTXUzUG9xMFNETlJ",
    c!"DeFI3UDR0aHlveGRVUkRvbkhzIn19LCJfc2QiOlsiaGFzaF9naXZlbl9uYW1lIiwiaGFzaF9mYW1pbHl",
    c!"fbmFtZSIsImhhc2hfbmF0aW9uYWxpdHkiLCJoYXNoX2FnZV9vdmVyXzE4Il0sIl9zZF9hbGciOiJzaGE",
    c!"tMjU2In0.MOCK_SD_JWT_SIG"]
  disclosures := [
    c!"WyJzYWx0X2dpdmVuX25hbWUiLCJnaXZlbl9uYW1lIiwiSm9obiJd",
    c!"WyJzYWx0X2ZhbWlseV9uYW1lIiwiZmFtaWx5X25hbWUiLCJEb2UiXQ",
    c!"WyJzYWx0X25hdGlvbmFsaXR5IiwibmF0aW9uYWxpdHkiLCJVUyJd",
    c!"WyJzYWx0X2FnZV9vdmVyXzE4IiwiYWdlX292ZXJfMTgiLHRydWVd"]
  binding := List.flatten [
    c!"eyJhbGciOiJFUzI1NiIsInR5cCI6ImtiK2p3dCJ9.eyJub25jZSI6IlBMQUNFSE9MREVSX05PTkNFIiw",
    c!"iYXVkIjoiUExBQ0VIT0xERVJfQVVESUVOQ0UiLCJpYXQiOjE3MDAwMDAwMDB9.MOCK_KB_SIG"]

/-- The embedded credential. -/
def embeddedCredential : Credential where
  id := c!"pid_credential"
  format := .dcSdJwt
  vct := some c!"https://credentials.example.com/pid/1.0"
  doctype := none
  raw := embeddedSdJwt.text
  claims := [(c!"age_over_18", .bool true), (c!"family_name", .str c!"Doe"),
    (c!"given_name", .str c!"John"), (c!"nationality", .str c!"US")]

/-- **C80** The embedded file is a credentials file (so that loading it does not panic), with one
credential. -/
theorem C80_embedded : IsStore embeddedText [embeddedCredential] :=
  (C80_store_file _ _).1 (by decide +kernel)

/-- **C80** That credential is an SD-JWT whose disclosures are, one for one, the claims it is
matched by. -/
theorem C80_embedded_claims : embeddedSdJwt.Proper ∧
    ∃ ds : List (List UInt8 × Str × Str × Json),
      ds.map (fun d => some d.1) = embeddedSdJwt.disclosures.map (b64Dec .url) ∧
      (∀ d ∈ ds, jParseBytes d.1 = .ok (.arr [.str d.2.1, .str d.2.2.1, d.2.2.2])) ∧
      (ds.map fun d => (d.2.2.1, d.2.2.2)).Perm embeddedCredential.claims := by
  refine ⟨by unfold SdJwt.Proper; decide +kernel,
    [(utf8 c!"[\"salt_given_name\",\"given_name\",\"John\"]", c!"salt_given_name", c!"given_name", .str c!"John"),
     (utf8 c!"[\"salt_family_name\",\"family_name\",\"Doe\"]", c!"salt_family_name", c!"family_name", .str c!"Doe"),
     (utf8 c!"[\"salt_nationality\",\"nationality\",\"US\"]", c!"salt_nationality", c!"nationality", .str c!"US"),
     (utf8 c!"[\"salt_age_over_18\",\"age_over_18\",true]", c!"salt_age_over_18", c!"age_over_18", .bool true)],
    by decide +kernel, by decide +kernel, by decide +kernel⟩

/-- **C80** The queries the shipped wallet answers: for `dc+sd-jwt`, with the type of its credential
among the type values if there are any; without type values no document type, and no names in paths
but those of its four claims (and names with dots). -/
theorem C80_embedded_answers (lower : Str → Str) (q : CredentialQuery) (c : Credential) :
    matchCredentialQuery lower [embeddedCredential] q = .ok c ↔
      c = embeddedCredential ∧ q.format = .dcSdJwt ∧
      (∀ l, AsksVct q l → .str c!"https://credentials.example.com/pid/1.0" ∈ l) ∧
      ((∀ l, ¬ AsksVct q l) → (∀ d, ¬ AsksDoctype q d) ∧ ∀ name, AsksName q name →
        name ∈ [c!"age_over_18", c!"family_name", c!"given_name", c!"nationality"]) := by
  have hfirst : FirstAnswer lower [embeddedCredential] q c ↔ c = embeddedCredential ∧ Answers lower q c := by
    constructor
    · rintro ⟨a, b, e, h, -⟩
      cases a with
      | nil => simp only [List.nil_append, List.cons.injEq] at e; exact ⟨e.1.symm, h⟩
      | cons x a => simp at e
    · rintro ⟨rfl, h⟩
      exact ⟨[], [], rfl, h, by simp⟩
  have hfmt : SameFormat lower embeddedCredential.format q.format ↔ q.format = .dcSdJwt := by
    simp [SameFormat, embeddedCredential, eq_comm]
  have hname : ∀ name : Str, (∃ v, (name, v) ∈ embeddedCredential.claims) ↔
      name ∈ [c!"age_over_18", c!"family_name", c!"given_name", c!"nationality"] := by
    intro name
    simp [embeddedCredential, exists_or]
  rw [match_ok, hfirst]
  refine and_congr_right ?_
  rintro rfl
  unfold Answers
  rw [hfmt]
  refine and_congr_right fun _ => ?_
  simp only [hname]
  constructor
  · rintro ⟨h1, h2, h3⟩
    refine ⟨fun l hl => ?_, fun hn => ?_⟩
    · obtain ⟨v, hv, hm⟩ := h1 l hl
      cases hv; exact hm
    · have hd : ∀ d, ¬ AsksDoctype q d := fun d hd => by have := h2 hn d hd; cases this
      exact ⟨hd, h3 ⟨hn, hd⟩⟩
  · rintro ⟨h1, h2⟩
    refine ⟨fun l hl => ⟨_, rfl, h1 l hl⟩, fun hn d hd => absurd hd ((h2 hn).1 d), fun hn => (h2 hn.1).2⟩

-- a file whose claims repeat a name at two levels is read with the last of each; a field given twice
-- is refused, unless the structure is written as an array
example : (∃ c, IsStore c!"{\"credentials\":[{\"id\":\"a\",\"format\":\"mso_mdoc\",\"x\":1,\"x\":2,\"raw_credential\":\"r\",\"claims\":{\"n\":1,\"n\":{\"m\":1,\"m\":2}}}]}"
      [c] ∧ c.claims = [(c!"n", .obj [(c!"m", .int 2)])] ∧ c.format = .msoMDoc) ∧
    IsStore c!"[[[\"a\",\"new\",null,\"d\",\"r\",{}]]]"
      [⟨c!"a", .other c!"new", none, some c!"d", c!"r", []⟩] ∧
    ∀ cs, ¬ IsStore c!"{\"credentials\":[],\"credentials\":[]}" cs := by
  refine ⟨⟨⟨c!"a", .msoMDoc, none, none, c!"r", [(c!"n", .obj [(c!"m", .int 2)])]⟩,
    (C80_store_file _ _).1 (by decide +kernel), rfl, rfl⟩, (C80_store_file _ _).1 (by decide +kernel), ?_⟩
  intro cs h
  have h1 := (C80_store_file _ _).2 h
  have h2 : loadStore c!"{\"credentials\":[],\"credentials\":[]}" = .error .parse := by decide +kernel
  rw [h2] at h1
  cases h1

-- a query for a personal identification is answered
example : ∃ c, matchCredentialQuery lowerText [embeddedCredential]
    { vctQuery c!"b" c!"https://credentials.example.com/pid/1.0" with format := .dcSdJwt } = .ok c :=
  ⟨embeddedCredential, by decide +kernel⟩

-- the members of a text and its value
example : RawText c!"{\"a\":1,\"a\":2}" (.obj [(c!"a", .int 1), (c!"a", .int 2)]) ∧
    Settles (.obj [(c!"a", .int 1), (c!"a", .int 2)]) (.obj [(c!"a", .int 2)]) :=
  ⟨(C73_json_members _ _).1 (by decide +kernel), settles_iff.2 (by decide +kernel)⟩

end Oid4vp
