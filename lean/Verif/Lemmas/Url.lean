import Verif.Model.Url
import Verif.Lemmas.Basic
import Verif.Lemmas.Form
import Verif.Lemmas.UrlHost
/-!
# Lemmas on URLs and UUIDs
-/

set_option autoImplicit false

namespace Oid4vp

theorem splitOpt_some {c : Char} {a b : Str} (h : c ∉ a) : splitOpt c (a ++ c :: b) = (a, some b) := by
  simp [splitOpt, splitOnce_append h]

theorem splitOpt_none {c : Char} {a : Str} (h : c ∉ a) : splitOpt c a = (a, none) := by
  simp [splitOpt, splitOnce_eq_none.mpr h]

theorem splitOpt_optText {c : Char} {a : Str} (h : c ∉ a) (o : Option Str) :
    splitOpt c (a ++ optText c o) = (a, o) := by
  cases o with
  | none => simpa [optText] using splitOpt_none h
  | some b => exact splitOpt_some h

theorem splitOpt_eq {c : Char} {s a : Str} {o : Option Str} (h : splitOpt c s = (a, o)) :
    s = a ++ optText c o ∧ c ∉ a := by
  simp only [splitOpt] at h
  split at h
  · next x y hs =>
    obtain ⟨rfl, rfl⟩ := Prod.mk.inj h
    exact splitOnce_eq_some.mp hs
  · next hs =>
    obtain ⟨rfl, rfl⟩ := Prod.mk.inj h
    exact ⟨by simp [optText], splitOnce_eq_none.mp hs⟩

theorem isSchemeChar_not_colon {c : Char} (h : isSchemeChar c = true) : c ≠ ':' := by
  rintro rfl; revert h; decide

theorem isLower_not_colon {c : Char} (h : isLower c = true) : c ≠ ':' := by
  rintro rfl; revert h; decide

theorem isSchemeChar_lower {c : Char} (h : isSchemeChar c = true) :
    isSchemeChar (asciiLower c) = true ∧ asciiLower (asciiLower c) = asciiLower c := by
  by_cases ha : isAlpha c = true
  · have := isAlpha_lower ha
    exact ⟨by simp [isSchemeChar, isAlpha_of_isLower this], asciiLower_of_isLower this⟩
  · have : asciiLower c = c := by
      simp only [isAlpha, Bool.or_eq_true, Bool.and_eq_true, decide_eq_true_eq, not_or] at ha
      simp only [asciiLower]; rw [if_neg]; simp; omega
    exact ⟨by rw [this]; exact h, by rw [this, this]⟩


theorem splitSlash_append {sp : Bool} {s r : Str} {d : Char} (h : ∀ c ∈ s, isSlash sp c = false)
    (hd : isSlash sp d = true) : splitSlash sp (s ++ d :: r) = (s, some r) := by
  induction s with
  | nil => simp [splitSlash, hd]
  | cons c s ih => simp [splitSlash, h c (by simp), ih (fun x hx => h x (by simp [hx]))]

theorem splitSlash_none {sp : Bool} {s : Str} (h : ∀ c ∈ s, isSlash sp c = false) :
    splitSlash sp s = (s, none) := by
  induction s with
  | nil => rfl
  | cons c s ih => simp [splitSlash, h c (by simp), ih (fun x hx => h x (by simp [hx]))]

theorem splitSlash_eq {sp : Bool} {s a : Str} {p : Option Str} (h : splitSlash sp s = (a, p)) :
    (∀ c ∈ a, isSlash sp c = false) ∧
    ((p = none ∧ s = a) ∨ ∃ d r, p = some r ∧ isSlash sp d = true ∧ s = a ++ d :: r) := by
  induction s generalizing a with
  | nil => cases h; simp
  | cons c s ih =>
    simp only [splitSlash] at h
    split at h
    · next hc => cases h; exact ⟨by simp, .inr ⟨c, s, rfl, hc, rfl⟩⟩
    · next hc =>
      obtain ⟨rfl, rfl⟩ := Prod.mk.inj h
      obtain ⟨h1, h2⟩ := ih rfl
      refine ⟨?_, ?_⟩
      · intro x hx
        rw [List.mem_cons] at hx
        rcases hx with rfl | hx
        · simpa using hc
        · exact h1 x hx
      · rcases h2 with ⟨h2, h3⟩ | ⟨d, r, h2, h3, h4⟩
        · exact .inl ⟨h2, congrArg (c :: ·) h3⟩
        · exact .inr ⟨d, r, h2, h3, congrArg (c :: ·) h4⟩

theorem authChar_slash {c : Char} (sp : Bool) (h : authChar c = true) : isSlash sp c = false := by
  cases hs : isSlash sp c with
  | false => rfl
  | true =>
    simp only [isSlash, Bool.or_eq_true, Bool.and_eq_true, decide_eq_true_eq] at hs
    rcases hs with rfl | ⟨-, rfl⟩ <;> revert h <;> decide

theorem authChar_delim {c : Char} (h : authChar c = true) : c ≠ '?' ∧ c ≠ '#' ∧ c ≠ '/' := by
  refine ⟨?_, ?_, ?_⟩ <;> rintro rfl <;> revert h <;> decide

theorem pathKeep_delim {c : Char} (h : pathKeep c = true) : c ≠ '?' ∧ c ≠ '#' := by
  refine ⟨?_, ?_⟩ <;> rintro rfl <;> revert h <;> decide

theorem pathKeep_graphic {c : Char} (h : pathKeep c = true) : isGraphic c = true := by
  simp only [pathKeep, fragmentKeep, Bool.and_eq_true] at h; exact h.1.1

/-- What the path of a URL that the crate can hold is made of. -/
theorem Url.WF.path_chars {u : Url} (h : u.WF) : ∀ c ∈ u.path, opaqueKeep c = true ∧ c ≠ '?' ∧ c ≠ '#' := by
  intro c hc
  by_cases hs : ∃ r, u.path = '/' :: r
  · obtain ⟨r, hr⟩ := hs
    have hp := pathNorm_iff.mpr (h.path_ok r hr)
    rw [← hr] at hp
    rcases hp.chars c hc with rfl | ⟨-, h2⟩
    · decide
    · refine ⟨?_, pathKeep_delim h2⟩
      have := pathKeep_graphic h2
      simp only [isGraphic, Bool.and_eq_true, decide_eq_true_eq] at this
      simp only [opaqueKeep, Bool.and_eq_true, decide_eq_true_eq]
      omega
  · have hs : ∀ p, u.path ≠ '/' :: p := fun p e => hs ⟨p, e⟩
    cases ha : u.authority with
    | none => exact h.path_opaque ha hs c hc
    | some a =>
      rcases h.path_auth (by rw [ha]; simp) with h1 | ⟨p, h1⟩
      · rw [h1] at hc; cases hc
      · exact absurd h1 (hs p)

theorem Url.WF.path_delims {u : Url} (h : u.WF) : '?' ∉ u.path ∧ '#' ∉ u.path :=
  ⟨fun hm => (h.path_chars _ hm).2.1 rfl, fun hm => (h.path_chars _ hm).2.2 rfl⟩

theorem Url.WF.auth_chars {u : Url} (h : u.WF) {a : Str} (ha : u.authority = some a) :
    ∀ c ∈ a, authChar c = true := (normAuthority_spec (h.auth_ok a ha)).2.1

theorem Url.WF.auth_delims {u : Url} (h : u.WF) {a : Str} (ha : u.authority = some a) :
    '/' ∉ a ∧ '?' ∉ a ∧ '#' ∉ a :=
  ⟨fun hm => (authChar_delim (h.auth_chars ha _ hm)).2.2 rfl, fun hm => (authChar_delim (h.auth_chars ha _ hm)).1 rfl,
    fun hm => (authChar_delim (h.auth_chars ha _ hm)).2.1 rfl⟩

theorem queryKeep_graphic {sp : Bool} {c : Char} (h : queryKeep sp c = true) : isGraphic c = true ∧ c ≠ '#' := by
  refine ⟨?_, ?_⟩
  · simp only [queryKeep, Bool.and_eq_true] at h; exact h.1.1
  · rintro rfl; revert h; cases sp <;> decide

theorem fragmentKeep_graphic {c : Char} (h : fragmentKeep c = true) : isGraphic c = true := by
  simp only [fragmentKeep, Bool.and_eq_true] at h; exact h.1

theorem Url.WF.query_hash {u : Url} (h : u.WF) {q : Str} (hq : u.query = some q) : '#' ∉ q :=
  fun hm => (queryKeep_graphic (h.query_ok q hq _ hm)).2 rfl

/-- A path that begins with a slash comes from a text without dot segments. -/
theorem readHier_print {u : Url} (h : u.WF) :
    readHier u.scheme (authText u.authority ++ (guardText u.authority u.path ++ u.path)) =
      some (u.authority, u.path) := by
  cases hsp : isSpecial u.scheme with
  | true =>
    obtain ⟨h1, h2⟩ := h.special hsp
    cases ha : u.authority with
    | none => exact absurd ha h1
    | some a =>
      have hn := h.auth_ok a ha
      obtain ⟨-, hc, hne⟩ := normAuthority_spec hn
      rcases h.path_auth (by rw [ha]; simp) with hp | ⟨r, hp⟩
      · exact absurd hp h2
      · have hpo := h.path_ok r hp
        have hg : guardText (some a) u.path = [] := rfl
        have hd : (authText (some a) ++ (guardText (some a) u.path ++ u.path)).dropWhile (isSlash true) =
            a ++ '/' :: r := by
          rw [hg, hp]
          cases a with
          | nil => exact absurd rfl (hne hsp)
          | cons x a =>
            have := authChar_slash true (hc x (by simp))
            simp [authText, this, isSlash_slash]
        rw [readHier.eq_def, if_pos hsp, hd, splitSlash_append (fun c hm => authChar_slash true (hc c hm)) (isSlash_slash true)]
        simp only [hn, Option.getD_some]
        rw [hsp] at hpo
        rw [hpo, hp]
  | false =>
    rw [readHier.eq_def, if_neg (by rw [hsp]; simp)]
    cases ha : u.authority with
    | none =>
      simp only [authText, List.nil_append]
      by_cases hs : ∃ r, u.path = '/' :: r
      · obtain ⟨r, hr⟩ := hs
        have hpo := h.path_ok r hr
        rw [hsp] at hpo
        rw [hr]
        cases r with
        | nil => simp [guardText, hpo]
        | cons x r =>
          by_cases hx : x = '/'
          · subst hx
            simp only [guardText, List.cons_append, List.nil_append]
            have : hierPath false ('.' :: '/' :: '/' :: r) = '/' :: '/' :: r := by
              have h1 : segments false ('.' :: '/' :: '/' :: r) = ['.'] :: segments false ('/' :: r) :=
                segments_append (s := ['.']) (by decide) (isSlash_slash false)
              have h2 : ∀ l : List Str, l ≠ [] → walk [] (['.'] :: l) = walk [] l := by
                intro l hl
                cases l with
                | nil => exact absurd rfl hl
                | cons y l => simp only [walk]; rw [if_neg (by decide), if_pos (by decide)]
              have h3 : escape pathKeep ['.'] = ['.'] := rfl
              rw [hierPath, h1, List.map_cons, h3, h2 _ (by simpa using segments_ne_nil _ _)]
              exact hpo
            simp [this]
          · have hg : guardText none ('/' :: x :: r) = [] := by
              simp only [guardText]
              split
              · next he => simp only [List.cons.injEq] at he; exact absurd he.2.1 hx
              · rfl
            rw [hg, List.nil_append]
            split
            · next he => simp only [List.cons.injEq] at he; exact absurd he.2.1 hx
            · next he => obtain ⟨-, rfl⟩ := List.cons.inj he; rw [hpo]
            · next h1 h2 => exact absurd rfl (h2 _)
      · have hs : ∀ p, u.path ≠ '/' :: p := fun p e => hs ⟨p, e⟩
        have hg : guardText none u.path = [] := by
          simp only [guardText]
          split
          · next he => exact absurd he (hs _)
          · rfl
        rw [hg, List.nil_append]
        split
        · next he => exact absurd he (hs _)
        · next he => exact absurd he (hs _)
        · rw [escape_kept (fun c hc => (h.path_opaque ha hs c hc).1)]
    | some a =>
      have hn := h.auth_ok a ha
      obtain ⟨-, hc, -⟩ := normAuthority_spec hn
      have hc' : ∀ c ∈ a, isSlash false c = false := fun c hm => authChar_slash false (hc c hm)
      have hg : guardText (some a) u.path = [] := rfl
      rw [hg, List.nil_append]
      simp only [authText, List.cons_append]
      rcases h.path_auth (by rw [ha]; simp) with hp | ⟨r, hp⟩
      · rw [hp, List.append_nil, splitSlash_none hc']
        simp only [hn]
      · have hpo := h.path_ok r hp
        rw [hsp] at hpo
        rw [hp, splitSlash_append hc' (isSlash_slash false)]
        simp only [hn, hpo]

theorem mem_guardText {a : Option Str} {p : Str} {c : Char} (h : c ∈ guardText a p) : c = '/' ∨ c = '.' := by
  simp only [guardText] at h
  split at h
  · simpa using h
  · cases h

/-- The printed text is read as it is. -/
theorem urlInput_id {s : Str} (h : ∀ c ∈ s, 0x20 ≤ c.toNat) (h1 : ∀ c, s.head? = some c → c ≠ ' ')
    (h2 : ∀ c, s.getLast? = some c → c ≠ ' ') : urlInput s = s := by
  have key : ∀ t : Str, (∀ c ∈ t, 0x20 ≤ c.toNat) → (∀ c, t.head? = some c → c ≠ ' ') →
      t.dropWhile isUrlSpace = t := by
    intro t ht h1
    cases t with
    | nil => rfl
    | cons c t =>
      have : isUrlSpace c = false := by
        have a1 := ht c (by simp)
        have a2 := h1 c rfl
        simp only [isUrlSpace, decide_eq_false_iff_not]
        intro hle
        exact a2 (Char.toNat_inj (show c.toNat = 0x20 by omega))
      rw [List.dropWhile_cons, this]
      rfl
  rw [urlInput, key s h h1, key s.reverse (fun c hc => h c (List.mem_reverse.mp hc)), List.reverse_reverse]
  · rw [List.filter_eq_self]
    intro c hc
    have := h c hc
    simp only [isUrlIgnored, Bool.not_eq_true', Bool.or_eq_false_iff, decide_eq_false_iff_not]
    refine ⟨⟨?_, ?_⟩, ?_⟩ <;> rintro rfl <;> revert this <;> decide
  · intro c hc
    rw [List.head?_reverse] at hc
    exact h2 c hc

theorem getLast?_append_ne {s t : Str} (h : t ≠ []) : (s ++ t).getLast? = t.getLast? := by
  rw [List.getLast?_append_of_ne_nil s h]

theorem isGraphic_gt {c : Char} (h : isGraphic c = true) : 0x20 ≤ c.toNat ∧ c ≠ ' ' := by
  refine ⟨?_, ?_⟩
  · simp only [isGraphic, Bool.and_eq_true, decide_eq_true_eq] at h; omega
  · rintro rfl; revert h; decide

theorem schemeChar_graphic {c : Char} (h : isSchemeChar c = true) : isGraphic c = true := by
  have key : ∀ n : Fin 128, isSchemeChar (Char.ofNat n.val) = true → isGraphic (Char.ofNat n.val) = true := by
    decide
  have hl : c.toNat < 128 := by
    simp only [isSchemeChar, isAlpha, isDigit, Bool.or_eq_true, Bool.and_eq_true, decide_eq_true_eq] at h
    rcases h with (((h | h) | rfl) | rfl) | rfl
    · omega
    · omega
    all_goals decide
  have := key ⟨c.toNat, hl⟩
  simp only [Char.ofNat_toNat] at this
  exact this h

theorem isLower_schemeChar {c : Char} (h : isLower c = true) : isSchemeChar c = true := by
  simp [isSchemeChar, isAlpha_of_isLower h]

theorem Url.WF.scheme_chars {u : Url} (h : u.WF) : ∀ c ∈ u.scheme, isSchemeChar c = true := by
  obtain ⟨c, cs, hs, hc, hcs⟩ := h.scheme_ok
  intro x hx
  rw [hs, List.mem_cons] at hx
  rcases hx with rfl | hx
  · exact isLower_schemeChar hc
  · exact (hcs x hx).1

theorem optText_graphic {d : Char} (hd : isGraphic d = true) {o : Option Str}
    (h : ∀ s, o = some s → ∀ c ∈ s, isGraphic c = true) : ∀ c ∈ optText d o, isGraphic c = true := by
  intro c hc
  cases o with
  | none => cases hc
  | some s =>
    rw [optText, List.mem_cons] at hc
    rcases hc with rfl | hc
    · exact hd
    · exact h s rfl c hc

theorem urlInput_print {u : Url} (h : u.WF) : urlInput u.print = u.print := by
  have hq : ∀ c ∈ optText '?' u.query, isGraphic c = true :=
    optText_graphic (by decide) (fun q hq c hc => (queryKeep_graphic (h.query_ok q hq c hc)).1)
  have hf : ∀ c ∈ optText '#' u.fragment, isGraphic c = true :=
    optText_graphic (by decide) (fun f hf c hc => fragmentKeep_graphic (h.fragment_ok f hf c hc))
  have ha : ∀ c ∈ authText u.authority, isGraphic c = true := by
    intro c hc
    cases ha : u.authority with
    | none => rw [ha] at hc; cases hc
    | some a =>
      rw [ha, authText, List.mem_cons, List.mem_cons] at hc
      rcases hc with rfl | rfl | hc
      · decide
      · decide
      · have := h.auth_chars ha c hc
        simp only [authChar, Bool.and_eq_true] at this
        exact this.1
  have hg : ∀ c ∈ guardText u.authority u.path, isGraphic c = true := by
    intro c hc
    rcases mem_guardText hc with rfl | rfl <;> decide
  apply urlInput_id
  · intro c hc
    simp only [Url.print, List.mem_append, List.mem_cons] at hc
    rcases hc with hc | rfl | hc | hc | hc | hc | hc
    · exact (isGraphic_gt (schemeChar_graphic (h.scheme_chars c hc))).1
    · decide
    · exact (isGraphic_gt (ha c hc)).1
    · exact (isGraphic_gt (hg c hc)).1
    · have := (h.path_chars c hc).1
      simp only [opaqueKeep, Bool.and_eq_true, decide_eq_true_eq] at this
      exact this.1
    · exact (isGraphic_gt (hq c hc)).1
    · exact (isGraphic_gt (hf c hc)).1
  · obtain ⟨c, cs, hs, hc, -⟩ := h.scheme_ok
    intro d hd
    rw [Url.print, hs] at hd
    simp only [List.cons_append, List.head?_cons, Option.some.injEq] at hd
    subst hd
    exact (isGraphic_gt (schemeChar_graphic (isLower_schemeChar hc))).2
  · intro c hc
    have e : u.print = u.scheme ++ ':' :: (authText u.authority ++ guardText u.authority u.path) ++ (u.path ++
        (optText '?' u.query ++ optText '#' u.fragment)) := by simp [Url.print]
    by_cases hqf : optText '?' u.query ++ optText '#' u.fragment = []
    · rw [e, hqf, List.append_nil] at hc
      by_cases hp : u.path = []
      · rw [hp, List.append_nil, getLast?_append_ne (by simp)] at hc
        have hm := List.mem_of_getLast? hc
        simp only [List.mem_append, List.mem_cons] at hm
        rcases hm with rfl | hm | hm
        · decide
        · exact (isGraphic_gt (ha c hm)).2
        · rcases mem_guardText hm with rfl | rfl <;> decide
      · rw [getLast?_append_ne hp] at hc
        by_cases hs : ∃ r, u.path = '/' :: r
        · obtain ⟨r, hr⟩ := hs
          have hpo := pathNorm_iff.mpr (h.path_ok r hr)
          rw [← hr] at hpo
          rcases hpo.chars c (List.mem_of_getLast? hc) with rfl | ⟨-, h2⟩
          · decide
          · exact (isGraphic_gt (pathKeep_graphic h2)).2
        · have hs : ∀ p, u.path ≠ '/' :: p := fun p e => hs ⟨p, e⟩
          cases hau : u.authority with
          | some a =>
            rcases h.path_auth (by rw [hau]; simp) with h1 | ⟨p, h1⟩
            · exact absurd h1 hp
            · exact absurd h1 (hs p)
          | none =>
            rw [List.append_eq_nil_iff] at hqf
            have h1 : u.query = none := by cases hq : u.query with
              | none => rfl
              | some q => rw [hq] at hqf; simp [optText] at hqf
            have h2 : u.fragment = none := by cases hq : u.fragment with
              | none => rfl
              | some q => rw [hq] at hqf; simp [optText] at hqf
            rintro rfl
            exact h.path_end hau hs h1 h2 hc
    · rw [e, getLast?_append_ne (by simp [hqf]), getLast?_append_ne hqf] at hc
      have hm := List.mem_of_getLast? hc
      rw [List.mem_append] at hm
      rcases hm with hm | hm
      · exact (isGraphic_gt (hq c hm)).2
      · exact (isGraphic_gt (hf c hm)).2

/-- Every URL the crate can hold is read back from its text. -/
theorem Url.parse_print {u : Url} (h : u.WF) : Url.parse u.print = some u := by
  obtain ⟨c, cs, hs, hc, hcs⟩ := h.scheme_ok
  have hcol : ':' ∉ u.scheme := fun hm => isSchemeChar_not_colon (h.scheme_chars _ hm) rfl
  have hlow : u.scheme.map asciiLower = u.scheme := by
    rw [hs]
    simp [asciiLower_of_isLower hc, map_asciiLower (fun x hx => (hcs x hx).2)]
  have hall : cs.all isSchemeChar = true := by
    simp only [List.all_eq_true]; exact fun x hx => (hcs x hx).1
  have hh : '?' ∉ authText u.authority ++ (guardText u.authority u.path ++ u.path) ∧
      '#' ∉ authText u.authority ++ (guardText u.authority u.path ++ u.path) := by
    have hg : '?' ∉ guardText u.authority u.path ∧ '#' ∉ guardText u.authority u.path := by
      refine ⟨fun hm => ?_, fun hm => ?_⟩ <;> rcases mem_guardText hm with e | e <;> revert e <;> decide
    have ha : '?' ∉ authText u.authority ∧ '#' ∉ authText u.authority := by
      cases ha : u.authority with
      | none => simp [authText]
      | some a => simp [authText, h.auth_delims ha]
    simp [hg, ha, h.path_delims]
  have hq : '#' ∉ (authText u.authority ++ (guardText u.authority u.path ++ u.path)) ++ optText '?' u.query := by
    rw [List.mem_append, not_or]
    refine ⟨hh.2, ?_⟩
    cases hq : u.query with
    | none => simp [optText]
    | some q => simp [optText, h.query_hash hq]
  have e1 : splitOnce ':' u.print = some (u.scheme, (authText u.authority ++ (guardText u.authority u.path ++ u.path))
      ++ optText '?' u.query ++ optText '#' u.fragment) := by
    rw [Url.print, splitOnce_append hcol]; simp [List.append_assoc]
  have eq : u.query.map (escape (queryKeep (isSpecial u.scheme))) = u.query := by
    cases hq : u.query with
    | none => rfl
    | some q => rw [Option.map_some, escape_kept (h.query_ok q hq)]
  have ef : u.fragment.map (escape fragmentKeep) = u.fragment := by
    cases hq : u.fragment with
    | none => rfl
    | some q => rw [Option.map_some, escape_kept (h.fragment_ok q hq)]
  simp only [Url.parse, urlInput_print h, e1, splitOpt_optText hq, splitOpt_optText hh.1, hlow, readHier_print h, eq, ef]
  split
  · next he => rw [hs] at he; cases he
  · next d ds he =>
    rw [hs] at he
    obtain ⟨rfl, rfl⟩ := List.cons.inj he
    rw [if_pos ⟨isAlpha_of_isLower hc, hall⟩]

/-- What reading authority and path gives. -/
theorem readHier_ok {scheme s : Str} {a : Option Str} {p : Str} (h : readHier scheme s = some (a, p)) :
    (∀ x, a = some x → normAuthority scheme x = some x) ∧
    (∀ r, p = '/' :: r → hierPath (isSpecial scheme) r = '/' :: r) ∧
    (a ≠ none → p = [] ∨ ∃ r, p = '/' :: r) ∧
    (a = none → (∀ r, p ≠ '/' :: r) → p = escape opaqueKeep s) ∧
    (isSpecial scheme = true → a ≠ none ∧ p ≠ []) := by
  have hh : ∀ sp r, ∃ q, hierPath sp r = '/' :: q := fun sp r => ⟨_, rfl⟩
  simp only [readHier] at h
  split at h
  · next hsp =>
    split at h
    · next a' ha =>
      cases h
      obtain ⟨q, hq⟩ := hh true ((splitSlash true (s.dropWhile (isSlash true))).2.getD [])
      refine ⟨?_, ?_, ?_, ?_, ?_⟩
      · rintro x ⟨⟩; exact (normAuthority_spec ha).1
      · intro r hr; rw [hsp]; exact hierPath_idem hr
      · exact fun _ => .inr ⟨q, hq⟩
      · intro h; cases h
      · exact fun _ => ⟨by simp, by rw [hq]; simp⟩
    · cases h
  · next hsp =>
    have hsp' : isSpecial scheme = false := by simpa using hsp
    split at h
    · next r =>
      split at h
      · next a' ha =>
        cases h
        refine ⟨?_, ?_, ?_, ?_, ?_⟩
        · rintro x ⟨⟩; exact (normAuthority_spec ha).1
        · intro r' hr
          rw [hsp']
          split at hr
          · exact hierPath_idem hr
          · cases hr
        · intro _
          split
          · exact .inr ⟨_, rfl⟩
          · exact .inl rfl
        · intro h; cases h
        · intro h; rw [hsp'] at h; cases h
      · cases h
    · cases h
      refine ⟨by simp, ?_, by simp, ?_, ?_⟩
      · intro r' hr; rw [hsp']; exact hierPath_idem hr
      · intro _ hn; exact absurd rfl (hn _)
      · intro h; rw [hsp'] at h; cases h
    · next h1 h2 =>
      cases h
      refine ⟨by simp, ?_, by simp, fun _ _ => rfl, ?_⟩
      · intro r hr
        exfalso
        cases s with
        | nil => cases hr
        | cons c s =>
          have hc : c ≠ '/' := fun e => h2 s (by rw [e])
          have e : escape opaqueKeep (c :: s) = (if opaqueKeep c then [c] else (utf8Char c).flatMap pctByte) ++
            escape opaqueKeep s := rfl
          rw [e] at hr
          split at hr
          · rw [List.cons_append, List.cons.injEq] at hr; exact hc hr.1
          · have hne := utf8Char_ne_nil c
            cases hu : utf8Char c with
            | nil => exact hne hu
            | cons b bs =>
              rw [hu] at hr
              simp [pctByte] at hr
      · intro h; rw [hsp'] at h; cases h

theorem mem_urlInput {s : Str} {c : Char} (h : c ∈ urlInput s) : c ∈ s ∧ isUrlIgnored c = false := by
  simp only [urlInput, List.mem_filter, List.mem_reverse, Bool.not_eq_true'] at h
  refine ⟨?_, h.2⟩
  have h1 := (List.dropWhile_sublist _).subset h.1
  exact (List.dropWhile_sublist _).subset (List.mem_reverse.mp h1)

theorem getLast?_filter {s : Str} {f : Char → Bool} {c : Char} (h : s.getLast? = some c) (hf : f c = true) :
    (s.filter f).getLast? = some c := by
  obtain ⟨t, rfl⟩ := List.getLast?_eq_some_iff.mp h
  simp [hf]

theorem urlInput_last (s : Str) : (urlInput s).getLast? ≠ some ' ' := by
  intro h
  simp only [urlInput] at h
  generalize ht : ((s.dropWhile isUrlSpace).reverse.dropWhile isUrlSpace).reverse = t at h
  cases hl : t.getLast? with
  | none =>
    rw [List.getLast?_eq_none_iff] at hl
    rw [hl] at h
    cases h
  | some c =>
    have hc : isUrlSpace c = false := by
      rw [← ht, List.getLast?_reverse] at hl
      have := List.head?_dropWhile_not isUrlSpace (s.dropWhile isUrlSpace).reverse
      rw [hl] at this
      simpa using this
    have h1 : isUrlIgnored c = false := by
      cases hi : isUrlIgnored c with
      | false => rfl
      | true =>
        simp only [isUrlIgnored, Bool.or_eq_true, decide_eq_true_eq] at hi
        rcases hi with (rfl | rfl) | rfl <;> revert hc <;> decide
    rw [getLast?_filter hl (by simp [h1])] at h
    cases h
    revert hc; decide

theorem escape_getLast {keep : Char → Bool} {s : Str} (h : (escape keep s).getLast? = some ' ') :
    s.getLast? = some ' ' := by
  rcases List.eq_nil_or_concat s with rfl | ⟨t, c, rfl⟩
  · cases h
  · rw [List.concat_eq_append, escape_append] at h
    have hne : escape keep [c] ≠ [] := by rw [Ne, escape_eq_nil]; simp
    rw [getLast?_append_ne hne] at h
    rcases mem_escape (List.mem_of_getLast? h) with h1 | h1
    · simp only [List.mem_singleton] at h1
      simp [← h1.1]
    · exact absurd h1 (by decide)

/-- Every URL obtained by parsing is well formed. -/
theorem Url.parse_wf {s : Str} {u : Url} (h : Url.parse s = some u) : u.WF := by
  simp only [Url.parse] at h
  split at h
  · cases h
  next sch rest hsp =>
  split at h
  · cases h
  next c cs =>
  split at h
  case isFalse => cases h
  next hc =>
  rcases h1 : splitOpt '#' rest with ⟨hq, fragment⟩
  rcases h2 : splitOpt '?' hq with ⟨hh, query⟩
  simp only [h1, h2] at h
  obtain ⟨e1, n1⟩ := splitOpt_eq h1
  obtain ⟨e2, n2⟩ := splitOpt_eq h2
  have n3 : '#' ∉ hh := by
    intro hm; apply n1; rw [e2]; simp [hm]
  split at h
  case h_2 => cases h
  next a p hr =>
  cases h
  obtain ⟨r1, r2, r3, r4, r5⟩ := readHier_ok hr
  obtain ⟨es, -⟩ := splitOnce_eq_some.mp hsp
  refine ⟨⟨_, _, rfl, isAlpha_lower hc.1, ?_⟩, r1, r2, r3, ?_, ?_, ?_, ?_, r5⟩
  · intro x hx
    obtain ⟨y, hy, rfl⟩ := List.mem_map.mp hx
    exact isSchemeChar_lower (List.all_eq_true.mp hc.2 y hy)
  · intro ha hp x hx
    dsimp only at ha hp hx
    rw [r4 ha hp] at hx
    refine ⟨escape_all opaqueKeep_esc _ x hx, ?_⟩
    rcases mem_escape hx with h | h
    · exact ⟨fun e => n2 (e ▸ h.1), fun e => n3 (e ▸ h.1)⟩
    · constructor <;> rintro rfl <;> revert h <;> decide
  · intro ha hp hq hf hl
    dsimp only at ha hp hq hf hl
    rw [r4 ha hp] at hl
    rw [Option.map_eq_none_iff] at hq hf
    subst hq hf
    simp only [optText, List.append_nil] at e1 e2
    have hl := escape_getLast hl
    apply urlInput_last s
    rw [es, e1, e2]
    have hne : hh ≠ [] := by rintro rfl; cases hl
    rw [getLast?_append_ne (by simp), ← List.singleton_append, getLast?_append_ne hne]
    exact hl
  · intro q hq x hx
    dsimp only at hq hx
    obtain ⟨q', -, rfl⟩ := Option.map_eq_some_iff.mp hq
    exact escape_all (queryKeep_esc _) _ x hx
  · intro q hq x hx
    dsimp only at hq hx
    obtain ⟨q', -, rfl⟩ := Option.map_eq_some_iff.mp hq
    exact escape_all fragmentKeep_esc _ x hx

theorem Url.print_inj {u v : Url} (hu : u.WF) (hv : v.WF) (h : u.print = v.print) : u = v := by
  have h1 := Url.parse_print hu
  rw [h, Url.parse_print hv] at h1
  exact (Option.some.inj h1).symm

theorem Url.setQuery_wf {u : Url} (h : u.WF) {q : Str} (hq : ∀ c ∈ q, queryKeep (isSpecial u.scheme) c = true) :
    (u.setQuery q).WF :=
  ⟨h.scheme_ok, h.auth_ok, h.path_ok, h.path_auth, h.path_opaque, fun _ _ h => (by cases h),
    by rintro _ ⟨⟩; exact hq, h.fragment_ok, h.special⟩

/-- What pushing a path segment does. -/
theorem formSer_queryKeep (sp : Bool) (l : List (Str × Str)) : ∀ c ∈ formSer l, queryKeep sp c = true := by
  intro c hc
  have key : ∀ sp : Bool, ∀ n : Fin 128, (formChar (Char.ofNat n.val) = true ∨ Char.ofNat n.val = '&' ∨
      Char.ofNat n.val = '=') → queryKeep sp (Char.ofNat n.val) = true := by decide
  have h := formSer_char l c hc
  have hl : c.toNat < 128 := by
    rcases h with h | rfl | rfl
    · simp only [formChar, Bool.or_eq_true, Bool.and_eq_true, decide_eq_true_eq] at h
      repeat' rcases h with h | h
      all_goals first | omega | (subst h; decide)
    · decide
    · decide
  have := key sp ⟨c.toNat, hl⟩
  simp only [Char.ofNat_toNat] at this
  exact this h

theorem Url.pathPush_eq {u v : Url} {seg : Str} (h : u.pathPush seg = some v) :
    (u.authority = none → ∃ q, u.path = '/' :: q) ∧
    ((u.path.length = 1 ∧ v = { u with path := u.path ++ seg }) ∨
     (u.path.length ≠ 1 ∧ v = { u with path := u.path ++ '/' :: seg })) := by
  obtain ⟨sch, auth, path, q, f⟩ := u
  cases auth with
  | some a =>
    simp only [Url.pathPush, Option.some.injEq] at h
    subst h
    refine ⟨by simp, ?_⟩
    by_cases h1 : path.length = 1
    · simp [h1]
    · simp [h1]
  | none =>
    cases path with
    | nil => simp [Url.pathPush] at h
    | cons c cs =>
      simp only [Url.pathPush, Option.ite_none_right_eq_some, Option.some.injEq] at h
      obtain ⟨rfl, rfl⟩ := h
      refine ⟨fun _ => ⟨cs, rfl⟩, ?_⟩
      by_cases h1 : ('/' :: cs).length = 1
      · simp only [h1]; simp
      · right; exact ⟨h1, by simp only [h1]; simp⟩

/-- Replacing the path by one that begins with a slash and is in the form it is serialised in. -/
theorem Url.WF.withPath {u : Url} (h : u.WF) {r : Str} (hr : hierPath (isSpecial u.scheme) r = '/' :: r) :
    Url.WF { u with path := '/' :: r } := by
  refine ⟨h.scheme_ok, h.auth_ok, ?_, fun _ => .inr ⟨r, rfl⟩, ?_, ?_, h.query_ok, h.fragment_ok,
    fun hs => ⟨(h.special hs).1, by simp⟩⟩
  · rintro _ ⟨⟩; exact hr
  · exact fun _ hn => absurd rfl (hn r)
  · exact fun _ hn => absurd rfl (hn r)

theorem joinWith_append {c : Char} {l m : List Str} (hl : l ≠ []) (hm : m ≠ []) :
    joinWith c (l ++ m) = joinWith c l ++ c :: joinWith c m := by
  induction l with
  | nil => exact absurd rfl hl
  | cons x l ih =>
    cases l with
    | nil =>
      cases m with
      | nil => exact absurd rfl hm
      | cons y m => rw [List.singleton_append, joinWith] <;> simp [joinWith]
    | cons y l =>
      have e : ∀ z : List Str, joinWith c (x :: y :: z) = x ++ c :: joinWith c (y :: z) := fun _ => rfl
      have ih := ih (by simp)
      rw [List.cons_append] at ih
      rw [List.cons_append, List.cons_append, e, e, ih]
      simp

theorem PathNorm.push {sp : Bool} {p x : Str} (h : PathNorm sp p) (hx : SegOk sp x) : PathNorm sp (p ++ '/' :: x) := by
  obtain ⟨l, hl, rfl, h⟩ := h
  refine ⟨l ++ [x], by simp, ?_, ?_⟩
  · rw [joinWith_append hl (by simp)]; simp [joinWith]
  · intro y hy
    rw [List.mem_append, List.mem_singleton] at hy
    rcases hy with hy | rfl
    · exact h y hy
    · exact hx

theorem PathNorm.single {sp : Bool} {x : Str} (hx : SegOk sp x) : PathNorm sp ('/' :: x) :=
  ⟨[x], by simp, by simp [joinWith], by simpa using hx⟩

/-- Replacing the last segment. -/
theorem PathNorm.beside {sp : Bool} {dir last x : Str} (h : PathNorm sp (dir ++ '/' :: last)) (hl : '/' ∉ last)
    (hx : SegOk sp x) : PathNorm sp (dir ++ '/' :: x) := by
  obtain ⟨l, hne, e, h⟩ := h
  obtain ⟨m, y, rfl⟩ : ∃ m y, l = m ++ [y] := ⟨_, _, (List.dropLast_append_getLast hne).symm⟩
  have hy : '/' ∉ y := by
    intro hm
    have := ((h y (by simp)).1 '/' hm).1
    rw [isSlash_slash] at this; cases this
  have ee : dir ++ '/' :: last = (if m = [] then [] else '/' :: joinWith '/' m) ++ '/' :: y := by
    rw [e]
    by_cases hm : m = []
    · subst hm; simp [joinWith]
    · rw [joinWith_append hm (by simp)]; simp [hm, joinWith]
  have h1 := (rsplitOnce_eq_some (a := dir) (b := last) (c := '/')).mpr ⟨rfl, hl⟩
  rw [ee, rsplitOnce_eq_some.mpr ⟨rfl, hy⟩] at h1
  simp only [Option.some.injEq, Prod.mk.injEq] at h1
  rw [← h1.1]
  by_cases hm : m = []
  · rw [if_pos hm]; exact PathNorm.single hx
  · rw [if_neg hm]; exact PathNorm.push ⟨m, hm, rfl, fun z hz => h z (by simp [hz])⟩ hx

theorem Url.pathPush_wf {u v : Url} {seg : Str} (hu : u.WF) (h : u.pathPush seg = some v)
    (hc : SegOk (isSpecial u.scheme) seg) : v.WF := by
  obtain ⟨hn, hv⟩ := Url.pathPush_eq h
  have hp : u.path = [] ∨ ∃ q, u.path = '/' :: q := by
    cases ha : u.authority with
    | none => exact .inr (hn ha)
    | some a => exact hu.path_auth (by rw [ha]; simp)
  rcases hv with ⟨hl, rfl⟩ | ⟨hl, rfl⟩
  · rcases hp with hp | ⟨q, hp⟩
    · rw [hp] at hl; cases hl
    · rw [hp] at hl ⊢
      have : q = [] := by simpa using hl
      subst this
      exact hu.withPath (r := seg) (pathNorm_iff.mp (PathNorm.single hc))
  · rcases hp with hp | ⟨q, hp⟩
    · rw [hp]
      exact hu.withPath (r := seg) (pathNorm_iff.mp (PathNorm.single hc))
    · rw [hp]
      have h1 := pathNorm_iff.mpr (hu.path_ok q hp)
      exact hu.withPath (r := q ++ '/' :: seg) (pathNorm_iff.mp (h1.push hc))

/-- Different segments give different URLs. -/
theorem Url.pathPush_inj {u v w : Url} {s t : Str} (h1 : u.pathPush s = some v)
    (h2 : u.pathPush t = some w) (h : v = w) : s = t := by
  obtain ⟨-, h1⟩ := Url.pathPush_eq h1
  obtain ⟨-, h2⟩ := Url.pathPush_eq h2
  rcases h1 with ⟨l1, rfl⟩ | ⟨l1, rfl⟩ <;> rcases h2 with ⟨l2, rfl⟩ | ⟨l2, rfl⟩
  · simpa using h
  · exact absurd l1 l2
  · exact absurd l2 l1
  · simpa using h

/-! ## UUIDs -/

theorem hexVal_hexLower : ∀ n : Fin 16, hexVal (hexLower n.val) = some n.val := by decide

/-- Lower-case hexadecimal digits and the hyphen. -/
def uuidChar (c : Char) : Bool := (48 ≤ c.toNat && c.toNat ≤ 57) || (97 ≤ c.toNat && c.toNat ≤ 102) || c == '-'

theorem hexLower_uuidChar : ∀ n : Fin 16, uuidChar (hexLower n.val) = true ∧ hexLower n.val ≠ '-' := by
  decide

theorem hexDigits_length (k n : Nat) : (hexDigits k n).length = k := by
  induction k generalizing n with
  | zero => rfl
  | succ k ih => simp [hexDigits, ih]

theorem hexDigits_char (k n : Nat) : ∀ c ∈ hexDigits k n, uuidChar c = true ∧ c ≠ '-' := by
  induction k generalizing n with
  | zero => simp [hexDigits]
  | succ k ih =>
    intro c hc
    simp only [hexDigits, List.mem_append, List.mem_singleton] at hc
    rcases hc with hc | rfl
    · exact ih _ c hc
    · exact hexLower_uuidChar ⟨n % 16, Nat.mod_lt _ (by decide)⟩

theorem hexNat_append (acc : Nat) (s t : Str) :
    hexNat acc (s ++ t) = (hexNat acc s).bind (fun a => hexNat a t) := by
  induction s generalizing acc with
  | nil => rfl
  | cons c s ih =>
    simp only [List.cons_append, hexNat]
    cases hexVal c <;> simp [ih]

theorem hexNat_hexDigits (k n acc : Nat) (h : n < 16 ^ k) :
    hexNat acc (hexDigits k n) = some (acc * 16 ^ k + n) := by
  induction k generalizing n with
  | zero => simp at h; subst h; simp [hexDigits, hexNat]
  | succ k ih =>
    have h1 : n / 16 < 16 ^ k := by
      rw [Nat.pow_succ] at h; omega
    have h2 := hexVal_hexLower ⟨n % 16, Nat.mod_lt _ (by decide)⟩
    simp only [hexDigits, hexNat_append, ih _ h1, Option.bind_some, hexNat]
    dsimp only at h2
    rw [h2]
    simp only [Option.some.injEq, Nat.pow_succ]
    have : (acc * 16 ^ k + n / 16) * 16 = acc * (16 ^ k * 16) + n / 16 * 16 := by
      rw [Nat.add_mul, Nat.mul_assoc]
    omega

theorem Uuid.print_char (u : Uuid) : ∀ c ∈ u.print, uuidChar c = true := by
  intro c hc
  have hd : ∀ x ∈ hexDigits 32 u.bits.val, uuidChar x = true := fun x hx => (hexDigits_char _ _ x hx).1
  simp only [Uuid.print, List.mem_append, List.mem_cons] at hc
  have t : ∀ n (l : Str), c ∈ l.take n → c ∈ l := fun n l h => List.mem_of_mem_take h
  have d : ∀ n (l : Str), c ∈ l.drop n → c ∈ l := fun n l h => List.mem_of_mem_drop h
  rcases hc with h | rfl | h | rfl | h | rfl | h | rfl | h
  · exact hd _ (t _ _ h)
  · decide
  · exact hd _ (d _ _ (t _ _ h))
  · decide
  · exact hd _ (d _ _ (t _ _ h))
  · decide
  · exact hd _ (d _ _ (t _ _ h))
  · decide
  · exact hd _ (d _ _ h)

theorem Uuid.print_ne_nil (u : Uuid) : u.print ≠ [] := by simp [Uuid.print]

theorem Uuid.print_delims (u : Uuid) : '/' ∉ u.print ∧ '?' ∉ u.print ∧ '#' ∉ u.print := by
  refine ⟨fun h => ?_, fun h => ?_, fun h => ?_⟩ <;>
    · have := Uuid.print_char u _ h
      exact absurd this (by decide)

theorem uuidChar_path (sp : Bool) : ∀ c, uuidChar c = true → isSlash sp c = false ∧ pathKeep c = true := by
  have key : ∀ n : Fin 128, uuidChar (Char.ofNat n.val) = true →
      isSlash sp (Char.ofNat n.val) = false ∧ pathKeep (Char.ofNat n.val) = true := by cases sp <;> decide
  intro c h
  have hl : c.toNat < 128 := by
    simp only [uuidChar, Bool.or_eq_true, Bool.and_eq_true, decide_eq_true_eq, beq_iff_eq] at h
    rcases h with (h | h) | rfl
    · omega
    · omega
    · decide
  have := key ⟨c.toNat, hl⟩
  simp only [Char.ofNat_toNat] at this
  exact this h

theorem Uuid.print_seg (sp : Bool) (u : Uuid) : SegOk sp u.print := by
  refine ⟨fun c hc => uuidChar_path sp c (Uuid.print_char u c hc), ?_, ?_⟩
  · cases h : isDotDot u.print with
    | false => rfl
    | true =>
      have : ∀ x ∈ [c!"..", c!"%2e%2e", c!"%2e%2E", c!"%2E%2e", c!"%2E%2E", c!"%2e.", c!"%2E.", c!".%2e", c!".%2E"],
        ∃ c ∈ x, uuidChar c = false := by decide
      obtain ⟨c, hc, hf⟩ := this u.print (by simpa [isDotDot] using h)
      rw [Uuid.print_char u c hc] at hf
      cases hf
  · cases h : isDot u.print with
    | false => rfl
    | true =>
      have : ∀ x ∈ [c!".", c!"%2e", c!"%2E"], ∃ c ∈ x, uuidChar c = false := by decide
      obtain ⟨c, hc, hf⟩ := this u.print (by simpa [isDot] using h)
      rw [Uuid.print_char u c hc] at hf
      cases hf

theorem Uuid.parse_print (u : Uuid) : Uuid.parse u.print = some u := by
  have hl := hexDigits_length 32 u.bits.val
  have hn : ∀ c ∈ hexDigits 32 u.bits.val, c ≠ '-' := fun c hc => (hexDigits_char _ _ c hc).2
  have hlt : u.bits.val < 16 ^ 32 := by
    have h := u.bits.isLt
    have : (2:Nat) ^ 128 = 16 ^ 32 := by decide
    omega
  have hv := hexNat_hexDigits 32 u.bits.val 0 hlt
  generalize hd : hexDigits 32 u.bits.val = d at *
  have hp : u.print = d.take 8 ++ '-' :: ((d.drop 8).take 4 ++ '-' :: ((d.drop 12).take 4 ++ '-' ::
    ((d.drop 16).take 4 ++ '-' :: d.drop 20))) := by simp [Uuid.print, hd]
  have nt : ∀ n (l : Str), (∀ c ∈ l, c ≠ '-') → '-' ∉ l.take n :=
    fun n l h hm => h _ (List.mem_of_mem_take hm) rfl
  have nd : ∀ n (l : Str), (∀ c ∈ l, c ≠ '-') → ∀ c ∈ l.drop n, c ≠ '-' :=
    fun n l h c hm => h _ (List.mem_of_mem_drop hm)
  have n20 : '-' ∉ d.drop 20 := fun hm => nd 20 d hn _ hm rfl
  have hlen : u.print.length = 36 := by rw [hp]; simp [hl]
  have hsplit : splitOn '-' u.print =
      [d.take 8, (d.drop 8).take 4, (d.drop 12).take 4, (d.drop 16).take 4, d.drop 20] := by
    rw [hp, splitOn_append (nt _ _ hn), splitOn_append (nt _ _ (nd _ _ hn)),
      splitOn_append (nt _ _ (nd _ _ hn)), splitOn_append (nt _ _ (nd _ _ hn)),
      splitOn_of_notMem n20]
  have hcat : d.take 8 ++ (d.drop 8).take 4 ++ (d.drop 12).take 4 ++ (d.drop 16).take 4 ++ d.drop 20
      = d := by
    have e1 : d.drop 12 = (d.drop 8).drop 4 := by simp
    have e2 : d.drop 16 = (d.drop 12).drop 4 := by simp
    have e3 : d.drop 20 = (d.drop 16).drop 4 := by simp
    rw [e3]
    simp only [List.append_assoc]
    rw [List.take_append_drop, e2, List.take_append_drop, e1, List.take_append_drop,
      List.take_append_drop]
  simp only [Uuid.parse, Uuid.digits, Uuid.hyphenated, hlen, Nat.reduceEqDiff, if_false, if_true, hsplit,
    List.length_take, List.length_drop, hl]
  simp only [Nat.reduceSub, Nat.reduceLeDiff, Nat.min_eq_left, and_self, if_true]
  rw [show d.take 8 ++ List.take 4 (d.drop 8) ++ List.take 4 (d.drop 12) ++ List.take 4 (d.drop 16) ++ d.drop 20
      = d from hcat]
  rw [hv]
  simp

theorem Uuid.print_inj {u v : Uuid} (h : u.print = v.print) : u = v := by
  have h1 := Uuid.parse_print u
  rw [h, Uuid.parse_print v] at h1
  exact (Option.some.inj h1).symm

end Oid4vp
