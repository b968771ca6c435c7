import Verif.Lemmas.UrlJoin
import Verif.Props.UrlText
/-!
# C110: where a reference leads
-/

set_option autoImplicit false

namespace Oid4vp

open Spec

/-- **C110** A text leads from a URL to another one exactly as the URL standard says. -/
theorem C110_resolves {base : Url} (hw : base.WF) (s : Str) (u : Url) :
    base.join s = some u ↔ Resolves base s u := by
  constructor
  · intro h
    rw [Url.join] at h
    split at h
    · next name rest hs =>
      obtain ⟨w, hsch, e⟩ := (splitScheme_iff _ _ _).mp hs
      split at h
      · next hc =>
        simp only [Bool.and_eq_true, decide_eq_true_eq, Bool.not_eq_true'] at hc
        obtain ⟨⟨h1, rfl⟩, h2⟩ := hc
        exact .sameScheme ((cleaned_iff _ _).mpr rfl) e hsch ((special_iff _).mpr h1) ((twoSlashes_iff _).mp h2)
          ((refText_iff hw _ _).mpr h)
      · next hc =>
        refine .own ((cleaned_iff _ _).mpr rfl) e hsch ?_ ((C70_url_iff _ _).mp h)
        rintro ⟨h1, h2, h3⟩
        apply hc
        rw [(special_iff _).mp h1, (twoSlashes_iff _).mpr h3, h2]
        simp
    · next hs =>
      refine .noScheme ((cleaned_iff _ _).mpr rfl) ?_ ((refText_iff hw _ _).mpr h)
      intro w n r hsch e
      rw [(splitScheme_iff _ _ _).mpr ⟨w, hsch, e⟩] at hs
      cases hs
  · intro h
    cases h with
    | own hc e hsch hn hu =>
      rename_i t written name rest
      have := ((cleaned_iff _ _).mp hc).symm
      rw [Url.join, this, (splitScheme_iff _ _ _).mpr ⟨_, hsch, e⟩]
      dsimp only
      rw [if_neg, (C70_url_iff _ _).mpr hu]
      intro hcond
      simp only [Bool.and_eq_true, decide_eq_true_eq, Bool.not_eq_true'] at hcond
      exact hn ⟨(special_iff _).mpr hcond.1.1, hcond.1.2, (twoSlashes_iff _).mp hcond.2⟩
    | sameScheme hc e hsch hsp h2 hr =>
      have := ((cleaned_iff _ _).mp hc).symm
      rw [Url.join, this, (splitScheme_iff _ _ _).mpr ⟨_, hsch, e⟩]
      dsimp only
      rw [if_pos, (refText_iff hw _ _).mp hr]
      rw [(special_iff _).mp hsp, (twoSlashes_iff _).mpr h2]
      simp
    | noScheme hc hn hr =>
      rename_i t
      have := ((cleaned_iff _ _).mp hc).symm
      have hs : splitScheme t = none := by
        cases hs : splitScheme t with
        | none => rfl
        | some p =>
          obtain ⟨w, hsch, e⟩ := (splitScheme_iff _ _ _).mp hs
          exact absurd e (hn _ _ _ hsch)
      rw [Url.join, this, hs]
      exact (refText_iff hw _ _).mp hr

/-- **C110** It leads to one URL at most. -/
theorem C110_unique {base : Url} (hw : base.WF) {s : Str} {u v : Url} (hu : Resolves base s u)
    (hv : Resolves base s v) : u = v := by
  have h1 := (C110_resolves hw s u).mpr hu
  rw [(C110_resolves hw s v).mpr hv] at h1
  exact (Option.some.inj h1).symm

theorem relativeHier_ok {base : Url} (hw : base.WF) (hh : Hierarchical base) {s : Str} {a : Option Str} {p : Str}
    (h : relativeHier base s = some (a, p)) :
    (∀ x, a = some x → normAuthority base.scheme x = some x) ∧
    (∀ r, p = '/' :: r → hierPath (isSpecial base.scheme) r = '/' :: r) ∧
    (a ≠ none → p = [] ∨ ∃ r, p = '/' :: r) ∧
    (a = none → ∃ r, p = '/' :: r) ∧
    (isSpecial base.scheme = true → a ≠ none ∧ p ≠ []) := by
  have hpath : ∀ q, PathNorm (isSpecial base.scheme) q → some (base.authority, q) = some (a, p) →
      (∀ x, a = some x → normAuthority base.scheme x = some x) ∧
      (∀ r, p = '/' :: r → hierPath (isSpecial base.scheme) r = '/' :: r) ∧
      (a ≠ none → p = [] ∨ ∃ r, p = '/' :: r) ∧
      (a = none → ∃ r, p = '/' :: r) ∧
      (isSpecial base.scheme = true → a ≠ none ∧ p ≠ []) := by
    intro q hq e
    cases e
    obtain ⟨l, -, rfl, -⟩ := id hq
    refine ⟨hw.auth_ok, ?_, fun _ => .inr ⟨_, rfl⟩, fun _ => ⟨_, rfl⟩, fun hs => ⟨(hw.special hs).1, by simp⟩⟩
    rintro r e
    rw [e] at hq
    exact pathNorm_iff.mp hq
  simp only [relativeHier] at h
  split at h
  · cases h
    refine ⟨hw.auth_ok, hw.path_ok, hw.path_auth, ?_, hw.special⟩
    intro hn
    rcases hh with hh | hh
    · exact absurd hn hh
    · cases hp : base.path with
      | nil => rw [hp] at hh; cases hh
      | cons c r => rw [hp] at hh; cases hh; exact ⟨r, rfl⟩
  · next c cs =>
    split at h
    · next hc =>
      split at h
      · next d r =>
        split at h
        · next hd =>
          obtain ⟨h1, h2, h3, h4, h5⟩ := readHier_ok h
          refine ⟨h1, h2, h3, ?_, h5⟩
          intro hn
          subst hn
          exfalso
          rw [readHier.eq_def] at h
          split at h
          · dsimp only at h
            split at h <;> cases h
          · next hs =>
            rw [Bool.not_eq_true] at hs
            rw [hs, slash_false] at hc hd
            subst hc hd
            cases hn : normAuthority base.scheme (splitSlash false r).1 <;> simp [hn] at h
        · exact hpath _ (hierPath_ok _ _) h
      · exact hpath _ (hierPath_ok _ _) h
    · obtain ⟨dir, hd⟩ := dirText_exists (base_path hw hh)
      rw [beside_path_eq (base_path hw hh) hd] at h
      exact hpath _ (hierPath_ok _ _) h

/-- **C110** What it leads to is a URL as the crate can hold it: printing and reading give it back. -/
theorem C110_wf {base : Url} (hw : base.WF) {s : Str} {u : Url} (h : Resolves base s u) : u.WF := by
  have key : ∀ {s : Str}, RefText base s u → u.WF := by
    intro s h
    rw [refText_iff hw, Url.relative] at h
    generalize splitOpt '#' s = hqf at h
    obtain ⟨hq, f⟩ := hqf
    dsimp only at h
    generalize splitOpt '?' hq = hhh at h
    obtain ⟨hier, q⟩ := hhh
    dsimp only at h
    split at h
    · next hc =>
      split at h
      · next a p hr =>
        cases h
        have hqk : ∀ x, (if hier = [] ∧ q = none then base.query
            else q.map (escape (queryKeep (isSpecial base.scheme)))) = some x →
            ∀ c ∈ x, queryKeep (isSpecial base.scheme) c = true := by
          intro x hx
          split at hx
          · exact hw.query_ok x hx
          · obtain ⟨q', -, rfl⟩ := Option.map_eq_some_iff.mp hx
            exact escape_all (queryKeep_esc _) _
        have hfk : ∀ x, f.map (escape fragmentKeep) = some x → ∀ c ∈ x, fragmentKeep c = true := by
          intro x hx
          obtain ⟨q', -, rfl⟩ := Option.map_eq_some_iff.mp hx
          exact escape_all fragmentKeep_esc _
        by_cases hh : Hierarchical base
        · obtain ⟨h1, h2, h3, h4, h5⟩ := relativeHier_ok hw hh hr
          refine ⟨hw.scheme_ok, h1, h2, h3, ?_, ?_, hqk, hfk, h5⟩
          · intro ha hn
            obtain ⟨r, e⟩ := h4 ha
            exact absurd e (hn r)
          · intro ha hn
            obtain ⟨r, e⟩ := h4 ha
            exact absurd e (hn r)
        · rw [Bool.or_eq_true, canBeBase_iff] at hc
          rcases hc with hc | hc
          · exact absurd hc hh
          · simp only [Bool.and_eq_true, decide_eq_true_eq] at hc
            obtain ⟨⟨rfl, -⟩, hf⟩ := hc
            cases hr
            refine ⟨hw.scheme_ok, hw.auth_ok, hw.path_ok, hw.path_auth, hw.path_opaque, ?_, hqk, hfk, hw.special⟩
            intro _ _ _ hn
            cases f with
            | none => cases hf
            | some f => cases hn
      · cases h
    · cases h
  cases h with
  | own _ _ _ _ hu => exact Url.parse_wf ((C70_url_iff _ _).mpr hu)
  | sameScheme _ _ _ _ _ hr => exact key hr
  | noScheme _ _ hr => exact key hr

/-- **C110** The text of a URL leads to that URL from everywhere. -/
theorem C110_absolute {base u : Url} (hu : u.WF) : Resolves base u.print u := by
  have ht : UrlText u.print u := (C70_url_iff _ _).mp (Url.parse_print hu)
  obtain ⟨c, cs, hs, hc, hcs⟩ := hu.scheme_ok
  have hsch : SchemeText u.scheme u.scheme := by
    rw [schemeText_iff]
    refine ⟨c, cs, hs, isAlpha_of_isLower hc, List.all_eq_true.mpr fun x hx => (hcs x hx).1, ?_⟩
    rw [hs, List.map_cons, asciiLower_of_isLower hc]
    congr 1
    conv_lhs => rw [← List.map_id cs]
    exact (List.map_congr_left fun x hx => (hcs x hx).2).symm
  refine .own (rest := authText u.authority ++ (guardText u.authority u.path ++ (u.path ++
    (optText '?' u.query ++ optText '#' u.fragment)))) ((cleaned_iff _ _).mpr (urlInput_print hu).symm)
    (by rw [Url.print]; simp) hsch ?_ ht
  rintro ⟨h1, -, h3⟩
  have := (hu.special ((special_iff _).mp h1)).1
  cases ha : u.authority with
  | none => exact this ha
  | some a =>
    rw [ha] at h3
    exact h3 '/' '/' _ rfl ⟨.inl rfl, .inl rfl⟩

/-- **C110** A reference that neither begins with a scheme nor with two separators stays at the scheme and the
authority of the base. -/
theorem C110_same_place {base : Url} {s t : Str} {u : Url} (h : Resolves base s u) (ht : Cleaned s t)
    (hn : ∀ written name rest, SchemeText written name → t ≠ written ++ c!":" ++ rest)
    (h2 : ∀ c d r, t = c :: d :: r → ¬ (Separator true c ∧ Separator true d)) :
    u.scheme = base.scheme ∧ u.authority = base.authority := by
  have hu : ∀ {x}, Cleaned s x → x = t := by
    intro x hx
    rw [cleaned_iff] at hx ht
    rw [hx, ht]
  cases h with
  | own hc e hsch => exact absurd ((hu hc).symm.trans e) (hn _ _ _ hsch)
  | sameScheme hc e hsch => exact absurd ((hu hc).symm.trans e) (hn _ _ _ hsch)
  | noScheme hc _ hr =>
    obtain rfl := hu hc
    obtain ⟨hier, q, f, sp, e, -, -, -, -, h3, hh, -, -⟩ := hr
    refine ⟨h3, ?_⟩
    generalize u.authority = a at hh ⊢
    generalize u.path = p at hh
    cases hh with
    | same => rfl
    | authority hc hd _ =>
      have w : ∀ {c : Char}, Separator sp c → Separator true c := by
        rintro c (h | h)
        · exact .inl h
        · exact .inr ⟨rfl, h.2⟩
      exact absurd ⟨w hc, w hd⟩ (h2 _ _ _ (by rw [e]; rfl))
    | rooted _ _ _ => rfl
    | beside _ _ _ _ => rfl

/-- **C110** A fragment alone changes nothing but the fragment, and can be resolved against every URL. -/
theorem C110_fragment {base : Url} {f g : Str} (hf : Escaped FragmentKept f g) (hc : Cleaned (c!"#" ++ f) (c!"#" ++ f)) :
    Resolves base (c!"#" ++ f) { base with fragment := some g } := by
  refine .noScheme hc ?_ ⟨[], none, some f, isSpecial base.scheme, rfl, by simp, by simp [marked],
    (special_iff _).symm, .inr ⟨rfl, rfl, by simp⟩, rfl, .same, by simp, .some hf⟩
  intro w n r hs e
  obtain ⟨⟨c, cs, rfl, hc, -⟩, -⟩ := hs
  have : c = '#' := (List.cons.inj e).1.symm
  subst this
  revert hc; decide

/-- A base with everything, and references of all kinds. -/
def joinBase : Url := ⟨c!"https", some c!"u@h.org:8", c!"/a/b/c", some c!"q", some c!"f"⟩

theorem joinBase_wf : joinBase.WF := Url.parse_wf (s := c!"https://u@h.org:8/a/b/c?q#f") (by decide +kernel)

example : Resolves joinBase c!"" { joinBase with fragment := none } ∧
    Resolves joinBase c!"?x" { joinBase with query := some c!"x", fragment := none } ∧
    Resolves joinBase c!" ../%2e/d e?'#g" ⟨c!"https", some c!"u@h.org:8", c!"/a/d%20e", some c!"%27", some c!"g"⟩ ∧
    Resolves joinBase c!"../../../.." ⟨c!"https", some c!"u@h.org:8", c!"/", none, none⟩ ∧
    Resolves joinBase c!"/r/./s" ⟨c!"https", some c!"u@h.org:8", c!"/r/s", none, none⟩ ∧
    Resolves joinBase c!"/\\O.org/p" ⟨c!"https", some c!"o.org", c!"/p", none, none⟩ ∧
    Resolves joinBase c!"HTTPS:z" ⟨c!"https", some c!"u@h.org:8", c!"/a/b/z", none, none⟩ ∧
    Resolves joinBase c!"http:z" ⟨c!"http", some c!"z", c!"/", none, none⟩ ∧
    Resolves joinBase c!"1:2" ⟨c!"https", some c!"u@h.org:8", c!"/a/b/1:2", none, none⟩ := by
  refine ⟨?_, ?_, ?_, ?_, ?_, ?_, ?_, ?_, ?_⟩ <;> rw [← C110_resolves joinBase_wf] <;> decide +kernel

/-- An opaque path is no base, except for a fragment. -/
example : (∀ u, ¬ Resolves ⟨c!"x", none, c!"a", none, none⟩ c!"b" u) ∧
    Resolves ⟨c!"x", none, c!"a", none, none⟩ c!"#b" ⟨c!"x", none, c!"a", none, some c!"b"⟩ := by
  have hw : Url.WF ⟨c!"x", none, c!"a", none, none⟩ := Url.parse_wf (s := c!"x:a") (by decide +kernel)
  refine ⟨fun u hu => ?_, (C110_resolves hw _ _).mp (by decide +kernel)⟩
  rw [← C110_resolves hw] at hu
  have : Url.join ⟨c!"x", none, c!"a", none, none⟩ c!"b" = none := by decide +kernel
  rw [this] at hu; cases hu

/-- What `C110_same_place`, `C110_fragment` and `C110_absolute` ask for. -/
example : Cleaned c!"../d" c!"../d" ∧
    (∀ written name rest, SchemeText written name → c!"../d" ≠ written ++ c!":" ++ rest) ∧
    (∀ c d r, c!"../d" = c :: d :: r → ¬ (Separator true c ∧ Separator true d)) ∧
    Cleaned (c!"#" ++ c!"f`") (c!"#" ++ c!"f`") ∧ Escaped FragmentKept c!"f`" c!"f%60" ∧
    Resolves joinBase c!"x:y" ⟨c!"x", none, c!"y", none, none⟩ := by
  refine ⟨(cleaned_iff _ _).mpr (by decide), ?_, ?_, (cleaned_iff _ _).mpr (by decide),
    (escaped_iff fragmentKept_iff _ _).mpr (by decide), (C110_resolves joinBase_wf _ _).mp (by decide +kernel)⟩
  · intro w n r hs e
    have := (splitScheme_iff _ n r).mpr ⟨w, hs, e⟩
    revert this
    have : splitScheme c!"../d" = none := by decide
    rw [this]; simp
  · rintro c d r ⟨⟩; simp [Separator]

end Oid4vp
