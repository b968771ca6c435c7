import Verif.Lemmas.UrlRead
/-!
# C70: which texts are URLs
-/

set_option autoImplicit false

namespace Oid4vp

open Spec

/-- **C70** A text is read as a URL exactly if it is a text of that URL. -/
theorem C70_url_iff (s : Str) (u : Url) : Url.parse s = some u ↔ UrlText s u := by
  constructor
  · intro h
    simp only [Url.parse] at h
    split at h
    · cases h
    · next sch rest hs =>
      obtain ⟨hs, hcol⟩ := splitOnce_eq_some.mp hs
      split at h
      · cases h
      · rename_i c cs _
        split at h
        · next hc =>
          generalize hf : splitOpt '#' rest = hqf at h
          obtain ⟨hq, f⟩ := hqf
          dsimp only at h
          generalize hq' : splitOpt '?' hq = hh at h
          obtain ⟨hier, q⟩ := hh
          dsimp only at h
          obtain ⟨rfl, hf2⟩ := splitOpt_eq hf
          obtain ⟨rfl, hq2⟩ := splitOpt_eq hq'
          split at h
          · next a p hr =>
            cases h
            refine ⟨c :: cs, hier, q, f, (cleaned_iff _ _).mpr ?_,
              (schemeText_iff _ _).mpr ⟨c, cs, rfl, hc.1, hc.2, rfl⟩, hq2, ?_, (hierText_iff _ _ _ _).mpr hr,
              ⟨_, by rw [special_iff], (optEscaped_iff (queryKept_iff _) _ _).mpr rfl⟩,
              (optEscaped_iff fragmentKept_iff _ _).mpr rfl⟩
            · rw [hs, marked_opt, marked_opt]; simp
            · rw [marked_opt]; exact hf2
          · cases h
        · cases h
  · rintro ⟨scheme, hier, q, f, hc, hsch, hq, hf, hh, ⟨sp, hsp, hqe⟩, hfe⟩
    rw [cleaned_iff] at hc
    obtain ⟨c, cs, rfl, h1, h2, h3⟩ := (schemeText_iff _ _).mp hsch
    rw [hierText_iff] at hh
    rw [special_iff] at hsp
    have hsp : sp = isSpecial u.scheme := Bool.eq_iff_iff.mpr hsp
    subst hsp
    rw [optEscaped_iff (queryKept_iff _)] at hqe
    rw [optEscaped_iff fragmentKept_iff] at hfe
    rw [marked_opt, marked_opt] at hc
    rw [marked_opt] at hf
    have hcol : ':' ∉ c :: cs := by
      rw [List.mem_cons, not_or]
      refine ⟨fun e => ?_, fun hm => isSchemeChar_not_colon (List.all_eq_true.mp h2 _ hm) rfl⟩
      rw [← e] at h1; revert h1; decide
    have e : urlInput s = (c :: cs) ++ ':' :: ((hier ++ optText '?' q) ++ optText '#' f) := by
      rw [← hc]; simp
    rw [Url.parse, e, splitOnce_append hcol]
    dsimp only
    rw [if_pos ⟨h1, h2⟩, splitOpt_optText hf, splitOpt_optText hq, ← h3]
    dsimp only
    rw [hh]
    dsimp only
    rw [← hqe, ← hfe]

/-- **C70** A text denotes at most one URL. -/
theorem C70_url_unique {s : Str} {u v : Url} (hu : UrlText s u) (hv : UrlText s v) : u = v := by
  have h1 := (C70_url_iff s u).mpr hu
  rw [(C70_url_iff s v).mpr hv] at h1
  exact (Option.some.inj h1).symm

/-- **C70** What is printed for a URL that was read denotes that URL. -/
theorem C70_print_denotes {s : Str} {u : Url} (h : UrlText s u) : UrlText u.print u :=
  (C70_url_iff _ _).mp (Url.parse_print (Url.parse_wf ((C70_url_iff s u).mpr h)))


/-- **C70** Reading normalises: what is printed for a URL that was read is read back as it, and printed the same. -/
theorem C70_print_fixed {s : Str} {u v : Url} (h : UrlText s u) (hv : UrlText u.print v) : v = u ∧ v.print = u.print := by
  have := C70_url_unique (C70_print_denotes h) hv
  exact ⟨this.symm, by rw [this]⟩

/-- A URL with all components, a capital scheme with all kinds of characters, and an empty path. -/
example : UrlText c!"oPenid4vp+X-1.2:a/b?c?d#e#f" ⟨c!"openid4vp+x-1.2", none, c!"a/b", some c!"c?d",
    some c!"e#f"⟩ ∧ UrlText c!"HTTPS://h:1?q" ⟨c!"https", some c!"h:1", c!"/", some c!"q", none⟩ := by
  constructor <;> rw [← C70_url_iff] <;> decide

/-- What is ignored, backslashes, credentials, capital letters, escapes in domains, the port of the scheme, dots. -/
example : UrlText c!" \tht\ntps:\\/u s:p@EX%41mple.Org:0443/a/../b/%2e/c d?'#`\x00 " ⟨c!"https", some c!"u%20s:p@example.org",
    c!"/b/c%20d", some c!"%27", some c!"%60"⟩ := by
  rw [← C70_url_iff]; decide +kernel

/-- Addresses in numbers: hexadecimal and octal, few parts, eight pieces. -/
example : UrlText c!"http://0x7f.1:8080/" ⟨c!"http", some c!"127.0.0.1:8080", c!"/", none, none⟩ ∧
    UrlText c!"x://[2001:DB8:0:0:1::]:80" ⟨c!"x", some c!"[2001:db8:0:0:1::]:80", [], none, none⟩ ∧
    UrlText c!"ws://[::ffff:1.2.3.4]" ⟨c!"ws", some c!"[::ffff:102:304]", c!"/", none, none⟩ := by
  refine ⟨?_, ?_, ?_⟩ <;> rw [← C70_url_iff] <;> decide +kernel

/-- What is not a URL: no host, an address that is too large, a port that is too large, characters no host has. -/
example : (∀ u, ¬ UrlText c!"https://" u) ∧ (∀ u, ¬ UrlText c!"https://1.2.3.256" u) ∧
    (∀ u, ¬ UrlText c!"https://h:65536" u) ∧ (∀ u, ¬ UrlText c!"x://a^b" u) ∧ (∀ u, ¬ UrlText c!"1x:a" u) := by
  have no : ∀ {s}, Url.parse s = none → ∀ u, ¬ UrlText s u := by
    intro s h u hu
    rw [← C70_url_iff, h] at hu
    cases hu
  exact ⟨no (by decide +kernel), no (by decide +kernel), no (by decide +kernel), no (by decide +kernel),
    no (by decide +kernel)⟩

/-- A path that begins with two slashes without an authority is printed so that it is read back. -/
example : UrlText c!"x:/.//p" ⟨c!"x", none, c!"//p", none, none⟩ ∧
    Url.print ⟨c!"x", none, c!"//p", none, none⟩ = c!"x:/.//p" := by
  rw [← C70_url_iff]; decide +kernel

end Oid4vp
