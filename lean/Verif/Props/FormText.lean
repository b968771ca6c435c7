import Verif.Lemmas.Lossy
import Verif.Lemmas.FormB
/-!
# C10: which pairs any form text stands for
-/

set_option autoImplicit false

namespace Oid4vp

open Spec

theorem splitOnceB_some {c : UInt8} {s a b : Bytes} :
    splitOnceB c s = some (a, b) ↔ s = a ++ c :: b ∧ c ∉ a := by
  induction s generalizing a b with
  | nil => simp [splitOnceB]
  | cons x xs ih =>
    simp only [splitOnceB]
    by_cases hx : x = c
    · rw [if_pos hx]
      subst hx
      constructor
      · intro h; cases h; simp
      · rintro ⟨h, hn⟩
        cases a with
        | nil => simp at h; rw [h]
        | cons y a => simp at h; exact absurd (by simp [h.1]) hn
    · rw [if_neg hx]
      constructor
      · intro h
        cases hs : splitOnceB c xs with
        | none => rw [hs] at h; simp at h
        | some p =>
          obtain ⟨a', b'⟩ := p
          rw [hs] at h
          simp only [Option.some.injEq, Prod.mk.injEq] at h
          obtain ⟨rfl, rfl⟩ := h
          obtain ⟨h1, h2⟩ := ih.mp hs
          exact ⟨by rw [h1]; rfl, by simp [h2, Ne.symm hx]⟩
      · rintro ⟨h, hn⟩
        cases a with
        | nil => simp at h; exact absurd h.1 hx
        | cons y a =>
          simp only [List.cons_append, List.cons.injEq] at h
          simp only [List.mem_cons, not_or] at hn
          rw [ih.mpr ⟨h.2, hn.2⟩, h.1]

theorem splitOnceB_none {c : UInt8} {s : Bytes} : splitOnceB c s = none ↔ c ∉ s := by
  induction s with
  | nil => simp [splitOnceB]
  | cons x xs ih =>
    simp only [splitOnceB]
    by_cases hx : x = c
    · rw [if_pos hx]; simp [hx]
    · rw [if_neg hx]
      cases hs : splitOnceB c xs with
      | none => simp only [List.mem_cons, not_or, true_iff]; exact ⟨Ne.symm hx, ih.mp hs⟩
      | some p =>
        simp only [reduceCtorEq, List.mem_cons, not_or, false_iff]
        intro h
        rw [ih.mpr h.2] at hs; simp at hs

theorem formPieceB_iff {s : Bytes} {p : Str × Str} : formPieceB s = p ↔ FormPair s p := by
  have dec : ∀ b : Bytes, ∀ t : Str, utf8Lossy (pctDec b) = t ↔ ∃ b', FormBytes b b' ∧ Lossy b' t := by
    intro b t
    constructor
    · intro h; exact ⟨_, pctDec_bytes b, utf8Lossy_iff.mp h⟩
    · rintro ⟨b', h1, h2⟩
      rw [formBytes_fun (pctDec_bytes b) h1]; exact utf8Lossy_iff.mpr h2
  obtain ⟨t, u⟩ := p
  simp only [formPieceB, FormPair]
  cases hs : splitOnceB 61 s with
  | some q =>
    obtain ⟨k, v⟩ := q
    obtain ⟨e, hn⟩ := splitOnceB_some.mp hs
    simp only [Prod.mk.injEq, dec]
    constructor
    · rintro ⟨⟨bk, h1, h2⟩, bv, h3, h4⟩
      exact ⟨k, v, bk, bv, hn, .inl e, h1, h3, h2, h4⟩
    · rintro ⟨k', v', bk, bv, hn', he, h1, h3, h2, h4⟩
      rcases he with he | ⟨he, rfl⟩
      · have := splitOnceB_some.mpr ⟨he, hn'⟩
        rw [hs] at this
        cases this
        exact ⟨⟨bk, h1, h2⟩, bv, h3, h4⟩
      · rw [he] at e
        exact absurd (by rw [e]; simp) hn'
  | none =>
    have hn := splitOnceB_none.mp hs
    simp only [Prod.mk.injEq, dec]
    constructor
    · rintro ⟨⟨bk, h1, h2⟩, rfl⟩
      exact ⟨s, [], bk, [], hn, .inr ⟨rfl, rfl⟩, h1, .nil, h2, .nil⟩
    · rintro ⟨k', v', bk, bv, hn', he, h1, h3, h2, h4⟩
      rcases he with he | ⟨rfl, rfl⟩
      · exact absurd (by rw [he]; simp) hn
      · refine ⟨⟨bk, h1, h2⟩, ?_⟩
        have e : bv = [] := formBytes_fun h3 .nil
        rw [e] at h4
        exact utf8Lossy_iff.mpr h4

theorem splitOnB_notMem {c : UInt8} {s : Bytes} (h : c ∉ s) : splitOnB c s = [s] := by
  have := splitOnB_prefix (b := c) (p := s) (s := []) h rfl
  simpa using this

theorem splitOnB_append {c : UInt8} {a b : Bytes} (h : c ∉ a) :
    splitOnB c (a ++ c :: b) = a :: splitOnB c b := by
  have := splitOnB_prefix (b := c) (p := a) (s := c :: b) (x := []) (xs := splitOnB c b) h (by simp [splitOnB])
  simpa using this

theorem formParseB_of {s : Bytes} {l : List (Str × Str)} (h : FormList s l) : formParseB s = l := by
  induction h with
  | nil => rfl
  | @last piece p h1 h2 h3 =>
    rw [formParseB, splitOnB_notMem h2]
    cases piece with
    | nil => exact absurd rfl h1
    | cons x xs => simp [formPieceB_iff.mpr h3]
  | skip h ih =>
    rw [formParseB] at ih ⊢
    simpa [splitOnB] using ih
  | @more piece p r l h1 h2 h3 h ih =>
    rw [formParseB] at ih ⊢
    rw [splitOnB_append h2]
    cases piece with
    | nil => exact absurd rfl h1
    | cons x xs => simp [formPieceB_iff.mpr h3, ih]

theorem formList_exists (n : Nat) : ∀ s : Bytes, s.length ≤ n → ∃ l, FormList s l := by
  induction n with
  | zero =>
    intro s hs
    cases s with
    | nil => exact ⟨_, .nil⟩
    | cons => simp at hs
  | succ n ih =>
    intro s hs
    cases h : splitOnceB 38 s with
    | none =>
      cases s with
      | nil => exact ⟨_, .nil⟩
      | cons x xs => exact ⟨_, .last (by simp) (splitOnceB_none.mp h) (formPieceB_iff.mp rfl)⟩
    | some p =>
      obtain ⟨a, r⟩ := p
      obtain ⟨rfl, hn⟩ := splitOnceB_some.mp h
      obtain ⟨l, hl⟩ := ih r (by simp at hs; omega)
      cases a with
      | nil => exact ⟨_, .skip hl⟩
      | cons x xs => exact ⟨_, .more (by simp) hn (formPieceB_iff.mp rfl) hl⟩

/-- **C10** A form body, well-formed or not, is read as a list of pairs exactly if it stands for it. -/
theorem C10_form_body (b : Bytes) (l : List (Str × Str)) : formParseB b = l ↔ FormList b l := by
  refine ⟨?_, formParseB_of⟩
  rintro rfl
  obtain ⟨l, h⟩ := formList_exists _ b (Nat.le_refl _)
  rw [formParseB_of h]; exact h

/-- **C10** The same for a text, such as the query of a URL. -/
theorem C10_form_text (s : Str) (l : List (Str × Str)) :
    formParse s = l ↔ FormList (s.flatMap String.utf8EncodeChar) l := by
  rw [← formParseB_utf8, C10_form_body, C10_utf8_standard]

/-- **C10** What a form writer writes stands for what was written, and for nothing else. -/
theorem C10_form_stands (l l' : List (Str × Str)) :
    FormList ((formText l).flatMap String.utf8EncodeChar) l' ↔ l' = l := by
  rw [← C10_form_text, ← C10_form_standard, C10_form_roundtrip]
  exact eq_comm

/-- Empty pieces, a piece without `=`, a second `=`, a truncated character before a `b`, and two stray
bytes. -/
example : FormList (c!"&&a&=1=2&%E2%82b=%FF%80".flatMap String.utf8EncodeChar)
    [(c!"a", []), ([], c!"1=2"), (c!"\uFFFDb", c!"\uFFFD\uFFFD")] :=
  (C10_form_text _ _).mp (by decide +kernel)

end Oid4vp
