import Verif.Model.UrlText
import Verif.Lemmas.Basic
import Verif.Lemmas.Form
import Verif.Lemmas.JsonText
/-!
# Lemmas on escapes, paths and hosts of URLs
-/

set_option autoImplicit false

namespace Oid4vp

/-! ## Escapes -/

theorem escape_nil (keep : Char → Bool) : escape keep [] = [] := rfl

theorem escape_append (keep : Char → Bool) (s t : Str) : escape keep (s ++ t) = escape keep s ++ escape keep t := by
  simp [escape]

theorem escape_kept {keep : Char → Bool} {s : Str} (h : ∀ c ∈ s, keep c = true) : escape keep s = s := by
  induction s with
  | nil => rfl
  | cons c s ih =>
    have : escape keep (c :: s) = (if keep c then [c] else (utf8Char c).flatMap pctByte) ++ escape keep s := rfl
    rw [this, ih (fun x hx => h x (by simp [hx])), h c (by simp)]
    rfl

/-- The characters of escapes. -/
def escChar (c : Char) : Bool := c = '%' || isDigit c || (65 ≤ c.toNat && c.toNat ≤ 70)

theorem hexUpper_escChar : ∀ n : Fin 16, escChar (hexUpper n.val) = true := by decide

theorem pctByte_escChar (b : UInt8) : ∀ c ∈ pctByte b, escChar c = true := by
  intro c hc
  have hb := b.toNat_lt
  simp only [pctByte, List.mem_cons, List.not_mem_nil, or_false] at hc
  rcases hc with rfl | rfl | rfl
  · decide
  · exact hexUpper_escChar ⟨b.toNat / 16, by omega⟩
  · exact hexUpper_escChar ⟨b.toNat % 16, by omega⟩

theorem mem_escape {keep : Char → Bool} {s : Str} {c : Char} (h : c ∈ escape keep s) :
    (c ∈ s ∧ keep c = true) ∨ escChar c = true := by
  simp only [escape, List.mem_flatMap] at h
  obtain ⟨x, hx, hc⟩ := h
  by_cases hk : keep x = true
  · rw [if_pos hk, List.mem_singleton] at hc
    subst hc
    exact .inl ⟨hx, hk⟩
  · rw [if_neg hk, List.mem_flatMap] at hc
    obtain ⟨b, -, hb⟩ := hc
    exact .inr (pctByte_escChar b c hb)

theorem escape_eq_nil {keep : Char → Bool} {s : Str} : escape keep s = [] ↔ s = [] := by
  constructor
  · intro h
    cases s with
    | nil => rfl
    | cons c s =>
      have : escape keep (c :: s) = (if keep c then [c] else (utf8Char c).flatMap pctByte) ++ escape keep s := rfl
      rw [this, List.append_eq_nil_iff] at h
      have h1 := h.1
      split at h1
      · cases h1
      · have hne := utf8Char_ne_nil c
        cases hu : utf8Char c with
        | nil => exact absurd hu hne
        | cons b bs => rw [hu] at h1; simp [pctByte] at h1
  · rintro rfl; rfl

/-- A statement about the characters of escapes is checked on the first 128 characters. -/
theorem escChar_imp {P : Char → Bool}
    (h : ∀ n : Fin 128, escChar (Char.ofNat n.val) = true → P (Char.ofNat n.val) = true) (c : Char)
    (hc : escChar c = true) : P c = true := by
  have hl : c.toNat < 128 := by
    simp only [escChar, isDigit, Bool.or_eq_true, Bool.and_eq_true, decide_eq_true_eq] at hc
    rcases hc with (rfl | hc) | hc
    · decide
    · omega
    · omega
  have := h ⟨c.toNat, hl⟩
  simp only [Char.ofNat_toNat] at this
  exact this hc

theorem escape_all {keep : Char → Bool} (h : ∀ c, escChar c = true → keep c = true) (s : Str) :
    ∀ c ∈ escape keep s, keep c = true := by
  intro c hc
  rcases mem_escape hc with h1 | h1
  · exact h1.2
  · exact h c h1

theorem opaqueKeep_esc : ∀ c, escChar c = true → opaqueKeep c = true := escChar_imp (by decide)
theorem fragmentKeep_esc : ∀ c, escChar c = true → fragmentKeep c = true := escChar_imp (by decide)
theorem pathKeep_esc : ∀ c, escChar c = true → pathKeep c = true := escChar_imp (by decide)
theorem userKeep_esc : ∀ c, escChar c = true → userKeep c = true := escChar_imp (by decide)
theorem queryKeep_esc (sp : Bool) : ∀ c, escChar c = true → queryKeep sp c = true := by
  cases sp
  · exact escChar_imp (by decide)
  · exact escChar_imp (by decide)

/-- Bytes without escapes are not changed. -/
theorem unescape_id {b : Bytes} (h : ∀ x ∈ b, x.toNat ≠ 0x25) : unescape b = b := by
  induction b with
  | nil => rfl
  | cons x b ih =>
    rw [unescape.eq_def]
    simp only [h x (by simp), if_false, ih (fun y hy => h y (by simp [hy]))]

/-! ## Paths -/

theorem segments_ne_nil (sp : Bool) (s : Str) : segments sp s ≠ [] := by
  cases s with
  | nil => simp [segments]
  | cons c s =>
    simp only [segments]
    split
    · simp
    · split <;> simp

theorem segments_clean (sp : Bool) (s : Str) : ∀ x ∈ segments sp s, ∀ c ∈ x, isSlash sp c = false ∧ c ∈ s := by
  induction s with
  | nil => simp [segments]
  | cons c s ih =>
    intro x hx d hd
    simp only [segments] at hx
    split at hx
    · rw [List.mem_cons] at hx
      rcases hx with rfl | hx
      · cases hd
      · exact ⟨(ih x hx d hd).1, List.mem_cons_of_mem _ (ih x hx d hd).2⟩
    · next hc =>
      split at hx
      · next h => exact absurd h (segments_ne_nil sp s)
      · next y ys h =>
        rw [h] at ih
        rw [List.mem_cons] at hx
        rcases hx with rfl | hx
        · rw [List.mem_cons] at hd
          rcases hd with rfl | hd
          · exact ⟨by simpa using hc, by simp⟩
          · exact ⟨(ih y (by simp) d hd).1, List.mem_cons_of_mem _ (ih y (by simp) d hd).2⟩
        · exact ⟨(ih x (by simp [hx]) d hd).1, List.mem_cons_of_mem _ (ih x (by simp [hx]) d hd).2⟩

theorem segments_of_clean {sp : Bool} {s : Str} (h : ∀ c ∈ s, isSlash sp c = false) : segments sp s = [s] := by
  induction s with
  | nil => rfl
  | cons c s ih =>
    simp [segments, h c (by simp), ih (fun x hx => h x (by simp [hx]))]

theorem segments_append {sp : Bool} {s t : Str} {d : Char} (h : ∀ c ∈ s, isSlash sp c = false)
    (hd : isSlash sp d = true) : segments sp (s ++ d :: t) = s :: segments sp t := by
  induction s with
  | nil => simp [segments, hd]
  | cons c s ih =>
    rw [List.cons_append, segments, ih (fun x hx => h x (by simp [hx]))]
    simp [h c (by simp)]

theorem isSlash_slash (sp : Bool) : isSlash sp '/' = true := by cases sp <;> rfl

theorem segments_join {sp : Bool} {l : List Str} (hl : l ≠ []) (h : ∀ x ∈ l, ∀ c ∈ x, isSlash sp c = false) :
    segments sp (joinWith '/' l) = l := by
  induction l with
  | nil => exact absurd rfl hl
  | cons x l ih =>
    cases l with
    | nil => simpa [joinWith] using segments_of_clean (h x (by simp))
    | cons y l =>
      rw [joinWith, segments_append (h x (by simp)) (isSlash_slash sp)]
      · rw [ih (by simp) (fun z hz => h z (by simp [hz]))]
      all_goals simp

theorem walk_ne_nil {l : List Str} (hl : l ≠ []) (acc : List Str) : walk acc l ≠ [] := by
  induction l generalizing acc with
  | nil => exact absurd rfl hl
  | cons x l ih =>
    cases l with
    | nil => simp only [walk]; split <;> [skip; split] <;> simp
    | cons y l =>
      simp only [walk]
      split
      · exact ih (by simp) _
      · split
        · exact ih (by simp) _
        · exact ih (by simp) _

theorem walk_all {P : Str → Prop} (h0 : P []) {l : List Str} (acc : List Str) (ha : ∀ x ∈ acc, P x)
    (hl : ∀ x ∈ l, isDotDot x = false → isDot x = false → P x) : ∀ x ∈ walk acc l, P x := by
  induction l generalizing acc with
  | nil => exact ha
  | cons x l ih =>
    have hd : ∀ z ∈ acc.dropLast, P z := fun z hz => ha z (List.dropLast_subset _ hz)
    have hx : isDotDot x ≠ true → isDot x ≠ true → ∀ z ∈ acc ++ [x], P z := by
      intro h1 h2 z hz
      rw [List.mem_append, List.mem_singleton] at hz
      rcases hz with hz | rfl
      · exact ha z hz
      · exact hl z (by simp) (by simpa using h1) (by simpa using h2)
    cases l with
    | nil =>
      intro z hz
      simp only [walk] at hz
      split at hz
      · rw [List.mem_append, List.mem_singleton] at hz
        rcases hz with hz | rfl
        · exact hd z hz
        · exact h0
      · split at hz
        · rw [List.mem_append, List.mem_singleton] at hz
          rcases hz with hz | rfl
          · exact ha z hz
          · exact h0
        · exact hx (by assumption) (by assumption) z hz
    | cons y l =>
      simp only [walk]
      have hl' : ∀ x ∈ y :: l, isDotDot x = false → isDot x = false → P x := fun z hz => hl z (by simp [hz])
      split
      · exact ih _ hd hl'
      · split
        · exact ih _ ha hl'
        · exact ih _ (hx (by assumption) (by assumption)) hl'

theorem walk_id {l : List Str} (acc : List Str) (hl : ∀ x ∈ l, isDotDot x = false ∧ isDot x = false) :
    walk acc l = acc ++ l := by
  induction l generalizing acc with
  | nil => simp [walk]
  | cons x l ih =>
    have hx := hl x (by simp)
    cases l with
    | nil => simp [walk, hx.1, hx.2]
    | cons y l =>
      simp only [walk, hx.1, hx.2]
      rw [if_neg (by simp), if_neg (by simp), ih _ (fun z hz => hl z (by simp [hz]))]
      simp

/-- A path segment as it stays. -/
def SegOk (sp : Bool) (x : Str) : Prop :=
  (∀ c ∈ x, isSlash sp c = false ∧ pathKeep c = true) ∧ isDotDot x = false ∧ isDot x = false

theorem SegOk.nil (sp : Bool) : SegOk sp [] := ⟨by simp, rfl, rfl⟩

/-- A path as it stays. -/
def PathNorm (sp : Bool) (p : Str) : Prop := ∃ l, l ≠ [] ∧ p = '/' :: joinWith '/' l ∧ ∀ x ∈ l, SegOk sp x

theorem isSlash_esc (sp : Bool) : ∀ c, escChar c = true → isSlash sp c = false := by
  intro c h
  have : (!isSlash sp c) = true := by
    cases sp
    · exact escChar_imp (P := fun c => !isSlash false c) (by decide) c h
    · exact escChar_imp (P := fun c => !isSlash true c) (by decide) c h
  simpa using this

theorem hierPath_ok (sp : Bool) (s : Str) : PathNorm sp (hierPath sp s) := by
  refine ⟨_, walk_ne_nil (by simpa using segments_ne_nil sp s) [], rfl, ?_⟩
  apply walk_all (SegOk.nil sp) [] (by simp)
  intro x hx h1 h2
  refine ⟨?_, h1, h2⟩
  obtain ⟨y, hy, rfl⟩ := List.mem_map.mp hx
  intro c hc
  rcases mem_escape hc with h | h
  · exact ⟨(segments_clean sp s y hy c h.1).1, h.2⟩
  · exact ⟨isSlash_esc sp c h, pathKeep_esc c h⟩

theorem hierPath_join {sp : Bool} {l : List Str} (hl : l ≠ []) (h : ∀ x ∈ l, SegOk sp x) :
    hierPath sp (joinWith '/' l) = '/' :: joinWith '/' l := by
  rw [hierPath, segments_join hl (fun x hx c hc => ((h x hx).1 c hc).1)]
  have : l.map (escape pathKeep) = l := by
    conv_rhs => rw [← List.map_id l]
    apply List.map_congr_left
    intro x hx
    exact escape_kept (fun c hc => ((h x hx).1 c hc).2)
  rw [this, walk_id [] (fun x hx => (h x hx).2)]
  rfl

theorem pathNorm_iff {sp : Bool} {r : Str} : PathNorm sp ('/' :: r) ↔ hierPath sp r = '/' :: r := by
  constructor
  · rintro ⟨l, hl, e, h⟩
    obtain ⟨-, rfl⟩ := List.cons.inj e
    exact hierPath_join hl h
  · intro h; rw [← h]; exact hierPath_ok sp r

theorem hierPath_idem {sp : Bool} {s r : Str} (h : hierPath sp s = '/' :: r) : hierPath sp r = '/' :: r :=
  pathNorm_iff.mp (h ▸ hierPath_ok sp s)

theorem mem_joinWith {c d : Char} {l : List Str} (h : d ∈ joinWith c l) : d = c ∨ ∃ x ∈ l, d ∈ x := by
  induction l with
  | nil => simp [joinWith] at h
  | cons x l ih =>
    cases l with
    | nil => exact .inr ⟨x, by simp, by simpa [joinWith] using h⟩
    | cons y l =>
      rw [joinWith, List.mem_append, List.mem_cons] at h
      · rcases h with h | h | h
        · exact .inr ⟨x, by simp, h⟩
        · exact .inl h
        · rcases ih h with h | ⟨z, hz, h⟩
          · exact .inl h
          · exact .inr ⟨z, by simp [hz], h⟩
      · simp

theorem PathNorm.chars {sp : Bool} {p : Str} (h : PathNorm sp p) :
    ∀ c ∈ p, c = '/' ∨ (isSlash sp c = false ∧ pathKeep c = true) := by
  obtain ⟨l, -, rfl, h⟩ := h
  intro c hc
  rw [List.mem_cons] at hc
  rcases hc with rfl | hc
  · exact .inl rfl
  · rcases mem_joinWith hc with h1 | ⟨x, hx, h1⟩
    · exact .inl h1
    · exact .inr ((h x hx).1 c h1)

end Oid4vp
