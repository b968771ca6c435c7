import Verif.Model.Form
import Verif.Lemmas.Utf8
/-!
# Form-encoding lemmas
-/

set_option autoImplicit false

namespace Oid4vp

/-- The characters that can occur in an encoded component. -/
def formChar (c : Char) : Bool :=
  let n := c.toNat
  n = 0x2A || n = 0x2D || n = 0x2E || (0x30 ≤ n && n ≤ 0x39) || (0x41 ≤ n && n ≤ 0x5A)
    || n = 0x5F || (0x61 ≤ n && n ≤ 0x7A) || n = 0x2B || n = 0x25

theorem utf8Char_ascii {c : Char} (h : c.toNat < 0x80) : utf8Char c = [UInt8.ofNat c.toNat] := by
  simp [utf8Char, h]

theorem hexUpper_lt : ∀ n : Fin 16, (hexUpper n.val).toNat < 0x80 := by decide

theorem hexUpper_spec : ∀ n : Fin 16,
    hexVal (Char.ofNat (UInt8.ofNat (hexUpper n.val).toNat).toNat) = some n.val := by decide

theorem hexUpper_formChar : ∀ n : Fin 16, formChar (hexUpper n.val) = true := by decide

theorem utf8_formByte_dec (b : UInt8) (rest : Bytes) :
    pctDec (utf8 (formByte b) ++ rest) = b :: pctDec rest := by
  have hb := b.toNat_lt
  simp only [formByte]
  split
  · next hs =>
    have hlt : b.toNat < 0x80 := by simp [formSafe] at hs; omega
    have hne : b.toNat ≠ 0x2B ∧ b.toNat ≠ 0x25 := by simp [formSafe] at hs; omega
    have hc : (Char.ofNat b.toNat).toNat = b.toNat := char_toNat_ofNat (by omega)
    have : utf8 [Char.ofNat b.toNat] = [b] := by
      simp [utf8, utf8Char_ascii (c := Char.ofNat b.toNat) (by omega), hc]
    rw [this]
    simp only [List.cons_append, List.nil_append]
    rw [pctDec.eq_def]; simp [hne]
  · split
    · next h =>
      have : utf8 ['+'] = [UInt8.ofNat 0x2B] := by decide
      rw [this]
      have hbe : UInt8.ofNat 0x20 = b := by rw [← h, u8_ofNat_toNat]
      simp only [List.cons_append, List.nil_append]
      rw [pctDec.eq_def]; simp only
      rw [if_pos (by decide), hbe]
    · have h1 := hexUpper_lt ⟨b.toNat / 16, by omega⟩
      have h2 := hexUpper_lt ⟨b.toNat % 16, by omega⟩
      have s1 := hexUpper_spec ⟨b.toNat / 16, by omega⟩
      have s2 := hexUpper_spec ⟨b.toNat % 16, by omega⟩
      simp only at h1 h2 s1 s2
      have : utf8 ['%', hexUpper (b.toNat / 16), hexUpper (b.toNat % 16)]
          = [UInt8.ofNat 0x25, UInt8.ofNat (hexUpper (b.toNat / 16)).toNat,
             UInt8.ofNat (hexUpper (b.toNat % 16)).toNat] := by
        have hp : utf8Char '%' = [UInt8.ofNat 0x25] := by decide
        simp only [utf8, List.flatMap_cons, List.flatMap_nil, hp, utf8Char_ascii h1,
          utf8Char_ascii h2, List.cons_append, List.nil_append]
      rw [this]
      simp only [List.cons_append, List.nil_append]
      rw [pctDec.eq_def]; simp only; rw [if_neg (by decide), if_pos (by decide)]
      simp only [s1, s2]
      congr 1
      have : b.toNat / 16 * 16 + b.toNat % 16 = b.toNat := by omega
      rw [this, u8_ofNat_toNat]

theorem pctDec_formBytes (bs : Bytes) : pctDec (utf8 (bs.flatMap formByte)) = bs := by
  induction bs with
  | nil => rfl
  | cons b bs ih =>
    rw [List.flatMap_cons, utf8_append, utf8_formByte_dec, ih]

theorem formDec_formEnc (s : Str) : formDec (formEnc s) = s := by
  rw [formDec, formEnc, pctDec_formBytes, utf8Lossy_utf8]

theorem formByte_char (b : UInt8) : ∀ c ∈ formByte b, formChar c = true := by
  have hb := b.toNat_lt
  intro c hc
  simp only [formByte] at hc
  split at hc
  · next hs =>
    simp only [List.mem_singleton] at hc
    subst hc
    have hc : (Char.ofNat b.toNat).toNat = b.toNat := char_toNat_ofNat (by
      simp [formSafe] at hs; omega)
    simp only [formChar, hc]
    simp [formSafe] at hs
    simp; omega
  · split at hc
    · simp at hc; subst hc; decide
    · simp only [List.mem_cons, List.not_mem_nil, or_false] at hc
      rcases hc with rfl | rfl | rfl
      · decide
      · exact hexUpper_formChar ⟨b.toNat / 16, by omega⟩
      · exact hexUpper_formChar ⟨b.toNat % 16, by omega⟩

theorem formEnc_char (s : Str) : ∀ c ∈ formEnc s, formChar c = true := by
  intro c hc
  simp only [formEnc, List.mem_flatMap] at hc
  obtain ⟨b, _, hb⟩ := hc
  exact formByte_char b c hb

theorem formEnc_not_mem {c : Char} (h : formChar c = false) (s : Str) : c ∉ formEnc s := by
  intro hc
  have := formEnc_char s c hc
  rw [h] at this; simp at this

theorem formPiece_formPair (p : Str × Str) : formPiece (formPair p) = p := by
  have h : '=' ∉ formEnc p.1 := formEnc_not_mem (by decide) _
  simp only [formPair, formPiece, splitOnce_append h, formDec_formEnc]

theorem formPair_no_amp (p : Str × Str) : '&' ∉ formPair p := by
  have h1 : '&' ∉ formEnc p.1 := formEnc_not_mem (by decide) _
  have h2 : '&' ∉ formEnc p.2 := formEnc_not_mem (by decide) _
  simp [formPair, h1, h2]

theorem formPair_ne_nil (p : Str × Str) : formPair p ≠ [] := by simp [formPair]

theorem formParse_formSer (l : List (Str × Str)) : formParse (formSer l) = l := by
  induction l with
  | nil => rfl
  | cons p l ih =>
    have hne : (formPair p).isEmpty = false := by simp [formPair_ne_nil]
    cases l with
    | nil =>
      simp only [formSer, formParse, splitOn_of_notMem (formPair_no_amp p)]
      simp [hne, formPiece_formPair]
    | cons q l =>
      simp only [formParse] at ih ⊢
      rw [formSer, splitOn_append (formPair_no_amp p)]
      simp only [List.filter_cons, hne, Bool.not_false, if_true, List.map_cons,
        formPiece_formPair]
      rw [ih]
      simp

theorem formSer_char (l : List (Str × Str)) :
    ∀ c ∈ formSer l, formChar c = true ∨ c = '&' ∨ c = '=' := by
  induction l with
  | nil => simp [formSer]
  | cons p l ih =>
    intro c hc
    have hp : ∀ c ∈ formPair p, formChar c = true ∨ c = '&' ∨ c = '=' := by
      intro c hc
      simp only [formPair, List.mem_append, List.mem_cons] at hc
      rcases hc with hc | rfl | hc
      · exact .inl (formEnc_char _ _ hc)
      · exact .inr (.inr rfl)
      · exact .inl (formEnc_char _ _ hc)
    cases l with
    | nil => exact hp c hc
    | cons q l =>
      simp only [formSer, List.mem_append, List.mem_cons] at hc
      rcases hc with hc | rfl | hc
      · exact hp c hc
      · exact .inr (.inl rfl)
      · exact ih c hc

theorem formSer_no_hash (l : List (Str × Str)) : '#' ∉ formSer l := by
  intro h
  rcases formSer_char l _ h with h | h | h
  · exact absurd h (by decide)
  · exact absurd h (by decide)
  · exact absurd h (by decide)

end Oid4vp
