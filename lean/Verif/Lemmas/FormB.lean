import Verif.Model.Response
import Verif.Lemmas.Form
/-!
# Form bodies as bytes: for the bytes of a text they read as the text does
-/

set_option autoImplicit false

namespace Oid4vp

/-- An ASCII byte in the encoding of a character is that character. -/
theorem utf8Char_ascii_mem {c d : Char} (hd : d.toNat < 0x80) (h : UInt8.ofNat d.toNat ∈ utf8Char c) :
    c = d := by
  have key : ∀ n, n < 256 → 0x80 ≤ n → UInt8.ofNat d.toNat ≠ UInt8.ofNat n := by
    intro n h1 h2 he
    have := congrArg UInt8.toNat he
    rw [u8_toNat_ofNat (by omega), u8_toNat_ofNat h1] at this
    omega
  have hr := char_range c
  have hc : c.toNat < 0x80 := by
    refine Classical.byContradiction fun hn => ?_
    simp only [utf8Char] at h
    rw [if_neg hn] at h
    split at h
    · simp only [List.mem_cons, List.not_mem_nil, or_false] at h
      rcases h with h | h
      · exact key _ (by omega) (by omega) h
      · exact key _ (by omega) (by omega) h
    · split at h
      · simp only [List.mem_cons, List.not_mem_nil, or_false] at h
        rcases h with h | h | h
        · exact key _ (by omega) (by omega) h
        · exact key _ (by omega) (by omega) h
        · exact key _ (by omega) (by omega) h
      · simp only [List.mem_cons, List.not_mem_nil, or_false] at h
        rcases h with h | h | h | h
        · exact key _ (by omega) (by omega) h
        · exact key _ (by omega) (by omega) h
        · exact key _ (by omega) (by omega) h
        · exact key _ (by omega) (by omega) h
  rw [utf8Char_ascii hc, List.mem_singleton] at h
  have := congrArg UInt8.toNat h
  rw [u8_toNat_ofNat (by omega), u8_toNat_ofNat (by omega)] at this
  exact Char.ext (UInt32.toNat_inj.mp this.symm)

theorem splitOnB_ne_nil (b : UInt8) (s : Bytes) : splitOnB b s ≠ [] := by
  induction s with
  | nil => simp [splitOnB]
  | cons x s ih =>
    simp only [splitOnB]
    split
    · simp
    · cases h : splitOnB b s <;> simp

theorem splitOnB_prefix {b : UInt8} {p s : Bytes} {x : Bytes} {xs : List Bytes} (hp : b ∉ p)
    (h : splitOnB b s = x :: xs) : splitOnB b (p ++ s) = (p ++ x) :: xs := by
  induction p with
  | nil => exact h
  | cons y p ih =>
    simp only [List.mem_cons, not_or] at hp
    simp only [List.cons_append, splitOnB]
    rw [if_neg (fun e => hp.1 e.symm), ih hp.2]

theorem splitOnB_utf8 {c : Char} (hc : c.toNat < 0x80) (s : Str) :
    splitOnB (UInt8.ofNat c.toNat) (utf8 s) = (splitOn c s).map utf8 := by
  induction s with
  | nil => rfl
  | cons x s ih =>
    have hu : utf8 (x :: s) = utf8Char x ++ utf8 s := rfl
    rw [hu]
    simp only [splitOn]
    by_cases h : x = c
    · rw [if_pos h, h, utf8Char_ascii hc]
      simp only [List.singleton_append, splitOnB, if_true, ih, List.map_cons]
      rfl
    · rw [if_neg h]
      have hn : UInt8.ofNat c.toNat ∉ utf8Char x := fun hm => h (utf8Char_ascii_mem hc hm)
      cases hs : splitOn c s with
      | nil => exact absurd hs (splitOn_ne_nil c s)
      | cons p ps =>
        rw [hs] at ih
        rw [splitOnB_prefix hn ih]
        rfl

theorem splitOnceB_prefix {b : UInt8} {p s : Bytes} (hp : b ∉ p) :
    splitOnceB b (p ++ s) = (splitOnceB b s).map (fun q => (p ++ q.1, q.2)) := by
  induction p with
  | nil => rw [List.nil_append]; cases splitOnceB b s <;> rfl
  | cons y p ih =>
    simp only [List.mem_cons, not_or] at hp
    simp only [List.cons_append, splitOnceB]
    rw [if_neg (fun e => hp.1 e.symm), ih hp.2]
    cases splitOnceB b s <;> rfl

theorem splitOnceB_utf8 {c : Char} (hc : c.toNat < 0x80) (s : Str) :
    splitOnceB (UInt8.ofNat c.toNat) (utf8 s) = (splitOnce c s).map (fun p => (utf8 p.1, utf8 p.2)) := by
  induction s with
  | nil => rfl
  | cons x s ih =>
    have hu : utf8 (x :: s) = utf8Char x ++ utf8 s := rfl
    rw [hu]
    simp only [splitOnce]
    by_cases h : x = c
    · rw [if_pos h, h, utf8Char_ascii hc]
      simp only [List.singleton_append, splitOnceB, if_true]
      rfl
    · rw [if_neg h]
      have hn : UInt8.ofNat c.toNat ∉ utf8Char x := fun hm => h (utf8Char_ascii_mem hc hm)
      rw [splitOnceB_prefix hn, ih]
      cases splitOnce c s <;> rfl

theorem utf8_isEmpty (s : Str) : (utf8 s).isEmpty = s.isEmpty := by
  cases s with
  | nil => rfl
  | cons c s =>
    have : utf8 (c :: s) = utf8Char c ++ utf8 s := rfl
    rw [this]
    cases h : utf8Char c with
    | nil => exact absurd h (utf8Char_ne_nil c)
    | cons => rfl

theorem formPieceB_utf8 (s : Str) : formPieceB (utf8 s) = formPiece s := by
  simp only [formPieceB, formPiece]
  have := splitOnceB_utf8 (c := '=') (by decide) s
  rw [show (61 : UInt8) = UInt8.ofNat '='.toNat from rfl, this]
  cases splitOnce '=' s <;> rfl

/-- The bytes of a text are read as the text. -/
theorem formParseB_utf8 (s : Str) : formParseB (utf8 s) = formParse s := by
  simp only [formParseB, formParse]
  rw [show (38 : UInt8) = UInt8.ofNat '&'.toNat from rfl, splitOnB_utf8 (by decide) s]
  induction splitOn '&' s with
  | nil => rfl
  | cons p ps ih =>
    simp only [List.map_cons, List.filter_cons, utf8_isEmpty]
    cases p.isEmpty with
    | true => simpa using ih
    | false => simpa [formPieceB_utf8] using ih

end Oid4vp
