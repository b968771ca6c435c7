import Verif.Model.Utf8
import Verif.Lemmas.Basic
/-!
# UTF-8 lemmas
-/

set_option autoImplicit false

namespace Oid4vp

theorem u8_toNat_ofNat {n : Nat} (h : n < 256) : (UInt8.ofNat n).toNat = n := by
  rw [UInt8.toNat_ofNat']; omega

theorem u8_ofNat_toNat (b : UInt8) : UInt8.ofNat b.toNat = b := by
  apply UInt8.toNat_inj.mp
  rw [u8_toNat_ofNat b.toNat_lt]

theorem char_range (c : Char) : c.toNat < 0xD800 ∨ (0xE000 ≤ c.toNat ∧ c.toNat < 0x110000) := by
  have := c.valid
  simp only [UInt32.isValidChar, Nat.isValidChar] at this
  simp only [Char.toNat]
  omega

theorem char_toNat_ofNat {n : Nat} (h : n < 0xD800 ∨ (0xE000 ≤ n ∧ n < 0x110000)) :
    (Char.ofNat n).toNat = n := by
  have hv : n.isValidChar := by simp only [Nat.isValidChar]; omega
  simp [Char.ofNat, hv, Char.ofNatAux, Char.toNat]

theorem utf8Head_utf8Char (c : Char) (rest : Bytes) :
    utf8Head (utf8Char c ++ rest) = some (c, rest) := by
  have hr := char_range c
  simp only [utf8Char]
  split
  · next h =>
    simp [utf8Head, u8_toNat_ofNat (n := c.toNat) (by omega), h, Char.ofNat_toNat]
  · next h1 =>
    split
    · next h2 =>
      simp only [utf8Head, List.cons_append, List.nil_append, isCont,
        u8_toNat_ofNat (n := 0xC0 + c.toNat / 64) (by omega),
        u8_toNat_ofNat (n := 0x80 + c.toNat % 64) (by omega)]
      rw [if_neg (by omega), if_neg (by omega), if_pos (by omega)]
      have : (192 + c.toNat / 64 - 192) * 64 + (128 + c.toNat % 64 - 128) = c.toNat := by omega
      simp only [this, Char.ofNat_toNat]
      rw [if_pos]
      simp; omega
    · next h2 =>
      split
      · next h3 =>
        simp only [utf8Head, List.cons_append, List.nil_append, isCont,
          u8_toNat_ofNat (n := 0xE0 + c.toNat / 4096) (by omega),
          u8_toNat_ofNat (n := 0x80 + c.toNat / 64 % 64) (by omega),
          u8_toNat_ofNat (n := 0x80 + c.toNat % 64) (by omega)]
        rw [if_neg (by omega), if_neg (by omega), if_neg (by omega), if_pos (by omega)]
        have : (224 + c.toNat / 4096 - 224) * 4096 + (128 + c.toNat / 64 % 64 - 128) * 64
          + (128 + c.toNat % 64 - 128) = c.toNat := by omega
        simp only [this, Char.ofNat_toNat]
        rw [if_pos]
        simp; omega
      · next h3 =>
        simp only [utf8Head, List.cons_append, List.nil_append, isCont,
          u8_toNat_ofNat (n := 0xF0 + c.toNat / 262144) (by omega),
          u8_toNat_ofNat (n := 0x80 + c.toNat / 4096 % 64) (by omega),
          u8_toNat_ofNat (n := 0x80 + c.toNat / 64 % 64) (by omega),
          u8_toNat_ofNat (n := 0x80 + c.toNat % 64) (by omega)]
        rw [if_neg (by omega), if_neg (by omega), if_neg (by omega), if_neg (by omega),
          if_pos (by omega)]
        have : (240 + c.toNat / 262144 - 240) * 262144 + (128 + c.toNat / 4096 % 64 - 128) * 4096
          + (128 + c.toNat / 64 % 64 - 128) * 64 + (128 + c.toNat % 64 - 128) = c.toNat := by omega
        simp only [this, Char.ofNat_toNat]
        rw [if_pos]
        simp; omega

theorem utf8Head_eq_some {b rest : Bytes} {c : Char} (h : utf8Head b = some (c, rest)) :
    b = utf8Char c ++ rest := by
  have hlt := fun x : UInt8 => x.toNat_lt
  have key : ∀ (x : UInt8) (n : Nat), n = x.toNat → UInt8.ofNat n = x := by
    intro x n e; rw [e, u8_ofNat_toNat]
  cases b with
  | nil => simp [utf8Head] at h
  | cons a r1 =>
    have ha := hlt a
    simp only [utf8Head] at h
    split at h
    · next h0 =>
      simp only [Option.some.injEq, Prod.mk.injEq] at h
      obtain ⟨rfl, rfl⟩ := h
      simp only [utf8Char, char_toNat_ofNat (n := a.toNat) (by omega)]
      rw [if_pos (by omega)]
      simp
    · split at h
      · simp at h
      · split at h
        · cases r1 with
          | nil => simp at h
          | cons b r2 =>
            have hb := hlt b
            simp only [isCont] at h
            obtain ⟨hc, h⟩ := Option.ite_none_right_eq_some.mp h
            simp only [Option.some.injEq, Prod.mk.injEq] at h
            obtain ⟨rfl, rfl⟩ := h
            simp at hc
            have hn : (a.toNat - 192) * 64 + (b.toNat - 128) < 0x800 := by omega
            simp only [utf8Char, char_toNat_ofNat
              (n := (a.toNat - 192) * 64 + (b.toNat - 128)) (by omega)]
            rw [if_neg (by omega), if_pos (by omega)]
            simp only [List.cons_append, List.nil_append, List.cons.injEq, and_true]
            exact ⟨(key a _ (by omega)).symm, (key b _ (by omega)).symm⟩
        · split at h
          · match r1, h with
            | b :: c' :: r3, h =>
              have hb := hlt b
              have hc := hlt c'
              simp only [isCont] at h
              obtain ⟨hc, h⟩ := Option.ite_none_right_eq_some.mp h
              simp only [Option.some.injEq, Prod.mk.injEq] at h
              obtain ⟨rfl, rfl⟩ := h
              simp at hc
              have hn : (a.toNat - 224) * 4096 + (b.toNat - 128) * 64 + (c'.toNat - 128)
                < 0x10000 := by omega
              simp only [utf8Char, char_toNat_ofNat
                (n := (a.toNat - 224) * 4096 + (b.toNat - 128) * 64 + (c'.toNat - 128)) (by omega)]
              rw [if_neg (by omega), if_neg (by omega), if_pos (by omega)]
              simp only [List.cons_append, List.nil_append, List.cons.injEq, and_true]
              exact ⟨(key a _ (by omega)).symm, (key b _ (by omega)).symm,
                (key c' _ (by omega)).symm⟩
          · split at h
            · match r1, h with
              | b :: c' :: d :: r4, h =>
                have hb := hlt b
                have hc := hlt c'
                have hd := hlt d
                simp only [isCont] at h
                obtain ⟨hc, h⟩ := Option.ite_none_right_eq_some.mp h
                simp only [Option.some.injEq, Prod.mk.injEq] at h
                obtain ⟨rfl, rfl⟩ := h
                simp at hc
                simp only [utf8Char, char_toNat_ofNat
                  (n := (a.toNat - 240) * 262144 + (b.toNat - 128) * 4096 + (c'.toNat - 128) * 64
                    + (d.toNat - 128)) (by omega)]
                rw [if_neg (by omega), if_neg (by omega), if_neg (by omega)]
                simp only [List.cons_append, List.nil_append, List.cons.injEq, and_true]
                exact ⟨(key a _ (by omega)).symm, (key b _ (by omega)).symm,
                  (key c' _ (by omega)).symm, (key d _ (by omega)).symm⟩
            · simp at h

theorem utf8Char_ne_nil (c : Char) : utf8Char c ≠ [] := by
  simp only [utf8Char]; split
  · simp
  · split
    · simp
    · split <;> simp

theorem utf8Char_length_pos (c : Char) : 0 < (utf8Char c).length :=
  List.length_pos_iff.mpr (utf8Char_ne_nil c)

theorem utf8DecAux_utf8 (s : Str) (f : Nat) (h : (utf8 s).length ≤ f) :
    utf8DecAux f (utf8 s) = some s := by
  induction s generalizing f with
  | nil => simp [utf8, utf8DecAux]
  | cons c s ih =>
    have hlen : (utf8 (c :: s)) = utf8Char c ++ utf8 s := by simp [utf8]
    rw [hlen] at h ⊢
    have hp := utf8Char_length_pos c
    rw [List.length_append] at h
    cases f with
    | zero => omega
    | succ f =>
      cases hu : utf8Char c ++ utf8 s with
      | nil => simp [utf8Char_ne_nil] at hu
      | cons b bs =>
        simp only [utf8DecAux]
        rw [← hu, utf8Head_utf8Char]
        simp only
        rw [ih f (by omega)]

theorem utf8Dec_utf8 (s : Str) : utf8Dec (utf8 s) = some s :=
  utf8DecAux_utf8 s _ (Nat.le_refl _)

theorem utf8LossyAux_utf8 (s : Str) (f : Nat) (h : (utf8 s).length ≤ f) :
    utf8LossyAux f (utf8 s) = s := by
  induction s generalizing f with
  | nil => simp [utf8, utf8LossyAux]
  | cons c s ih =>
    have hlen : (utf8 (c :: s)) = utf8Char c ++ utf8 s := by simp [utf8]
    rw [hlen] at h ⊢
    have hp := utf8Char_length_pos c
    rw [List.length_append] at h
    cases f with
    | zero => omega
    | succ f =>
      cases hu : utf8Char c ++ utf8 s with
      | nil => simp [utf8Char_ne_nil] at hu
      | cons b bs =>
        simp only [utf8LossyAux]
        rw [← hu, utf8Head_utf8Char]
        simp only
        rw [ih f (by omega)]

theorem utf8Lossy_utf8 (s : Str) : utf8Lossy (utf8 s) = s :=
  utf8LossyAux_utf8 s _ (Nat.le_refl _)

theorem utf8DecAux_eq_some {f : Nat} {b : Bytes} {s : Str} (h : utf8DecAux f b = some s) :
    b = utf8 s := by
  induction f generalizing b s with
  | zero => cases b <;> simp [utf8DecAux] at h; subst h; rfl
  | succ f ih =>
    cases b with
    | nil => simp [utf8DecAux] at h; subst h; rfl
    | cons a bs =>
      simp only [utf8DecAux] at h
      split at h
      · simp at h
      · next c rest hh =>
        split at h
        · simp at h
        · next s' hs =>
          simp at h; subst h
          rw [utf8Head_eq_some hh, ih hs]
          simp [utf8]

theorem utf8Dec_eq_some {b : Bytes} {s : Str} : utf8Dec b = some s ↔ b = utf8 s :=
  ⟨utf8DecAux_eq_some, fun h => h ▸ utf8Dec_utf8 s⟩

theorem utf8_inj {s t : Str} (h : utf8 s = utf8 t) : s = t := by
  have h1 := utf8Dec_utf8 s
  rw [h, utf8Dec_utf8] at h1
  exact (Option.some.inj h1).symm

theorem utf8_append (s t : Str) : utf8 (s ++ t) = utf8 s ++ utf8 t := by
  simp [utf8]

end Oid4vp
