import Verif.Props.Codec
/-!
# Lossy UTF-8 decoding meets its specification
-/

set_option autoImplicit false

namespace Oid4vp

theorem utf8Char_encode (c : Char) : utf8Char c = String.utf8EncodeChar c := by
  have h := C10_utf8_standard [c]
  simpa [utf8] using h

theorem utf8Head_iff {b rest : Bytes} {c : Char} :
    utf8Head b = some (c, rest) ↔ b = String.utf8EncodeChar c ++ rest := by
  rw [← utf8Char_encode]
  exact ⟨utf8Head_eq_some, fun h => h ▸ utf8Head_utf8Char c rest⟩

theorem utf8Head_none {b : Bytes} : utf8Head b = none ↔ ∀ c : Char, ¬ String.utf8EncodeChar c <+: b := by
  constructor
  · rintro h c ⟨r, rfl⟩
    rw [utf8Head_iff.mpr rfl] at h; simp at h
  · intro h
    cases hb : utf8Head b with
    | none => rfl
    | some p => exact absurd ⟨p.2, (utf8Head_iff.mp hb).symm⟩ (h p.1)

theorem utf8Start_iff {p : Bytes} : Spec.Utf8Start p ↔ ∃ t c, utf8Head (p ++ t) = some (c, []) := by
  constructor
  · rintro ⟨c, t, h⟩
    exact ⟨t, c, utf8Head_iff.mpr (by rw [h, List.append_nil])⟩
  · rintro ⟨t, c, h⟩
    exact ⟨c, t, by rw [utf8Head_iff.mp h, List.append_nil]⟩

theorem start_two {a b : UInt8} (hn : utf8Head [a, b] = none) :
    Spec.Utf8Start [a, b] ↔ secondOk a b = true := by
  rw [utf8Start_iff]
  have ha := a.toNat_lt
  have hb := b.toNat_lt
  constructor
  · rintro ⟨t, c, h⟩
    simp only [List.cons_append, List.nil_append, utf8Head, isCont] at h hn
    simp only [secondOk, isCont]
    split at h
    · simp at h
    · split at h
      · simp at h
      · split at h
        · rename_i h1 h2 h3
          rw [if_neg h1, if_neg h2, if_pos h3] at hn
          obtain ⟨hc, -⟩ := Option.ite_none_right_eq_some.mp h
          have := hn.symm.trans (if_pos hc)
          simp at this
        · split at h
          · cases t with
            | nil => simp at h
            | cons d t =>
              have hd := d.toNat_lt
              obtain ⟨hc, -⟩ := Option.ite_none_right_eq_some.mp h
              simp at hc ⊢
              omega
          · split at h
            · match t, h with
              | d :: e :: t, h =>
                have hd := d.toNat_lt
                have he := e.toNat_lt
                obtain ⟨hc, -⟩ := Option.ite_none_right_eq_some.mp h
                simp at hc ⊢
                omega
            · simp at h
  · intro h
    simp [secondOk, isCont] at h
    by_cases h4 : a.toNat < 0xF0
    · refine ⟨[0x80], Char.ofNat ((a.toNat - 0xE0) * 4096 + (b.toNat - 0x80) * 64 +
        ((0x80 : UInt8).toNat - 0x80)), ?_⟩
      simp only [List.cons_append, List.nil_append, utf8Head]
      rw [if_neg (by omega), if_neg (by omega), if_neg (by omega), if_pos h4, if_pos]
      simp [isCont]; omega
    · refine ⟨[0x80, 0x80], Char.ofNat ((a.toNat - 0xF0) * 262144 + (b.toNat - 0x80) * 4096 +
        ((0x80 : UInt8).toNat - 0x80) * 64 + ((0x80 : UInt8).toNat - 0x80)), ?_⟩
      simp only [List.cons_append, List.nil_append, utf8Head]
      rw [if_neg (by omega), if_neg (by omega), if_neg (by omega), if_neg h4, if_pos (by omega), if_pos]
      simp [isCont]; omega

theorem start_three {a b d : UInt8} (hn : utf8Head [a, b, d] = none) :
    Spec.Utf8Start [a, b, d] ↔ secondOk a b = true ∧ 0xF0 ≤ a.toNat ∧ isCont d = true := by
  rw [utf8Start_iff]
  have ha := a.toNat_lt
  have hb := b.toNat_lt
  have hd := d.toNat_lt
  constructor
  · rintro ⟨t, c, h⟩
    simp only [List.cons_append, List.nil_append, utf8Head, isCont] at h hn
    simp only [secondOk, isCont]
    split at h
    · simp at h
    · split at h
      · simp at h
      · split at h
        · obtain ⟨-, h⟩ := Option.ite_none_right_eq_some.mp h
          simp at h
        · split at h
          · rename_i h1 h2 h3 h4
            rw [if_neg h1, if_neg h2, if_neg h3, if_pos h4] at hn
            obtain ⟨hc, -⟩ := Option.ite_none_right_eq_some.mp h
            have := hn.symm.trans (if_pos hc)
            simp at this
          · split at h
            · match t, h with
              | e :: t, h =>
                have he := e.toNat_lt
                obtain ⟨hc, -⟩ := Option.ite_none_right_eq_some.mp h
                simp at hc ⊢
                omega
            · simp at h
  · rintro ⟨h, h4, hc⟩
    simp [secondOk, isCont] at h hc
    refine ⟨[0x80], Char.ofNat ((a.toNat - 0xF0) * 262144 + (b.toNat - 0x80) * 4096 +
      (d.toNat - 0x80) * 64 + ((0x80 : UInt8).toNat - 0x80)), ?_⟩
    simp only [List.cons_append, List.nil_append, utf8Head]
    rw [if_neg (by omega), if_neg (by omega), if_neg (by omega), if_neg (by omega), if_pos (by omega),
      if_pos]
    simp [isCont]; omega

theorem utf8Char_length_le (c : Char) : (utf8Char c).length ≤ 4 := by
  simp only [utf8Char]; split
  · simp
  · split
    · simp
    · split <;> simp

/-- Bytes that start no character and begin one are at most three. -/
theorem start_length {q r : Bytes} (hn : ∀ c : Char, ¬ String.utf8EncodeChar c <+: q ++ r)
    (h : Spec.Utf8Start q) : q.length ≤ 3 := by
  obtain ⟨c, t, hc⟩ := h
  have hl : (q ++ t).length ≤ 4 := by rw [hc, ← utf8Char_encode]; exact utf8Char_length_le c
  rw [List.length_append] at hl
  rcases Nat.lt_or_ge q.length 4 with h | h
  · omega
  · have ht : t = [] := List.length_eq_zero_iff.mp (by omega)
    rw [ht, List.append_nil] at hc
    exact absurd ⟨r, by rw [hc]⟩ (hn c)

theorem head_prefix {q r : Bytes} (hn : utf8Head (q ++ r) = none) : utf8Head q = none :=
  utf8Head_none.mpr fun c ⟨t, h⟩ => utf8Head_none.mp hn c ⟨t ++ r, by rw [← h, List.append_assoc]⟩

/-- The invalid part is the maximal one. -/
theorem utf8Skip_spec {a : UInt8} {bs : Bytes} (hn : utf8Head (a :: bs) = none) :
    ∃ p, a :: bs = p ++ utf8Skip (a :: bs) ∧ p ≠ [] ∧ (p.length = 1 ∨ Spec.Utf8Start p) ∧
      ∀ q, q <+: a :: bs → p.length < q.length → ¬ Spec.Utf8Start q := by
  have hnc := utf8Head_none.mp hn
  have long : ∀ q, q <+: a :: bs → 3 < q.length → ¬ Spec.Utf8Start q := by
    rintro q ⟨r, hq⟩ hl hs
    have := start_length (r := r) (by rw [hq]; exact hnc) hs
    omega
  match bs, hn, long with
  | [], hn, long =>
    refine ⟨[a], rfl, by simp, .inl rfl, ?_⟩
    intro q hq hl
    have := hq.length_le
    simp at this hl; omega
  | [b], hn, long =>
    have h2 := start_two hn
    simp only [utf8Skip]
    by_cases hs : secondOk a b = true
    · rw [if_pos hs]
      refine ⟨[a, b], rfl, by simp, .inr (h2.mpr hs), ?_⟩
      intro q hq hl
      have := hq.length_le
      simp at this hl; omega
    · rw [if_neg hs]
      refine ⟨[a], rfl, by simp, .inl rfl, ?_⟩
      intro q hq hl hst
      have e : q = [a, b] := hq.eq_of_length (by have := hq.length_le; simp at this hl ⊢; omega)
      exact hs (h2.mp (e ▸ hst))
  | b :: c :: r, hn, long =>
    have h2 := start_two (a := a) (b := b) (head_prefix (r := c :: r) (by simpa using hn))
    have h3 := start_three (a := a) (b := b) (d := c) (head_prefix (r := r) (by simpa using hn))
    have two : ∀ q, q <+: a :: b :: c :: r → q.length = 2 → q = [a, b] := by
      rintro q ⟨t, hq⟩ hl
      match q, hl with
      | [x, y], _ => simp at hq; simp [hq]
    have three : ∀ q, q <+: a :: b :: c :: r → q.length = 3 → q = [a, b, c] := by
      rintro q ⟨t, hq⟩ hl
      match q, hl with
      | [x, y, z], _ => simp at hq; simp [hq]
    simp only [utf8Skip]
    by_cases hs : secondOk a b = true
    · rw [if_pos hs]
      by_cases h4 : (decide (0xF0 ≤ a.toNat) && isCont c) = true
      · rw [if_pos h4]
        simp only [Bool.and_eq_true, decide_eq_true_eq] at h4
        refine ⟨[a, b, c], rfl, by simp, .inr (h3.mpr ⟨hs, h4⟩), ?_⟩
        intro q hq hl
        exact long q hq (by simpa using hl)
      · rw [if_neg h4]
        simp only [Bool.and_eq_true, decide_eq_true_eq] at h4
        refine ⟨[a, b], rfl, by simp, .inr (h2.mpr hs), ?_⟩
        intro q hq hl hst
        rcases Nat.lt_or_ge 3 q.length with h | h
        · exact long q hq h hst
        · have e := three q hq (by simp at hl; omega)
          exact h4 (h3.mp (e ▸ hst)).2
    · rw [if_neg hs]
      refine ⟨[a], rfl, by simp, .inl rfl, ?_⟩
      intro q hq hl hst
      rcases Nat.lt_or_ge 3 q.length with h | h
      · exact long q hq h hst
      · simp at hl
        rcases Nat.lt_or_ge 2 q.length with h' | h'
        · exact hs (h3.mp (three q hq (by omega) ▸ hst)).1
        · exact hs (h2.mp (two q hq (by omega) ▸ hst))

theorem utf8LossyAux_spec (f : Nat) : ∀ b : Bytes, b.length ≤ f → Spec.Lossy b (utf8LossyAux f b) := by
  induction f with
  | zero =>
    intro b hb
    cases b with
    | nil => exact .nil
    | cons => simp at hb
  | succ f ih =>
    intro b hb
    cases b with
    | nil => exact .nil
    | cons a bs =>
      simp only [utf8LossyAux]
      cases hh : utf8Head (a :: bs) with
      | none =>
        obtain ⟨p, e, h1, h2, h3⟩ := utf8Skip_spec hh
        have hl := congrArg List.length e
        have hp := List.length_pos_iff.mpr h1
        rw [List.length_append] at hl
        have := Spec.Lossy.bad (p := p) (r := utf8Skip (a :: bs)) h1 (by rw [← e]; exact utf8Head_none.mp hh)
          h2 (by rw [← e]; exact h3) (ih _ (by omega))
        rwa [← e] at this
      | some p =>
        obtain ⟨c, rest⟩ := p
        have e := utf8Head_iff.mp hh
        have hl := congrArg List.length e
        have hp := utf8Char_length_pos c
        rw [utf8Char_encode] at hp
        rw [List.length_append] at hl
        simp only
        rw [e]
        exact .char (ih _ (by omega))

theorem lossyAux_of {b : Bytes} {s : Str} (h : Spec.Lossy b s) :
    ∀ f : Nat, b.length ≤ f → utf8LossyAux f b = s := by
  induction h with
  | nil => intro f _; cases f <;> rfl
  | @char c r s h ih =>
    intro f hf
    have hp := utf8Char_length_pos c
    rw [utf8Char_encode] at hp
    rw [List.length_append] at hf
    have hh := utf8Head_iff.mpr (rfl : String.utf8EncodeChar c ++ r = _)
    cases f with
    | zero => omega
    | succ f =>
      cases hb : String.utf8EncodeChar c ++ r with
      | nil => rw [hb] at hh; simp [utf8Head] at hh
      | cons a bs =>
        simp only [utf8LossyAux]
        rw [← hb, hh]
        simp only
        rw [ih f (by omega)]
  | @bad p r s h1 h2 h3 h4 h ih =>
    intro f hf
    have hp := List.length_pos_iff.mpr h1
    rw [List.length_append] at hf
    have hh := utf8Head_none.mpr h2
    cases f with
    | zero => omega
    | succ f =>
      cases hb : p ++ r with
      | nil => simp at hb; exact absurd hb.1 h1
      | cons a bs =>
        rw [hb] at hh h4
        simp only [utf8LossyAux]
        rw [hh]
        obtain ⟨p', e, g1, g2, g3⟩ := utf8Skip_spec hh
        have hp' := List.length_pos_iff.mpr g1
        have hl : p'.length = p.length := by
          rcases Nat.lt_trichotomy p.length p'.length with hlt | he | hlt
          · have := h4 p' ⟨_, e.symm⟩ hlt
            rcases g2 with g | g
            · omega
            · exact absurd g this
          · exact he.symm
          · have := g3 p ⟨_, hb⟩ hlt
            rcases h3 with g | g
            · omega
            · exact absurd g this
        have hr : r = utf8Skip (a :: bs) := (List.append_inj (hb.trans e) hl.symm).2
        simp only
        rw [← hr, ih f (by omega)]

/-- Lossy decoding is the substitution of maximal subparts. -/
theorem utf8Lossy_iff {b : Bytes} {s : Str} : utf8Lossy b = s ↔ Spec.Lossy b s :=
  ⟨fun h => h ▸ utf8LossyAux_spec _ b (Nat.le_refl _), fun h => lossyAux_of h _ (Nat.le_refl _)⟩

end Oid4vp
