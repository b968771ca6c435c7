import Verif.Spec.Uuid
import Verif.Lemmas.Url
/-!
# Reading UUIDs
-/

set_option autoImplicit false

namespace Oid4vp
open Spec

theorem char_lt {c : Char} {n : Nat} (h : c.toNat = n) : c = Char.ofNat n := by
  subst h; exact (Char.ofNat_toNat c).symm

theorem hexVal_small : ∀ n : Fin 128, ∀ d : Fin 16,
    (hexVal (Char.ofNat n.val) = some d.val ↔ asciiLower (Char.ofNat n.val) = hexLower d.val) := by
  decide +kernel

theorem hexVal_lt {c : Char} {d : Nat} (h : hexVal c = some d) : d < 16 ∧ c.toNat < 128 := by
  unfold hexVal at h
  simp only at h
  split at h
  · simp only [Option.some.injEq] at h; omega
  · split at h
    · simp only [Option.some.injEq] at h; omega
    · split at h
      · simp only [Option.some.injEq] at h; omega
      · cases h

theorem hexLower_small : ∀ d : Fin 16, (hexLower d.val).toNat < 128 := by decide

theorem asciiLower_small {c : Char} (h : (asciiLower c).toNat < 128) : c.toNat < 128 := by
  unfold asciiLower at h
  split at h
  · rename_i h'
    simp only [Bool.and_eq_true, decide_eq_true_eq] at h'
    omega
  · exact h

theorem hexVal_iff {c : Char} {d : Nat} : hexVal c = some d ↔ d < 16 ∧ asciiLower c = hexLower d := by
  constructor
  · intro h
    obtain ⟨h1, h2⟩ := hexVal_lt h
    have := hexVal_small ⟨c.toNat, h2⟩ ⟨d, h1⟩
    rw [Char.ofNat_toNat] at this
    exact ⟨h1, this.1 h⟩
  · rintro ⟨h1, h⟩
    have h2 : c.toNat < 128 := asciiLower_small (by rw [h]; exact hexLower_small ⟨d, h1⟩)
    have := hexVal_small ⟨c.toNat, h2⟩ ⟨d, h1⟩
    rw [Char.ofNat_toNat] at this
    exact this.2 h

theorem asciiLower_dash_small : ∀ n : Fin 128, (asciiLower (Char.ofNat n.val) = '-' ↔ Char.ofNat n.val = '-') := by
  decide +kernel

theorem asciiLower_dash {c : Char} : asciiLower c = '-' ↔ c = '-' := by
  constructor
  · intro h
    have h2 : c.toNat < 128 := asciiLower_small (by rw [h]; decide)
    have := asciiLower_dash_small ⟨c.toNat, h2⟩
    rw [Char.ofNat_toNat] at this
    exact this.1 h
  · rintro rfl; decide

/-- Digits read as a number are that number printed, up to case. -/
theorem hexNat_iff (k : Nat) : ∀ (ds : Str) (n : Nat), ds.length = k →
    (hexNat 0 ds = some n ↔ n < 16 ^ k ∧ ds.map asciiLower = hexDigits k n) := by
  induction k with
  | zero =>
    intro ds n h
    have : ds = [] := List.length_eq_zero_iff.1 h
    subst this
    simp [hexNat, hexDigits, eq_comm]
  | succ k ih =>
    intro ds n h
    obtain ⟨l, c, rfl⟩ : ∃ l c, ds = l ++ [c] := by
      rcases List.eq_nil_or_concat ds with rfl | ⟨l, c, rfl⟩
      · cases h
      · exact ⟨l, c, by simp⟩
    have hl : l.length = k := by simpa using h
    rw [hexNat_append]
    simp only [hexDigits, List.map_append, List.map_cons, List.map_nil]
    have happ : l.map asciiLower ++ [asciiLower c] = hexDigits k (n / 16) ++ [hexLower (n % 16)] ↔
        l.map asciiLower = hexDigits k (n / 16) ∧ asciiLower c = hexLower (n % 16) := by
      constructor
      · intro e
        have := List.append_inj' e rfl
        simpa using this
      · rintro ⟨e1, e2⟩; rw [e1, e2]
    rw [happ]
    constructor
    · intro h
      cases ha : hexNat 0 l with
      | none => simp [ha] at h
      | some a =>
        simp only [ha, Option.bind_some, hexNat] at h
        cases hc : hexVal c with
        | none => simp [hc] at h
        | some d =>
          simp only [hc, Option.some.injEq] at h
          obtain ⟨h1, h2⟩ := (ih l a hl).1 ha
          obtain ⟨h3, h4⟩ := hexVal_iff.1 hc
          have e1 : n / 16 = a := by omega
          have e2 : n % 16 = d := by omega
          rw [e1, e2]
          refine ⟨?_, h2, h4⟩
          rw [Nat.pow_succ]; omega
    · rintro ⟨h1, h2, h3⟩
      have h4 : n / 16 < 16 ^ k := by rw [Nat.pow_succ] at h1; omega
      rw [(ih l (n / 16) hl).2 ⟨h4, h2⟩]
      simp only [Option.bind_some, hexNat]
      rw [hexVal_iff.2 ⟨Nat.mod_lt _ (by decide), h3⟩]
      simp only [Option.some.injEq]
      omega

theorem hexNat_digit {ds : Str} {n : Nat} {acc : Nat} (h : hexNat acc ds = some n) :
    ∀ c ∈ ds, ∃ d, hexVal c = some d := by
  induction ds generalizing acc with
  | nil => simp
  | cons x xs ih =>
    intro c hc
    simp only [hexNat] at h
    cases hx : hexVal x with
    | none => rw [hx] at h; cases h
    | some d =>
      rw [hx] at h
      rcases List.mem_cons.1 hc with rfl | hc
      · exact ⟨d, hx⟩
      · exact ih h c hc

theorem pow_16_32 : (16 : Nat) ^ 32 = 2 ^ 128 := by decide

theorem hexNat_dash {ds : Str} {n : Nat} (h : hexNat 0 ds = some n) : '-' ∉ ds := by
  intro hm
  obtain ⟨d, hd⟩ := hexNat_digit h _ hm
  simp [hexVal] at hd

theorem hyphenated_length {t ds : Str} (h : Uuid.hyphenated t = some ds) : t.length = 36 := by
  unfold Uuid.hyphenated at h
  split at h
  · rename_i a b c d e hs
    split at h
    · rename_i hl
      obtain ⟨h1, h2, h3, h4, h5⟩ := hl
      have ht := joinWith_splitOn '-' t
      rw [hs] at ht
      rw [← ht]
      simp [joinWith, h1, h2, h3, h4, h5]
    · cases h
  · cases h

/-- What is taken for the digits. -/
theorem digits_iff {s ds : Str} : Uuid.digits s = some ds ↔
    (s.length = 32 ∧ s = ds) ∨ Uuid.hyphenated s = some ds ∨
      (∃ t, s = '{' :: t ++ ['}'] ∧ Uuid.hyphenated t = some ds) ∨
      (∃ t, s = c!"urn:uuid:" ++ t ∧ Uuid.hyphenated t = some ds) := by
  constructor
  · intro h
    unfold Uuid.digits at h
    split at h
    · exact .inl ⟨by assumption, by simpa using h⟩
    · split at h
      · exact .inr (.inl h)
      · split at h
        · split at h
          · split at h
            · rename_i hr
              refine .inr (.inr (.inl ⟨_, ?_, h⟩))
              rw [List.cons_append, List.dropLast_append_getLast? '}' (by simp [hr])]
            · cases h
          · cases h
        · split at h
          · split at h
            · rename_i r hr
              exact .inr (.inr (.inr ⟨r, stripPrefix_eq_some.1 hr, h⟩))
            · cases h
          · cases h
  · rintro (⟨h, rfl⟩ | h | ⟨t, rfl, h⟩ | ⟨t, rfl, h⟩)
    · simp [Uuid.digits, h]
    · simp [Uuid.digits, hyphenated_length h, h]
    · have hl := hyphenated_length h
      simp only [Uuid.digits, List.length_append, List.length_cons, List.length_nil, hl,
        List.cons_append]
      simp [h]
    · have hl := hyphenated_length h
      unfold Uuid.digits
      have : (c!"urn:uuid:" ++ t).length = 45 := by simp [hl]
      rw [stripPrefix_append]
      simp only [this]
      simp [h]

theorem hexChar_small : ∀ n : Fin 128, ∀ d : Fin 16, (hexVal (Char.ofNat n.val) = some d.val ↔
    ((d.val, Char.ofNat n.val) ∈ (List.range 16).zip c!"0123456789abcdef" ∨
      (d.val, Char.ofNat n.val) ∈ (List.range 16).zip c!"0123456789ABCDEF")) := by
  decide +kernel

theorem hexChars_small : ∀ p ∈ (List.range 16).zip c!"0123456789abcdef" ++
    (List.range 16).zip c!"0123456789ABCDEF", p.1 < 16 ∧ p.2.toNat < 128 := by decide +kernel

theorem hexVal_char {c : Char} {d : Nat} : hexVal c = some d ↔ HexChar c d := by
  have key : d < 16 → c.toNat < 128 → (hexVal c = some d ↔ HexChar c d) := by
    intro h1 h2
    have := hexChar_small ⟨c.toNat, h2⟩ ⟨d, h1⟩
    rwa [Char.ofNat_toNat] at this
  constructor
  · intro h
    obtain ⟨h1, h2⟩ := hexVal_lt h
    exact (key h1 h2).1 h
  · intro h
    obtain ⟨h1, h2⟩ := hexChars_small (d, c) (by
      rcases h with h | h
      · exact List.mem_append_left _ h
      · exact List.mem_append_right _ h)
    exact (key h1 h2).2 h

theorem hexNat_text {ds : Str} {n : Nat} : hexNat 0 ds = some n ↔ HexText ds n := by
  constructor
  · suffices H : ∀ (k : Nat) (ds : Str) (n : Nat), ds.length = k → hexNat 0 ds = some n → HexText ds n from
      H _ ds n rfl
    intro k
    induction k with
    | zero =>
      intro ds n hl h
      obtain rfl := List.length_eq_zero_iff.1 hl
      simp [hexNat] at h; subst h; exact .nil
    | succ k ih =>
      intro ds n hl h
      obtain ⟨l, c, rfl⟩ : ∃ l c, ds = l ++ [c] := by
        rcases List.eq_nil_or_concat ds with rfl | ⟨l, c, rfl⟩
        · cases hl
        · exact ⟨l, c, by simp⟩
      rw [hexNat_append] at h
      cases ha : hexNat 0 l with
      | none => simp [ha] at h
      | some a =>
        simp only [ha, Option.bind_some, hexNat] at h
        cases hc : hexVal c with
        | none => simp [hc] at h
        | some d =>
          simp only [hc, Option.some.injEq] at h
          have e : n = 16 * a + d := by omega
          rw [e]
          exact .digit (ih l a (by simpa using hl) ha) (hexVal_char.1 hc)
  · intro h
    induction h with
    | nil => rfl
    | digit h hc ih =>
      rw [hexNat_append, ih]
      simp only [Option.bind_some, hexNat, hexVal_char.2 hc]
      rw [Nat.mul_comm]

theorem hyphenated_groups {t ds : Str} (hd : '-' ∉ ds) : Uuid.hyphenated t = some ds ↔
    ∃ a b c d e : Str, a.length = 8 ∧ b.length = 4 ∧ c.length = 4 ∧ d.length = 4 ∧ e.length = 12 ∧
      ds = a ++ b ++ c ++ d ++ e ∧ t = hyphened a b c d e := by
  constructor
  · intro h
    unfold Uuid.hyphenated at h
    split at h
    · rename_i a b c d e hs
      split at h
      · rename_i hl
        obtain ⟨h1, h2, h3, h4, h5⟩ := hl
        simp only [Option.some.injEq] at h
        have ht := joinWith_splitOn '-' t
        rw [hs] at ht
        exact ⟨a, b, c, d, e, h1, h2, h3, h4, h5, h.symm, by rw [← ht]; simp [joinWith, hyphened]⟩
      · cases h
    · cases h
  · rintro ⟨a, b, c, d, e, h1, h2, h3, h4, h5, rfl, rfl⟩
    simp only [List.mem_append, not_or] at hd
    obtain ⟨⟨⟨⟨ha, hb⟩, hc⟩, hd⟩, he⟩ := hd
    have e1 : hyphened a b c d e = a ++ '-' :: (b ++ '-' :: (c ++ '-' :: (d ++ '-' :: e))) := by
      simp [hyphened]
    unfold Uuid.hyphenated
    rw [e1, splitOn_append ha, splitOn_append hb, splitOn_append hc, splitOn_append hd,
      splitOn_of_notMem he]
    simp [h1, h2, h3, h4, h5]

/-- Which texts are read as which UUID. -/
theorem Uuid.parse_iff {s : Str} {u : Uuid} : Uuid.parse s = some u ↔ UuidText s u := by
  have hp : Uuid.parse s = some u ↔ ∃ ds, Uuid.digits s = some ds ∧ hexNat 0 ds = some u.bits.val := by
    unfold Uuid.parse
    cases hd : Uuid.digits s with
    | none => simp
    | some ds =>
      simp only [Option.some.injEq, exists_eq_left']
      cases hn : hexNat 0 ds with
      | none => simp
      | some n =>
        simp only [Option.some.injEq]
        split
        · rename_i h
          simp only [Option.some.injEq]
          constructor
          · rintro rfl; rfl
          · rintro rfl; rfl
        · rename_i h
          simp only [reduceCtorEq, false_iff]
          rintro rfl
          exact h u.bits.isLt
  rw [hp]
  unfold UuidText UuidGroups
  constructor
  · rintro ⟨ds, hd, hn⟩
    have hx := hexNat_text.1 hn
    have hg := fun {t : Str} => @hyphenated_groups t ds (hexNat_dash hn)
    rcases digits_iff.1 hd with ⟨hl, rfl⟩ | h | ⟨t, rfl, h⟩ | ⟨t, rfl, h⟩
    · have hc : s.take 8 ++ (s.drop 8).take 4 ++ (s.drop 12).take 4 ++ (s.drop 16).take 4 ++ s.drop 20
          = s := by
        have e1 : s.drop 12 = (s.drop 8).drop 4 := by simp
        have e2 : s.drop 16 = (s.drop 12).drop 4 := by simp
        have e3 : s.drop 20 = (s.drop 16).drop 4 := by simp
        rw [e3]
        simp only [List.append_assoc]
        rw [List.take_append_drop, e2, List.take_append_drop, e1, List.take_append_drop,
          List.take_append_drop]
      refine ⟨s.take 8, (s.drop 8).take 4, (s.drop 12).take 4, (s.drop 16).take 4, s.drop 20,
        ⟨by simp [hl], by simp [hl], by simp [hl], by simp [hl], by simp [hl], ?_⟩, .inl hc.symm⟩
      rw [hc]; exact hx
    · obtain ⟨a, b, c, d, e, h1, h2, h3, h4, h5, rfl, rfl⟩ := hg.1 h
      exact ⟨a, b, c, d, e, ⟨h1, h2, h3, h4, h5, hx⟩, .inr (.inl rfl)⟩
    · obtain ⟨a, b, c, d, e, h1, h2, h3, h4, h5, rfl, rfl⟩ := hg.1 h
      exact ⟨a, b, c, d, e, ⟨h1, h2, h3, h4, h5, hx⟩, .inr (.inr (.inl rfl))⟩
    · obtain ⟨a, b, c, d, e, h1, h2, h3, h4, h5, rfl, rfl⟩ := hg.1 h
      exact ⟨a, b, c, d, e, ⟨h1, h2, h3, h4, h5, hx⟩, .inr (.inr (.inr rfl))⟩
  · rintro ⟨a, b, c, d, e, ⟨h1, h2, h3, h4, h5, hx⟩, hs⟩
    have hn := hexNat_text.2 hx
    have hg := (hyphenated_groups (hexNat_dash hn)).2 ⟨a, b, c, d, e, h1, h2, h3, h4, h5, rfl, rfl⟩
    refine ⟨_, digits_iff.2 ?_, hn⟩
    rcases hs with rfl | rfl | rfl | rfl
    · exact .inl ⟨by simp [h1, h2, h3, h4, h5], rfl⟩
    · exact .inr (.inl hg)
    · exact .inr (.inr (.inl ⟨_, rfl, hg⟩))
    · exact .inr (.inr (.inr ⟨_, rfl, hg⟩))

/-- A UUID is printed in hyphenated groups of small digits. -/
theorem Uuid.print_groups (u : Uuid) : ∃ a b c d e, UuidGroups a b c d e u ∧
    u.print = hyphened a b c d e ∧ ∀ x ∈ a ++ b ++ c ++ d ++ e, x ∈ c!"0123456789abcdef" := by
  have hn : hexNat 0 (hexDigits 32 u.bits.val) = some u.bits.val := by
    have hl := hexDigits_length 32 u.bits.val
    refine (hexNat_iff 32 _ _ hl).2 ⟨Nat.lt_of_lt_of_eq u.bits.isLt pow_16_32.symm, ?_⟩
    have hlow : ∀ d : Fin 16, asciiLower (hexLower d.val) = hexLower d.val := by decide
    have : ∀ k n, (hexDigits k n).map asciiLower = hexDigits k n := by
      intro k
      induction k with
      | zero => intro n; rfl
      | succ k ih =>
        intro n
        simp only [hexDigits, List.map_append, ih, List.map_cons, List.map_nil]
        rw [hlow ⟨n % 16, Nat.mod_lt _ (by decide)⟩]
    exact this _ _
  have hsmall : ∀ x ∈ hexDigits 32 u.bits.val, x ∈ c!"0123456789abcdef" := by
    have hlow : ∀ d : Fin 16, hexLower d.val ∈ c!"0123456789abcdef" := by decide
    have : ∀ k n, ∀ x ∈ hexDigits k n, x ∈ c!"0123456789abcdef" := by
      intro k
      induction k with
      | zero => intro n x hx; simp [hexDigits] at hx
      | succ k ih =>
        intro n x hx
        simp only [hexDigits, List.mem_append, List.mem_singleton] at hx
        rcases hx with hx | rfl
        · exact ih _ x hx
        · exact hlow ⟨n % 16, Nat.mod_lt _ (by decide)⟩
    exact this _ _
  have hl := hexDigits_length 32 u.bits.val
  have hx := hexNat_text.1 hn
  have hpr : u.print = (let s := hexDigits 32 u.bits.val
    hyphened (s.take 8) ((s.drop 8).take 4) ((s.drop 12).take 4) ((s.drop 16).take 4) (s.drop 20)) := by
    simp [Uuid.print, hyphened]
  rw [hpr]
  generalize hexDigits 32 u.bits.val = s at *
  have hc : s.take 8 ++ (s.drop 8).take 4 ++ (s.drop 12).take 4 ++ (s.drop 16).take 4 ++ s.drop 20
      = s := by
    have e1 : s.drop 12 = (s.drop 8).drop 4 := by simp
    have e2 : s.drop 16 = (s.drop 12).drop 4 := by simp
    have e3 : s.drop 20 = (s.drop 16).drop 4 := by simp
    rw [e3]
    simp only [List.append_assoc]
    rw [List.take_append_drop, e2, List.take_append_drop, e1, List.take_append_drop,
      List.take_append_drop]
  refine ⟨s.take 8, (s.drop 8).take 4, (s.drop 12).take 4, (s.drop 16).take 4, s.drop 20,
    ⟨by simp [hl], by simp [hl], by simp [hl], by simp [hl], by simp [hl], ?_⟩, rfl, ?_⟩
  · rw [hc]; exact hx
  · rw [hc]; exact hsmall

end Oid4vp
