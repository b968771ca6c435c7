import Verif.Spec.Nonce
import Verif.Model.Form
import Verif.Model.JsonText
import Mathlib.Data.List.Forall2
/-!
# C92: random nonces
-/

set_option autoImplicit false

namespace Oid4vp

open Spec

/-- The words for one place. -/
theorem place_iff {c : Char} {i : Nat} : PlaceOf c i ↔ i < 62 ∧ alphanumericChars.getD i 'A' = c := by
  have key : ∀ i, i < 62 → PlaceOf (alphanumericChars.getD i 'A') i := by
    have : ∀ i : Fin 62, PlaceOf (alphanumericChars.getD i.val 'A') i.val := by
      unfold PlaceOf; decide
    exact fun i hi => this ⟨i, hi⟩
  constructor
  · intro h
    have hlt : i < 62 := by
      rcases h with ⟨h1, h2, h3⟩ | ⟨h1, h2, h3⟩ | ⟨h1, h2, h3⟩ <;>
        (have a : _ ≤ c.toNat := h1; have b : c.toNat ≤ _ := h2; simp at a b; omega)
    refine ⟨hlt, ?_⟩
    have h' := key i hlt
    apply Char.toNat_inj.mp
    generalize alphanumericChars.getD i 'A' = d at h' ⊢
    rcases h with ⟨h1, h2, h3⟩ | ⟨h1, h2, h3⟩ | ⟨h1, h2, h3⟩ <;>
      rcases h' with ⟨g1, g2, g3⟩ | ⟨g1, g2, g3⟩ | ⟨g1, g2, g3⟩ <;>
      (have a : _ ≤ c.toNat := h1; have b : c.toNat ≤ _ := h2
       have a' : _ ≤ d.toNat := g1; have b' : d.toNat ≤ _ := g2
       simp at a b a' b'; omega)
  · rintro ⟨h, rfl⟩; exact key i h

theorem yields_iff {w : UInt32} {c : Char} : Yields w c ↔
    (w >>> 26).toNat < 62 ∧ alphanumericChars.getD (w >>> 26).toNat 'A' = c := by
  have : (w >>> 26).toNat = w.toNat / 2 ^ 26 := by
    rw [UInt32.toNat_shiftRight, Nat.shiftRight_eq_div_pow]; rfl
  rw [Yields, place_iff, this]

theorem unused_iff {w : UInt32} : Unused w ↔ ¬ (w >>> 26).toNat < 62 := by
  have : (w >>> 26).toNat = w.toNat / 2 ^ 26 := by
    rw [UInt32.toNat_shiftRight, Nat.shiftRight_eq_div_pow]; rfl
  rw [Unused, this]; omega

theorem sampleAlphanumeric_iff {ws rest : List UInt32} {c : Char} :
    sampleAlphanumeric ws = some (c, rest) ↔ ∃ skipped w, ws = skipped ++ w :: rest ∧
      (∀ v ∈ skipped, Unused v) ∧ Yields w c := by
  induction ws with
  | nil => simp [sampleAlphanumeric]
  | cons w ws ih =>
    simp only [sampleAlphanumeric]
    split
    · rename_i h
      simp only [Option.some.injEq, Prod.mk.injEq]
      constructor
      · rintro ⟨rfl, rfl⟩
        exact ⟨[], w, rfl, by simp, yields_iff.mpr ⟨h, rfl⟩⟩
      · rintro ⟨skipped, w', he, hs, hy⟩
        cases skipped with
        | nil => cases he; exact ⟨(yields_iff.mp hy).2, rfl⟩
        | cons v skipped =>
          cases he
          exact absurd h (unused_iff.mp (hs w (by simp)))
    · rename_i h
      rw [ih]
      constructor
      · rintro ⟨skipped, w', rfl, hs, hy⟩
        exact ⟨w :: skipped, w', rfl, List.forall_mem_cons.mpr ⟨unused_iff.mpr h, hs⟩, hy⟩
      · rintro ⟨skipped, w', he, hs, hy⟩
        cases skipped with
        | nil => cases he; exact absurd (yields_iff.mp hy).1 h
        | cons v skipped =>
          cases he
          exact ⟨skipped, w', rfl, (List.forall_mem_cons.mp hs).2, hy⟩

theorem spelledBy_cons {ws : List UInt32} {c : Char} {s : Str} : SpelledBy ws (c :: s) ↔
    ∃ skipped w rest, ws = skipped ++ w :: rest ∧ (∀ v ∈ skipped, Unused v) ∧ Yields w c ∧
      SpelledBy rest s := by
  constructor
  · intro h
    generalize hcs : c :: s = cs at h
    induction h with
    | nil => cases hcs
    | skip hu h ih =>
      obtain ⟨skipped, w, rest, rfl, hs, hy, hr⟩ := ih hcs
      exact ⟨_ :: skipped, w, rest, rfl, List.forall_mem_cons.mpr ⟨hu, hs⟩, hy, hr⟩
    | take hy h =>
      cases hcs
      exact ⟨[], _, _, rfl, by simp, hy, h⟩
  · rintro ⟨skipped, w, rest, rfl, hs, hy, hr⟩
    induction skipped with
    | nil => exact .take hy hr
    | cons v skipped ih =>
      obtain ⟨h1, h2⟩ := List.forall_mem_cons.mp hs
      exact .skip h1 (ih h2)

theorem sampleString_iff {n : Nat} {ws rest : List UInt32} {s : Str} :
    sampleString n ws = some (s, rest) ↔ ∃ used, ws = used ++ rest ∧ SpelledBy used s ∧ s.length = n := by
  induction n generalizing ws s with
  | zero =>
    simp only [sampleString, Option.some.injEq, Prod.mk.injEq, List.length_eq_zero_iff]
    constructor
    · rintro ⟨rfl, rfl⟩; exact ⟨[], rfl, .nil, rfl⟩
    · rintro ⟨used, rfl, h, rfl⟩; cases h; exact ⟨rfl, rfl⟩
  | succ n ih =>
    simp only [sampleString]
    constructor
    · intro h
      split at h
      · cases h
      · rename_i c ws' hc
        split at h
        · cases h
        · rename_i s' ws'' hs
          cases h
          obtain ⟨skipped, w, rfl, hsk, hy⟩ := sampleAlphanumeric_iff.mp hc
          obtain ⟨used, rfl, hu, hl⟩ := ih.mp hs
          exact ⟨skipped ++ w :: used, by simp, spelledBy_cons.mpr ⟨_, _, _, rfl, hsk, hy, hu⟩,
            by simp [hl]⟩
    · rintro ⟨used, rfl, hu, hl⟩
      cases s with
      | nil => simp at hl
      | cons c s =>
        obtain ⟨skipped, w, used', rfl, hsk, hy, hr⟩ := spelledBy_cons.mp hu
        have h1 : sampleAlphanumeric ((skipped ++ w :: used') ++ rest) = some (c, used' ++ rest) :=
          sampleAlphanumeric_iff.mpr ⟨skipped, w, by simp, hsk, hy⟩
        have h2 : sampleString n (used' ++ rest) = some (s, rest) :=
          ih.mpr ⟨used', rfl, hr, by simpa using hl⟩
        simp only [h1, h2]

/-- **C92** Which nonce is drawn, for all lengths and all generators: the characters that the words of the
generator stand for, in order, as many as asked for; no word is used for two characters, and no word
beyond the last one needed is used. -/
theorem C92_drawn (n : Nat) (ws rest : List UInt32) (x : Nonce) :
    Nonce.random n ws = some (x, rest) ↔
      ∃ used, ws = used ++ rest ∧ SpelledBy used x.val ∧ x.val.length = n := by
  rw [← sampleString_iff, Nonce.random]
  obtain ⟨s⟩ := x
  cases h : sampleString n ws with
  | none => simp
  | some p => obtain ⟨s', r'⟩ := p; simp

theorem placeOf_alnum {c : Char} {i : Nat} (h : PlaceOf c i) : AsciiAlnum c := by
  rcases h with ⟨a, b, -⟩ | ⟨a, b, -⟩ | ⟨a, b, -⟩
  · exact .inl ⟨a, b⟩
  · exact .inr (.inl ⟨a, b⟩)
  · exact .inr (.inr ⟨a, b⟩)

/-- **C92** A nonce has the length asked for and consists of ASCII letters and digits. -/
theorem C92_alphanumeric (n : Nat) (ws rest : List UInt32) (x : Nonce)
    (h : Nonce.random n ws = some (x, rest)) : x.val.length = n ∧ ∀ c ∈ x.val, AsciiAlnum c := by
  obtain ⟨used, -, hs, hl⟩ := (C92_drawn n ws rest x).mp h
  refine ⟨hl, ?_⟩
  clear h hl
  generalize x.val = s at hs
  induction hs with
  | nil => simp
  | skip _ _ ih => exact ih
  | take hy _ ih => exact List.forall_mem_cons.mpr ⟨placeOf_alnum hy, ih⟩

theorem alnum_place {c : Char} (h : AsciiAlnum c) : ∃ i, i < 62 ∧ PlaceOf c i := by
  have : ∃ i, PlaceOf c i := by
    rcases h with ⟨a, b⟩ | ⟨a, b⟩ | ⟨a, b⟩
    · have a' : _ ≤ c.toNat := a
      simp at a'
      exact ⟨c.toNat - 65, .inl ⟨a, b, by omega⟩⟩
    · have a' : _ ≤ c.toNat := a
      simp at a'
      exact ⟨c.toNat - 97 + 26, .inr (.inl ⟨a, b, by omega⟩)⟩
    · have a' : _ ≤ c.toNat := a
      simp at a'
      exact ⟨c.toNat - 48 + 52, .inr (.inr ⟨a, b, by omega⟩)⟩
  obtain ⟨i, hi⟩ := this
  exact ⟨i, (place_iff.mp hi).1, hi⟩

/-- **C92** Every letter and digit is equally likely: exactly 2²⁶ of the words stand for it. -/
theorem C92_uniform (c : Char) (hc : AsciiAlnum c) :
    ∃ f : Fin (2 ^ 26) → UInt32, Function.Injective f ∧ ∀ w, Yields w c ↔ ∃ i, f i = w := by
  obtain ⟨p, hp, hplace⟩ := alnum_place hc
  have hnat : ∀ i : Fin (2 ^ 26), (UInt32.ofNat (p * 2 ^ 26 + i.val)).toNat = p * 2 ^ 26 + i.val := by
    intro i
    rw [UInt32.toNat_ofNat']
    exact Nat.mod_eq_of_lt (by have := i.isLt; omega)
  refine ⟨fun i => UInt32.ofNat (p * 2 ^ 26 + i.val), ?_, ?_⟩
  · intro i j h
    have := congrArg UInt32.toNat h
    simp only [hnat] at this
    exact Fin.ext (by omega)
  · intro w
    have hyw : Yields w c ↔ w.toNat / 2 ^ 26 = p := by
      rw [Yields]
      constructor
      · intro h
        have h1 := place_iff.mp h
        generalize w.toNat / 2 ^ 26 = q at *
        rcases h with ⟨h1, h2, h3⟩ | ⟨h1, h2, h3⟩ | ⟨h1, h2, h3⟩ <;>
          rcases hplace with ⟨g1, g2, g3⟩ | ⟨g1, g2, g3⟩ | ⟨g1, g2, g3⟩ <;>
          (have a : _ ≤ c.toNat := h1; have b : c.toNat ≤ _ := h2
           have a' : _ ≤ c.toNat := g1; have b' : c.toNat ≤ _ := g2
           simp at a b a' b'; omega)
      · rintro rfl; exact hplace
    rw [hyw]
    constructor
    · intro h
      refine ⟨⟨w.toNat % 2 ^ 26, Nat.mod_lt _ (by decide)⟩, UInt32.toNat_inj.mp ?_⟩
      rw [hnat]
      simp only
      omega
    · rintro ⟨i, rfl⟩
      rw [hnat]
      have := i.isLt
      omega

/-- **C92** Every text of letters and digits is drawn for some words of the generator: for any choice, at
each position, of one of the words for the character there. -/
theorem C92_every_nonce (s : Str) (ws rest : List UInt32) (h : List.Forall₂ Yields ws s) :
    Nonce.random s.length (ws ++ rest) = some (⟨s⟩, rest) := by
  refine (C92_drawn _ _ _ _).mpr ⟨ws, rfl, ?_, rfl⟩
  induction h with
  | nil => exact .nil
  | cons hy _ ih => exact .take hy ih

/-- **C92** Such words exist for every text of letters and digits. -/
theorem C92_reachable (s : Str) (hs : ∀ c ∈ s, AsciiAlnum c) : ∃ ws, List.Forall₂ Yields ws s := by
  induction s with
  | nil => exact ⟨[], .nil⟩
  | cons c s ih =>
    obtain ⟨h1, h2⟩ := List.forall_mem_cons.mp hs
    obtain ⟨ws, hws⟩ := ih h2
    obtain ⟨f, -, hf⟩ := C92_uniform c h1
    exact ⟨f ⟨0, by decide⟩ :: ws, .cons ((hf _).mpr ⟨_, rfl⟩) hws⟩

instance (w : UInt32) : Decidable (Unused w) := inferInstanceAs (Decidable (_ ≤ _))

theorem sampleAlphanumeric_none {ws : List UInt32} :
    sampleAlphanumeric ws = none ↔ ∀ w ∈ ws, Unused w := by
  induction ws with
  | nil => simp [sampleAlphanumeric]
  | cons w ws ih =>
    simp only [sampleAlphanumeric, List.forall_mem_cons, unused_iff (w := w)]
    split
    · rename_i h
      exact ⟨(fun h => nomatch h), fun h' => absurd h h'.1⟩
    · rename_i h
      rw [ih]; exact ⟨fun h' => ⟨h, h'⟩, fun h' => h'.2⟩

/-- **C92** A nonce is drawn as soon as the generator has yielded as many words that stand for a
character as characters are asked for. -/
theorem C92_enough (n : Nat) (ws : List UInt32) :
    (∃ x rest, Nonce.random n ws = some (x, rest)) ↔ n ≤ (ws.filter fun w => ¬ Unused w).length := by
  have hn : (∃ x rest, Nonce.random n ws = some (x, rest)) ↔ ∃ p, sampleString n ws = some p := by
    rw [Nonce.random]
    cases sampleString n ws with
    | none => simp
    | some p => simp
  rw [hn]
  clear hn
  induction n generalizing ws with
  | zero => simp [sampleString]
  | succ n ih =>
    simp only [sampleString]
    cases h : sampleAlphanumeric ws with
    | none =>
      have := sampleAlphanumeric_none.mp h
      have he : ws.filter (fun w => ¬ Unused w) = [] := by
        rw [List.filter_eq_nil_iff]; simpa using this
      rw [he]; simp
    | some p =>
      obtain ⟨c, rest⟩ := p
      obtain ⟨skipped, w, rfl, hs, hy⟩ := sampleAlphanumeric_iff.mp h
      have he : skipped.filter (fun w => ¬ Unused w) = [] := by
        rw [List.filter_eq_nil_iff]; simpa using hs
      have hw : ¬ Unused w := by rw [unused_iff]; exact not_not.mpr (yields_iff.mp hy).1
      rw [List.filter_append, he, List.nil_append, List.filter_cons_of_pos (by simpa using hw),
        List.length_cons, Nat.add_le_add_iff_right]
      refine Iff.trans ?_ (ih rest)
      simp only
      cases sampleString n rest with
      | none => simp
      | some p => simp

/-- **C92** A nonce stands in a URL and in JSON as it is. -/
theorem C92_unescaped (n : Nat) (ws rest : List UInt32) (x : Nonce)
    (h : Nonce.random n ws = some (x, rest)) :
    formEnc x.val = x.val ∧ jPrint (.str x.val) = '"' :: (x.val ++ ['"']) := by
  obtain ⟨-, hall⟩ := C92_alphanumeric n ws rest x h
  generalize x.val = s at hall
  have key : ∀ c, AsciiAlnum c → (utf8 [c]).flatMap formByte = [c] ∧ jEsc c = [c] := by
    have : ∀ i : Fin 62, (utf8 [alphanumericChars.getD i.val 'A']).flatMap formByte =
        [alphanumericChars.getD i.val 'A'] ∧
        jEsc (alphanumericChars.getD i.val 'A') = [alphanumericChars.getD i.val 'A'] := by
      decide +kernel
    intro c hc
    obtain ⟨i, hi, hp⟩ := alnum_place hc
    rw [← (place_iff.mp hp).2]
    exact this ⟨i, hi⟩
  have hboth : formEnc s = s ∧ s.flatMap jEsc = s := by
    induction s with
    | nil => exact ⟨rfl, rfl⟩
    | cons c s ih =>
      obtain ⟨h1, h2⟩ := List.forall_mem_cons.mp hall
      obtain ⟨k1, k2⟩ := key c h1
      obtain ⟨i1, i2⟩ := ih h2
      constructor
      · have : utf8 (c :: s) = utf8 [c] ++ utf8 s := by simp [utf8]
        rw [formEnc] at i1 ⊢
        rw [this, List.flatMap_append, k1, i1]; rfl
      · rw [List.flatMap_cons, k2, i2]; rfl
  refine ⟨hboth.1, ?_⟩
  rw [jPrint, jStr, hboth.2]

/-- The second word stands for nothing, and the last one is not needed. -/
example : Nonce.random 3 [0x04000000, 0xF8000000, 0xF7FFFFFF, 0x6BFFFFFF, 7] = some (⟨c!"B9a"⟩, [7]) := by
  decide +kernel

/-- Five words, four of which stand for a character, are not enough for five characters. -/
example : ¬ ∃ x rest, Nonce.random 5 [0x04000000, 0xF8000000, 0xF7FFFFFF, 0x6BFFFFFF, 7] = some (x, rest) := by
  rw [C92_enough]; decide +kernel

example : ∃ ws, List.Forall₂ Yields ws c!"Zz9" := C92_reachable _ (by unfold AsciiAlnum; decide)

end Oid4vp
