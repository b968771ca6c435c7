import Verif.Spec.JsonText
import Verif.Lemmas.JsonWf
import Verif.Lemmas.Uuid
/-!
# The JSON parser reads exactly the JSON texts
-/

set_option autoImplicit false

namespace Oid4vp
open Spec

/-! ## White space -/

theorem isWs_iff {c : Char} : isWs c = true ↔ c ∈ c!" \t\n\r" := by
  simp only [isWs, Bool.or_eq_true, decide_eq_true_eq]
  simp only [List.mem_cons, List.not_mem_nil, or_false]
  tauto

theorem skipWs_space {w s : Str} (h : Space w) : skipWs (w ++ s) = skipWs s := by
  induction w with
  | nil => rfl
  | cons c w ih =>
    have h1 := isWs_iff.2 (h c (by simp))
    simp only [List.cons_append, skipWs, h1, if_true]
    exact ih fun x hx => h x (by simp [hx])

theorem skipWs_split (s : Str) : ∃ w, Space w ∧ s = w ++ skipWs s := by
  induction s with
  | nil => exact ⟨[], by simp [Space], rfl⟩
  | cons c s ih =>
    simp only [skipWs]
    split
    · rename_i h
      obtain ⟨w, hw, e⟩ := ih
      refine ⟨c :: w, ?_, by rw [List.cons_append, ← e]⟩
      intro x hx
      rcases List.mem_cons.1 hx with rfl | hx
      · exact isWs_iff.1 h
      · exact hw x hx
    · exact ⟨[], by simp [Space], rfl⟩

theorem space_nil : Space [] := by simp [Space]

theorem space_stop {w r : Str} (h : Space w) (hr : Stop r) : Stop (w ++ r) := by
  cases w with
  | nil => exact hr
  | cons c w =>
    have := h c (by simp)
    apply stop_cons
    simp only [List.mem_cons, List.not_mem_nil, or_false] at this
    rcases this with rfl | rfl | rfl | rfl <;> decide

/-! ## Strings -/

theorem jHex_char {c : Char} {d : Nat} : jHex c = some d ↔ HexChar c d := hexVal_char

theorem hexText_snoc {l : Str} {c : Char} {n : Nat} (h : HexText (l ++ [c]) n) :
    ∃ m d, HexText l m ∧ HexChar c d ∧ n = 16 * m + d := by
  generalize hs : l ++ [c] = s at h
  cases h with
  | nil => simp at hs
  | digit h hc =>
    have := List.append_inj' hs rfl
    simp only [List.cons.injEq, and_true] at this
    obtain ⟨rfl, rfl⟩ := this
    exact ⟨_, _, h, hc, rfl⟩

theorem hex4_iff {s r : Str} {n : Nat} : hex4 s = some (n, r) ↔ ∃ h, Hex4 h n ∧ s = h ++ r := by
  constructor
  · intro h
    match s, h with
    | a :: b :: c :: d :: rest, h =>
      simp only [hex4] at h
      split at h
      · rename_i x y z u ha hb hc hd
        simp only [Option.some.injEq, Prod.mk.injEq] at h
        refine ⟨[a, b, c, d], ⟨rfl, ?_⟩, by rw [← h.2]; rfl⟩
        have := HexText.digit (HexText.digit (HexText.digit (HexText.digit .nil (jHex_char.1 ha))
          (jHex_char.1 hb)) (jHex_char.1 hc)) (jHex_char.1 hd)
        rw [← h.1]
        have e : x * 4096 + y * 256 + z * 16 + u = 16 * (16 * (16 * (16 * 0 + x) + y) + z) + u := by omega
        rw [e]; exact this
      · simp at h
  · rintro ⟨h, ⟨hl, hx⟩, rfl⟩
    match h, hl with
    | [a, b, c, d], _ =>
      obtain ⟨n1, d4, hx1, h4, rfl⟩ := hexText_snoc (l := [a, b, c]) hx
      obtain ⟨n2, d3, hx2, h3, rfl⟩ := hexText_snoc (l := [a, b]) hx1
      obtain ⟨n3, d2, hx3, h2, rfl⟩ := hexText_snoc (l := [a]) hx2
      obtain ⟨n4, d1, hx4, h1, rfl⟩ := hexText_snoc (l := []) hx3
      have : n4 = 0 := by
        generalize hs : ([] : Str) = s at hx4
        cases hx4 with
        | nil => rfl
        | digit => simp at hs
      subst this
      simp only [List.cons_append, List.nil_append, hex4, jHex_char.2 h1, jHex_char.2 h2, jHex_char.2 h3,
        jHex_char.2 h4, Option.some.injEq, Prod.mk.injEq, and_true]
      omega

theorem simpleEsc_iff {e c : Char} : simpleEsc e = some c ↔ (e, c) ∈ shortEscapes := by
  constructor
  · intro h
    simp only [simpleEsc] at h
    repeat' split at h
    all_goals first
      | (cases h; subst_vars; decide)
      | simp at h
  · intro h
    simp only [shortEscapes, List.mem_cons, Prod.mk.injEq, List.not_mem_nil, or_false] at h
    rcases h with ⟨rfl, rfl⟩ | ⟨rfl, rfl⟩ | ⟨rfl, rfl⟩ | ⟨rfl, rfl⟩ | ⟨rfl, rfl⟩ | ⟨rfl, rfl⟩ | ⟨rfl, rfl⟩ |
      ⟨rfl, rfl⟩ <;> rfl

theorem consR_ok {c : Char} {x : Res (Str × Str)} {s r : Str} (h : consR c x = .ok (s, r)) :
    ∃ s', s = c :: s' ∧ x = .ok (s', r) := by
  cases x with
  | error e => simp [consR] at h
  | ok p =>
    obtain ⟨s', r'⟩ := p
    simp only [consR, Except.ok.injEq, Prod.mk.injEq] at h
    exact ⟨s', h.1.symm, by rw [h.2]⟩

theorem hex4_lt {h : Str} {n : Nat} (hh : Hex4 h n) : n < 65536 := by
  obtain ⟨hl, hx⟩ := hh
  have := (hexNat_iff 4 h n hl).1 (hexNat_text.2 hx)
  exact this.1

theorem ofNat_toNat_of_valid {n : Nat} (h : n < 0xD800 ∨ (0xDFFF < n ∧ n < 0x110000)) :
    (Char.ofNat n).toNat = n := char_toNat_ofNat (by omega)

theorem pStr_sound (f : Nat) : ∀ (s k r : Str), pStr f s = .ok (k, r) →
    ∃ t, StrText t k ∧ s = t ++ '"' :: r := by
  induction f with
  | zero => intro s k r h; simp [pStr] at h
  | succ f ih =>
    intro s k r h
    cases s with
    | nil => simp [pStr] at h
    | cons c cs =>
      simp only [pStr] at h
      split at h
      · rename_i hc
        simp only [Except.ok.injEq, Prod.mk.injEq] at h
        obtain ⟨rfl, rfl⟩ := h
        exact ⟨[], .nil, by rw [hc]; rfl⟩
      · rename_i hq
        split at h
        · rename_i hb
          subst hb
          cases cs with
          | nil => simp at h
          | cons e rest =>
            simp only at h
            split at h
            · rename_i he
              subst he
              cases h4 : hex4 rest with
              | none => rw [h4] at h; simp at h
              | some p =>
                obtain ⟨n, r1⟩ := p
                rw [h4] at h
                simp only at h
                obtain ⟨hd, hh, rfl⟩ := hex4_iff.1 h4
                have hn := hex4_lt hh
                split at h
                · simp at h
                · rename_i hlo
                  split at h
                  · rename_i hhi
                    split at h
                    · rename_i r2
                      cases h4' : hex4 r2 with
                      | none => rw [h4'] at h; simp at h
                      | some p =>
                        obtain ⟨n2, r3⟩ := p
                        rw [h4'] at h
                        simp only at h
                        obtain ⟨hd', hh', rfl⟩ := hex4_iff.1 h4'
                        split at h
                        · rename_i h2
                          obtain ⟨k', rfl, h'⟩ := consR_ok h
                          obtain ⟨t, ht, rfl⟩ := ih _ _ _ h'
                          refine ⟨('\\' :: 'u' :: hd ++ '\\' :: 'u' :: hd') ++ t,
                            .cons (.pair (n := n - 0xD800) (m := n2 - 0xDC00) ?_ (by omega) ?_ (by omega) ?_) ht,
                            by simp⟩
                          · rwa [Nat.add_sub_cancel' hhi.1]
                          · rwa [Nat.add_sub_cancel' h2.1]
                          · rw [ofNat_toNat_of_valid (by omega)]; omega
                        · simp at h
                    · simp at h
                  · rename_i hhi
                    obtain ⟨k', rfl, h'⟩ := consR_ok h
                    obtain ⟨t, ht, rfl⟩ := ih _ _ _ h'
                    refine ⟨('\\' :: 'u' :: hd) ++ t, .cons (.unit ?_) ht, by simp⟩
                    rw [ofNat_toNat_of_valid (by omega)]; exact hh
            · split at h
              · rename_i ch he
                obtain ⟨k', rfl, h'⟩ := consR_ok h
                obtain ⟨t, ht, rfl⟩ := ih _ _ _ h'
                exact ⟨['\\', e] ++ t, .cons (.short (simpleEsc_iff.1 he)) ht, by simp⟩
              · simp at h
        · rename_i hb
          split at h
          · simp at h
          · rename_i hlt
            obtain ⟨k', rfl, h'⟩ := consR_ok h
            obtain ⟨t, ht, rfl⟩ := ih _ _ _ h'
            exact ⟨[c] ++ t, .cons (.plain (by omega) hq hb) ht, by simp⟩

theorem pStr_complete {t k : Str} (h : StrText t k) : ∀ (f : Nat) (r : Str), k.length < f →
    pStr f (t ++ '"' :: r) = .ok (k, r) := by
  induction h with
  | nil =>
    intro f r hf
    cases f with
    | zero => omega
    | succ f => simp [pStr]
  | @cons t c r s hc hs ih =>
    intro f rest hf
    cases f with
    | zero => omega
    | succ f =>
      have ih := ih f rest (by simp at hf; omega)
      cases hc with
      | plain h1 h2 h3 =>
        simp only [List.cons_append, List.nil_append, pStr]
        rw [if_neg h2, if_neg h3, if_neg (by omega), ih]; rfl
      | @short e _ h =>
        have he : e ≠ 'u' := by
          rintro rfl
          rw [← simpleEsc_iff] at h
          simp [simpleEsc] at h
        simp only [List.cons_append, List.nil_append, pStr]
        rw [if_neg (by decide), if_pos trivial]
        simp only [if_neg he, simpleEsc_iff.2 h, ih]; rfl
      | @unit hd _ h =>
        have hv := c.valid
        have h4 : hex4 (hd ++ (r ++ '"' :: rest)) = some (c.toNat, r ++ '"' :: rest) := hex4_iff.2 ⟨hd, h, rfl⟩
        simp only [List.cons_append, List.append_assoc, pStr]
        rw [if_neg (by decide), if_pos trivial]
        simp only [if_true, h4]
        have hr := char_range c
        rw [if_neg (by omega), if_neg (by omega), ih]
        simp [consR, Char.ofNat_toNat]
      | @pair hd l n m _ h1 h2 h3 h4 h5 =>
        have e1 : hex4 (hd ++ '\\' :: 'u' :: (l ++ (r ++ '"' :: rest))) =
          some (0xD800 + n, '\\' :: 'u' :: (l ++ (r ++ '"' :: rest))) := hex4_iff.2 ⟨hd, h1, rfl⟩
        have e2 : hex4 (l ++ (r ++ '"' :: rest)) = some (0xDC00 + m, r ++ '"' :: rest) := hex4_iff.2 ⟨l, h3, rfl⟩
        simp only [List.cons_append, List.append_assoc, pStr]
        rw [if_neg (by decide), if_pos trivial]
        simp only [if_true, e1]
        rw [if_neg (by omega), if_pos (by omega)]
        simp only [e2]
        rw [if_pos (by omega), ih]
        have : 65536 + (0xD800 + n - 55296) * 1024 + (0xDC00 + m - 56320) = c.toNat := by omega
        rw [this, Char.ofNat_toNat]; rfl

theorem strText_length {t k : Str} (h : StrText t k) : k.length ≤ t.length := by
  induction h with
  | nil => simp
  | @cons t c r s hc hs ih =>
    have : 1 ≤ t.length := by cases hc <;> simp
    simp only [List.length_cons, List.length_append]; omega

/-! ## Numbers -/

theorem pFrac_split {s t r : Str} (h : pFrac s = some (t, r)) : s = t ++ r := by
  cases s with
  | nil => simp only [pFrac, Option.some.injEq, Prod.mk.injEq] at h; rw [← h.1, ← h.2]; rfl
  | cons c cs =>
    simp only [pFrac] at h
    split at h
    · split at h
      · simp at h
      · simp only [Option.some.injEq, Prod.mk.injEq] at h
        rw [← h.1, ← h.2, List.cons_append, spanDigits_eq]
    · simp only [Option.some.injEq, Prod.mk.injEq] at h; rw [← h.1, ← h.2]; rfl

theorem pExp_split {s t r : Str} (h : pExp s = some (t, r)) : s = t ++ r := by
  cases s with
  | nil => simp only [pExp, Option.some.injEq, Prod.mk.injEq] at h; rw [← h.1, ← h.2]; rfl
  | cons e cs =>
    simp only [pExp] at h
    split at h
    · cases cs with
      | nil => simp at h
      | cons c cs =>
        simp only at h
        split at h
        · split at h
          · simp at h
          · simp only [Option.some.injEq, Prod.mk.injEq] at h
            rw [← h.1, ← h.2, List.cons_append, List.cons_append, spanDigits_eq]
        · split at h
          · simp at h
          · simp only [Option.some.injEq, Prod.mk.injEq] at h
            rw [← h.1, ← h.2, List.cons_append, spanDigits_eq]
    · simp only [Option.some.injEq, Prod.mk.injEq] at h; rw [← h.1, ← h.2]; rfl

/-- The sign of a number. -/
def signText (neg : Bool) : Str := if neg then ['-'] else []

theorem mkInt_num {neg : Bool} {ds : Str} (h : IntPart ds) : NumText (signText neg ++ ds) (mkInt neg ds) := by
  have e : digitsVal ds = decimal ds := (decimal_eq fun c hc => (digit_iff c).1 (h.1.2 c hc)).symm
  cases neg with
  | true =>
    simp only [mkInt, e, if_true]
    split
    · exact .negBig h (.inl (by assumption))
    · split
      · rename_i h0 h1
        exact .neg h (Nat.pos_of_ne_zero h0) h1
      · rename_i h1
        exact NumText.negBig (ds := ds) h (.inr (Nat.lt_of_not_le h1))
  | false =>
    simp only [mkInt, e, Bool.false_eq_true, if_false]
    split
    · exact NumText.nat (ds := ds) h (by assumption)
    · rename_i h1
      exact NumText.big (ds := ds) h (Nat.le_of_not_lt h1)

theorem pUNum_sound {neg : Bool} {s r : Str} {j : Json} (h : pUNum neg s = .ok (j, r)) :
    ∃ t, s = t ++ r ∧ NumText (signText neg ++ t) j := by
  simp only [pUNum] at h
  split at h
  · simp at h
  · rename_i hne
    split at h
    · simp at h
    · rename_i h0
      have hi : IntPart (spanDigits s).1 := by
        refine ⟨spanDigits_spec hne, ?_⟩
        intro hh
        have hl : (spanDigits s).1.length = 1 := Decidable.byContradiction fun hl => h0 ⟨hh, hl⟩
        match hds : (spanDigits s).1 with
        | [] => rw [hds] at hl; simp at hl
        | [c] => rw [hds] at hh; simpa using hh
        | _ :: _ :: _ => rw [hds] at hl; simp at hl
      split at h
      · simp at h
      · rename_i fr r1 hfr
        split at h
        · simp at h
        · rename_i ex r2 hex
          have e1 := spanDigits_eq s
          have e2 := pFrac_split hfr
          have e3 := pExp_split hex
          split at h
          · rename_i hfe
            simp only [Except.ok.injEq, Prod.mk.injEq] at h
            rw [← h.1, ← h.2]
            refine ⟨(spanDigits s).1, ?_, mkInt_num hi⟩
            rw [hfe.1] at e2; rw [hfe.2] at e3
            simp only [List.nil_append] at e2 e3
            rw [← e3, ← e2, e1]
          · rename_i hfe
            simp only [Except.ok.injEq, Prod.mk.injEq] at h
            rw [← h.1, ← h.2]
            refine ⟨(spanDigits s).1 ++ (fr ++ ex), ?_, ?_⟩
            · rw [List.append_assoc, List.append_assoc, ← e3, ← e2, e1]
            · have hf : FloatText (signText neg ++ ((spanDigits s).1 ++ (fr ++ ex))) := by
                refine ⟨signText neg, (spanDigits s).1, fr, ex, rfl, ?_, hi, pFrac_spec hfr, pExp_spec hex, ?_⟩
                · cases neg <;> simp [signText]
                · rcases Classical.em (fr = []) with h1 | h1
                  · exact .inr fun h2 => hfe ⟨h1, h2⟩
                  · exact .inl h1
              have := NumText.float hf
              simpa [signText] using this

theorem pNum_sound {s r : Str} {j : Json} (h : pNum s = .ok (j, r)) : ∃ t, s = t ++ r ∧ NumText t j := by
  cases s with
  | nil => simp [pNum] at h
  | cons c cs =>
    simp only [pNum] at h
    split at h
    · rename_i hc
      obtain ⟨t, e, ht⟩ := pUNum_sound h
      exact ⟨'-' :: t, by rw [hc, e]; rfl, by simpa [signText] using ht⟩
    · obtain ⟨t, e, ht⟩ := pUNum_sound h
      exact ⟨t, e, by simpa [signText] using ht⟩

theorem pUNum_int {neg : Bool} {ds : Str} (h : IntPart ds) : pUNum neg ds = .ok (mkInt neg ds, []) := by
  refine pUNum_mkInt h.1.1 (fun c hc => (digit_iff c).1 (h.1.2 c hc)) ?_
  rintro ⟨h1, h2⟩
  rw [h.2 h1] at h2; exact h2 rfl

theorem pNum_pos {ds : Str} (h : IntPart ds) : pNum ds = .ok (mkInt false ds, []) := by
  have := pUNum_int (neg := false) h
  match ds, h, this with
  | [], h, _ => exact absurd rfl h.1.1
  | c :: cs, h, this =>
    have hc : c ≠ '-' := by
      rintro rfl
      have := h.1.2 '-' (by simp)
      revert this; unfold Digit; decide
    simp only [pNum, if_neg hc, this]

theorem pNum_whole {t : Str} {j : Json} (h : NumText t j) : pNum t = .ok (j, []) := by
  have e : ∀ {ds : Str}, IntPart ds → digitsVal ds = decimal ds := fun h =>
    (decimal_eq fun c hc => (digit_iff c).1 (h.1.2 c hc)).symm
  cases h with
  | float h => exact fltLit_of_floatText h
  | nat h h1 => rw [pNum_pos h]; simp [mkInt, e h, h1]
  | big h h1 =>
    rw [pNum_pos h]
    simp only [mkInt, e h, Bool.false_eq_true, if_false]
    rw [if_neg (by omega)]
  | neg h h1 h2 =>
    simp only [pNum, if_true, pUNum_int h, mkInt, e h]
    rw [if_neg (by omega), if_pos h2]
  | negBig h h1 =>
    simp only [pNum, if_true, pUNum_int h, mkInt, e h]
    rcases h1 with h1 | h1
    · rw [if_pos h1]
    · rw [if_neg (by omega), if_neg (by omega)]

theorem pNum_complete {t r : Str} {j : Json} (h : NumText t j) (hr : Stop r) : pNum (t ++ r) = .ok (j, r) := by
  have := pNum_ext (pNum_whole h) hr
  simpa using this

/-! ## Objects -/

theorem mget_reverse_iff {α : Type} {l : List (Str × α)} {k : Str} {j : α} :
    mget k l.reverse = some j ↔ ∃ a b, l = a ++ (k, j) :: b ∧ ∀ j', (k, j') ∉ b := by
  induction l with
  | nil => simp
  | cons p l ih =>
    obtain ⟨k', v⟩ := p
    rw [List.reverse_cons, mget_append]
    cases hm : mget k l.reverse with
    | some j' =>
      simp only [Option.some_or, Option.some.injEq]
      rw [hm] at ih
      simp only [Option.some.injEq] at ih
      rw [ih]
      constructor
      · rintro ⟨a, b, rfl, hb⟩; exact ⟨(k', v) :: a, b, rfl, hb⟩
      · rintro ⟨a, b, e, hb⟩
        cases a with
        | nil =>
          simp only [List.nil_append, List.cons.injEq] at e
          have := mem_of_mget hm
          rw [List.mem_reverse, e.2] at this
          exact absurd this (hb j')
        | cons q a =>
          simp only [List.cons_append, List.cons.injEq] at e
          exact ⟨a, b, e.2, hb⟩
    | none =>
      simp only [Option.none_or, mget]
      have hno : ∀ j', (k, j') ∉ l := by
        intro j' hj
        have hx : (k, j') ∈ l.reverse := List.mem_reverse.2 hj
        have hs : ∀ m : List (Str × α), (k, j') ∈ m → mget k m ≠ none := by
          intro m
          induction m with
          | nil => simp
          | cons q m ih2 =>
            obtain ⟨k2, v2⟩ := q
            intro hmem
            simp only [mget]
            split
            · simp
            · rename_i hk
              rcases List.mem_cons.1 hmem with h | h
              · cases h; exact absurd rfl hk
              · exact ih2 h
        exact hs _ hx hm
      constructor
      · intro h
        split at h
        · rename_i hk
          cases h
          exact ⟨[], l, by rw [hk]; rfl, hno⟩
        · cases h
      · rintro ⟨a, b, e, hb⟩
        cases a with
        | nil =>
          simp only [List.nil_append, List.cons.injEq, Prod.mk.injEq] at e
          rw [if_pos e.1.1.symm, e.1.2]
        | cons q a =>
          simp only [List.cons_append, List.cons.injEq] at e
          exact absurd (by rw [e.2]; simp) (hno j)

theorem lastMembers_iff {l m : List (Str × Json)} : LastMembers l m ↔ m = mofList l := by
  have hs : LastMembers l (mofList l) := by
    refine ⟨mofList_sorted l, ?_⟩
    intro k j
    rw [← mget_reverse_iff, ← mget_mofList]
    exact ⟨fun h => mget_of_mem (mofList_sorted l) h, mem_of_mget⟩
  constructor
  · rintro ⟨h1, h2⟩
    refine map_ext h1 hs.1 fun k => ?_
    have key : ∀ j, mget k m = some j ↔ mget k (mofList l) = some j := by
      intro j
      have a1 : mget k m = some j ↔ (k, j) ∈ m := ⟨mem_of_mget, mget_of_mem h1⟩
      have a2 : mget k (mofList l) = some j ↔ (k, j) ∈ mofList l := ⟨mem_of_mget, mget_of_mem hs.1⟩
      rw [a1, a2, h2, hs.2]
    cases hm : mget k m with
    | some j => rw [(key j).1 hm]
    | none =>
      cases hm' : mget k (mofList l) with
      | none => rfl
      | some j => rw [(key j).2 hm'] at hm; cases hm
  · rintro rfl; exact hs

/-! ## Soundness -/

/-- What a sound parser of values returns. -/
def Sound (p : Str → Res (Json × Str)) (P : Str → Json → Prop) : Prop :=
  ∀ s j r, p s = .ok (j, r) → ∃ w t, s = w ++ t ++ r ∧ Space w ∧ P t j.norm

theorem pElems_sound {p : Str → Res (Json × Str)} {P : Str → Json → Prop} (hp : Sound p P) (f : Nat) :
    ∀ (first : Bool) (s : Str) (l : List Json) (r : Str), pElems p f first s = .ok (l, r) →
      (∃ w, Space w ∧ l = [] ∧ s = w ++ ']' :: r) ∨
      ∃ w t, Space w ∧ Items P t (Json.normL l) ∧ s = w ++ (if first then [] else [',']) ++ t ++ ']' :: r := by
  induction f with
  | zero => intro first s l r h; simp [pElems] at h
  | succ f ih =>
    intro first s l r h
    obtain ⟨w, hw, e⟩ := skipWs_split s
    simp only [pElems] at h
    cases hs : skipWs s with
    | nil => rw [hs] at h; simp at h
    | cons c cs =>
      rw [hs] at h e
      simp only at h
      split at h
      · rename_i hc
        simp only [Except.ok.injEq, Prod.mk.injEq] at h
        exact .inl ⟨w, hw, h.1.symm, by rw [e, hc, h.2]⟩
      · cases hsep : pSep first c cs with
        | error e => rw [hsep] at h; simp at h
        | ok s' =>
          rw [hsep] at h
          simp only at h
          have hs' : c :: cs = (if first then [] else [',']) ++ s' := by
            cases first with
            | true => simp [pSep] at hsep; simp [hsep]
            | false =>
              simp only [pSep, Bool.false_eq_true, if_false] at hsep
              split at hsep
              · rename_i hc
                simp only [Except.ok.injEq] at hsep
                simp [hc, hsep]
              · simp at hsep
          cases hj : p s' with
          | error e => rw [hj] at h; simp at h
          | ok q =>
            obtain ⟨j, r1⟩ := q
            rw [hj] at h
            simp only at h
            obtain ⟨w1, t1, e1, hw1, ht1⟩ := hp _ _ _ hj
            cases hl : pElems p f false r1 with
            | error e => rw [hl] at h; simp at h
            | ok q =>
              obtain ⟨l', r2⟩ := q
              rw [hl] at h
              simp only [Except.ok.injEq, Prod.mk.injEq] at h
              obtain ⟨rfl, rfl⟩ := h
              refine .inr ?_
              rcases ih _ _ _ _ hl with ⟨w2, hw2, rfl, e2⟩ | ⟨w2, t2, hw2, hi, e2⟩
              · refine ⟨w, w1 ++ t1 ++ w2, hw, .one hw1 ht1 hw2, ?_⟩
                rw [e, hs', e1, e2]; simp
              · refine ⟨w, w1 ++ t1 ++ w2 ++ ',' :: t2, hw, .more hw1 ht1 hw2 hi, ?_⟩
                rw [e, hs', e1, e2]; simp

theorem pMembers_sound {p : Str → Res (Json × Str)} {P : Str → Json → Prop} (hp : Sound p P) (f : Nat) :
    ∀ (first : Bool) (s : Str) (l : List (Str × Json)) (r : Str), pMembers p f first s = .ok (l, r) →
      (∃ w, Space w ∧ l = [] ∧ s = w ++ '}' :: r) ∨
      ∃ w t, Space w ∧ Members P t (Json.normM l) ∧ s = w ++ (if first then [] else [',']) ++ t ++ '}' :: r := by
  induction f with
  | zero => intro first s l r h; simp [pMembers] at h
  | succ f ih =>
    intro first s l r h
    obtain ⟨w, hw, e⟩ := skipWs_split s
    simp only [pMembers] at h
    cases hs : skipWs s with
    | nil => rw [hs] at h; simp at h
    | cons c cs =>
      rw [hs] at h e
      simp only at h
      split at h
      · rename_i hc
        simp only [Except.ok.injEq, Prod.mk.injEq] at h
        exact .inl ⟨w, hw, h.1.symm, by rw [e, hc, h.2]⟩
      · cases hsep : pSep first c cs with
        | error e => rw [hsep] at h; simp at h
        | ok s' =>
          rw [hsep] at h
          simp only at h
          have hs' : c :: cs = (if first then [] else [',']) ++ s' := by
            cases first with
            | true => simp [pSep] at hsep; simp [hsep]
            | false =>
              simp only [pSep, Bool.false_eq_true, if_false] at hsep
              split at hsep
              · rename_i hc
                simp only [Except.ok.injEq] at hsep
                simp [hc, hsep]
              · simp at hsep
          obtain ⟨w0, hw0, e0⟩ := skipWs_split s'
          cases hq : skipWs s' with
          | nil => rw [hq] at h; simp at h
          | cons q ks =>
            rw [hq] at h e0
            simp only at h
            split at h
            · rename_i hq'
              subst hq'
              cases hk : pStr (ks.length + 1) ks with
              | error e => rw [hk] at h; simp at h
              | ok x =>
                obtain ⟨k, r0⟩ := x
                rw [hk] at h
                simp only at h
                obtain ⟨n, hn, en⟩ := pStr_sound _ _ _ _ hk
                obtain ⟨wa, hwa, ea⟩ := skipWs_split r0
                cases hd : skipWs r0 with
                | nil => rw [hd] at h; simp at h
                | cons d r3 =>
                  rw [hd] at h ea
                  simp only at h
                  split at h
                  · rename_i hcol
                    subst hcol
                    cases hj : p r3 with
                    | error e => rw [hj] at h; simp at h
                    | ok q =>
                      obtain ⟨j, r1⟩ := q
                      rw [hj] at h
                      simp only at h
                      obtain ⟨w1, t1, e1, hw1, ht1⟩ := hp _ _ _ hj
                      cases hl : pMembers p f false r1 with
                      | error e => rw [hl] at h; simp at h
                      | ok q =>
                        obtain ⟨l', r2⟩ := q
                        rw [hl] at h
                        simp only [Except.ok.injEq, Prod.mk.injEq] at h
                        obtain ⟨rfl, rfl⟩ := h
                        refine .inr ?_
                        rcases ih _ _ _ _ hl with ⟨w2, hw2, rfl, e2⟩ | ⟨w2, t2, hw2, hi, e2⟩
                        · refine ⟨w, _, hw, .one ⟨w0, n, wa, w1, t1, w2, hw0, hwa, hw1, hw2, hn, ht1, rfl⟩, ?_⟩
                          rw [e, hs', e0, en, ea, e1, e2]; simp
                        · refine ⟨w, _, hw, .more ⟨w0, n, wa, w1, t1, w2, hw0, hwa, hw1, hw2, hn, ht1, rfl⟩ hi, ?_⟩
                          rw [e, hs', e0, en, ea, e1, e2]; simp
                  · simp at h
            · simp at h

/-- A parser and the texts of nested values. -/
def SubSound : Option (Str → Res (Json × Str)) → Option (Str → Json → Prop) → Prop
  | none, none => True
  | some p, some P => Sound p P
  | _, _ => False

theorem numText_norm {s : Str} {j : Json} (h : NumText s j) : j.norm = j := by
  cases h <;> rfl

theorem pVal_sound {sub : Option (Str → Res (Json × Str))} {P : Option (Str → Json → Prop)}
    (hsub : SubSound sub P) : Sound (pVal sub) (ValueText P) := by
  intro s j r h
  obtain ⟨w, hw, e⟩ := skipWs_split s
  have word : ∀ (x : Str) (k : Json) (cs : Str), pWord x k cs = .ok (j, r) → j = k ∧ cs = x ++ r := by
    intro x k cs h
    unfold pWord at h
    split at h
    · rename_i r' hr
      simp only [Except.ok.injEq, Prod.mk.injEq] at h
      exact ⟨h.1.symm, by rw [← h.2]; exact stripPrefix_eq_some.1 hr⟩
    · simp at h
  simp only [pVal] at h
  cases hs : skipWs s with
  | nil => rw [hs] at h; simp at h
  | cons c cs =>
    rw [hs] at h e
    simp only at h
    split at h
    · rename_i hc
      obtain ⟨rfl, e2⟩ := word _ _ _ h
      exact ⟨w, c!"null", by rw [e, hc, e2]; simp, hw, .null⟩
    · split at h
      · rename_i hc
        obtain ⟨rfl, e2⟩ := word _ _ _ h
        exact ⟨w, c!"true", by rw [e, hc, e2]; simp, hw, .true⟩
      · split at h
        · rename_i hc
          obtain ⟨rfl, e2⟩ := word _ _ _ h
          exact ⟨w, c!"false", by rw [e, hc, e2]; simp, hw, .false⟩
        · split at h
          · rename_i hc
            cases hk : pStr (cs.length + 1) cs with
            | error e => rw [hk] at h; simp at h
            | ok x =>
              obtain ⟨k, r0⟩ := x
              rw [hk] at h
              simp only [Except.ok.injEq, Prod.mk.injEq] at h
              obtain ⟨rfl, rfl⟩ := h
              obtain ⟨n, hn, en⟩ := pStr_sound _ _ _ _ hk
              exact ⟨w, _, by rw [e, hc, en]; simp, hw, .str hn⟩
          · split at h
            · rename_i hc
              match sub, P, hsub, h with
              | none, none, _, h => simp at h
              | some p, some P, hsub, h =>
                simp only at h
                cases hl : pElems p (cs.length + 1) true cs with
                | error e => rw [hl] at h; simp at h
                | ok x =>
                  obtain ⟨l, r0⟩ := x
                  rw [hl] at h
                  simp only [Except.ok.injEq, Prod.mk.injEq] at h
                  obtain ⟨rfl, rfl⟩ := h
                  rcases pElems_sound hsub _ _ _ _ _ hl with ⟨w2, hw2, rfl, e2⟩ | ⟨w2, t2, hw2, hi, e2⟩
                  · exact ⟨w, _, by rw [e, hc, e2]; simp, hw, .empty rfl hw2⟩
                  · refine ⟨w, '[' :: (w2 ++ t2) ++ [']'], by rw [e, hc, e2]; simp, hw, .arr rfl ?_⟩
                    generalize Json.normL l = l' at hi ⊢
                    cases hi with
                    | one h1 h2 h3 =>
                      rw [← List.append_assoc, ← List.append_assoc]
                      exact .one (fun x hx => (List.mem_append.1 hx).elim (hw2 x) (h1 x)) h2 h3
                    | more h1 h2 h3 h4 =>
                      rw [← List.append_assoc, ← List.append_assoc, ← List.append_assoc]
                      exact .more (fun x hx => (List.mem_append.1 hx).elim (hw2 x) (h1 x)) h2 h3 h4
            · split at h
              · rename_i hc
                match sub, P, hsub, h with
                | none, none, _, h => simp at h
                | some p, some P, hsub, h =>
                  simp only at h
                  cases hl : pMembers p (cs.length + 1) true cs with
                  | error e => rw [hl] at h; simp at h
                  | ok x =>
                    obtain ⟨l, r0⟩ := x
                    rw [hl] at h
                    simp only [Except.ok.injEq, Prod.mk.injEq] at h
                    obtain ⟨rfl, rfl⟩ := h
                    have pre : ∀ {w2 t : Str} {k : Str} {j : Json}, Space w2 → MemberText P t k j →
                        MemberText P (w2 ++ t) k j := by
                      rintro w2 t k j hw2 ⟨w, n, w1, w2', t', w3, h1, h2, h3, h4, h5, h6, rfl⟩
                      exact ⟨w2 ++ w, n, w1, w2', t', w3,
                        fun x hx => (List.mem_append.1 hx).elim (hw2 x) (h1 x), h2, h3, h4, h5, h6, by simp⟩
                    rcases pMembers_sound hsub _ _ _ _ _ hl with ⟨w2, hw2, rfl, e2⟩ | ⟨w2, t2, hw2, hi, e2⟩
                    · exact ⟨w, _, by rw [e, hc, e2]; simp, hw, .emptyObj rfl hw2⟩
                    · refine ⟨w, '{' :: (w2 ++ t2) ++ ['}'], by rw [e, hc, e2]; simp, hw,
                        .obj (l := Json.normM l) rfl ?_ (lastMembers_iff.2 rfl)⟩
                      generalize Json.normM l = l' at hi
                      cases hi with
                      | one h1 => exact .one (pre hw2 h1)
                      | more h1 h2 => rw [← List.append_assoc]; exact .more (pre hw2 h1) h2
              · obtain ⟨t, et, ht⟩ := pNum_sound h
                exact ⟨w, t, by rw [e, et, List.append_assoc], hw, .num (by rw [numText_norm ht]; exact ht)⟩

theorem pJson_sound (d : Nat) : Sound (pJson d) (NestedText d) := by
  induction d with
  | zero => exact pVal_sound (sub := none) (P := none) trivial
  | succ d ih => exact pVal_sound (sub := some (pJson d)) (P := some (NestedText d)) ih

/-! ## Completeness -/

theorem skipWs_head {c : Char} {s : Str} (h : isWs c = false) : skipWs (c :: s) = c :: s := by
  simp only [skipWs, h, Bool.false_eq_true, if_false]

/-- What a complete parser of values does. -/
def Complete (p : Str → Res (Json × Str)) (P : Str → Json → Prop) : Prop :=
  ∀ t j, P t j → (∃ c cs, t = c :: cs ∧ isWs c = false ∧ c ≠ ']') ∧
    ∃ raw : Json, raw.norm = j ∧ ∀ w r, Space w → Stop r → p (w ++ t ++ r) = .ok (raw, r)

theorem pElems_complete {p : Str → Res (Json × Str)} {P : Str → Json → Prop} (hp : Complete p P)
    {t : Str} {l : List Json} (h : Items P t l) :
    ∃ l', Json.normL l' = l ∧ ∀ f r, t.length < f →
      pElems p f true (t ++ ']' :: r) = .ok (l', r) ∧
      ∀ w, Space w → pElems p f false (w ++ (',' :: t ++ ']' :: r)) = .ok (l', r) := by
  have close : ∀ f r w, Space w → pElems p (f + 1) false (w ++ ']' :: r) = .ok ([], r) := by
    intro f r w hw
    simp only [pElems, skipWs_space hw, skipWs_head (c := ']') (by decide), if_true]
  have stop : ∀ {r : Str}, Stop (']' :: r) := stop_cons (by decide)
  have stop' : ∀ {r : Str}, Stop (',' :: r) := stop_cons (by decide)
  induction h with
  | @one w t w' j hw ht hw' =>
    obtain ⟨⟨c, cs, rfl, h1, h2⟩, raw, hr, hpp⟩ := hp _ _ ht
    refine ⟨[raw], by simp [Json.normL, hr], ?_⟩
    intro f r hf
    obtain ⟨f, rfl⟩ : ∃ g, f = g + 2 := by
      simp only [List.length_append, List.length_cons] at hf
      exact ⟨f - 2, by omega⟩
    have e1 := hpp w (w' ++ ']' :: r) hw (space_stop hw' stop)
    constructor
    · have e2 := hpp [] (w' ++ ']' :: r) space_nil (space_stop hw' stop)
      have es : skipWs (w ++ c :: cs ++ w' ++ ']' :: r) = c :: (cs ++ (w' ++ ']' :: r)) := by
        simp only [List.append_assoc, skipWs_space hw]
        exact skipWs_head h1
      rw [pElems, es]
      simp only [if_neg h2, pSep, if_true]
      simp only [List.nil_append, List.cons_append] at e2
      simp only [e2, close _ _ _ hw']
    · intro w0 hw0
      simp only [List.append_assoc, List.cons_append] at e1 ⊢
      rw [pElems, skipWs_space hw0, skipWs_head (c := ',') (by decide)]
      simp only
      rw [if_neg (by decide)]
      simp only [pSep, Bool.false_eq_true, if_false, if_true, e1, close f r w' hw']
  | @more w t w' j t2 l2 hw ht hw' _ ih =>
    obtain ⟨⟨c, cs, rfl, h1, h2⟩, raw, hr, hpp⟩ := hp _ _ ht
    obtain ⟨l', hl', ih⟩ := ih
    refine ⟨raw :: l', by simp [Json.normL, hr, hl'], ?_⟩
    intro f r hf
    obtain ⟨f, rfl, hf2⟩ : ∃ g, f = g + 1 ∧ t2.length < g := by
      simp only [List.length_append, List.length_cons] at hf
      exact ⟨f - 1, by omega, by omega⟩
    have i2 := (ih f r hf2).2 w' hw'
    have e1 := hpp w (w' ++ (',' :: t2 ++ ']' :: r)) hw (space_stop hw' stop')
    constructor
    · have e2 := hpp [] (w' ++ (',' :: t2 ++ ']' :: r)) space_nil (space_stop hw' stop')
      have es : skipWs (w ++ c :: cs ++ w' ++ ',' :: t2 ++ ']' :: r) =
          c :: (cs ++ (w' ++ (',' :: t2 ++ ']' :: r))) := by
        simp only [List.append_assoc, skipWs_space hw]
        exact skipWs_head h1
      rw [pElems, es]
      simp only [if_neg h2, pSep, if_true]
      simp only [List.nil_append, List.cons_append] at e2 i2 ⊢
      simp only [e2, i2]
    · intro w0 hw0
      simp only [List.append_assoc, List.cons_append] at e1 i2 ⊢
      rw [pElems, skipWs_space hw0, skipWs_head (c := ',') (by decide)]
      simp only
      rw [if_neg (by decide)]
      simp only [pSep, Bool.false_eq_true, if_false, if_true, e1, i2]

theorem pMembers_complete {p : Str → Res (Json × Str)} {P : Str → Json → Prop} (hp : Complete p P)
    {t : Str} {l : List (Str × Json)} (h : Members P t l) :
    ∃ l', Json.normM l' = l ∧ ∀ f r, t.length < f →
      pMembers p f true (t ++ '}' :: r) = .ok (l', r) ∧
      ∀ w, Space w → pMembers p f false (w ++ (',' :: t ++ '}' :: r)) = .ok (l', r) := by
  have close : ∀ f r w, Space w → pMembers p (f + 1) false (w ++ '}' :: r) = .ok ([], r) := by
    intro f r w hw
    simp only [pMembers, skipWs_space hw, skipWs_head (c := '}') (by decide), if_true]
  have stop : ∀ {r : Str}, Stop ('}' :: r) := stop_cons (by decide)
  have stop' : ∀ {r : Str}, Stop (',' :: r) := stop_cons (by decide)
  have step : ∀ {s k : Str} {j : Json}, MemberText P s k j → 2 ≤ s.length ∧
      ∃ raw : Json, raw.norm = j ∧ ∃ w3, Space w3 ∧ ∀ f rest l' r, Stop rest →
        pMembers p f false (w3 ++ rest) = .ok (l', r) →
        pMembers p (f + 1) true (s ++ rest) = .ok ((k, raw) :: l', r) ∧
        ∀ w0, Space w0 → pMembers p (f + 1) false (w0 ++ ',' :: (s ++ rest)) = .ok ((k, raw) :: l', r) := by
    rintro s k j ⟨w, n, w1, w2, t, w3, hw, hw1, hw2, hw3, hn, ht, rfl⟩
    obtain ⟨-, raw, hr, hpp⟩ := hp _ _ ht
    refine ⟨by simp only [List.length_append, List.length_cons]; omega, raw, hr, w3, hw3, ?_⟩
    intro f rest l' r hst hrest
    have e1 := hpp w2 (w3 ++ rest) hw2 (space_stop hw3 hst)
    simp only [List.append_assoc] at e1
    have ek := pStr_complete hn ((n ++ '"' :: (w1 ++ ':' :: (w2 ++ (t ++ (w3 ++ rest))))).length + 1)
      (w1 ++ ':' :: (w2 ++ (t ++ (w3 ++ rest)))) (by
        have := strText_length hn
        simp only [List.length_append]; omega)
    constructor
    · simp only [List.append_assoc, List.cons_append]
      rw [pMembers, skipWs_space hw, skipWs_head (c := '"') (by decide)]
      simp only
      rw [if_neg (by decide)]
      simp only [pSep, if_true, skipWs_head (c := '"') (by decide), ek, skipWs_space hw1,
        skipWs_head (c := ':') (by decide), e1, hrest]
    · intro w0 hw0
      simp only [List.append_assoc, List.cons_append]
      rw [pMembers, skipWs_space hw0, skipWs_head (c := ',') (by decide)]
      simp only
      rw [if_neg (by decide)]
      simp only [pSep, Bool.false_eq_true, if_false, if_true, skipWs_space hw,
        skipWs_head (c := '"') (by decide), ek, skipWs_space hw1,
        skipWs_head (c := ':') (by decide), e1, hrest]
  induction h with
  | @one s k j h =>
    obtain ⟨hlen, raw, hr, w3, hw3, hs⟩ := step h
    refine ⟨[(k, raw)], by simp [Json.normM, hr], ?_⟩
    intro f r hf
    obtain ⟨f, rfl⟩ : ∃ g, f = g + 2 := ⟨f - 2, by omega⟩
    exact hs _ _ _ _ stop (close f r w3 hw3)
  | @more s k j t2 l2 h _ ih =>
    obtain ⟨hlen, raw, hr, w3, hw3, hs⟩ := step h
    obtain ⟨l', hl', ih⟩ := ih
    refine ⟨(k, raw) :: l', by simp [Json.normM, hr, hl'], ?_⟩
    intro f r hf
    obtain ⟨f, rfl, hf2⟩ : ∃ g, f = g + 1 ∧ t2.length < g := by
      simp only [List.length_append, List.length_cons] at hf
      exact ⟨f - 1, by omega, by omega⟩
    have := hs f (',' :: t2 ++ '}' :: r) l' r stop' ((ih f r hf2).2 w3 hw3)
    simp only [List.append_assoc, List.cons_append] at this ⊢
    exact this

/-- A complete parser and the texts of nested values. -/
def SubComplete : Option (Str → Res (Json × Str)) → Option (Str → Json → Prop) → Prop
  | none, none => True
  | some p, some P => Complete p P
  | _, _ => False

theorem pWord_complete {x r : Str} {j : Json} : pWord x j (x ++ r) = .ok (j, r) := by
  unfold pWord
  rw [stripPrefix_append]

theorem pVal_complete {sub : Option (Str → Res (Json × Str))} {P : Option (Str → Json → Prop)}
    (hsub : SubComplete sub P) : Complete (pVal sub) (ValueText P) := by
  have get : ∀ {Q}, P = some Q → ∃ p, sub = some p ∧ Complete p Q := by
    intro Q hP
    match sub, P, hsub, hP with
    | some p, some _, h, rfl => exact ⟨p, rfl, h⟩
  intro t j h
  cases h with
  | null =>
    refine ⟨⟨'n', _, rfl, by decide, by decide⟩, .null, rfl, ?_⟩
    intro w r hw _
    simp only [List.append_assoc, pVal, skipWs_space hw, List.cons_append, skipWs_head (c := 'n') (by decide)]
    exact pWord_complete (x := c!"ull")
  | true =>
    refine ⟨⟨'t', _, rfl, by decide, by decide⟩, .bool true, rfl, ?_⟩
    intro w r hw _
    simp only [List.append_assoc, pVal, skipWs_space hw, List.cons_append, skipWs_head (c := 't') (by decide)]
    exact pWord_complete (x := c!"rue")
  | false =>
    refine ⟨⟨'f', _, rfl, by decide, by decide⟩, .bool false, rfl, ?_⟩
    intro w r hw _
    simp only [List.append_assoc, pVal, skipWs_space hw, List.cons_append, skipWs_head (c := 'f') (by decide)]
    exact pWord_complete (x := c!"alse")
  | num h =>
    obtain ⟨c, cs, rfl, hc⟩ := pNum_head (pNum_whole h)
    have hh : isWs c = false ∧ c ≠ ']' ∧ c ≠ 'n' ∧ c ≠ 't' ∧ c ≠ 'f' ∧ c ≠ '"' ∧ c ≠ '[' ∧ c ≠ '{' := by
      rcases hc with hc | rfl
      · have := (digit_iff c).2 hc
        have key : ∀ c ∈ c!"0123456789", isWs c = false ∧ c ≠ ']' ∧ c ≠ 'n' ∧ c ≠ 't' ∧ c ≠ 'f' ∧ c ≠ '"' ∧
          c ≠ '[' ∧ c ≠ '{' := by decide
        exact key c this
      · decide
    refine ⟨⟨c, cs, rfl, hh.1, hh.2.1⟩, j, numText_norm h, ?_⟩
    intro w r hw hr
    have e := pNum_complete h hr
    simp only [List.append_assoc, pVal, skipWs_space hw, List.cons_append, skipWs_head hh.1] at e ⊢
    obtain ⟨-, -, h1, h2, h3, h4, h5, h6⟩ := hh
    simp only [if_neg h1, if_neg h2, if_neg h3, if_neg h4, if_neg h5, if_neg h6, e]
  | @str t s h =>
    refine ⟨⟨'"', _, rfl, by decide, by decide⟩, .str s, rfl, ?_⟩
    intro w r hw hr
    have ek := pStr_complete h ((t ++ '"' :: r).length + 1) r (by
      have := strText_length h
      simp only [List.length_append]; omega)
    simp only [List.append_assoc, pVal, skipWs_space hw, List.cons_append, List.nil_append,
      skipWs_head (c := '"') (by decide)]
    rw [if_neg (by decide), if_neg (by decide), if_neg (by decide), if_pos trivial]
    simp only [ek]
  | @empty Q w1 hP hw1 =>
    obtain ⟨p, rfl, hp⟩ := get hP
    refine ⟨⟨'[', _, rfl, by decide, by decide⟩, .arr [], rfl, ?_⟩
    intro w r hw hr
    simp only [List.append_assoc, pVal, skipWs_space hw, List.cons_append, List.nil_append,
      skipWs_head (c := '[') (by decide)]
    rw [if_neg (by decide), if_neg (by decide), if_neg (by decide), if_neg (by decide), if_pos trivial]
    simp only [pElems, skipWs_space hw1, skipWs_head (c := ']') (by decide), if_true]
  | @arr Q t l hP hi =>
    obtain ⟨p, rfl, hp⟩ := get hP
    obtain ⟨l', hl, hi⟩ := pElems_complete hp hi
    refine ⟨⟨'[', _, rfl, by decide, by decide⟩, .arr l', by simp [Json.norm, hl], ?_⟩
    intro w r hw hr
    have := (hi ((t ++ ']' :: r).length + 1) r (by simp only [List.length_append]; omega)).1
    simp only [List.append_assoc, pVal, skipWs_space hw, List.cons_append, List.nil_append,
      skipWs_head (c := '[') (by decide)]
    rw [if_neg (by decide), if_neg (by decide), if_neg (by decide), if_neg (by decide), if_pos trivial]
    simp only [this]
  | @emptyObj Q w1 hP hw1 =>
    obtain ⟨p, rfl, hp⟩ := get hP
    refine ⟨⟨'{', _, rfl, by decide, by decide⟩, .obj [], rfl, ?_⟩
    intro w r hw hr
    simp only [List.append_assoc, pVal, skipWs_space hw, List.cons_append, List.nil_append,
      skipWs_head (c := '{') (by decide)]
    rw [if_neg (by decide), if_neg (by decide), if_neg (by decide), if_neg (by decide), if_neg (by decide),
      if_pos trivial]
    simp only [pMembers, skipWs_space hw1, skipWs_head (c := '}') (by decide), if_true]
  | @obj Q t l m hP hi hm =>
    obtain ⟨p, rfl, hp⟩ := get hP
    obtain ⟨l', hl, hi⟩ := pMembers_complete hp hi
    refine ⟨⟨'{', _, rfl, by decide, by decide⟩, .obj l', by simp [Json.norm, hl, lastMembers_iff.1 hm], ?_⟩
    intro w r hw hr
    have := (hi ((t ++ '}' :: r).length + 1) r (by simp only [List.length_append]; omega)).1
    simp only [List.append_assoc, pVal, skipWs_space hw, List.cons_append, List.nil_append,
      skipWs_head (c := '{') (by decide)]
    rw [if_neg (by decide), if_neg (by decide), if_neg (by decide), if_neg (by decide), if_neg (by decide),
      if_pos trivial]
    simp only [this]

theorem pJson_complete (d : Nat) : Complete (pJson d) (NestedText d) := by
  induction d with
  | zero => exact pVal_complete (sub := none) (P := none) trivial
  | succ d ih => exact pVal_complete (sub := some (pJson d)) (P := some (NestedText d)) ih

theorem jParse_iff {s : Str} {j : Json} : jParse s = .ok j ↔ JsonText s j := by
  constructor
  · intro h
    unfold jParse jParseRaw at h
    cases hp : pJson jsonMaxDepth s with
    | error e => rw [hp] at h; simp at h
    | ok x =>
      obtain ⟨raw, r⟩ := x
      rw [hp] at h
      simp only at h
      split at h
      · rename_i hw
        split at hw
        · rename_i hr
          cases hw
          cases h
          obtain ⟨w, t, e, h1, h2⟩ := pJson_sound _ _ _ _ hp
          obtain ⟨w', hw', e'⟩ := skipWs_split r
          rw [hr, List.append_nil] at e'
          exact ⟨w, t, r, e, h1, e' ▸ hw', h2⟩
        · cases hw
      · cases h
  · rintro ⟨w, t, w', rfl, hw, hw', ht⟩
    obtain ⟨-, raw, hr, h⟩ := pJson_complete _ _ _ ht
    have hst : Stop w' := by have := space_stop hw' stop_nil; rwa [List.append_nil] at this
    have hsk : skipWs w' = [] := by have := skipWs_space (s := []) hw'; rwa [List.append_nil] at this
    have := h w w' hw hst
    unfold jParse jParseRaw
    have e : jsonMaxDepth = 127 := rfl
    rw [e, this]
    simp only [hsk, if_true, hr]

end Oid4vp
