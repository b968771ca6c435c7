import Verif.Lemmas.UrlAddr
/-!
# Hosts, authorities and whole URLs, against their specification
-/

set_option autoImplicit false

namespace Oid4vp
open Spec

theorem mem_letters (c : Char) : c ∈ capitals ++ smalls ↔ isAlpha c = true := by
  constructor
  · have : ∀ c ∈ capitals ++ smalls, isAlpha c = true := by decide
    exact this c
  · intro h
    have key : ∀ n : Fin 128, isAlpha (Char.ofNat n.val) = true → Char.ofNat n.val ∈ capitals ++ smalls := by
      decide
    have hl : c.toNat < 128 := by
      simp only [isAlpha, Bool.or_eq_true, Bool.and_eq_true, decide_eq_true_eq] at h; omega
    have := key ⟨c.toNat, hl⟩
    simp only [Char.ofNat_toNat] at this
    exact this h

theorem mem_schemeChars (c : Char) :
    c ∈ capitals ++ smalls ++ decimals ++ c!"+-." ↔ isSchemeChar c = true := by
  constructor
  · have : ∀ c ∈ capitals ++ smalls ++ decimals ++ c!"+-.", isSchemeChar c = true := by decide
    exact this c
  · intro h
    have key : ∀ n : Fin 128, isSchemeChar (Char.ofNat n.val) = true →
        Char.ofNat n.val ∈ capitals ++ smalls ++ decimals ++ c!"+-." := by decide
    have hl : c.toNat < 128 := by
      simp only [isSchemeChar, isAlpha, isDigit, Bool.or_eq_true, Bool.and_eq_true,
        decide_eq_true_eq] at h
      rcases h with (((h | h) | rfl) | rfl) | rfl
      · omega
      · omega
      all_goals decide
    have := key ⟨c.toNat, hl⟩
    simp only [Char.ofNat_toNat] at this
    exact this h

theorem lowerOf_iff (a b : Char) : LowerOf a b ↔ b = asciiLower a := by
  by_cases h : a ∈ capitals
  · have key : ∀ a ∈ capitals, (a, asciiLower a) ∈ capitals.zip smalls ∧
        ∀ p ∈ capitals.zip smalls, p.1 = a → p.2 = asciiLower a := by decide +kernel
    simp only [LowerOf, h, not_true_eq_false, false_and, or_false]
    exact ⟨fun hm => (key a h).2 _ hm rfl, fun e => e ▸ (key a h).1⟩
  · have hn : asciiLower a = a := by
      simp only [asciiLower]
      rw [if_neg]
      intro hc
      apply h
      have key : ∀ n : Fin 128, (65 ≤ n.val && n.val ≤ 90) = true → Char.ofNat n.val ∈ capitals := by
        decide
      have hl : a.toNat < 128 := by
        simp only [Bool.and_eq_true, decide_eq_true_eq] at hc; omega
      have := key ⟨a.toNat, hl⟩ hc
      simpa only [Char.ofNat_toNat] using this
    rw [hn]
    simp only [LowerOf, h, not_false_eq_true, true_and]
    refine ⟨fun hh => ?_, .inr⟩
    rcases hh with hh | hh
    · exact absurd (List.of_mem_zip hh).1 h
    · exact hh

theorem lowered_iff (l m : Str) : Lowered l m ↔ m = l.map asciiLower := pointwise_map lowerOf_iff l m

theorem schemeText_iff (w n : Str) : SchemeText w n ↔
    ∃ c cs, w = c :: cs ∧ isAlpha c = true ∧ cs.all isSchemeChar = true ∧ n = w.map asciiLower := by
  simp only [SchemeText, lowered_iff, mem_letters, mem_schemeChars, List.all_eq_true]
  constructor
  · rintro ⟨⟨c, cs, h1, h2, h3⟩, h4⟩; exact ⟨c, cs, h1, h2, h3, h4⟩
  · rintro ⟨c, cs, h1, h2, h3, h4⟩; exact ⟨⟨c, cs, h1, h2, h3⟩, h4⟩

/-! ## Hosts -/

theorem u8_char (x : UInt8) : UInt8.ofNat (Char.ofNat x.toNat).toNat = x ∧ (Char.ofNat x.toNat).toNat = x.toNat := by
  have hx := x.toNat_lt
  have h : (Char.ofNat x.toNat).toNat = x.toNat := char_toNat_ofNat (by omega)
  rw [h]
  exact ⟨UInt8.ofNat_toNat, rfl⟩

theorem unescaped_iff (b c : Bytes) : Unescaped b c ↔ c = unescape b := by
  constructor
  · intro h
    induction h with
    | nil => rfl
    | escape hx hy _ ih =>
      rw [← hexVal_char] at hx hy
      rw [unescape.eq_def]
      simp only [u8_back (hexVal_lt hx).2, u8_back (hexVal_lt hy).2, hx, hy, ih]
      rfl
    | other hn _ ih =>
      rename_i a b c _
      rw [unescape.eq_def]
      dsimp only
      split
      · next ha =>
        have ea : a = 0x25 := UInt8.toNat_inj.mp ha
        subst ea
        split
        · rename_i h l rest _
          split
          · next x y hx hy =>
            exfalso
            refine hn _ _ x y rest (hexVal_char.mp hx) (hexVal_char.mp hy) ?_
            rw [(u8_char h).1, (u8_char l).1]
          · rw [ih]
        · rw [ih]
        · rw [ih]; rfl
      · rw [ih]
  · rintro rfl
    fun_induction unescape b with
    | case1 => exact .nil
    | case2 b hb h l rest x y hy hx ih =>
      have ea : b = 0x25 := UInt8.toNat_inj.mp hb
      subst ea
      have := Unescaped.escape (hexVal_char.mp hx) (hexVal_char.mp hy) ih
      rwa [(u8_char h).1, (u8_char l).1] at this
    | case3 b hb h l rest hn ih =>
      refine .other ?_ ih
      intro x y k m r hx hy e
      rw [← hexVal_char] at hx hy
      simp only [List.cons.injEq] at e
      obtain ⟨-, rfl, rfl, rfl⟩ := e
      rw [u8_back (hexVal_lt hx).2, u8_back (hexVal_lt hy).2] at hn
      exact hn k m hx hy
    | case4 b hb h ih => exact .other (by intros; simp) ih
    | case5 b hb => exact .other (by intros; simp) .nil
    | case6 b bs hb ih =>
      refine .other ?_ ih
      intro x y k m r hx hy e
      simp only [List.cons.injEq] at e
      rw [e.1] at hb
      exact hb rfl

theorem splitOn_members {c : Char} {s p : Str} {ps : List Str} (h : splitOn c s = p :: ps) :
    (∃ b, s = p ++ b) ∧ ∀ x ∈ ps, ∃ a b, s = a ++ x ++ b ∧ a.getLast? = some c := by
  induction s generalizing p ps with
  | nil => cases h; exact ⟨⟨[], rfl⟩, by simp⟩
  | cons y s ih =>
    rw [splitOn] at h
    cases hs : splitOn c s with
    | nil => exact absurd hs (splitOn_ne_nil c s)
    | cons q qs =>
      obtain ⟨⟨b, hb⟩, h2⟩ := ih hs
      rw [hs] at h
      split at h
      · next hy =>
        subst hy
        cases h
        refine ⟨⟨_, rfl⟩, ?_⟩
        intro x hx
        rcases List.mem_cons.mp hx with rfl | hx
        · exact ⟨[y], b, by rw [hb]; simp, rfl⟩
        · obtain ⟨a, b, e, ha⟩ := h2 x hx
          refine ⟨y :: a, b, by rw [e]; simp, ?_⟩
          cases a with
          | nil => cases ha
          | cons z a => rw [List.getLast?_cons_cons]; exact ha
      · cases h
        refine ⟨⟨b, by rw [hb]; simp⟩, ?_⟩
        intro x hx
        obtain ⟨a, b, e, ha⟩ := h2 x hx
        refine ⟨y :: a, b, by rw [e]; simp, ?_⟩
        cases a with
        | nil => cases ha
        | cons z a => rw [List.getLast?_cons_cons]; exact ha

theorem splitOn_prefix {c : Char} {p s x : Str} {xs : List Str} (hp : c ∉ p) (h : splitOn c s = x :: xs) :
    splitOn c (p ++ s) = (p ++ x) :: xs := by
  induction p with
  | nil => exact h
  | cons y p ih =>
    simp only [List.mem_cons, not_or] at hp
    rw [List.cons_append, splitOn, if_neg (fun e => hp.1 e.symm), ih hp.2]
    rfl

theorem splitOn_mid (c : Char) (a b : Str) : splitOn c (a ++ c :: b) = splitOn c a ++ splitOn c b := by
  induction a with
  | nil => simp [splitOn]
  | cons y a ih =>
    rw [List.cons_append, splitOn, ih]
    conv_rhs => rw [splitOn]
    split
    · rfl
    · cases hs : splitOn c a with
      | nil => exact absurd hs (splitOn_ne_nil c a)
      | cons q qs => rfl

theorem any_label {c : Char} {p s : Str} (hp : c ∉ p) : (splitOn c s).any (startsWith p) = true ↔
    ∃ a b, s = a ++ p ++ b ∧ (a = [] ∨ a.getLast? = some c) := by
  rw [List.any_eq_true]
  constructor
  · rintro ⟨x, hx, h⟩
    obtain ⟨r, rfl⟩ := startsWith_iff.mp h
    cases hs : splitOn c s with
    | nil => exact absurd hs (splitOn_ne_nil c s)
    | cons q qs =>
      rw [hs] at hx
      obtain ⟨⟨b, hb⟩, h2⟩ := splitOn_members hs
      rcases List.mem_cons.mp hx with rfl | hx
      · exact ⟨[], r ++ b, by rw [hb]; simp, .inl rfl⟩
      · obtain ⟨a, b, e, ha⟩ := h2 _ hx
        exact ⟨a, r ++ b, by rw [e]; simp, .inr ha⟩
  · rintro ⟨a, b, rfl, ha⟩
    cases hs : splitOn c b with
    | nil => exact absurd hs (splitOn_ne_nil c b)
    | cons q qs =>
      have h1 := splitOn_prefix hp hs
      have hst : startsWith p (p ++ q) = true := startsWith_iff.mpr ⟨q, rfl⟩
      rcases ha with rfl | ha
      · exact ⟨p ++ q, by rw [List.nil_append, h1]; simp, hst⟩
      · obtain ⟨a', rfl⟩ := List.getLast?_eq_some_iff.mp ha
        refine ⟨p ++ q, ?_, hst⟩
        rw [List.append_assoc, List.append_assoc, List.singleton_append, splitOn_mid, h1]
        simp

theorem asciiLower_dot {c : Char} : asciiLower c = '.' ↔ c = '.' := by
  constructor
  · intro h
    rw [asciiLower] at h
    split at h
    · next hc =>
      simp only [Bool.and_eq_true, decide_eq_true_eq] at hc
      have h2 := congrArg Char.toNat h
      rw [char_toNat_ofNat (by omega)] at h2
      have : '.'.toNat = 46 := rfl
      omega
    · exact h
  · rintro rfl; rfl

theorem aceDomain_iff (s : Str) : AceDomain s ↔ hasAce s = true := by
  rw [hasAce, any_label (by decide)]
  constructor
  · rintro ⟨a, l, b, low, rfl, ha, hl, rfl⟩
    rw [lowered_iff] at hl
    refine ⟨a.map asciiLower, b.map asciiLower, by rw [hl]; simp, ?_⟩
    rcases ha with rfl | ha
    · exact .inl rfl
    · right; rw [List.getLast?_map, ha]; rfl
  · rintro ⟨a, b, e, ha⟩
    obtain ⟨x, b', rfl, hx, rfl⟩ := List.map_eq_append_iff.mp e
    obtain ⟨a', l, rfl, rfl, hl⟩ := List.map_eq_append_iff.mp hx
    refine ⟨a', l, b', _, rfl, ?_, (lowered_iff _ _).mpr rfl, hl⟩
    rcases ha with ha | ha
    · left; simpa using ha
    · right
      rw [List.getLast?_map, Option.map_eq_some_iff] at ha
      obtain ⟨c, hc, e⟩ := ha
      rw [asciiLower_dot] at e
      rw [hc, e]

theorem ascii_bytes {b : Bytes} {s : Str} : (b = s.map (fun c => UInt8.ofNat c.toNat) ∧ ∀ c ∈ s, c.toNat < 128) ↔
    ((∀ x ∈ b, x.toNat < 128) ∧ s = b.map (fun x => Char.ofNat x.toNat)) := by
  constructor
  · rintro ⟨rfl, h⟩
    constructor
    · intro x hx
      obtain ⟨c, hc, rfl⟩ := List.mem_map.mp hx
      have := h c hc
      rw [UInt8.toNat_ofNat']
      omega
    · rw [List.map_map]
      conv_lhs => rw [← List.map_id s]
      apply List.map_congr_left
      intro c hc
      exact (u8_back (h c hc)).symm
  · rintro ⟨h, rfl⟩
    constructor
    · rw [List.map_map]
      conv_lhs => rw [← List.map_id b]
      apply List.map_congr_left
      intro x _
      exact (u8_char x).1.symm
    · intro c hc
      obtain ⟨x, hx, rfl⟩ := List.mem_map.mp hc
      rw [(u8_char x).2]
      exact h x hx

theorem asciiDomain_iff (b : Bytes) (d : Str) : AsciiDomain b d ↔ domainToAscii b = some d := by
  rw [domainToAscii]
  constructor
  · intro h
    cases h with
    | plain hb hs ha hl =>
      rename_i s
      obtain ⟨h1, h2⟩ := ascii_bytes.mp ⟨hb, hs⟩
      rw [aceDomain_iff] at ha
      rw [lowered_iff] at hl
      rw [← h2, if_pos, hl]
      simp only [Bool.and_eq_true, List.all_eq_true, decide_eq_true_eq, Bool.not_eq_true', ← Bool.not_eq_true]
      exact ⟨h1, ha⟩
    | other hb hd =>
      rw [if_neg, hd]
      simp only [Bool.and_eq_true, List.all_eq_true, decide_eq_true_eq, Bool.not_eq_true', ← Bool.not_eq_true]
      rintro ⟨h1, h2⟩
      obtain ⟨h3, h4⟩ := ascii_bytes.mpr ⟨h1, rfl⟩
      exact h2 ((aceDomain_iff _).mp (hb _ h3 h4))
  · intro h
    split at h
    · next hc =>
      simp only [Bool.and_eq_true, List.all_eq_true, decide_eq_true_eq, Bool.not_eq_true', ← Bool.not_eq_true] at hc
      cases h
      obtain ⟨h3, h4⟩ := ascii_bytes.mpr ⟨hc.1, rfl⟩
      exact .plain h3 h4 (fun e => hc.2 ((aceDomain_iff _).mp e)) ((lowered_iff _ _).mpr rfl)
    · next hc =>
      simp only [Bool.and_eq_true, List.all_eq_true, decide_eq_true_eq, Bool.not_eq_true', ← Bool.not_eq_true] at hc
      refine .other (fun s hs h4 => ?_) h
      obtain ⟨h1, rfl⟩ := ascii_bytes.mp ⟨hs, h4⟩
      rw [aceDomain_iff]
      exact Decidable.byContradiction fun hn => hc ⟨h1, hn⟩

theorem mem_notInHosts (c : Char) : c ∈ notInHosts ↔ forbiddenHost c = true := by
  rw [forbiddenHost, List.contains_iff_mem]; rfl

theorem domainKept_iff (c : Char) : DomainKept c ↔ c.toNat < 128 ∧ forbiddenDomain c = false := by
  have := ascii_ext (P := fun c => decide (c ∈ visible ∧ c ∉ notInHosts ++ c!"%"))
    (Q := fun c => decide (c.toNat < 128) && !forbiddenDomain c)
    (fun c h => by simp only [decide_eq_true_eq] at h; exact visible_ascii c h.1)
    (fun c h => by simp only [Bool.and_eq_true, decide_eq_true_eq] at h; exact h.1) (by decide +kernel) c
  simpa [DomainKept, VisibleBut] using this

theorem utf8_encode (s : Str) : s.flatMap String.utf8EncodeChar = utf8 s := by
  rw [utf8]
  congr 1
  funext c
  exact (utf8Char_encode c).symm

theorem bracketed_iff (s t : Str) : ((∃ x l u, Ipv6Text x l ∧ Ipv6Canonical l u ∧ s = c!"[" ++ x ++ c!"]" ∧
    t = c!"[" ++ u ++ c!"]")) ↔ ∃ r, s = '[' :: r ∧ parseBracketed r = some t := by
  constructor
  · rintro ⟨x, l, u, h1, h2, rfl, rfl⟩
    rw [ipv6Text_iff] at h1
    rw [ipv6Canonical_iff (parseIpv6_ok h1).2] at h2
    refine ⟨x ++ [']'], rfl, ?_⟩
    simp [parseBracketed, h1, h2]
  · rintro ⟨r, rfl, h⟩
    rw [parseBracketed] at h
    split at h
    · next hl =>
      rw [Option.map_eq_some_iff] at h
      obtain ⟨ps, hp, rfl⟩ := h
      obtain ⟨x, rfl⟩ := List.getLast?_eq_some_iff.mp hl
      rw [List.dropLast_concat] at hp
      exact ⟨x, ps, _, (ipv6Text_iff _ _).mpr hp, (ipv6Canonical_iff (parseIpv6_ok hp).2 _).mpr rfl, rfl, rfl⟩
    · cases h

theorem hostText_iff (sp : Bool) (s t : Str) :
    HostText sp s t ↔ (if sp then domainHost s else opaqueHost s) = some t := by
  have hfd : ∀ {b : Bytes} {d : Str}, domainToAscii b = some d →
      ((∀ c ∈ d, DomainKept c) ↔ d.any forbiddenDomain = false) := by
    intro b d hd
    have ha := domainToAscii_chars hd
    rw [List.any_eq_false]
    simp only [domainKept_iff, Bool.not_eq_true]
    exact ⟨fun h c hc => (h c hc).2, fun h c hc => ⟨(ha.1 c hc).1, h c hc⟩⟩
  constructor
  · intro h
    cases h with
    | ipv6 h1 h2 =>
      obtain ⟨r, e, hr⟩ := (bracketed_iff _ _).mp ⟨_, _, _, h1, h2, rfl, rfl⟩
      rw [e]
      cases sp
      · exact hr
      · exact hr
    | unknown hsp hs he =>
      subst hsp
      rw [escaped_iff opaqueKept_iff] at he
      simp only [Bool.false_eq_true, if_false]
      have hf : s.any forbiddenHost = false := by
        rw [List.any_eq_false]; intro c hc; exact fun h => hs c hc ((mem_notInHosts c).mpr h)
      cases s with
      | nil => rw [he]; rfl
      | cons c s =>
        have hc : c ≠ '[' := by
          rintro rfl; exact hs '[' (by simp) (by decide)
        rw [opaqueHost]
        · simp only [hf, he]; rfl
        · rintro r ⟨⟩; exact hc rfl
    | domain hsp hb hu ha hne hk hl =>
      subst hsp
      rw [utf8_encode, unescaped_iff] at hu
      subst hu
      rw [asciiDomain_iff] at ha
      rw [looksIpv4_iff] at hl
      rw [if_pos rfl, domainHost]
      · rw [ha]
        dsimp only
        rw [if_neg (by simp [hne, (hfd ha).mp hk]), if_neg hl]
      · rintro r rfl; exact hb rfl
    | ipv4 hsp hb hu ha hne hk hl hi =>
      subst hsp
      rw [utf8_encode, unescaped_iff] at hu
      subst hu
      rw [asciiDomain_iff] at ha
      rw [looksIpv4_iff] at hl
      rw [ipv4Text_iff] at hi
      rw [if_pos rfl, domainHost]
      · rw [ha]
        dsimp only
        rw [if_neg (by simp [hne, (hfd ha).mp hk]), if_pos hl, hi, dottedText_eq]
        rfl
      · rintro r rfl; exact hb rfl
  · intro h
    have hbr : ∀ r, s = '[' :: r → parseBracketed r = some t → HostText sp s t := by
      intro r e hr
      obtain ⟨x, l, u, h1, h2, rfl, rfl⟩ := (bracketed_iff s t).mpr ⟨r, e, hr⟩
      exact .ipv6 h1 h2
    cases sp with
    | false =>
      simp only [Bool.false_eq_true, if_false] at h
      rw [opaqueHost.eq_def] at h
      split at h
      · exact hbr _ rfl h
      · split at h
        · cases h
        · next hf =>
          cases h
          refine .unknown rfl (fun c hc hm => hf ?_) ((escaped_iff opaqueKept_iff _ _).mpr rfl)
          rw [List.any_eq_true]
          exact ⟨c, hc, (mem_notInHosts c).mp hm⟩
    | true =>
      rw [if_pos rfl, domainHost.eq_def] at h
      split at h
      · exact hbr _ rfl h
      · next hnb =>
        have hb : s.head? ≠ some '[' := by
          intro e
          cases s with
          | nil => cases e
          | cons c s => cases e; exact hnb _ rfl
        split at h
        · cases h
        · next d hd =>
          split at h
          · cases h
          · next hc =>
            rw [not_or] at hc
            have hk := (hfd hd).mpr (by simpa using hc.2)
            have hu := (unescaped_iff _ _).mpr (rfl : unescape (utf8 s) = unescape (utf8 s))
            rw [← utf8_encode] at hu
            split at h
            · next hl =>
              rw [Option.map_eq_some_iff] at h
              obtain ⟨n, hn, rfl⟩ := h
              rw [← dottedText_eq]
              exact .ipv4 rfl hb hu ((asciiDomain_iff _ _).mpr (by rw [utf8_encode]; exact hd)) hc.1 hk
                ((looksIpv4_iff _).mpr hl) ((ipv4Text_iff _ _).mpr hn)
            · next hl =>
              cases h
              exact .domain rfl hb hu ((asciiDomain_iff _ _).mpr (by rw [utf8_encode]; exact hd)) hc.1 hk
                (fun e => hl ((looksIpv4_iff _).mp e))

/-! ## Where the host ends -/

theorem mem_unescape {b : Bytes} {x : UInt8} (hx : x ∈ b) (h1 : x.toNat ≠ 0x25)
    (h2 : hexVal (Char.ofNat x.toNat) = none) : x ∈ unescape b := by
  fun_induction unescape b with
  | case1 => exact hx
  | case2 b hb h l rest k m hm hk ih =>
    simp only [List.mem_cons] at hx ⊢
    rcases hx with rfl | rfl | rfl | hx
    · exact absurd hb h1
    · rw [h2] at hk; cases hk
    · rw [h2] at hm; cases hm
    · exact .inr (ih hx)
  | case3 b hb h l rest hn ih =>
    rw [List.mem_cons] at hx ⊢
    exact hx.imp id ih
  | case4 b hb h ih =>
    rw [List.mem_cons] at hx ⊢
    exact hx.imp id ih
  | case5 b hb => exact hx
  | case6 b bs hb ih =>
    rw [List.mem_cons] at hx ⊢
    exact hx.imp id ih

theorem mem_utf8 {s : Str} {c : Char} (h : c ∈ s) (hc : c.toNat < 128) : UInt8.ofNat c.toNat ∈ utf8 s := by
  rw [utf8, List.mem_flatMap]
  exact ⟨c, h, by rw [utf8Char_ascii hc]; exact List.mem_singleton.mpr rfl⟩

theorem domainHost_free {s t : Str} {c : Char} (h : domainHost s = some t) (hb : s.head? ≠ some '[')
    (h1 : c.toNat < 128) (h2 : c ≠ '%') (h3 : hexVal c = none) (h4 : asciiLower c = c)
    (h5 : forbiddenDomain c = true) : c ∉ s := by
  intro hc
  have hm := mem_utf8 hc h1
  have hback := u8_back h1
  have hm := mem_unescape hm (fun e => h2 (by rw [← hback, e])) (by rw [hback]; exact h3)
  rw [domainHost.eq_def] at h
  split at h
  · exact hb rfl
  · split at h
    · cases h
    · next d hd =>
      split at h
      · cases h
      · next hn =>
        rw [not_or] at hn
        rw [domainToAscii] at hd
        split at hd
        · cases hd
          apply hn.2
          rw [List.any_eq_true]
          refine ⟨c, List.mem_map.mpr ⟨c, List.mem_map.mpr ⟨_, hm, hback⟩, h4⟩, h5⟩
        · have := (idna.property _ _ hd).2.2 _ hm (by rw [u8_toNat_ofNat (by omega)]; exact h1)
          rw [hback, h5] at this
          cases this

theorem ipv6Pieces_free {tail : Bool} {s : Str} {l : List Nat} (h : Ipv6Pieces tail s l) : ']' ∉ s := by
  have hp : ∀ {s n}, Spec.Ipv6Piece s n → ']' ∉ s := by
    rintro s n ⟨-, -, h⟩ hc
    have := radixVal_hex ((numberIn_iff _ _ _).mp h) _ hc
    revert this; decide
  have hb : ∀ {s n}, ByteText s n → ']' ∉ s := by
    rintro s n ⟨-, rfl⟩ hc
    rw [decimalText_eq] at hc
    have := natStr_digits _ _ hc
    revert this; decide
  induction h with
  | one h => exact hp h
  | ipv4 _ h1 h2 h3 h4 =>
    have := hb h1; have := hb h2; have := hb h3; have := hb h4
    simp [List.intercalate, List.intersperse, *]
  | more h _ ih =>
    have := hp h
    simp [*]

theorem ipv6Text_free {s : Str} {l : List Nat} (h : Ipv6Text s l) : ']' ∉ s := by
  have side : ∀ {tail a l}, (a = [] ∧ l = []) ∨ Ipv6Pieces tail a l → ']' ∉ a := by
    rintro tail a l (⟨rfl, -⟩ | h)
    · simp
    · exact ipv6Pieces_free h
  cases h with
  | full h => exact ipv6Pieces_free h
  | short h1 h2 => 
    have := side h1; have := side h2
    simp [*]

theorem splitPort_nil (p : Option Str) : splitPort false (portPart p) = ([], p) := by
  cases p <;> simp [portPart, splitPort]

theorem splitPort_hostText {sp : Bool} {s t : Str} (h : HostText sp s t) (p : Option Str) :
    splitPort false (s ++ portPart p) = (s, p) := by
  cases h with
  | ipv6 h1 =>
    have hn := ipv6Text_free h1
    rename_i x _ _ _
    have e : c!"[" ++ x ++ c!"]" ++ portPart p = '[' :: (x ++ ']' :: portPart p) := by simp
    rw [e, splitPort, if_neg (by simp), if_pos rfl, splitPort_inside hn, splitPort_nil]
    simp
  | unknown _ hs =>
    refine splitPort_plain (fun c hc => ?_) p
    refine ⟨?_, ?_, ?_⟩ <;> rintro rfl <;> exact hs _ hc (by decide)
  | domain hsp hb hu ha hne hk hl =>
    have h := (hostText_iff _ _ _).mp (HostText.domain hsp hb hu ha hne hk hl)
    subst hsp
    rw [if_pos rfl] at h
    refine splitPort_plain (fun c hc => ?_) p
    refine ⟨?_, ?_, ?_⟩ <;> rintro rfl <;> exact domainHost_free h hb (by decide) (by decide) (by decide) (by decide) (by decide) hc
  | ipv4 hsp hb hu ha hne hk hl hi =>
    have h := (hostText_iff _ _ _).mp (HostText.ipv4 hsp hb hu ha hne hk hl hi)
    subst hsp
    rw [if_pos rfl] at h
    refine splitPort_plain (fun c hc => ?_) p
    refine ⟨?_, ?_, ?_⟩ <;> rintro rfl <;> exact domainHost_free h hb (by decide) (by decide) (by decide) (by decide) (by decide) hc

theorem splitPort_eq {i : Bool} {s h : Str} {p : Option Str} (e : splitPort i s = (h, p)) : s = h ++ portPart p := by
  induction s generalizing i h with
  | nil => cases e; rfl
  | cons c s ih =>
    rw [splitPort] at e
    split at e
    · next hc => cases e; simp [portPart, hc.1]
    · obtain ⟨rfl, rfl⟩ := Prod.mk.inj e
      conv_lhs => rw [ih rfl]
      rfl

/-! ## Ports, credentials, authorities -/

theorem portOf_iff (scheme : Str) (n : Nat) : PortOf scheme n ↔ mget scheme specialPorts = some n := by
  constructor
  · rintro (_ | _ | _ | _ | _) <;> decide
  · intro h
    simp only [specialPorts, mget] at h
    repeat' split at h
    all_goals first | (cases h; subst_vars; constructor) | cases h

theorem special_iff (scheme : Str) : Special scheme ↔ isSpecial scheme = true := by
  simp only [Special, portOf_iff, isSpecial, Option.isSome_iff_exists]

theorem hexVal_ten {c : Char} {d : Nat} : (hexVal c = some d ∧ d < 10) ↔ (isDigit c = true ∧ d = c.toNat - 48) := by
  simp only [hexVal, isDigit, Bool.and_eq_true, decide_eq_true_eq]
  constructor
  · rintro ⟨h, hd⟩
    split at h
    · cases h; simp_all
    · split at h
      · cases h; omega
      · split at h
        · cases h; omega
        · cases h
  · rintro ⟨h, rfl⟩
    rw [if_pos (by omega)]
    exact ⟨rfl, by omega⟩

theorem radix10_iff (s : Str) (acc n : Nat) : radixVal 10 acc s = some n ↔
    s.all isDigit = true ∧ s.foldl (fun n c => n * 10 + (c.toNat - 48)) acc = n := by
  induction s generalizing acc with
  | nil => simp [radixVal]
  | cons c s ih =>
    rw [radixVal, List.all_cons, List.foldl_cons, Bool.and_eq_true]
    cases hv : hexVal c with
    | none =>
      simp only [reduceCtorEq, false_iff]
      rintro ⟨⟨h, -⟩, -⟩
      have := hexVal_ten.mpr ⟨h, rfl⟩
      rw [hv] at this
      cases this.1
    | some d =>
      dsimp only
      split
      · next hd =>
        obtain ⟨h1, h2⟩ := hexVal_ten.mp ⟨hv, hd⟩
        rw [ih, h1, h2]
        simp
      · next hd =>
        simp only [reduceCtorEq, false_iff]
        rintro ⟨⟨h, -⟩, -⟩
        have := hexVal_ten.mpr ⟨h, rfl⟩
        rw [hv] at this
        cases this.1
        exact hd this.2

theorem number10_iff (s : Str) (n : Nat) : NumberIn 10 s n ↔ s.all isDigit = true ∧ digitsVal s = n := by
  rw [numberIn_iff, radix10_iff]; rfl

theorem port_small {scheme : Str} {n : Nat} (h : PortOf scheme n) : n ≤ 65535 := by
  cases h <;> decide

theorem portText_iff (scheme : Str) (p : Option Str) (t : Str) :
    PortText scheme p t ↔ portText (mget scheme specialPorts) p = some t := by
  constructor
  · rintro (_ | _ | ⟨hne, hn, hp⟩ | ⟨hne, hn, hle, hp⟩)
    · rfl
    · rfl
    · obtain ⟨h1, rfl⟩ := (number10_iff _ _).mp hn
      have := port_small hp
      rw [portOf_iff] at hp
      simp only [portText]
      rw [if_pos h1, if_neg hne, if_neg (by omega), if_pos hp.symm]
    · obtain ⟨h1, rfl⟩ := (number10_iff _ _).mp hn
      rw [portOf_iff] at hp
      simp only [portText]
      rw [if_pos h1, if_neg hne, if_neg (by omega), if_neg (fun e => hp e.symm), decimalText_eq]
      rfl
  · intro h
    cases p with
    | none => cases h; exact .none
    | some ds =>
      simp only [portText] at h
      split at h
      · next h1 =>
        have hn := (number10_iff ds _).mpr ⟨h1, rfl⟩
        split at h
        · next hd => subst hd; cases h; exact .empty
        · next hne =>
          split at h
          · cases h
          · split at h
            · next hp => cases h; exact .same hne hn ((portOf_iff _ _).mpr hp.symm)
            · next hp =>
              cases h
              have := PortText.other (scheme := scheme) hne hn (by omega) (fun e => hp ((portOf_iff _ _).mp e).symm)
              rw [decimalText_eq] at this
              exact this
      · cases h

theorem marked_colon (o : Option Str) : marked c!":" o = portPart o := by cases o <;> rfl

theorem userText_iff (raw text : Str) : UserText raw text ↔ text = userText raw := by
  have e : ∀ (n p : Str), (if n = [] ∧ p = [] then [] else if p = [] then n ++ c!"@" else n ++ c!":" ++ p ++ c!"@") =
      (if n = [] ∧ p = [] then [] else n ++ ((if p = [] then [] else ':' :: p) ++ ['@'])) := by
    intro n p
    split
    · rfl
    · split <;> simp
  constructor
  · rintro ⟨n, p, n', p', rfl, hn, h1, h2, rfl⟩
    rw [escaped_iff userKept_iff] at h1 h2
    subst h1 h2
    rw [e, userText]
    cases p with
    | none =>
      rw [marked, List.append_nil, splitOnce_eq_none.mpr hn]
      rfl
    | some p =>
      have : n ++ marked c!":" (some p) = n ++ ':' :: p := by simp [marked]
      rw [this, splitOnce_append hn]
      rfl
  · rintro rfl
    rw [userText]
    cases hs : splitOnce ':' raw with
    | none =>
      refine ⟨raw, none, _, _, by simp [marked], splitOnce_eq_none.mp hs, (escaped_iff userKept_iff _ _).mpr rfl,
        (escaped_iff userKept_iff _ _).mpr rfl, ?_⟩
      rw [e]; rfl
    | some up =>
      obtain ⟨u, p⟩ := up
      obtain ⟨rfl, hu⟩ := splitOnce_eq_some.mp hs
      refine ⟨u, some p, _, _, by simp [marked], hu, (escaped_iff userKept_iff _ _).mpr rfl,
        (escaped_iff userKept_iff _ _).mpr rfl, ?_⟩
      rw [e]; rfl

theorem authorityText_iff (scheme raw text : Str) :
    AuthorityText scheme (isSpecial scheme) raw text ↔ normAuthority scheme raw = some text := by
  rw [normAuthority_eq]
  constructor
  · rintro ⟨user, host, port, user', host', port', rfl, hat, hne, hu, hh, hp, rfl⟩
    rw [marked_colon] at hat
    have hsp := splitPort_hostText hh port
    rw [hostText_iff] at hh
    rw [portText_iff] at hp
    rw [marked_colon]
    refine ⟨user, host ++ portPart port, host, port, host', port', ?_, hsp, ?_, hh, hp, ?_⟩
    · cases user with
      | none => exact .inr ⟨rsplitOnce_eq_none.mpr (by simpa using hat), by simp, rfl⟩
      | some u => exact .inl ⟨u, rsplitOnce_eq_some.mpr ⟨by simp, hat⟩, rfl⟩
    · rintro ⟨h0, h⟩
      obtain ⟨h1, rfl, rfl⟩ := hne h0
      rw [isSpecial] at h1
      simp [h1] at h
    · cases user with
      | none => rw [hu]; simp [credText]
      | some u => rw [(userText_iff _ _).mp hu]; simp [credText]
  · rintro ⟨user, hp, h, p, host, port, hu, hs, hn, hh, hpt, rfl⟩
    have e := splitPort_eq hs
    subst e
    refine ⟨user, h, p, credText user, host, port, ?_, ?_, ?_, ?_, (hostText_iff _ _ _).mpr hh,
      (portText_iff _ _ _).mpr hpt, by simp⟩
    · rw [marked_colon]
      rcases hu with ⟨u, hu, rfl⟩ | ⟨hu, e, rfl⟩
      · obtain ⟨rfl, -⟩ := rsplitOnce_eq_some.mp hu
        simp
      · rw [← e]; simp
    · rw [marked_colon]
      rcases hu with ⟨u, hu, rfl⟩ | ⟨hu, e, rfl⟩
      · exact (rsplitOnce_eq_some.mp hu).2
      · rw [e]; exact rsplitOnce_eq_none.mp hu
    · rintro rfl
      rw [isSpecial]
      cases hm : (mget scheme specialPorts).isSome <;> cases user <;> cases p <;> simp [hm] at hn ⊢
    · cases user with
      | none => rfl
      | some u => exact (userText_iff _ _).mpr rfl

/-! ## Authority and path -/

theorem head_slash {s : Str} : s.head? ≠ some '/' ↔ ∀ r, s ≠ '/' :: r := by
  cases s with
  | nil => simp
  | cons c s => simp

theorem slash_false (c : Char) : isSlash false c = true ↔ c = '/' := by simp [isSlash]

theorem no_slash {s : Str} : '/' ∉ s ↔ ∀ c ∈ s, isSlash false c = false := by
  constructor
  · intro h c hc
    rw [← Bool.not_eq_true, slash_false]
    rintro rfl; exact h hc
  · intro h hc
    have := h _ hc
    revert this; decide

theorem dropWhile_slashes {f : Char → Bool} {a b : Str} (ha : ∀ c ∈ a, f c = true) (hb : ∀ c, b.head? = some c → f c = false) :
    (a ++ b).dropWhile f = b := by
  rw [List.dropWhile_append_of_pos ha]
  cases b with
  | nil => rfl
  | cons c b => rw [List.dropWhile_cons_of_neg]; simp [hb c rfl]

theorem authority_ne_nil {scheme raw text : Str} (hs : isSpecial scheme = true)
    (h : normAuthority scheme raw = some text) : raw ≠ [] := by
  rintro rfl
  rw [isSpecial] at hs
  simp [normAuthority, rsplitOnce, splitPort, hs] at h

theorem hierText_iff (scheme s : Str) (a : Option Str) (p : Str) :
    HierText scheme s a p ↔ readHier scheme s = some (a, p) := by
  have hA := authorityText_iff scheme
  constructor
  · intro h
    cases h with
    | web hs hsl hraw ha hp =>
      rw [special_iff] at hs
      rw [← hs, hA] at ha
      rw [not_separator] at hraw
      rw [pathText_iff] at hp
      simp only [separator_iff] at hsl
      rw [readHier.eq_def, if_pos hs, dropWhile_slashes hsl, splitSlash_none hraw, hp]
      · dsimp only; rw [ha]; rfl
      · intro c hc
        exact hraw c (List.mem_of_mem_head? hc)
    | webPath hs hsl hraw ha hd hp =>
      rename_i slashes raw rest auth d
      rw [special_iff] at hs
      rw [← hs, hA] at ha
      rw [not_separator] at hraw
      rw [pathText_iff] at hp
      rw [separator_iff] at hd
      simp only [separator_iff] at hsl
      rw [readHier.eq_def, if_pos hs, List.append_assoc, dropWhile_slashes hsl, splitSlash_append hraw hd, hp]
      · dsimp only; rw [ha]; rfl
      · intro c hc
        cases raw with
        | nil => exact absurd rfl (authority_ne_nil hs ha)
        | cons x raw => cases hc; exact hraw _ (by simp)
    | authority hs hraw ha =>
      rw [special_iff, Bool.not_eq_true] at hs
      rw [← hs, hA] at ha
      rw [no_slash] at hraw
      rw [readHier.eq_def, if_neg (by simp [hs])]
      simp only [List.cons_append, List.nil_append]
      rw [splitSlash_none hraw]
      dsimp only; rw [ha]
    | authorityPath hs hraw ha hp =>
      rw [special_iff, Bool.not_eq_true] at hs
      rw [← hs, hA] at ha
      rw [no_slash] at hraw
      rw [pathText_iff] at hp
      rw [readHier.eq_def, if_neg (by simp [hs])]
      simp only [List.cons_append, List.nil_append, List.append_assoc]
      rw [splitSlash_append hraw (show isSlash false '/' = true by decide), hp]
      dsimp only; rw [ha]
    | rooted hs hraw hp =>
      rw [special_iff, Bool.not_eq_true] at hs
      rw [pathText_iff] at hp
      rw [head_slash] at hraw
      rw [readHier.eq_def, if_neg (by simp [hs])]
      simp only [List.cons_append, List.nil_append]
      rw [hp]
    | «opaque» hs hraw hp =>
      rw [special_iff, Bool.not_eq_true] at hs
      rw [escaped_iff opaqueKept_iff] at hp
      rw [head_slash] at hraw
      rw [readHier.eq_def, if_neg (by simp [hs])]
      split
      · exact absurd rfl (hraw _)
      · exact absurd rfl (hraw _)
      · rw [hp]
  · intro h
    rw [readHier.eq_def] at h
    split at h
    · next hs =>
      have hS := (special_iff scheme).mpr hs
      generalize hsp : splitSlash true (s.dropWhile (isSlash true)) = ap at h
      obtain ⟨x, q⟩ := ap
      dsimp only at h
      split at h
      · next y hy =>
        obtain ⟨rfl, rfl⟩ := Prod.mk.inj (Option.some.inj h)
        have e := List.takeWhile_append_dropWhile (p := isSlash true) (l := s)
        have ht : ∀ c ∈ s.takeWhile (isSlash true), Separator true c := fun c hc =>
          (separator_iff _ _).mpr (by
            have := List.all_eq_true.mp (List.all_takeWhile (p := isSlash true) (l := s)) c hc
            exact this)
        obtain ⟨h1, h2⟩ := splitSlash_eq hsp
        rw [← hA, hs] at hy
        rcases h2 with ⟨rfl, h2⟩ | ⟨d, r, rfl, hd, h2⟩
        · rw [← e, h2]
          exact .web hS ht (not_separator.mpr h1) hy ((pathText_iff _ _ _).mpr rfl)
        · rw [← e, h2, ← List.append_assoc]
          exact .webPath hS ht (not_separator.mpr h1) hy ((separator_iff _ _).mpr hd) ((pathText_iff _ _ _).mpr rfl)
      · cases h
    · next hs =>
      have hS : ¬ Special scheme := fun e => hs ((special_iff scheme).mp e)
      rw [Bool.not_eq_true] at hs
      split at h
      · next r =>
        generalize hsp : splitSlash false r = ap at h
        obtain ⟨x, q⟩ := ap
        dsimp only at h
        split at h
        · next y hy =>
          obtain ⟨rfl, rfl⟩ := Prod.mk.inj (Option.some.inj h)
          obtain ⟨h1, h2⟩ := splitSlash_eq hsp
          rw [← hA, hs] at hy
          rcases h2 with ⟨rfl, rfl⟩ | ⟨d, r, rfl, hd, rfl⟩
          · exact .authority hS (no_slash.mpr h1) hy
          · rw [slash_false] at hd
            subst hd
            have := HierText.authorityPath hS (no_slash.mpr h1) hy ((pathText_iff false r _).mpr rfl)
            simpa using this
        · cases h
      · next r hn =>
        obtain ⟨rfl, rfl⟩ := Prod.mk.inj (Option.some.inj h)
        refine .rooted hS (head_slash.mpr ?_) ((pathText_iff false _ _).mpr rfl)
        rintro q rfl
        exact hn _ rfl
      · next hn =>
        obtain ⟨rfl, rfl⟩ := Prod.mk.inj (Option.some.inj h)
        refine .opaque hS (head_slash.mpr ?_) ((escaped_iff opaqueKept_iff _ _).mpr rfl)
        rintro q rfl
        exact hn _ rfl

/-! ## The text that counts -/

theorem cleaned_iff (s t : Str) : Cleaned s t ↔ t = urlInput s := by
  have hf : (fun c => decide (c ∉ c!"\t\n\x0d")) = (fun c => !isUrlIgnored c) := by
    funext c
    simp [isUrlIgnored, Bool.and_assoc]
  constructor
  · rintro ⟨l, m, r, rfl, hlr, hm, rfl⟩
    rw [urlInput, hf]
    congr 1
    have hl : ∀ c ∈ l, isUrlSpace c = true := fun c hc => by
      simpa [isUrlSpace] using hlr c (by simp [hc])
    have hr : ∀ c ∈ r, isUrlSpace c = true := fun c hc => by
      simpa [isUrlSpace] using hlr c (by simp [hc])
    have h1 : ∀ c, m.head? = some c → isUrlSpace c = false := fun c hc => by
      simpa [isUrlSpace] using hm c (.inl hc)
    have h2 : ∀ c, m.reverse.head? = some c → isUrlSpace c = false := fun c hc => by
      rw [List.head?_reverse] at hc
      simpa [isUrlSpace] using hm c (.inr hc)
    cases m with
    | nil =>
      have : (l ++ [] ++ r).dropWhile isUrlSpace = [] := by
        have := dropWhile_slashes (f := isUrlSpace) (a := l ++ r) (b := []) (fun c hc => by
          rw [List.mem_append] at hc
          exact hc.elim (hl c) (hr c)) (by simp)
        simpa using this
      rw [this]; rfl
    | cons x m =>
      rw [List.append_assoc, dropWhile_slashes (b := x :: m ++ r) hl (fun c hc => h1 c hc), List.reverse_append,
        dropWhile_slashes (fun c hc => hr c (List.mem_reverse.mp hc)) h2, List.reverse_reverse]
  · rintro rfl
    rw [urlInput, ← hf]
    generalize hd : s.dropWhile isUrlSpace = d
    have e1 := List.takeWhile_append_dropWhile (p := isUrlSpace) (l := s)
    have e2 := List.takeWhile_append_dropWhile (p := isUrlSpace) (l := d.reverse)
    have e2' := congrArg List.reverse e2
    rw [List.reverse_append, List.reverse_reverse] at e2'
    have tw : ∀ l : Str, ∀ c ∈ l.takeWhile isUrlSpace, c.toNat ≤ 32 := fun l c hc => by
      have := List.all_eq_true.mp (List.all_takeWhile (p := isUrlSpace) (l := l)) c hc
      simpa [isUrlSpace] using this
    have dw : ∀ (l : Str) c, (l.dropWhile isUrlSpace).head? = some c → 32 < c.toNat := fun l c hc => by
      have := List.head?_dropWhile_not isUrlSpace l
      rw [hc] at this
      simpa [isUrlSpace] using this
    refine ⟨s.takeWhile isUrlSpace, (d.reverse.dropWhile isUrlSpace).reverse, (d.reverse.takeWhile isUrlSpace).reverse,
      ?_, ?_, ?_, rfl⟩
    · rw [List.append_assoc, e2', ← hd, e1]
    · intro c hc
      rw [List.mem_append, List.mem_reverse] at hc
      exact hc.elim (tw _ c) (tw _ c)
    · rintro c (hc | hc)
      · refine dw s c ?_
        rw [hd, ← e2', List.head?_append, hc]
        rfl
      · rw [List.getLast?_reverse] at hc
        exact dw _ c hc

theorem marked_opt (c : Char) (o : Option Str) : marked [c] o = optText c o := by cases o <;> rfl

end Oid4vp
