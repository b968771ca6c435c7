import Verif.Lemmas.UrlPath
/-!
# Addresses in URLs, against their specification
-/

set_option autoImplicit false

namespace Oid4vp
open Spec

/-! ## Numbers -/

theorem numberIn_iff (base : Nat) (s : Str) (n : Nat) : NumberIn base s n ↔ radixVal base 0 s = some n := by
  constructor
  · intro h
    induction h with
    | nil => rfl
    | digit _ hc hd ih =>
      rw [radixVal_append, ih, Option.bind_some, radixVal, hexVal_char.mpr hc]
      simp [hd, radixVal]
  · intro h
    induction s using snoc_ind generalizing n with
    | nil => cases h; exact .nil
    | snoc s c ih =>
      rw [radixVal_append] at h
      cases hs : radixVal base 0 s with
      | none => rw [hs] at h; cases h
      | some m =>
        rw [hs, Option.bind_some, radixVal] at h
        cases hc : hexVal c with
        | none => rw [hc] at h; cases h
        | some d =>
          rw [hc] at h
          dsimp only at h
          split at h
          · next hd => cases h; exact .digit (ih m hs) (hexVal_char.mp hc) hd
          · cases h

theorem radixVal_cons_none {r acc : Nat} {c : Char} {s : Str} (h : hexVal c = none) : radixVal r acc (c :: s) = none := by
  rw [radixVal, h]

theorem ipv4Part_iff (s : Str) (n : Nat) : Ipv4Part s n ↔ ipv4Number s = some n := by
  constructor
  · intro h
    cases h with
    | hex hx h =>
      rw [numberIn_iff] at h
      rcases hx with rfl | rfl <;> exact h
    | octal hs h =>
      rw [numberIn_iff] at h
      rename_i s
      cases s with
      | nil => exact absurd rfl hs
      | cons a s =>
        have h1 : a ≠ 'x' := by
          rintro rfl; rw [radixVal_cons_none (by decide)] at h; cases h
        have h2 : a ≠ 'X' := by
          rintro rfl; rw [radixVal_cons_none (by decide)] at h; cases h
        rw [ipv4Number]
        · exact h
        · simp
        · rintro cs ⟨⟩; exact h1 rfl
        · rintro cs ⟨⟩; exact h2 rfl
    | decimal hs h =>
      rw [numberIn_iff] at h
      rename_i c s
      by_cases hc : c = '0'
      · rcases hs with hs | rfl
        · exact absurd hc hs
        · subst hc; exact h
      · rw [ipv4Number.eq_def]
        split
        · next e => cases e
        · next e => cases e; exact absurd rfl hc
        · next e => cases e; exact absurd rfl hc
        · next e => cases e; exact absurd rfl hc
        · next e => cases e; exact absurd rfl hc
        · exact h
  · intro h
    rw [ipv4Number.eq_def] at h
    split at h
    · cases h
    · cases h; exact .decimal (.inr rfl) ((numberIn_iff _ _ _).mpr rfl)
    · exact .hex (.inl rfl) ((numberIn_iff _ _ _).mpr h)
    · exact .hex (.inr rfl) ((numberIn_iff _ _ _).mpr h)
    · next cs h1 h2 h3 => exact .octal (fun e => by subst e; exact h1 rfl) ((numberIn_iff _ _ _).mpr h)
    · next cs h1 h2 h3 h4 h5 =>
      cases s with
      | nil => exact absurd rfl h1
      | cons c s =>
        refine .decimal (.inl ?_) ((numberIn_iff _ _ _).mpr h)
        rintro rfl
        exact h5 _ rfl

theorem splitOn_clean {c : Char} {s x : Str} (h : x ∈ splitOn c s) : c ∉ x := by
  induction s generalizing x with
  | nil => simp [splitOn] at h; subst h; simp
  | cons a s ih =>
    rw [splitOn] at h
    split at h
    · rw [List.mem_cons] at h
      rcases h with rfl | h
      · simp
      · exact ih h
    · next ha =>
      cases hs : splitOn c s with
      | nil => exact absurd hs (splitOn_ne_nil c s)
      | cons p ps =>
        rw [hs] at h ih
        dsimp only at h
        rw [List.mem_cons] at h
        rcases h with rfl | h
        · simp only [List.mem_cons, not_or]; exact ⟨fun e => ha e.symm, ih (by simp)⟩
        · exact ih (by simp [h])

theorem domainParts_iff (d : Str) (parts : List Str) : DomainParts d parts ↔ parts = hostParts d := by
  constructor
  · rintro ⟨h1, h2, ⟨rfl, h3⟩ | rfl⟩
    · rw [← joinWith_intercalate, hostParts, splitOn_joinWith h2 h1]
      rw [if_neg]
      rintro ⟨h4, h5⟩
      exact h3 h4 h5
    · have e : List.intercalate c!"." parts ++ c!"." = joinWith '.' (parts ++ [[]]) := by
        rw [joinWith_append h2 (by simp), joinWith_intercalate]; simp [joinWith]
      rw [e, hostParts, splitOn_joinWith (by simp) (by
        intro x hx
        rw [List.mem_append, List.mem_singleton] at hx
        rcases hx with hx | rfl
        · exact h1 x hx
        · simp)]
      have : 0 < parts.length := List.length_pos_iff.mpr h2
      rw [if_pos ⟨by simp; omega, by simp⟩]
      simp
  · rintro rfl
    have hj := joinWith_splitOn '.' d
    have hn := splitOn_ne_nil '.' d
    have hc : ∀ x ∈ splitOn '.' d, '.' ∉ x := fun x hx => splitOn_clean hx
    simp only [hostParts]
    generalize splitOn '.' d = ps at hj hn hc
    split
    · next h =>
      obtain ⟨m, s, rfl⟩ : ∃ m s, ps = m ++ [s] := ⟨_, _, (List.dropLast_append_getLast hn).symm⟩
      have hs : s = [] := by simpa using h.2
      subst hs
      have hm : m ≠ [] := by rintro rfl; simp at h
      rw [List.dropLast_concat]
      refine ⟨fun p hp => hc p (by simp [hp]), hm, .inr ?_⟩
      rw [← hj, joinWith_append hm (by simp), joinWith_intercalate]; simp [joinWith]
    · next h =>
      refine ⟨hc, hn, .inl ⟨by rw [← hj, joinWith_intercalate], fun h1 h2 => h ⟨h1, h2⟩⟩⟩

theorem mem_decimals (c : Char) : c ∈ decimals ↔ isDigit c = true := by
  have := ascii_ext (P := fun c => decide (c ∈ decimals)) (Q := isDigit)
    (fun c h => by
      have : ∀ c ∈ decimals, c.toNat < 128 := by decide
      exact this c (by simpa using h))
    (fun c h => by simp only [isDigit, Bool.and_eq_true, decide_eq_true_eq] at h; omega) (by decide +kernel) c
  simpa using this

theorem looksIpv4_iff (d : Str) : LooksIpv4 d ↔ endsInNumber d = true := by
  simp only [LooksIpv4, domainParts_iff, endsInNumber, ipv4Part_iff, mem_decimals]
  constructor
  · rintro ⟨parts, last, h1, h2⟩
    rw [← h1]
    simp only [List.getLast?_append, List.getLast?_singleton, Option.some_or, Bool.or_eq_true, Bool.and_eq_true, bne_iff_ne,
      List.all_eq_true, Option.isSome_iff_exists]
    exact h2
  · intro h
    cases hl : (hostParts d).getLast? with
    | none => rw [hl] at h; cases h
    | some p =>
      rw [hl] at h
      obtain ⟨ys, hys⟩ := List.getLast?_eq_some_iff.mp hl
      refine ⟨ys, p, hys.symm, ?_⟩
      simpa only [Bool.or_eq_true, Bool.and_eq_true, bne_iff_ne,
        List.all_eq_true, Option.isSome_iff_exists] using h

theorem ipv4Numbers_iff (ps : List Str) (ns : List Nat) : Pointwise Ipv4Part ps ns ↔ ipv4Numbers ps = some ns := by
  simp only [Pointwise]
  induction ps generalizing ns with
  | nil => cases ns <;> simp [ipv4Numbers]
  | cons p ps ih =>
    cases ns with
    | nil =>
      simp only [ipv4Numbers]
      constructor
      · rintro ⟨h, -⟩; cases h
      · intro h; split at h <;> cases h
    | cons n ns =>
      have ih := ih ns
      simp only [List.length_cons, Nat.add_right_cancel_iff, List.zip_cons_cons, List.mem_cons, forall_eq_or_imp,
        ipv4Part_iff, ipv4Numbers] at ih ⊢
      rw [and_left_comm, ih]
      constructor
      · rintro ⟨h1, h2⟩; rw [h1, h2]
      · intro h
        split at h
        · next a b h1 h2 => cases h; exact ⟨h1, h2⟩
        · cases h

theorem ipv4Text_iff (d : Str) (n : Nat) : Ipv4Text d n ↔ parseIpv4 d = some n := by
  simp only [Ipv4Text, domainParts_iff, ipv4Numbers_iff]
  constructor
  · rintro ⟨_, bytes, last, rfl, h1, h2, h3, h4, rfl⟩
    rw [parseIpv4, h1]
    match bytes, h2 with
    | [], _ =>
      have h4 : last < 2 ^ 32 := h4
      simp [h4]
    | [a], _ =>
      have h4 : last < 2 ^ 24 := h4
      have ha := h3 a (by simp)
      simp only [List.cons_append, List.nil_append, ha, h4, and_self, if_true, List.foldl_cons, List.foldl_nil,
        List.length_cons, List.length_nil, Option.some.injEq]
      omega
    | [a, b], _ =>
      have h4 : last < 2 ^ 16 := h4
      have ha := h3 a (by simp)
      have hb := h3 b (by simp)
      simp only [List.cons_append, List.nil_append, ha, hb, h4, and_self, if_true, List.foldl_cons, List.foldl_nil,
        List.length_cons, List.length_nil, Option.some.injEq]
      omega
    | [a, b, c], _ =>
      have h4 : last < 256 := h4
      have ha := h3 a (by simp)
      have hb := h3 b (by simp)
      have hc := h3 c (by simp)
      simp only [List.cons_append, List.nil_append, ha, hb, hc, h4, and_self, if_true, List.foldl_cons, List.foldl_nil,
        List.length_cons, List.length_nil, Option.some.injEq]
      omega
    | _ :: _ :: _ :: _ :: _, h => simp at h
  · intro h
    rw [parseIpv4] at h
    refine ⟨hostParts d, ?_⟩
    split at h
    · next a e =>
      split at h
      · next hc => cases h; exact ⟨[], _, rfl, e, by simp, by simp, hc, by simp⟩
      · cases h
    · next a b e =>
      split at h
      · next hc => cases h; exact ⟨[a], _, rfl, e, by simp, by simp [hc], hc.2, by simp⟩
      · cases h
    · next a b c e =>
      split at h
      · next hc => cases h; exact ⟨[a, b], _, rfl, e, by simp, by simp [hc], hc.2.2, by simp; omega⟩
      · cases h
    · next a b c d e =>
      split at h
      · next hc => cases h; exact ⟨[a, b, c], _, rfl, e, by simp, by simp [hc], hc.2.2.2, by simp; omega⟩
      · cases h
    · cases h

theorem decimalText_eq (n : Nat) : decimalText n = natStr n := by
  rw [decimalText, natStr, digitsAux_toDigits _ _ (by omega)]

theorem dottedText_eq (n : Nat) : dottedText n = printIpv4 n := by
  rw [dottedText, ← joinWith_intercalate]
  simp only [decimalText_eq, printIpv4]
  rfl

/-! ## IPv6 -/

theorem ipv6Piece_iff (s : Str) (n : Nat) : Ipv6Piece s n ↔ ipv6Piece s = some n := by
  simp only [Ipv6Piece, numberIn_iff, ipv6Piece]
  constructor
  · rintro ⟨h1, h2, h3⟩
    rw [if_neg (by rintro (h | h); exact h1 h; omega), h3]
  · intro h
    split at h
    · cases h
    · next hn => exact ⟨fun e => hn (.inl e), by omega, h⟩

/-- Decimal digits without a leading zero are the digits of their value. -/
theorem radix10_natStr {c : Char} {s : Str} {n : Nat} (hc : c ≠ '0') (h : radixVal 10 0 (c :: s) = some n) :
    0 < n ∧ c :: s = Nat.toDigits 10 n := by
  have key : ∀ d : Fin 10, ∀ m : Fin 128, hexVal (Char.ofNat m.val) = some d.val →
      Char.ofNat m.val = Nat.digitChar d.val := by decide +kernel
  have dig : ∀ {x : Char} {d : Nat}, hexVal x = some d → d < 10 → x = Nat.digitChar d := by
    intro x d hx hd
    have := key ⟨d, hd⟩ ⟨x.toNat, (hexVal_lt hx).2⟩
    simp only [Char.ofNat_toNat] at this
    exact this hx
  induction s using snoc_ind generalizing n with
  | nil =>
    rw [radixVal] at h
    cases hd : hexVal c with
    | none => rw [hd] at h; cases h
    | some d =>
      rw [hd] at h
      dsimp only at h
      split at h
      · next h10 =>
        simp only [Nat.zero_mul, Nat.zero_add, radixVal, Option.some.injEq] at h
        subst h
        have e := dig hd h10
        refine ⟨Nat.pos_of_ne_zero (fun h0 => hc ?_), ?_⟩
        · rw [e, h0]; rfl
        · rw [Nat.toDigits_eq_if (by decide), if_pos h10, e]
      · cases h
  | snoc s x ih =>
    rw [← List.cons_append, radixVal_append] at h
    cases hs : radixVal 10 0 (c :: s) with
    | none => rw [hs] at h; cases h
    | some m =>
      obtain ⟨h1, h2⟩ := ih hs
      rw [hs, Option.bind_some, radixVal] at h
      cases hd : hexVal x with
      | none => rw [hd] at h; cases h
      | some d =>
        rw [hd] at h
        dsimp only at h
        split at h
        · next h10 =>
          simp only [radixVal, Option.some.injEq] at h
          subst h
          refine ⟨by omega, ?_⟩
          rw [Nat.toDigits_eq_if (by decide), if_neg (by omega)]
          have e1 : (m * 10 + d) / 10 = m := by omega
          have e2 : (m * 10 + d) % 10 = d := by omega
          rw [e1, e2, ← h2, ← dig hd h10]
          rfl
        · cases h

theorem octet_natStr : ∀ n : Fin 256, octet (natStr n.val) = some n.val := by decide +kernel

theorem byteText_iff (s : Str) (n : Nat) : ByteText s n ↔ octet s = some n := by
  rw [ByteText, decimalText_eq]
  constructor
  · rintro ⟨h, rfl⟩; exact octet_natStr ⟨n, h⟩
  · intro h
    refine ⟨octet_lt h, ?_⟩
    rw [octet.eq_def] at h
    split at h
    · cases h
    · cases h; rfl
    · cases h
    · next cs h1 h2 h3 =>
      cases s with
      | nil => exact absurd rfl h1
      | cons c s =>
        split at h
        · next m hm =>
          split at h
          · cases h
            rw [← decimalText_eq]
            exact (radix10_natStr (by rintro rfl; exact h3 _ rfl) hm).2
          · cases h
        · cases h

theorem radixVal_hex {r acc n : Nat} {s : Str} (h : radixVal r acc s = some n) : ∀ c ∈ s, (hexVal c).isSome = true := by
  induction s generalizing acc with
  | nil => simp
  | cons a s ih =>
    rw [radixVal] at h
    cases hd : hexVal a with
    | none => rw [hd] at h; cases h
    | some d =>
      rw [hd] at h
      dsimp only at h
      split at h
      · intro c hc
        rcases List.mem_cons.mp hc with rfl | hc
        · rw [hd]; rfl
        · exact ih h c hc
      · cases h

theorem ipv6Piece_chars {s : Str} {n : Nat} (h : ipv6Piece s = some n) : s ≠ [] ∧ ':' ∉ s ∧ '.' ∉ s := by
  rw [ipv6Piece] at h
  split at h
  · cases h
  · next hn =>
    have := radixVal_hex h
    refine ⟨fun e => hn (.inl e), fun hm => ?_, fun hm => ?_⟩
    · have := this _ hm; revert this; decide
    · have := this _ hm; revert this; decide

theorem ipv6Last_dotted {a b c d : Str} {k l m n : Nat} (ha : ByteText a k) (hb : ByteText b l) (hc : ByteText c m)
    (hd : ByteText d n) :
    ':' ∉ List.intercalate c!"." [a, b, c, d] ∧
    ipv6Last (List.intercalate c!"." [a, b, c, d]) = some [k * 256 + l, m * 256 + n] := by
  have hdig : ∀ {s : Str} {n : Nat}, ByteText s n → ':' ∉ s ∧ '.' ∉ s := by
    rintro s n ⟨-, rfl⟩
    rw [decimalText_eq]
    refine ⟨fun h => ?_, natStr_no_dot n⟩
    have := natStr_digits n _ h; revert this; decide
  have e : List.intercalate c!"." [a, b, c, d] = joinWith '.' [a, b, c, d] := (joinWith_intercalate _ _).symm
  have hj : joinWith '.' [a, b, c, d] = a ++ '.' :: (b ++ '.' :: (c ++ '.' :: d)) := rfl
  rw [e]
  constructor
  · rw [hj]
    simp [hdig ha, hdig hb, hdig hc, hdig hd]
  · rw [ipv6Last]
    cases hp : ipv6Piece (joinWith '.' [a, b, c, d]) with
    | some x =>
      have := (ipv6Piece_chars hp).2.2
      rw [hj] at this
      simp at this
    | none =>
      dsimp only
      rw [splitOn_joinWith (by simp) (by simp [hdig ha, hdig hb, hdig hc, hdig hd])]
      dsimp only
      rw [byteText_iff] at ha hb hc hd
      rw [ha, hb, hc, hd]

theorem ipv6Last_iff {s : Str} {l : List Nat} (h : ipv6Last s = some l) : Ipv6Pieces true s l := by
  rw [ipv6Last] at h
  split at h
  · next n hn => cases h; exact .one ((ipv6Piece_iff _ _).mpr hn)
  · split at h
    · next a b c d hs =>
      split at h
      · next k l m n h1 h2 h3 h4 =>
        cases h
        have hj := joinWith_splitOn '.' s
        rw [hs, joinWith_intercalate] at hj
        rw [← hj]
        exact .ipv4 rfl ((byteText_iff _ _).mpr h1) ((byteText_iff _ _).mpr h2) ((byteText_iff _ _).mpr h3)
          ((byteText_iff _ _).mpr h4)
      · cases h
    · cases h

theorem ipv6Pieces_iff (tail : Bool) (s : Str) (l : List Nat) :
    Ipv6Pieces tail s l ↔ ipv6Parts tail (splitOn ':' s) = some l := by
  constructor
  · intro h
    induction h with
    | one h =>
      rw [ipv6Piece_iff] at h
      rw [splitOn_of_notMem (ipv6Piece_chars h).2.1, ipv6Parts]
      cases tail with
      | true => simp [ipv6Last, h]
      | false => simp [h]
    | ipv4 ht ha hb hc hd =>
      obtain ⟨h1, h2⟩ := ipv6Last_dotted ha hb hc hd
      rw [splitOn_of_notMem h1, ipv6Parts, if_pos ht, h2]
    | more h _ ih =>
      rename_i s t n l _
      rw [ipv6Piece_iff] at h
      rw [splitOn_append (ipv6Piece_chars h).2.1]
      cases ht : splitOn ':' t with
      | nil => exact absurd ht (splitOn_ne_nil _ _)
      | cons q ps => rw [ht] at ih; rw [ipv6Parts, h, ih]
  · have main : ∀ (ps : List Str) (l : List Nat), ps ≠ [] → ipv6Parts tail ps = some l →
        Ipv6Pieces tail (joinWith ':' ps) l := by
      intro ps
      induction ps with
      | nil => intro l h; exact absurd rfl h
      | cons p ps ih =>
        intro l _ h
        cases ps with
        | nil =>
          rw [ipv6Parts] at h
          cases tail with
          | true => exact ipv6Last_iff (s := p) (by simpa using h)
          | false =>
            simp only [Bool.false_eq_true, if_false, Option.map_eq_some_iff] at h
            obtain ⟨n, h, rfl⟩ := h
            exact .one ((ipv6Piece_iff _ _).mpr h)
        | cons q ps =>
          rw [ipv6Parts] at h
          split at h
          · next n ns h1 h2 =>
            cases h
            exact .more ((ipv6Piece_iff _ _).mpr h1) (ih ns (by simp) h2)
          · cases h
    intro h
    have := main _ _ (splitOn_ne_nil _ _) h
    rwa [joinWith_splitOn] at this

theorem ipv6Pieces_join {tail : Bool} {s : Str} {l : List Nat} (h : Ipv6Pieces tail s l) :
    s ≠ [] ∧ ∃ ps : List Str, ps ≠ [] ∧ s = joinWith ':' ps ∧ ∀ x ∈ ps, x ≠ [] ∧ ':' ∉ x := by
  induction h with
  | one h =>
    rw [ipv6Piece_iff] at h
    have := ipv6Piece_chars h
    exact ⟨this.1, [_], by simp, rfl, by simpa using ⟨this.1, this.2.1⟩⟩
  | ipv4 _ ha hb hc hd =>
    have h1 := (ipv6Last_dotted ha hb hc hd).1
    rename_i a b c d _ _ _ _ _
    have h2 : List.intercalate c!"." [a, b, c, d] ≠ [] := by
      rw [← joinWith_intercalate]; simp [joinWith]
    exact ⟨h2, [_], by simp, rfl, by intro x hx; rw [List.mem_singleton] at hx; subst hx; exact ⟨h2, h1⟩⟩
  | more h _ ih =>
    rw [ipv6Piece_iff] at h
    have := ipv6Piece_chars h
    obtain ⟨-, ps, h1, rfl, h2⟩ := ih
    rename_i s _ _ _
    refine ⟨by simp, s :: ps, by simp, ?_, ?_⟩
    · cases ps with
      | nil => exact absurd rfl h1
      | cons q ps => rfl
    · intro x hx
      rcases List.mem_cons.mp hx with rfl | hx
      · exact ⟨this.1, this.2.1⟩
      · exact h2 x hx

theorem splitDouble_eq {s a b : Str} (h : splitDouble s = some (a, b)) : s = a ++ c!"::" ++ b := by
  induction s generalizing a with
  | nil => cases h
  | cons c s ih =>
    rw [splitDouble.eq_def] at h
    dsimp only at h
    split at h
    · cases h; rfl
    · split at h
      · next x y hs => cases h; rw [ih hs]; rfl
      · cases h

theorem ipv6Side_iff (tail : Bool) (s : Str) (l : List Nat) :
    ((s = [] ∧ l = []) ∨ Ipv6Pieces tail s l) ↔ ipv6Side tail s = some l := by
  rw [ipv6Side]
  constructor
  · rintro (⟨rfl, rfl⟩ | h)
    · simp
    · rw [if_neg (ipv6Pieces_join h).1]; exact (ipv6Pieces_iff _ _ _).mp h
  · intro h
    split at h
    · next hs => cases h; exact .inl ⟨hs, rfl⟩
    · exact .inr ((ipv6Pieces_iff _ _ _).mpr h)

theorem ipv6Text_iff (s : Str) (l : List Nat) : Ipv6Text s l ↔ parseIpv6 s = some l := by
  constructor
  · intro h
    cases h with
    | full h hl =>
      obtain ⟨-, ps, -, hs, hp⟩ := ipv6Pieces_join h
      have hd := splitDouble_join hp []
      rw [List.append_nil, ← hs] at hd
      rw [parseIpv6, hd]
      simp only [splitDouble, Option.map_none]
      rw [(ipv6Pieces_iff _ _ _).mp h]
      simp [hl]
    | short ha hb hk hl =>
      rename_i a b l m k
      have hd : splitDouble (a ++ c!"::" ++ b) = some (a, b) := by
        have hps : ∃ ps : List Str, a = joinWith ':' ps ∧ ∀ x ∈ ps, x ≠ [] ∧ ':' ∉ x := by
          rcases ha with ⟨rfl, -⟩ | ha
          · exact ⟨[], rfl, by simp⟩
          · obtain ⟨-, ps, -, hs, hp⟩ := ipv6Pieces_join ha
            exact ⟨ps, hs, hp⟩
        obtain ⟨ps, rfl, hp⟩ := hps
        have := splitDouble_join hp (':' :: ':' :: b)
        simp only [splitDouble, Option.map_some, List.append_nil] at this
        simpa using this
      rw [parseIpv6, hd]
      dsimp only
      rw [(ipv6Side_iff _ _ _).mp ha, (ipv6Side_iff _ _ _).mp hb]
      dsimp only
      rw [if_pos (by omega), show 8 - l.length - m.length = k by omega]
  · intro h
    rw [parseIpv6] at h
    split at h
    · split at h
      · next ps hps =>
        split at h
        · next hl => cases h; exact .full ((ipv6Pieces_iff _ _ _).mpr hps) hl
        · cases h
      · cases h
    · next a b hs =>
      rw [splitDouble_eq hs]
      split at h
      · next xs ys h1 h2 =>
        split at h
        · cases h
          exact .short ((ipv6Side_iff _ _ _).mpr h1) ((ipv6Side_iff _ _ _).mpr h2) (by omega) (by omega)
        · cases h
      · cases h

theorem hexStr_toDigits {n : Nat} (h : n < 65536) : hexStr n = Nat.toDigits 16 n := by
  have key : ∀ d : Fin 16, hexLower d.val = Nat.digitChar d.val := by decide
  have hx : ∀ d, d < 16 → hexLower d = Nat.digitChar d := fun d hd => key ⟨d, hd⟩
  have step : ∀ m, 16 ≤ m → Nat.toDigits 16 m = Nat.toDigits 16 (m / 16) ++ [Nat.digitChar (m % 16)] := by
    intro m hm
    rw [Nat.toDigits_eq_if (by decide), if_neg (by omega)]
  have base : ∀ m, m < 16 → Nat.toDigits 16 m = [Nat.digitChar m] := by
    intro m hm
    rw [Nat.toDigits_eq_if (by decide), if_pos hm]
  rw [hexStr]
  split
  · next h1 => rw [base n h1]; simp [hexDigits, hx, Nat.mod_eq_of_lt h1, h1]
  · split
    · next h1 =>
      rw [step n (by omega), base _ (by omega)]
      simp only [hexDigits, List.nil_append]
      rw [hx _ (Nat.mod_lt _ (by decide)), hx _ (Nat.mod_lt _ (by decide)), Nat.mod_eq_of_lt (show n / 16 < 16 by omega)]
    · split
      · rw [step n (by omega), step (n / 16) (by omega), base _ (by omega)]
        simp only [hexDigits, List.nil_append]
        rw [hx _ (Nat.mod_lt _ (by decide)), hx _ (Nat.mod_lt _ (by decide)), hx _ (Nat.mod_lt _ (by decide)),
          Nat.mod_eq_of_lt (show n / 16 / 16 < 16 by omega)]
      · rw [step n (by omega), step (n / 16) (by omega), step (n / 16 / 16) (by omega), base _ (by omega)]
        simp only [hexDigits, List.nil_append]
        rw [hx _ (Nat.mod_lt _ (by decide)), hx _ (Nat.mod_lt _ (by decide)), hx _ (Nat.mod_lt _ (by decide)),
          hx _ (Nat.mod_lt _ (by decide)), Nat.mod_eq_of_lt (show n / 16 / 16 / 16 < 16 by omega)]

theorem piecesText_eq {l : List Nat} (h : ∀ n ∈ l, n < 65536) : piecesText l = joinWith ':' (l.map hexStr) := by
  rw [piecesText, ← joinWith_intercalate]
  congr 1
  apply List.map_congr_left
  intro n hn
  exact (hexStr_toDigits (h n hn)).symm

theorem zeros_le {k : Nat} {b l : List Nat} (h : l = List.replicate k 0 ++ b) : k ≤ zeros l := by
  subst h
  induction k with
  | zero => simp
  | succ k ih => rw [List.replicate_succ, List.cons_append, zeros, if_pos rfl]; omega

theorem longestZeros_max {l a b : List Nat} {k : Nat} (h : l = a ++ List.replicate k 0 ++ b) :
    k ≤ (longestZeros l).2 ∧ (k = (longestZeros l).2 → 0 < k → (longestZeros l).1 ≤ a.length) := by
  induction l generalizing a with
  | nil =>
    have := congrArg List.length h
    simp only [List.length_append, List.length_replicate, List.length_nil] at this
    exact ⟨by omega, fun _ h0 => by omega⟩
  | cons n l ih =>
    cases a with
    | nil =>
      have hz := zeros_le (k := k) (b := b) (l := n :: l) (by simpa using h)
      simp only [longestZeros]
      split
      · exact ⟨hz, fun _ _ => Nat.zero_le _⟩
      · next hk => exact ⟨by simp only; omega, fun e => by simp only at e; omega⟩
    | cons x a =>
      simp only [List.cons_append, List.cons.injEq] at h
      obtain ⟨h1, h2⟩ := ih h.2
      simp only [longestZeros]
      split
      · next hk => exact ⟨by simp only; omega, fun _ _ => Nat.zero_le _⟩
      · next hk =>
        refine ⟨h1, fun e h0 => ?_⟩
        have := h2 e h0
        simp only [List.length_cons]; omega

theorem ipv6Canonical_iff {l : List Nat} (hl : ∀ n ∈ l, n < 65536) (t : Str) :
    Ipv6Canonical l t ↔ t = printIpv6 l := by
  have hsp := longestZeros_spec l
  simp only [printIpv6]
  constructor
  · intro h
    cases h with
    | plain h =>
      have := h _ _ _ hsp
      rw [if_pos (by omega), piecesText_eq hl]
    | short hk h =>
      rename_i a b k
      have hmax := longestZeros_max (l := a ++ List.replicate k 0 ++ b) rfl
      have hsp2 := h _ _ _ hsp
      generalize longestZeros (a ++ List.replicate k 0 ++ b) = ik at *
      obtain ⟨i, k'⟩ := ik
      dsimp only at hmax hsp2 hsp ⊢
      have ek : k' = k := by omega
      subst ek
      have hle := hmax.2 rfl (by omega)
      have hlen : ((a ++ List.replicate k' 0 ++ b).take i).length = i := by
        rw [List.length_take, Nat.min_eq_left]
        simp; omega
      have hge := hsp2.2 rfl
      rw [hlen] at hge
      have ei : i = a.length := by omega
      subst ei
      rw [if_neg (by omega)]
      have e1 : (a ++ List.replicate k' 0 ++ b).take a.length = a := by
        rw [List.append_assoc, List.take_left]
      have e2 : (a ++ List.replicate k' 0 ++ b).drop (a.length + k') = b := by
        have : a.length + k' = (a ++ List.replicate k' 0).length := by simp
        rw [this, List.drop_left]
      rw [e1, e2, piecesText_eq (fun n hn => hl n (by simp [hn])), piecesText_eq (fun n hn => hl n (by simp [hn]))]
      simp
  · rintro rfl
    have hmax := fun a k b => longestZeros_max (l := l) (a := a) (k := k) (b := b)
    generalize longestZeros l = ik at *
    obtain ⟨i, k⟩ := ik
    dsimp only at hsp hmax ⊢
    split
    · next hk =>
      rw [← piecesText_eq hl]
      refine .plain fun a m b h => ?_
      have := (hmax a m b h).1
      omega
    · next hk =>
      rw [← piecesText_eq (fun n hn => hl n (List.mem_of_mem_take hn)),
        ← piecesText_eq (fun n hn => hl n (List.mem_of_mem_drop hn))]
      have := Ipv6Canonical.short (a := l.take i) (b := l.drop (i + k)) (k := k) (by omega) (by
        rw [← hsp]
        intro a' k' b' h
        obtain ⟨h1, h2⟩ := hmax a' k' b' h
        refine ⟨h1, fun e => ?_⟩
        have := h2 e (by omega)
        rw [List.length_take]
        omega)
      rw [← hsp] at this
      simpa using this

end Oid4vp
