import Verif.Lemmas.UrlText
/-!
# Lemmas on hosts of URLs
-/

set_option autoImplicit false

namespace Oid4vp

theorem splitOn_joinWith {c : Char} {l : List Str} (hl : l ≠ []) (h : ∀ x ∈ l, c ∉ x) :
    splitOn c (joinWith c l) = l := by
  induction l with
  | nil => exact absurd rfl hl
  | cons x l ih =>
    cases l with
    | nil => simpa [joinWith] using splitOn_of_notMem (h x (by simp))
    | cons y l =>
      rw [joinWith, splitOn_append (h x (by simp)), ih (by simp) (fun z hz => h z (by simp [hz]))]
      simp

/-! ## IPv4 -/

theorem natStr_octet : ∀ n : Fin 256, ipv4Number (natStr n.val) = some n.val := by decide +kernel

theorem digit_not_dot {c : Char} (h : isDigit c = true) : c ≠ '.' := by rintro rfl; revert h; decide

theorem natStr_no_dot (n : Nat) : '.' ∉ natStr n := fun h => digit_not_dot (natStr_digits n _ h) rfl

theorem hostParts_ipv4 (n : Nat) : hostParts (printIpv4 n) =
    [natStr (n / 2 ^ 24 % 256), natStr (n / 2 ^ 16 % 256), natStr (n / 2 ^ 8 % 256), natStr (n % 256)] := by
  have h : splitOn '.' (printIpv4 n) =
    [natStr (n / 2 ^ 24 % 256), natStr (n / 2 ^ 16 % 256), natStr (n / 2 ^ 8 % 256), natStr (n % 256)] := by
    rw [printIpv4, splitOn_append (natStr_no_dot _), splitOn_append (natStr_no_dot _),
      splitOn_append (natStr_no_dot _), splitOn_of_notMem (natStr_no_dot _)]
  simp only [hostParts, h]
  rw [if_neg]
  simp [natStr_ne_nil]

theorem parseIpv4_lt {s : Str} {n : Nat} (h : parseIpv4 s = some n) : n < 2 ^ 32 := by
  simp only [parseIpv4] at h
  split at h
  · split at h
    · cases h; assumption
    · cases h
  · split at h
    · cases h; omega
    · cases h
  · split at h
    · cases h; omega
    · cases h
  · split at h
    · cases h; omega
    · cases h
  · cases h

theorem parseIpv4_print {n : Nat} (h : n < 2 ^ 32) : parseIpv4 (printIpv4 n) = some n := by
  have o : ∀ m, ipv4Number (natStr (m % 256)) = some (m % 256) := fun m => natStr_octet ⟨m % 256, by omega⟩
  simp only [parseIpv4, hostParts_ipv4, ipv4Numbers, o]
  rw [if_pos (by omega)]
  congr 1
  omega

theorem endsInNumber_ipv4 (n : Nat) : endsInNumber (printIpv4 n) = true := by
  simp only [endsInNumber, hostParts_ipv4]
  have : (natStr (n % 256)).all isDigit = true := List.all_eq_true.mpr (natStr_digits _)
  simp [this, natStr_ne_nil]

theorem printIpv4_chars (n : Nat) : ∀ c ∈ printIpv4 n, isDigit c = true ∨ c = '.' := by
  intro c hc
  simp only [printIpv4, List.mem_append, List.mem_cons] at hc
  rcases hc with h | rfl | h | rfl | h | rfl | h
  · exact .inl (natStr_digits _ c h)
  · exact .inr rfl
  · exact .inl (natStr_digits _ c h)
  · exact .inr rfl
  · exact .inl (natStr_digits _ c h)
  · exact .inr rfl
  · exact .inl (natStr_digits _ c h)

/-! ## IPv6 -/

theorem radixVal_append (r acc : Nat) (s t : Str) :
    radixVal r acc (s ++ t) = (radixVal r acc s).bind (fun a => radixVal r a t) := by
  induction s generalizing acc with
  | nil => rfl
  | cons c s ih =>
    simp only [List.cons_append, radixVal]
    cases hexVal c with
    | none => rfl
    | some d =>
      dsimp only
      split
      · exact ih _
      · rfl

theorem radixVal_lt {r acc n : Nat} {s : Str} (h : radixVal r acc s = some n) :
    n < (acc + 1) * r ^ s.length := by
  induction s generalizing acc with
  | nil => simp [radixVal] at h; subst h; simp
  | cons c s ih =>
    simp only [radixVal] at h
    cases hd : hexVal c with
    | none => rw [hd] at h; cases h
    | some d =>
      rw [hd] at h
      dsimp only at h
      split at h
      · next hr =>
        have h1 := ih h
        refine Nat.lt_of_lt_of_le h1 ?_
        rw [List.length_cons, Nat.pow_succ, Nat.mul_comm (r ^ s.length) r, ← Nat.mul_assoc]
        apply Nat.mul_le_mul_right
        rw [Nat.add_mul]
        omega
      · cases h

theorem hexLower_val : ∀ n : Fin 16, hexVal (hexLower n.val) = some n.val := by decide

theorem radixVal_hexDigits (k n acc : Nat) (h : n < 16 ^ k) :
    radixVal 16 acc (hexDigits k n) = some (acc * 16 ^ k + n) := by
  induction k generalizing n with
  | zero => simp at h; subst h; simp [hexDigits, radixVal]
  | succ k ih =>
    have h1 : n / 16 < 16 ^ k := by
      rw [Nat.pow_succ] at h; omega
    have h2 := hexLower_val ⟨n % 16, Nat.mod_lt _ (by decide)⟩
    simp only [hexDigits, radixVal_append, ih _ h1, Option.bind_some, radixVal]
    dsimp only at h2
    rw [h2]
    dsimp only
    rw [if_pos (Nat.mod_lt _ (by decide))]
    simp only [Option.some.injEq, Nat.pow_succ]
    have : (acc * 16 ^ k + n / 16) * 16 = acc * (16 ^ k * 16) + n / 16 * 16 := by
      rw [Nat.add_mul, Nat.mul_assoc]
    omega

theorem hexDigits_len (k n : Nat) : (hexDigits k n).length = k := by
  induction k generalizing n with
  | zero => rfl
  | succ k ih => simp [hexDigits, ih]

/-- Lower-case hexadecimal digits. -/
def isHexLower (c : Char) : Bool := isDigit c || (97 ≤ c.toNat && c.toNat ≤ 102)

theorem hexLower_isHexLower : ∀ n : Fin 16, isHexLower (hexLower n.val) = true := by decide

theorem hexDigits_chars (k n : Nat) : ∀ c ∈ hexDigits k n, isHexLower c = true := by
  induction k generalizing n with
  | zero => simp [hexDigits]
  | succ k ih =>
    intro c hc
    simp only [hexDigits, List.mem_append, List.mem_singleton] at hc
    rcases hc with hc | rfl
    · exact ih _ c hc
    · exact hexLower_isHexLower ⟨n % 16, Nat.mod_lt _ (by decide)⟩

theorem hexStr_chars (n : Nat) : ∀ c ∈ hexStr n, isHexLower c = true := by
  simp only [hexStr]
  repeat' split
  all_goals exact hexDigits_chars _ _

theorem hexStr_no_colon (n : Nat) : ':' ∉ hexStr n := by
  intro h
  have := hexStr_chars n _ h
  revert this; decide

theorem hexStr_ne_nil (n : Nat) : hexStr n ≠ [] := by
  intro h
  have := congrArg List.length h
  simp only [hexStr] at this
  repeat' split at this
  all_goals simp [hexDigits_len] at this

theorem ipv6Piece_hexStr {n : Nat} (h : n < 65536) : ipv6Piece (hexStr n) = some n := by
  have hl : (hexStr n).length ≤ 4 := by
    simp only [hexStr]
    repeat' split
    all_goals simp [hexDigits_len]
  rw [ipv6Piece, if_neg (by rw [not_or]; exact ⟨hexStr_ne_nil n, by omega⟩)]
  simp only [hexStr]
  repeat' split
  all_goals
    rw [radixVal_hexDigits _ _ _ (by omega)]
    simp

theorem ipv6Parts_hexStr {tail : Bool} {l : List Nat} (h : ∀ n ∈ l, n < 65536) :
    ipv6Parts tail (l.map hexStr) = some l := by
  induction l with
  | nil => rfl
  | cons n l ih =>
    have h1 := ipv6Piece_hexStr (h n (by simp))
    cases l with
    | nil => cases tail <;> simp [ipv6Parts, ipv6Last, h1]
    | cons m l =>
      have h2 := ih (fun x hx => h x (by simp [hx]))
      rw [List.map_cons] at h2
      simp only [List.map_cons, ipv6Parts, h1, h2]

theorem splitDouble_free {x r : Str} (h : ':' ∉ x) :
    splitDouble (x ++ r) = (splitDouble r).map (fun p => (x ++ p.1, p.2)) := by
  induction x with
  | nil => cases h : splitDouble r <;> simp [h]
  | cons c x ih =>
    simp only [List.mem_cons, not_or] at h
    rw [List.cons_append, splitDouble.eq_def]
    dsimp only
    split
    · next he => exact absurd rfl h.1
    · rw [ih h.2]
      cases splitDouble r <;> rfl

theorem splitDouble_single {c : Char} {r : Str} (h : c ≠ ':') :
    splitDouble (':' :: c :: r) = (splitDouble (c :: r)).map (fun p => (':' :: p.1, p.2)) := by
  rw [splitDouble.eq_def]
  dsimp only
  split
  · next he => rw [List.cons.injEq] at he; exact absurd he.1 h
  · cases splitDouble (c :: r) <;> rfl

theorem splitDouble_join {l : List Str} (h : ∀ x ∈ l, x ≠ [] ∧ ':' ∉ x) (r : Str) :
    splitDouble (joinWith ':' l ++ r) = (splitDouble r).map (fun p => (joinWith ':' l ++ p.1, p.2)) := by
  induction l with
  | nil => cases h : splitDouble r <;> simp [joinWith, h]
  | cons x l ih =>
    cases l with
    | nil => simpa [joinWith] using splitDouble_free (h x (by simp)).2
    | cons y l =>
      have e : joinWith ':' (x :: y :: l) = x ++ ':' :: joinWith ':' (y :: l) := by
        rw [joinWith]; simp
      have hy := h y (by simp)
      obtain ⟨d, ds, hd⟩ : ∃ d ds, joinWith ':' (y :: l) = d :: ds ∧ d ≠ ':' := by
        cases y with
        | nil => exact absurd rfl hy.1
        | cons d y =>
          have : d ≠ ':' := fun e => hy.2 (by simp [e])
          cases l with
          | nil => exact ⟨d, y, rfl, this⟩
          | cons z l => exact ⟨d, _, by rw [joinWith]; · rfl
                                        · simp, this⟩
      have ih := ih (fun z hz => h z (by simp [hz]))
      rw [hd.1] at ih e
      rw [e, List.append_assoc, splitDouble_free (h x (by simp)).2, List.cons_append, List.cons_append,
        splitDouble_single hd.2, ← List.cons_append, ih]
      cases splitDouble r <;> simp

theorem zeros_spec (l : List Nat) : l = List.replicate (zeros l) 0 ++ l.drop (zeros l) := by
  induction l with
  | nil => rfl
  | cons n l ih =>
    simp only [zeros]
    split
    · next h => subst h; rw [List.replicate_succ, List.drop_succ_cons, List.cons_append, ← ih]
    · rfl

theorem longestZeros_spec (l : List Nat) :
    l = l.take (longestZeros l).1 ++ List.replicate (longestZeros l).2 0 ++
      l.drop ((longestZeros l).1 + (longestZeros l).2) := by
  induction l with
  | nil => rfl
  | cons n l ih =>
    simp only [longestZeros]
    split
    · simp only [List.take_zero, List.nil_append, Nat.zero_add]
      exact zeros_spec (n :: l)
    · simp only [List.take_succ_cons, List.cons_append, List.cons.injEq, true_and]
      rw [Nat.add_right_comm, List.drop_succ_cons]
      exact ih

theorem join_hex_ok (l : List Nat) : ∀ x ∈ l.map hexStr, x ≠ [] ∧ ':' ∉ x := by
  intro x hx
  obtain ⟨n, -, rfl⟩ := List.mem_map.mp hx
  exact ⟨hexStr_ne_nil n, hexStr_no_colon n⟩

theorem ipv6Side_hex {tail : Bool} {l : List Nat} (h : ∀ n ∈ l, n < 65536) :
    ipv6Side tail (joinWith ':' (l.map hexStr)) = some l := by
  cases l with
  | nil => rfl
  | cons n l =>
    rw [ipv6Side, if_neg]
    · rw [splitOn_joinWith (by simp) (fun x hx => (join_hex_ok _ x hx).2), ipv6Parts_hexStr h]
    · cases l with
      | nil => simpa [joinWith] using hexStr_ne_nil n
      | cons m l => rw [List.map_cons, List.map_cons, joinWith] <;> simp

theorem parseIpv6_print {ps : List Nat} (hl : ps.length = 8) (h : ∀ n ∈ ps, n < 65536) :
    parseIpv6 (printIpv6 ps) = some ps := by
  have hz := longestZeros_spec ps
  simp only [printIpv6]
  generalize he : longestZeros ps = ik at hz
  obtain ⟨i, k⟩ := ik
  dsimp only at hz ⊢
  split
  · have h1 := splitDouble_join (join_hex_ok ps) []
    simp only [List.append_nil, splitDouble, Option.map_none] at h1
    rw [parseIpv6, h1]
    dsimp only
    rw [splitOn_joinWith _ (fun x hx => (join_hex_ok _ x hx).2), ipv6Parts_hexStr h]
    · simp [hl]
    · intro e
      have := congrArg List.length e
      simp [hl] at this
  · next hk =>
    have h1 := splitDouble_join (join_hex_ok (ps.take i)) (':' :: ':' :: joinWith ':' ((ps.drop (i + k)).map hexStr))
    simp only [splitDouble, Option.map_some, List.append_nil] at h1
    have hlen := congrArg List.length hz
    simp only [List.length_append, List.length_replicate] at hlen
    rw [parseIpv6, h1]
    dsimp only
    rw [ipv6Side_hex (fun n hn => h n (List.mem_of_mem_take hn)),
      ipv6Side_hex (fun n hn => h n (List.mem_of_mem_drop hn))]
    dsimp only
    rw [if_pos (by omega)]
    have : 8 - (ps.take i).length - (ps.drop (i + k)).length = k := by omega
    rw [this, ← hz]

theorem ipv6Piece_lt {s : Str} {n : Nat} (h : ipv6Piece s = some n) : n < 65536 := by
  simp only [ipv6Piece] at h
  split at h
  · cases h
  · next hl =>
    have h1 := radixVal_lt h
    have : 16 ^ s.length ≤ 16 ^ 4 := Nat.pow_le_pow_right (by decide) (by rw [not_or] at hl; omega)
    omega

theorem octet_lt {s : Str} {n : Nat} (h : octet s = some n) : n < 256 := by
  simp only [octet] at h
  split at h
  · cases h
  · cases h; decide
  · cases h
  · split at h
    · split at h
      · cases h; assumption
      · cases h
    · cases h

theorem ipv6Last_lt {s : Str} {l : List Nat} (h : ipv6Last s = some l) : ∀ n ∈ l, n < 65536 := by
  simp only [ipv6Last] at h
  split at h
  · next hp => cases h; simpa using ipv6Piece_lt hp
  · split at h
    · split at h
      · next h1 h2 h3 h4 =>
        cases h
        have := octet_lt h1
        have := octet_lt h2
        have := octet_lt h3
        have := octet_lt h4
        simp only [List.mem_cons, List.not_mem_nil, or_false, forall_eq_or_imp, forall_eq]
        constructor <;> omega
      · cases h
    · cases h

theorem ipv6Parts_lt {tail : Bool} {ps : List Str} {l : List Nat} (h : ipv6Parts tail ps = some l) :
    ∀ n ∈ l, n < 65536 := by
  induction ps generalizing l with
  | nil => cases h; simp
  | cons p ps ih =>
    cases ps with
    | nil =>
      simp only [ipv6Parts] at h
      split at h
      · exact ipv6Last_lt h
      · cases hp : ipv6Piece p with
        | none => rw [hp] at h; cases h
        | some m => rw [hp] at h; cases h; simpa using ipv6Piece_lt hp
    | cons q ps =>
      simp only [ipv6Parts] at h
      split at h
      · next hp hq =>
        cases h
        intro n hn
        rw [List.mem_cons] at hn
        rcases hn with rfl | hn
        · exact ipv6Piece_lt hp
        · exact ih hq n hn
      · cases h

theorem ipv6Side_lt {tail : Bool} {s : Str} {l : List Nat} (h : ipv6Side tail s = some l) :
    ∀ n ∈ l, n < 65536 := by
  simp only [ipv6Side] at h
  split at h
  · cases h; simp
  · exact ipv6Parts_lt h

theorem parseIpv6_ok {s : Str} {ps : List Nat} (h : parseIpv6 s = some ps) :
    ps.length = 8 ∧ ∀ n ∈ ps, n < 65536 := by
  simp only [parseIpv6] at h
  split at h
  · split at h
    · next hp =>
      split at h
      · cases h; exact ⟨by assumption, ipv6Parts_lt hp⟩
      · cases h
    · cases h
  · split at h
    · next hx hy =>
      split at h
      · cases h
        refine ⟨by simp; omega, ?_⟩
        intro n hn
        simp only [List.mem_append, List.mem_replicate] at hn
        rcases hn with (hn | hn) | hn
        · exact ipv6Side_lt hx n hn
        · omega
        · exact ipv6Side_lt hy n hn
      · cases h
    · cases h

theorem printIpv6_chars (ps : List Nat) : ∀ c ∈ printIpv6 ps, isHexLower c = true ∨ c = ':' := by
  have hj : ∀ l : List Nat, ∀ c ∈ joinWith ':' (l.map hexStr), isHexLower c = true ∨ c = ':' := by
    intro l c hc
    rcases mem_joinWith hc with h | ⟨x, hx, h⟩
    · exact .inr h
    · obtain ⟨n, -, rfl⟩ := List.mem_map.mp hx
      exact .inl (hexStr_chars n c h)
  intro c hc
  simp only [printIpv6] at hc
  split at hc
  · exact hj _ c hc
  · simp only [List.mem_append, List.mem_cons] at hc
    rcases hc with h | rfl | rfl | h
    · exact hj _ c h
    · exact .inr rfl
    · exact .inr rfl
    · exact hj _ c h

/-! ## Domains -/

theorem asciiLower_of_isLower {c : Char} (h : isLower c = true) : asciiLower c = c := by
  simp only [isLower, Bool.and_eq_true, decide_eq_true_eq] at h
  simp only [asciiLower]
  rw [if_neg]
  simp; omega

theorem isAlpha_of_isLower {c : Char} (h : isLower c = true) : isAlpha c = true := by
  simp only [isLower, Bool.and_eq_true, decide_eq_true_eq] at h
  simp [isAlpha, h.1, h.2]

theorem isAlpha_lower {c : Char} (h : isAlpha c = true) : isLower (asciiLower c) = true := by
  simp only [isAlpha, Bool.or_eq_true, Bool.and_eq_true, decide_eq_true_eq] at h
  simp only [asciiLower]
  split
  · next h1 =>
    simp only [Bool.and_eq_true, decide_eq_true_eq] at h1
    have : (Char.ofNat (c.toNat + 32)).toNat = c.toNat + 32 := by
      exact char_toNat_ofNat (by omega)
    simp only [isLower, this, Bool.and_eq_true, decide_eq_true_eq]; omega
  · next h1 =>
    simp only [Bool.and_eq_true, decide_eq_true_eq] at h1
    simp only [isLower, Bool.and_eq_true, decide_eq_true_eq]
    omega

theorem asciiLower_idem (c : Char) : asciiLower (asciiLower c) = asciiLower c := by
  by_cases h : isAlpha c = true
  · exact asciiLower_of_isLower (isAlpha_lower h)
  · have : asciiLower c = c := by
      simp only [isAlpha, Bool.or_eq_true, Bool.and_eq_true, decide_eq_true_eq, not_or] at h
      simp only [asciiLower]; rw [if_neg]; simp; omega
    rw [this, this]

theorem asciiLower_lt {c : Char} (h : c.toNat < 128) : (asciiLower c).toNat < 128 := by
  simp only [asciiLower]
  split
  · next h1 =>
    simp only [Bool.and_eq_true, decide_eq_true_eq] at h1
    rw [char_toNat_ofNat (by omega)]; omega
  · exact h

theorem map_asciiLower {l : Str} (h : ∀ x ∈ l, asciiLower x = x) : l.map asciiLower = l := by
  conv_rhs => rw [← List.map_id l]
  exact List.map_congr_left h

theorem hasAce_lower (s : Str) : hasAce (s.map asciiLower) = hasAce s := by
  rw [hasAce, hasAce, List.map_map]
  congr 3
  exact funext asciiLower_idem

theorem utf8_ascii {s : Str} (h : ∀ c ∈ s, c.toNat < 128) : utf8 s = s.map (fun c => UInt8.ofNat c.toNat) := by
  induction s with
  | nil => rfl
  | cons c s ih =>
    have : utf8 (c :: s) = utf8Char c ++ utf8 s := rfl
    rw [this, utf8Char_ascii (h c (by simp)), ih (fun x hx => h x (by simp [hx]))]
    rfl

theorem u8_back {c : Char} (h : c.toNat < 128) : Char.ofNat (UInt8.ofNat c.toNat).toNat = c := by
  rw [u8_toNat_ofNat (by omega), Char.ofNat_toNat]

/-- What a domain as it is stays for. -/
structure DomainOk (d : Str) : Prop where
  ne : d ≠ []
  ascii : ∀ c ∈ d, c.toNat < 128
  lower : ∀ c ∈ d, asciiLower c = c
  allowed : ∀ c ∈ d, forbiddenDomain c = false
  ace : hasAce d = true → idna.val (utf8 d) = some d

theorem domainToAscii_ok {d : Str} (h : DomainOk d) : domainToAscii (unescape (utf8 d)) = some d := by
  have h8 := utf8_ascii h.ascii
  have hb : ∀ x ∈ utf8 d, x.toNat < 128 ∧ x.toNat ≠ 0x25 := by
    rw [h8]
    intro x hx
    obtain ⟨c, hc, rfl⟩ := List.mem_map.mp hx
    have := h.ascii c hc
    rw [u8_toNat_ofNat (by omega)]
    refine ⟨this, fun e => ?_⟩
    have h1 := h.allowed c hc
    have : c = '%' := Char.toNat_inj e
    subst this
    revert h1; decide
  have hback : (utf8 d).map (fun x => Char.ofNat x.toNat) = d := by
    rw [h8, List.map_map]
    conv_rhs => rw [← List.map_id d]
    exact List.map_congr_left (fun c hc => u8_back (h.ascii c hc))
  rw [unescape_id (fun x hx => (hb x hx).2), domainToAscii]
  simp only [hback]
  have hall : (utf8 d).all (fun x => decide (x.toNat < 128)) = true := by
    rw [List.all_eq_true]; exact fun x hx => by simpa using (hb x hx).1
  rw [hall]
  cases ha : hasAce d with
  | false => simp [map_asciiLower h.lower]
  | true => simpa using h.ace ha

theorem domainToAscii_chars {b : Bytes} {d : Str} (h : domainToAscii b = some d) :
    (∀ c ∈ d, c.toNat < 128 ∧ asciiLower c = c) ∧ (hasAce d = true → idna.val (utf8 d) = some d) := by
  simp only [domainToAscii] at h
  split at h
  · next hc =>
    cases h
    rw [Bool.and_eq_true, List.all_eq_true] at hc
    refine ⟨?_, ?_⟩
    · intro c hm
      obtain ⟨x, hx, rfl⟩ := List.mem_map.mp hm
      obtain ⟨y, hy, rfl⟩ := List.mem_map.mp hx
      have hy := hc.1 y hy
      rw [decide_eq_true_eq] at hy
      refine ⟨asciiLower_lt ?_, asciiLower_idem _⟩
      rw [char_toNat_ofNat (by omega)]; exact hy
    · intro ha
      rw [hasAce_lower] at ha
      rw [ha] at hc
      exact absurd hc.2 (by simp)
  · exact ⟨(idna.property b d h).1, (idna.property b d h).2.1⟩

theorem digitOrDot_domain : ∀ c, (isDigit c = true ∨ c = '.') →
    c.toNat < 128 ∧ asciiLower c = c ∧ forbiddenDomain c = false ∧ c ≠ 'x' := by
  have key : ∀ n : Fin 128, (isDigit (Char.ofNat n.val) = true ∨ Char.ofNat n.val = '.') →
      asciiLower (Char.ofNat n.val) = Char.ofNat n.val ∧ forbiddenDomain (Char.ofNat n.val) = false ∧
        Char.ofNat n.val ≠ 'x' := by decide
  intro c h
  have hl : c.toNat < 128 := by
    rcases h with h | rfl
    · simp only [isDigit, Bool.and_eq_true, decide_eq_true_eq] at h; omega
    · decide
  have := key ⟨c.toNat, hl⟩
  simp only [Char.ofNat_toNat] at this
  exact ⟨hl, this h⟩

theorem mem_splitOn {c d : Char} {s x : Str} (hx : x ∈ splitOn c s) (hd : d ∈ x) : d ∈ s := by
  induction s generalizing x with
  | nil => simp [splitOn] at hx; subst hx; exact hd
  | cons a s ih =>
    simp only [splitOn] at hx
    split at hx
    · rw [List.mem_cons] at hx
      rcases hx with rfl | hx
      · cases hd
      · exact List.mem_cons_of_mem _ (ih hx hd)
    · split at hx
      · next h => exact absurd h (splitOn_ne_nil c s)
      · next y ys h =>
        rw [List.mem_cons] at hx
        rcases hx with rfl | hx
        · rw [List.mem_cons] at hd
          rcases hd with rfl | hd
          · simp
          · exact List.mem_cons_of_mem _ (ih (by rw [h]; simp) hd)
        · exact List.mem_cons_of_mem _ (ih (by rw [h]; simp [hx]) hd)

theorem hasAce_x {s : Str} (h : hasAce s = true) : 'x' ∈ s.map asciiLower := by
  rw [hasAce, List.any_eq_true] at h
  obtain ⟨l, hl, h⟩ := h
  obtain ⟨r, hr⟩ := startsWith_iff.mp h
  exact mem_splitOn hl (by rw [hr]; simp)

theorem ipv4_domainOk (n : Nat) : DomainOk (printIpv4 n) := by
  have h := fun c hc => digitOrDot_domain c (printIpv4_chars n c hc)
  refine ⟨?_, fun c hc => (h c hc).1, fun c hc => (h c hc).2.1, fun c hc => (h c hc).2.2.1, ?_⟩
  · simp [printIpv4]
  · intro ha
    have := hasAce_x ha
    rw [map_asciiLower (fun c hc => (h c hc).2.1)] at this
    exact absurd rfl (h _ this).2.2.2

/-- The texts of hosts that are printed without brackets. -/
structure PlainHost (t : Str) : Prop where
  chars : ∀ c ∈ t, isGraphic c = true ∧ forbiddenHost c = false

/-- The texts of hosts. -/
inductive HostOk : Str → Prop
  | plain {t : Str} : PlainHost t → HostOk t
  | brackets (ps : List Nat) : ps.length = 8 → (∀ n ∈ ps, n < 65536) →
      HostOk ('[' :: (printIpv6 ps ++ [']']))

theorem parseBracketed_ok {r t : Str} (h : parseBracketed r = some t) :
    ∃ ps : List Nat, ps.length = 8 ∧ (∀ n ∈ ps, n < 65536) ∧ t = '[' :: (printIpv6 ps ++ [']']) := by
  simp only [parseBracketed] at h
  split at h
  · cases hp : parseIpv6 r.dropLast with
    | none => rw [hp] at h; cases h
    | some ps =>
      rw [hp] at h
      cases h
      exact ⟨ps, (parseIpv6_ok hp).1, (parseIpv6_ok hp).2, rfl⟩
  · cases h

theorem parseBracketed_print {ps : List Nat} (hl : ps.length = 8) (h : ∀ n ∈ ps, n < 65536) :
    parseBracketed (printIpv6 ps ++ [']']) = some ('[' :: (printIpv6 ps ++ [']'])) := by
  simp [parseBracketed, parseIpv6_print hl h]

theorem domain_plain {d : Str} (h : ∀ c ∈ d, c.toNat < 128) (ha : ∀ c ∈ d, forbiddenDomain c = false) :
    PlainHost d := by
  refine ⟨fun c hc => ?_⟩
  have h1 := h c hc
  have h2 := ha c hc
  simp only [forbiddenDomain, Bool.or_eq_false_iff, decide_eq_false_iff_not] at h2
  refine ⟨?_, h2.1.1.1⟩
  have : c.toNat ≠ 0x20 := by
    intro e
    have : c = ' ' := Char.toNat_inj e
    subst this
    have := h2.1.1.1
    revert this; decide
  simp only [isGraphic, Bool.and_eq_true, decide_eq_true_eq]
  omega

theorem PlainHost.not_bracket {t : Str} (h : PlainHost t) : ∀ r, t ≠ '[' :: r := by
  rintro r rfl
  have := (h.chars '[' (by simp)).2
  revert this; decide

theorem domainHost_ok {d : Str} (h : DomainOk d) :
    domainHost d = if endsInNumber d then (parseIpv4 d).map printIpv4 else some d := by
  have hb := (domain_plain h.ascii h.allowed).not_bracket
  rw [domainHost.eq_def]
  split
  · next r => exact absurd rfl (hb r)
  · rw [domainToAscii_ok h]
    dsimp only
    rw [if_neg]
    rw [not_or]
    refine ⟨h.ne, ?_⟩
    rw [List.any_eq_true]
    rintro ⟨c, hc, e⟩
    rw [h.allowed c hc] at e
    cases e

theorem domainHost_spec {s t : Str} (h : domainHost s = some t) :
    domainHost t = some t ∧ HostOk t ∧ t ≠ [] := by
  rw [domainHost.eq_def] at h
  split at h
  · obtain ⟨ps, hl, hp, rfl⟩ := parseBracketed_ok h
    exact ⟨parseBracketed_print hl hp, .brackets ps hl hp, by simp⟩
  · split at h
    · cases h
    · next d hd =>
      obtain ⟨hc, hace⟩ := domainToAscii_chars hd
      split at h
      · cases h
      · next hn =>
        rw [not_or] at hn
        have hok : DomainOk d := by
          refine ⟨hn.1, fun c hm => (hc c hm).1, fun c hm => (hc c hm).2, ?_, hace⟩
          intro c hm
          cases hf : forbiddenDomain c with
          | false => rfl
          | true => exact absurd (List.any_eq_true.mpr ⟨c, hm, hf⟩) hn.2
        split at h
        · cases hp : parseIpv4 d with
          | none => rw [hp] at h; cases h
          | some n =>
            rw [hp] at h
            cases h
            have h4 := ipv4_domainOk n
            refine ⟨?_, .plain (domain_plain h4.ascii h4.allowed), h4.ne⟩
            rw [domainHost_ok h4, endsInNumber_ipv4, if_pos rfl, parseIpv4_print (parseIpv4_lt hp)]
            rfl
        · next he =>
          cases h
          refine ⟨?_, .plain (domain_plain hok.ascii hok.allowed), hok.ne⟩
          rw [domainHost_ok hok, if_neg he]

theorem forbiddenHost_esc : ∀ c, escChar c = true → forbiddenHost c = false := by
  intro c h
  have := escChar_imp (P := fun c => !forbiddenHost c) (by decide) c h
  simpa using this

theorem opaqueHost_plain {t : Str} (h : PlainHost t) : opaqueHost t = some t := by
  have hb := h.not_bracket
  rw [opaqueHost.eq_def]
  split
  · next r => exact absurd rfl (hb r)
  · rw [if_neg, escape_kept]
    · intro c hc
      have := (h.chars c hc).1
      simp only [isGraphic, Bool.and_eq_true, decide_eq_true_eq] at this
      simp only [opaqueKeep, Bool.and_eq_true, decide_eq_true_eq]
      omega
    · rw [List.any_eq_true]
      rintro ⟨c, hc, e⟩
      rw [(h.chars c hc).2] at e
      cases e

theorem opaqueHost_spec {s t : Str} (h : opaqueHost s = some t) :
    opaqueHost t = some t ∧ HostOk t ∧ (t = [] ↔ s = []) := by
  rw [opaqueHost.eq_def] at h
  split at h
  · obtain ⟨ps, hl, hp, rfl⟩ := parseBracketed_ok h
    exact ⟨parseBracketed_print hl hp, .brackets ps hl hp, by simp⟩
  · split at h
    · cases h
    · next hn =>
      cases h
      have : PlainHost (escape opaqueKeep s) := by
        refine ⟨fun c hc => ?_⟩
        have hk := escape_all opaqueKeep_esc s c hc
        have hf : forbiddenHost c = false := by
          rcases mem_escape hc with h1 | h1
          · cases hf : forbiddenHost c with
            | false => rfl
            | true => exact absurd (List.any_eq_true.mpr ⟨c, h1.1, hf⟩) hn
          · exact forbiddenHost_esc c h1
        refine ⟨?_, hf⟩
        have : c.toNat ≠ 0x20 := by
          intro e
          have : c = ' ' := Char.toNat_inj e
          subst this
          revert hf; decide
        simp only [opaqueKeep, Bool.and_eq_true, decide_eq_true_eq] at hk
        simp only [isGraphic, Bool.and_eq_true, decide_eq_true_eq]
        omega
      exact ⟨opaqueHost_plain this, .plain this, escape_eq_nil⟩

/-! ## Authorities -/

/-- Characters of authorities. -/
def authChar (c : Char) : Bool := isGraphic c && !(c!"/?#\\").contains c

theorem isHexLower_char : ∀ c, (isHexLower c = true ∨ c = ':') →
    authChar c = true ∧ c ≠ '@' ∧ c ≠ '[' ∧ c ≠ ']' := by
  have key : ∀ n : Fin 128, (isHexLower (Char.ofNat n.val) = true ∨ Char.ofNat n.val = ':') →
      authChar (Char.ofNat n.val) = true ∧ Char.ofNat n.val ≠ '@' ∧ Char.ofNat n.val ≠ '[' ∧
        Char.ofNat n.val ≠ ']' := by decide
  intro c h
  have hl : c.toNat < 128 := by
    rcases h with h | rfl
    · simp only [isHexLower, isDigit, Bool.or_eq_true, Bool.and_eq_true, decide_eq_true_eq] at h; omega
    · decide
  have := key ⟨c.toNat, hl⟩
  simp only [Char.ofNat_toNat] at this
  exact this h

theorem plain_char : ∀ c, isGraphic c = true → forbiddenHost c = false →
    authChar c = true ∧ c ≠ '@' ∧ c ≠ '[' ∧ c ≠ ']' ∧ c ≠ ':' := by
  have key : ∀ n : Fin 128, isGraphic (Char.ofNat n.val) = true → forbiddenHost (Char.ofNat n.val) = false →
      authChar (Char.ofNat n.val) = true ∧ Char.ofNat n.val ≠ '@' ∧ Char.ofNat n.val ≠ '[' ∧
        Char.ofNat n.val ≠ ']' ∧ Char.ofNat n.val ≠ ':' := by decide
  intro c h
  have hl : c.toNat < 128 := by
    simp only [isGraphic, Bool.and_eq_true, decide_eq_true_eq] at h; omega
  have := key ⟨c.toNat, hl⟩
  simp only [Char.ofNat_toNat] at this
  exact this h

theorem HostOk.chars {t : Str} (h : HostOk t) : ∀ c ∈ t, authChar c = true ∧ c ≠ '@' := by
  cases h with
  | plain hp => exact fun c hc => ⟨(plain_char c (hp.chars c hc).1 (hp.chars c hc).2).1,
      (plain_char c (hp.chars c hc).1 (hp.chars c hc).2).2.1⟩
  | brackets ps hl hp =>
    intro c hc
    simp only [List.mem_cons, List.mem_append, List.not_mem_nil, or_false] at hc
    rcases hc with rfl | hc | rfl
    · decide
    · exact ⟨(isHexLower_char c (printIpv6_chars ps c hc)).1, (isHexLower_char c (printIpv6_chars ps c hc)).2.1⟩
    · decide

/-- A port as it is written. -/
def portPart : Option Str → Str
  | some ds => ':' :: ds
  | none => []

theorem splitPort_plain {t : Str} (h : ∀ c ∈ t, c ≠ '[' ∧ c ≠ ']' ∧ c ≠ ':') (p : Option Str) :
    splitPort false (t ++ portPart p) = (t, p) := by
  induction t with
  | nil => cases p <;> simp [portPart, splitPort]
  | cons c t ih =>
    have hc := h c (by simp)
    rw [List.cons_append, splitPort, if_neg (by simp [hc.2.2])]
    simp only [hc.1, hc.2.1, if_false, ih (fun x hx => h x (by simp [hx]))]

theorem splitPort_inside {t r : Str} (h : ']' ∉ t) :
    splitPort true (t ++ ']' :: r) = (t ++ ']' :: (splitPort false r).1, (splitPort false r).2) := by
  induction t with
  | nil => simp [splitPort]
  | cons c t ih =>
    simp only [List.mem_cons, not_or] at h
    rw [List.cons_append, splitPort, if_neg (by simp)]
    have : (if c = '[' then true else if c = ']' then false else true) = true := by
      split
      · rfl
      · rw [if_neg (fun e => h.1 e.symm)]
    rw [this, ih h.2]
    rfl

theorem splitPort_host {t : Str} (h : HostOk t) (p : Option Str) : splitPort false (t ++ portPart p) = (t, p) := by
  cases h with
  | plain hp =>
    exact splitPort_plain (fun c hc => (plain_char c (hp.chars c hc).1 (hp.chars c hc).2).2.2) p
  | brackets ps hl hp =>
    have hn : ']' ∉ printIpv6 ps := fun h => (isHexLower_char _ (printIpv6_chars ps _ h)).2.2.2 rfl
    have h0 : splitPort false (portPart p) = ([], p) := by cases p <;> simp [portPart, splitPort]
    rw [List.cons_append, splitPort, if_neg (by decide), List.append_assoc, List.singleton_append]
    simp only [if_true]
    rw [splitPort_inside hn, h0]

theorem digit_authChar : ∀ c, isDigit c = true → authChar c = true ∧ c ≠ '@' := by
  intro c h
  have := isHexLower_char c (.inl (by simp [isHexLower, h]))
  exact ⟨this.1, this.2.1⟩

theorem portText_spec {dflt : Option Nat} {p : Option Str} {t : Str} (h : portText dflt p = some t) :
    ∃ q, t = portPart q ∧ portText dflt q = some t ∧ ∀ c ∈ t, authChar c = true ∧ c ≠ '@' := by
  cases p with
  | none => cases h; exact ⟨none, rfl, rfl, by simp⟩
  | some ds =>
    simp only [portText] at h
    split at h
    · split at h
      · cases h; exact ⟨none, rfl, rfl, by simp⟩
      · split at h
        · cases h
        · split at h
          · cases h; exact ⟨none, rfl, rfl, by simp⟩
          · next hb hd =>
            cases h
            refine ⟨some (natStr (digitsVal ds)), rfl, ?_, ?_⟩
            · have : (natStr (digitsVal ds)).all isDigit = true := List.all_eq_true.mpr (natStr_digits _)
              simp only [portText, this, if_true, natStr_ne_nil, if_false, natStr_val, hb, hd]
            · intro c hc
              rw [List.mem_cons] at hc
              rcases hc with rfl | hc
              · decide
              · exact digit_authChar c (natStr_digits _ c hc)
    · cases h

theorem userKeep_char : ∀ c, userKeep c = true → authChar c = true ∧ c ≠ '@' ∧ c ≠ ':' := by
  have key : ∀ n : Fin 128, userKeep (Char.ofNat n.val) = true →
      authChar (Char.ofNat n.val) = true ∧ Char.ofNat n.val ≠ '@' ∧ Char.ofNat n.val ≠ ':' := by decide
  intro c h
  have hl : c.toNat < 128 := by
    simp only [userKeep, pathKeep, fragmentKeep, isGraphic, Bool.and_eq_true, decide_eq_true_eq] at h; omega
  have := key ⟨c.toNat, hl⟩
  simp only [Char.ofNat_toNat] at this
  exact this h

/-- The text of credentials: nothing, or something ending in `@` that is the text of itself. -/
theorem userText_spec (s : Str) : userText s = [] ∨ ∃ t, userText s = t ++ ['@'] ∧ userText t = t ++ ['@'] ∧
    ∀ c ∈ t, authChar c = true ∧ c ≠ '@' := by
  have hk : ∀ s, ∀ c ∈ escape userKeep s, userKeep c = true := escape_all userKeep_esc
  have hke : ∀ s, escape userKeep (escape userKeep s) = escape userKeep s := fun s => escape_kept (hk s)
  have hcol : ∀ s, ':' ∉ escape userKeep s := fun s h => (userKeep_char _ (hk s _ h)).2.2 rfl
  have main : ∀ u p : Str, (if escape userKeep u = [] ∧ escape userKeep p = [] then []
      else escape userKeep u ++ ((if escape userKeep p = [] then [] else ':' :: escape userKeep p) ++ ['@'])) = [] ∨
      ∃ t, (if escape userKeep u = [] ∧ escape userKeep p = [] then []
      else escape userKeep u ++ ((if escape userKeep p = [] then [] else ':' :: escape userKeep p) ++ ['@'])) =
        t ++ ['@'] ∧ userText t = t ++ ['@'] ∧ ∀ c ∈ t, authChar c = true ∧ c ≠ '@' := by
    intro u p
    by_cases h0 : escape userKeep u = [] ∧ escape userKeep p = []
    · left; rw [if_pos h0]
    · right
      rw [if_neg h0]
      have huc : ∀ s, ∀ c ∈ escape userKeep s, authChar c = true ∧ c ≠ '@' :=
        fun s c hc => ⟨(userKeep_char c (hk s c hc)).1, (userKeep_char c (hk s c hc)).2.1⟩
      by_cases hp : escape userKeep p = []
      · refine ⟨escape userKeep u, by rw [if_pos hp]; simp, ?_, huc u⟩
        have hu : escape userKeep u ≠ [] := fun e => h0 ⟨e, hp⟩
        simp only [userText, splitOnce_eq_none.mpr (hcol u), hke]
        rw [if_neg (fun h => hu h.1)]
        simp
      · refine ⟨escape userKeep u ++ ':' :: escape userKeep p, by rw [if_neg hp]; simp, ?_, ?_⟩
        · simp only [userText, splitOnce_append (hcol u), hke]
          rw [if_neg h0, if_neg hp]
          simp
        · intro c hc
          simp only [List.mem_append, List.mem_cons] at hc
          rcases hc with hc | rfl | hc
          · exact huc u c hc
          · decide
          · exact huc p c hc
  simp only [userText]
  cases hs : splitOnce ':' s with
  | none => simpa [escape_nil, userText] using main s []
  | some x =>
    obtain ⟨u, p⟩ := x
    simpa [userText] using main u p

theorem hostFor_spec {sp : Bool} {s t : Str} (h : (if sp then domainHost s else opaqueHost s) = some t) :
    (if sp then domainHost t else opaqueHost t) = some t ∧ HostOk t ∧ (t = [] → s = [] ∧ sp = false) := by
  cases sp with
  | true =>
    rw [if_pos rfl] at h ⊢
    obtain ⟨h1, h2, h3⟩ := domainHost_spec h
    exact ⟨h1, h2, fun e => absurd e h3⟩
  | false =>
    rw [if_neg (by simp)] at h ⊢
    obtain ⟨h1, h2, h3⟩ := opaqueHost_spec h
    exact ⟨h1, h2, fun e => ⟨h3.mp e, rfl⟩⟩

theorem normAuthority_eq {scheme s a : Str} : normAuthority scheme s = some a ↔
    ∃ (user : Option Str) (hp h : Str) (p : Option Str) (host port : Str),
      ((∃ u, rsplitOnce '@' s = some (u, hp) ∧ user = some u) ∨ (rsplitOnce '@' s = none ∧ hp = s ∧ user = none)) ∧
      splitPort false hp = (h, p) ∧
      ¬ (h = [] ∧ (user.isSome = true ∨ p.isSome = true ∨ (mget scheme specialPorts).isSome = true)) ∧
      (if (mget scheme specialPorts).isSome then domainHost h else opaqueHost h) = some host ∧
      portText (mget scheme specialPorts) p = some port ∧
      a = credText user ++ (host ++ port) := by
  have core : ∀ (user : Option Str) (hp : Str),
      ((if (splitPort false hp).1 = [] ∧ (user.isSome = true ∨ (splitPort false hp).2.isSome = true ∨
          (mget scheme specialPorts).isSome = true) then none
        else match (if (mget scheme specialPorts).isSome then domainHost (splitPort false hp).1
            else opaqueHost (splitPort false hp).1), portText (mget scheme specialPorts) (splitPort false hp).2 with
          | some host, some port =>
            some (credText user ++ (host ++ port))
          | _, _ => none) = some a) ↔ ∃ (h : Str) (p : Option Str) (host port : Str),
      splitPort false hp = (h, p) ∧
      ¬ (h = [] ∧ (user.isSome = true ∨ p.isSome = true ∨ (mget scheme specialPorts).isSome = true)) ∧
      (if (mget scheme specialPorts).isSome then domainHost h else opaqueHost h) = some host ∧
      portText (mget scheme specialPorts) p = some port ∧
      a = credText user ++ (host ++ port) := by
    intro user hp
    constructor
    · intro e
      split at e
      · cases e
      · next hn =>
        split at e
        · next host port h1 h2 =>
          exact ⟨_, _, host, port, rfl, hn, h1, h2, (Option.some.inj e).symm⟩
        · cases e
    · rintro ⟨h, p, host, port, e, hn, h1, h2, rfl⟩
      rw [e]
      dsimp only
      rw [if_neg hn, h1, h2]
  simp only [normAuthority]
  cases hs : rsplitOnce '@' s with
  | none =>
    refine (core none s).trans ⟨?_, ?_⟩
    · rintro ⟨h, p, host, port, e⟩
      exact ⟨none, s, h, p, host, port, .inr ⟨rfl, rfl, rfl⟩, e⟩
    · rintro ⟨user, hp, h, p, host, port, hu, e⟩
      rcases hu with ⟨u, hu, -⟩ | ⟨-, rfl, rfl⟩
      · cases hu
      · exact ⟨h, p, host, port, e⟩
  | some x =>
    obtain ⟨u, hp⟩ := x
    refine (core (some u) hp).trans ⟨?_, ?_⟩
    · rintro ⟨h, p, host, port, e⟩
      exact ⟨some u, hp, h, p, host, port, .inl ⟨u, rfl, rfl⟩, e⟩
    · rintro ⟨user, hp', h, p, host, port, hu, e⟩
      rcases hu with ⟨u', hu, rfl⟩ | ⟨hu, -⟩
      · cases hu; exact ⟨h, p, host, port, e⟩
      · cases hu

/-- The text of an authority is the text of itself. -/
theorem normAuthority_spec {scheme s a : Str} (h0 : normAuthority scheme s = some a) :
    normAuthority scheme a = some a ∧ (∀ c ∈ a, authChar c = true) ∧
    ((mget scheme specialPorts).isSome = true → a ≠ []) := by
  obtain ⟨user, hp, h, p, host, port, hu, hs, hn, hh, hpt, rfl⟩ := normAuthority_eq.mp h0
  obtain ⟨h1, h2, h3⟩ := hostFor_spec hh
  obtain ⟨q, rfl, q1, q2⟩ := portText_spec hpt
  have hat : '@' ∉ host ++ portPart q := by
    rw [List.mem_append]
    rintro (h | h)
    · exact (h2.chars _ h).2 rfl
    · exact (q2 _ h).2 rfl
  have hchars : ∀ c ∈ host ++ portPart q, authChar c = true := by
    intro c hc
    rw [List.mem_append] at hc
    rcases hc with hc | hc
    · exact (h2.chars c hc).1
    · exact (q2 c hc).1
  have hne : host = [] → h = [] ∧ (mget scheme specialPorts).isSome = false := h3
  have hq : host = [] → q.isSome = false := by
    intro e
    have hp : p = none := by
      cases p with
      | none => rfl
      | some _ => exact absurd ⟨(hne e).1, .inr (.inl rfl)⟩ hn
    subst hp
    simp only [portText, Option.some.injEq] at hpt
    cases q with
    | none => rfl
    | some _ => simp [portPart] at hpt
  have hspec : (mget scheme specialPorts).isSome = true → host ≠ [] := by
    intro hsp e
    rw [(hne e).2] at hsp
    cases hsp
  have huser : credText user = [] ∨
      ∃ t, credText user = t ++ ['@'] ∧ userText t = t ++ ['@'] ∧
      (∀ c ∈ t, authChar c = true ∧ c ≠ '@') ∧ host ≠ [] := by
    cases user with
    | none => exact .inl rfl
    | some u =>
      rcases userText_spec u with h | ⟨t, h4, h5, h6⟩
      · exact .inl h
      · exact .inr ⟨t, h4, h5, h6, fun e => hn ⟨(hne e).1, .inl rfl⟩⟩
  refine ⟨?_, ?_, ?_⟩
  · rw [normAuthority_eq]
    rcases huser with h | ⟨t, h4, h5, h6, h7⟩
    · refine ⟨none, host ++ portPart q, host, q, host, portPart q, .inr ⟨?_, ?_, rfl⟩, splitPort_host h2 q, ?_, h1, q1, ?_⟩
      · rw [h, List.nil_append]; exact rsplitOnce_eq_none.mpr hat
      · rw [h, List.nil_append]
      · rintro ⟨e, h | h | h⟩
        · cases h
        · rw [hq e] at h; cases h
        · exact hspec h e
      · rw [h]; rfl
    · refine ⟨some t, host ++ portPart q, host, q, host, portPart q, .inl ⟨t, ?_, rfl⟩, splitPort_host h2 q, ?_, h1, q1, ?_⟩
      · rw [h4]; exact rsplitOnce_eq_some.mpr ⟨by simp, hat⟩
      · exact fun h => h7 h.1
      · rw [h4, credText, h5]
  · intro c hc
    rw [List.mem_append] at hc
    rcases hc with hc | hc
    · rcases huser with h | ⟨t, h4, -, h6, -⟩
      · rw [h] at hc; cases hc
      · rw [h4, List.mem_append, List.mem_singleton] at hc
        rcases hc with hc | rfl
        · exact (h6 c hc).1
        · decide
    · exact hchars c hc
  · intro hsp e
    rw [List.append_eq_nil_iff, List.append_eq_nil_iff] at e
    exact hspec hsp e.2.1

end Oid4vp
