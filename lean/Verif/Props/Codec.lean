import Verif.Spec.Codec
import Verif.Lemmas.Form
import Verif.Lemmas.Base64
import Verif.Lemmas.JsonWf
/-!
# C10, C51, C52: form encoding, JSON text, base64
-/

set_option autoImplicit false

namespace Oid4vp

/-! ## UTF-8 (the basis of all three) -/

/-- The model's UTF-8 encoder is the UTF-8 encoding of Lean's own `String`. -/
theorem C10_utf8_standard (s : Str) : utf8 s = s.flatMap String.utf8EncodeChar := by
  have h : ∀ c : Char, utf8Char c = String.utf8EncodeChar c := by
    intro c
    have hr := char_range c
    have e : c.val.toNat = c.toNat := rfl
    have add : ∀ a b : Nat, UInt8.ofNat (a + b) = UInt8.ofNat (b + a) := fun a b => by
      rw [Nat.add_comm]
    simp only [utf8Char, String.utf8EncodeChar, e]
    generalize c.toNat = n at hr
    by_cases h1 : n < 0x80
    · rw [if_pos h1, if_pos (by omega)]
    · by_cases h2 : n < 0x800
      · rw [if_neg h1, if_pos h2, if_neg (by omega), if_pos (by omega)]
        have : n / 64 % 32 = n / 64 := by omega
        rw [this, add, add 128]
      · by_cases h3 : n < 0x10000
        · rw [if_neg h1, if_neg h2, if_pos h3, if_neg (by omega), if_neg (by omega),
            if_pos (by omega)]
          have : n / 4096 % 16 = n / 4096 := by omega
          rw [this, add, add 128, add 128]
        · rw [if_neg h1, if_neg h2, if_neg h3, if_neg (by omega), if_neg (by omega),
            if_neg (by omega)]
          have : n / 262144 % 8 = n / 262144 := by omega
          rw [this, add, add 128, add 128, add 128]
  simp only [utf8, funext h]

/-! ## C10 -/

/-- **C10** Form encoding is lossless: every list of pairs of texts is read back. -/
theorem C10_form_roundtrip (l : List (Str × Str)) : formParse (formSer l) = l :=
  formParse_formSer l

theorem formChar_alphabet : ∀ n : Fin 128, formChar (Char.ofNat n.val) = true →
    Char.ofNat n.val ∈ Spec.formAlphabet := by decide

theorem formChar_lt {c : Char} (h : formChar c = true) : c.toNat < 128 := by
  simp only [formChar, Bool.or_eq_true, Bool.and_eq_true, decide_eq_true_eq] at h
  omega

/-- **C10** Form-encoded text only has letters, digits and `* - . _ + % & =`. -/
theorem C10_form_alphabet (l : List (Str × Str)) : ∀ c ∈ formSer l, c ∈ Spec.formAlphabet := by
  intro c hc
  rcases formSer_char l c hc with h | rfl | rfl
  · have := formChar_alphabet ⟨c.toNat, formChar_lt h⟩
    simp only [Char.ofNat_toNat] at this
    exact this h
  · decide
  · decide

/-- **C10** Different lists of pairs have different encodings. -/
theorem C10_form_injective {l l' : List (Str × Str)} (h : formSer l = formSer l') : l = l' := by
  rw [← formParse_formSer l, h, formParse_formSer]

theorem formByte_octet (b : UInt8) : formByte b = Spec.formOctet b := by
  have key : ∀ n : Fin 256, formByte (UInt8.ofNat n.val) = Spec.formOctet (UInt8.ofNat n.val) := by
    decide +kernel
  have := key ⟨b.toNat, b.toNat_lt⟩
  simpa only [u8_ofNat_toNat] using this

theorem formEnc_word (s : Str) : formEnc s = Spec.formWord s := by
  simp only [formEnc, Spec.formWord, C10_utf8_standard]
  congr 1
  exact funext formByte_octet

/-- **C10** The text written for a list of pairs is the one of the WHATWG URL standard. -/
theorem C10_form_standard (l : List (Str × Str)) : formSer l = Spec.formText l := by
  induction l with
  | nil => rfl
  | cons p l ih =>
    cases l with
    | nil => simp [formSer, formPair, Spec.formText, formEnc_word, List.intercalate]
    | cons q l =>
      rw [formSer, ih]
      · simp [formPair, Spec.formText, formEnc_word, List.intercalate]
      · simp

theorem hexVal_digit (b : UInt8) (n : Nat) : hexVal (Char.ofNat b.toNat) = some n ↔ Spec.HexDigit b n := by
  constructor
  · intro h
    have hn : n < 16 := by
      simp only [hexVal] at h
      split at h
      · cases h; omega
      · split at h
        · cases h; omega
        · split at h
          · cases h; omega
          · cases h
    have key : ∀ m : Fin 256, ∀ n : Fin 16, hexVal (Char.ofNat m.val) = some n.val →
        ((n.val, Char.ofNat m.val) ∈ (List.range 16).zip c!"0123456789ABCDEF" ∨
          (n.val, Char.ofNat m.val) ∈ (List.range 16).zip c!"0123456789abcdef") := by
      decide +kernel
    exact key ⟨b.toNat, b.toNat_lt⟩ ⟨n, hn⟩ h
  · intro h
    have key : ∀ p ∈ (List.range 16).zip c!"0123456789ABCDEF" ++
        (List.range 16).zip c!"0123456789abcdef", hexVal p.2 = some p.1 := by decide
    exact key (n, Char.ofNat b.toNat) (List.mem_append.mpr h)

theorem u8_toNat_eq {b : UInt8} {n : Nat} (h : b.toNat = n) : b = UInt8.ofNat n := by
  rw [← h, u8_ofNat_toNat]

theorem pctDec_bytes (s : Bytes) : Spec.FormBytes s (pctDec s) := by
  match s with
  | [] => exact .nil
  | b :: bs =>
    rw [pctDec.eq_def]
    simp only
    split
    · next h =>
      rw [u8_toNat_eq h]
      exact .space (pctDec_bytes bs)
    · next h43 =>
      have hb : b ≠ 43 := fun e => h43 (by rw [e]; rfl)
      split
      · next h =>
        have e := u8_toNat_eq h
        match bs with
        | [] => exact .self hb (fun _ h l q x y e => by cases e) .nil
        | [h] => exact .self hb (fun _ h l q x y e => by cases e) (pctDec_bytes [h])
        | h :: l :: rest =>
          simp only
          split
          · next x y hx hy =>
            rw [e, Nat.mul_comm]
            exact .octet ((hexVal_digit _ _).mp hx) ((hexVal_digit _ _).mp hy) (pctDec_bytes rest)
          · next hno =>
            refine .self hb ?_ (pctDec_bytes (h :: l :: rest))
            intro _ h' l' q x y e hx hy
            cases e
            exact hno x y ((hexVal_digit _ _).mpr hx) ((hexVal_digit _ _).mpr hy)
      · next h37 =>
        exact .self hb (fun e => absurd (by rw [e]; rfl) h37) (pctDec_bytes bs)

theorem hexDigit_fun {b : UInt8} {x y : Nat} (h : Spec.HexDigit b x) (h' : Spec.HexDigit b y) : x = y := by
  rw [← hexVal_digit] at h h'
  rw [h] at h'; exact Option.some.inj h'

theorem formBytes_fun {s t u : Bytes} (h : Spec.FormBytes s t) (h' : Spec.FormBytes s u) : t = u := by
  induction h generalizing u with
  | nil => cases h'; rfl
  | space _ ih =>
    cases h' with
    | space h' => rw [ih h']
    | self hb => exact absurd rfl hb
  | octet hx hy _ ih =>
    cases h' with
    | octet hx' hy' h' => rw [ih h', hexDigit_fun hx hx', hexDigit_fun hy hy']
    | self _ hn => exact absurd hy (hn rfl _ _ _ _ _ rfl hx)
  | self hb hn _ ih =>
    cases h' with
    | space => exact absurd rfl hb
    | octet hx hy => exact absurd hy (hn rfl _ _ _ _ _ rfl hx)
    | self _ _ h' => rw [ih h']

/-- **C10** How a name or a value in form text is read, also text that no form writer writes: the
bytes its escapes stand for, if they are UTF-8. -/
theorem C10_form_reading (s t : Str) (h : Spec.FormBytes (s.flatMap String.utf8EncodeChar)
    (t.flatMap String.utf8EncodeChar)) : formDec s = t := by
  rw [← C10_utf8_standard, ← C10_utf8_standard] at h
  rw [formDec, formBytes_fun (pctDec_bytes _) h, utf8Lossy_utf8]

/-- **C10** Every text has exactly one reading as bytes. -/
theorem C10_form_reading_exists (s : Bytes) : ∃ t, Spec.FormBytes s t ∧ ∀ u, Spec.FormBytes s u → u = t :=
  ⟨_, pctDec_bytes s, fun _ h => formBytes_fun h (pctDec_bytes s)⟩

/-- An escape of either case, a space, and a percent sign without digits. -/
example : Spec.FormBytes (c!"%4a+%4g%".flatMap String.utf8EncodeChar)
    (c!"J %4g%".flatMap String.utf8EncodeChar) ∧ formDec c!"%4a+%4g%" = c!"J %4g%" := by
  constructor
  · have := pctDec_bytes (c!"%4a+%4g%".flatMap String.utf8EncodeChar)
    have e : pctDec (c!"%4a+%4g%".flatMap String.utf8EncodeChar) =
        c!"J %4g%".flatMap String.utf8EncodeChar := by decide +kernel
    rwa [e] at this
  · decide +kernel

example : formSer [(c!"a b", c!"1&2=3%+é"), (c!"", c!"#/?")] =
    c!"a+b=1%262%3D3%25%2B%C3%A9&=%23%2F%3F" := by decide

example : formParse c!"a+b=1%262%3D3%25%2B%C3%A9&=%23%2F%3F" =
    [(c!"a b", c!"1&2=3%+é"), (c!"", c!"#/?")] := by decide

/-! ## C51 -/

/-- **C51** Every JSON value with at most 127 nested brackets is read back from its text
(as text and as UTF-8 bytes). -/
theorem C51_json_roundtrip (j : Json) (h : j.WF Spec.FloatText) (hd : j.depth < 128) :
    jParse (jPrint j) = .ok j ∧ jParseBytes (utf8 (jPrint j)) = .ok j := by
  have hw := wf_mono (fun _ => fltLit_of_floatText) j h
  exact ⟨jParse_jPrint (Nat.le_of_lt_succ hd) hw, jParseBytes_jPrint (Nat.le_of_lt_succ hd) hw⟩

/-- **C51** Deeper values are refused. -/
theorem C51_json_depth_limit (j : Json) (h : j.WF Spec.FloatText) (hd : 128 ≤ j.depth) :
    jParse (jPrint j) = .error .recursion := by
  have hw := wf_mono (fun _ => fltLit_of_floatText) j h
  simp [jParse, jParseRaw_deep (j := j) (Nat.lt_of_lt_of_le (by decide) hd) (numOk_of_WF j hw)]

/-- **C51** Hence two different values (of readable depth) never have the same text. -/
theorem C51_json_injective {j j' : Json} (h : j.WF Spec.FloatText) (h' : j'.WF Spec.FloatText)
    (hd : j.depth < 128) (hd' : j'.depth < 128) (he : jPrint j = jPrint j') : j = j' := by
  have h1 := (C51_json_roundtrip j h hd).1
  rw [he, (C51_json_roundtrip j' h' hd').1] at h1
  exact (Except.ok.inj h1).symm

/-- **C51** Whatever the parser returns is a value of at most 127 nested brackets whose
objects have strictly increasing keys, and printing and parsing it again changes nothing. -/
theorem C51_json_parse_stable {s : Str} {j : Json} (h : jParse s = .ok j) :
    j.depth < 128 ∧ j.WF FltLit ∧ jParse (jPrint j) = .ok j := by
  have h' := jParse_wf h
  exact ⟨Nat.lt_succ_of_le h'.2, h'.1, jParse_jPrint h'.2 h'.1⟩

example : jParse c!" {\"b\" : [1.50, -0], \"a\":1, \"b\":{\"\\u00e9\\n\": 2E+7 } } " =
    .ok (.obj [(c!"a", .int 1), (c!"b", .obj [(c!"é\n", .flt c!"2E+7")])]) := by decide

/-- A value that meets the hypotheses of `C51_json_roundtrip`. -/
def jsonSample : Json :=
  .obj [(c!"a", .arr [.int (-5), .null, .bool true, .flt c!"-1.5e+3"]),
    (c!"b\"\\\n", .obj [(c!"é", .str c!"x/y")])]

theorem jsonSample_wf : jsonSample.WF Spec.FloatText := by
  have hf : Spec.FloatText c!"-1.5e+3" := by
    refine ⟨['-'], ['1'], c!".5", c!"e+3", rfl, .inr rfl, ⟨⟨by simp, ?_⟩, by simp⟩,
      .inr ⟨['5'], rfl, by simp, ?_⟩, .inr ⟨'e', ['+'], ['3'], rfl, .inl rfl, .inr (.inl rfl), by simp, ?_⟩,
      .inl (by simp)⟩ <;> simp [Spec.Digit]
  simp only [jsonSample, Json.WF, Json.WFM, Json.WFL, Sorted]
  refine ⟨⟨?_, ?_⟩, ⟨⟨by omega, trivial, trivial, hf, trivial⟩, ⟨?_, trivial, trivial⟩, trivial⟩⟩
  · intro p hp; simp at hp; subst hp; decide
  · simp
  · simp

example : jParse (jPrint jsonSample) = .ok jsonSample :=
  (C51_json_roundtrip jsonSample jsonSample_wf (by decide)).1

/-- Brackets nested `n` deep: meets the hypotheses of `C51_json_depth_limit` for `n ≥ 128`. -/
def nested : Nat → Json
  | 0 => .null
  | n + 1 => .arr [nested n]

theorem nested_depth (n : Nat) : (nested n).depth = n := by
  induction n with
  | zero => rfl
  | succ n ih => simp [nested, Json.depth, Json.depthL, ih]

theorem nested_wf (n : Nat) : (nested n).WF Spec.FloatText := by
  induction n with
  | zero => simp [nested, Json.WF]
  | succ n ih => simp [nested, Json.WF, Json.WFL, ih]

example : jParse (jPrint (nested 127)) = .ok (nested 127) :=
  (C51_json_roundtrip _ (nested_wf _) (by rw [nested_depth]; decide)).1

example : jParse (jPrint (nested 128)) = .error .recursion :=
  C51_json_depth_limit _ (nested_wf _) (by rw [nested_depth]; decide)

/-! ## C52 -/

/-- The alphabet of RFC 4648 meant by a variant. -/
def B64.alphabet : B64 → List Char
  | .std => Spec.base64Std
  | .url => Spec.base64Url

theorem b64Char_alphabet : ∀ (a : B64) (n : Fin 64), a.alphabet.getD n.val ' ' = b64Char a n.val := by
  intro a; cases a <;> decide

theorem alphabet_getD (a : B64) {n m : Nat} (h : n < 64) (e : m = n) :
    a.alphabet.getD m ' ' = b64Char a n := by subst e; exact b64Char_alphabet a ⟨m, h⟩

theorem bits_hi6 {x : Nat} (h : x < 256) :
    Spec.bitsVal [x / 128 % 2, x / 64 % 2, x / 32 % 2, x / 16 % 2, x / 8 % 2, x / 4 % 2] = x / 4 := by
  simp only [Spec.bitsVal, List.foldl]; omega

theorem bits_lo2_hi4 {x y : Nat} (h : y < 256) :
    Spec.bitsVal [x / 2 % 2, x % 2, y / 128 % 2, y / 64 % 2, y / 32 % 2, y / 16 % 2] =
      x % 4 * 16 + y / 16 := by
  simp only [Spec.bitsVal, List.foldl]; omega

theorem bits_lo4_hi2 {x y : Nat} (h : y < 256) :
    Spec.bitsVal [x / 8 % 2, x / 4 % 2, x / 2 % 2, x % 2, y / 128 % 2, y / 64 % 2] =
      x % 16 * 4 + y / 64 := by
  simp only [Spec.bitsVal, List.foldl]; omega

theorem bits_lo6 (x : Nat) :
    Spec.bitsVal [x / 32 % 2, x / 16 % 2, x / 8 % 2, x / 4 % 2, x / 2 % 2, x % 2] = x % 64 := by
  simp only [Spec.bitsVal, List.foldl]; omega

theorem bits_lo4 (x : Nat) :
    Spec.bitsVal [x / 8 % 2, x / 4 % 2, x / 2 % 2, x % 2, 0, 0] = x % 16 * 4 := by
  simp only [Spec.bitsVal, List.foldl]; omega

theorem bits_lo2 (x : Nat) : Spec.bitsVal [x / 2 % 2, x % 2, 0, 0, 0, 0] = x % 4 * 16 := by
  simp only [Spec.bitsVal, List.foldl]; omega

/-- **C52** The encoder is the one of RFC 4648 (without padding). -/
theorem C52_base64_rfc4648 (a : B64) (b : Bytes) : b64Enc a b = Spec.base64 a.alphabet b := by
  have hlt := fun x : UInt8 => x.toNat_lt
  match b with
  | x :: y :: z :: r =>
    have ih := C52_base64_rfc4648 a r
    have hx := hlt x; have hy := hlt y; have hz := hlt z
    simp only [Spec.base64, List.flatMap_cons, Spec.byteBits, List.cons_append, List.nil_append,
      Spec.sixes, List.map_cons, b64Enc, bits_hi6 hx, bits_lo2_hi4 hy, bits_lo4_hi2 hz, bits_lo6]
    generalize x.toNat = x at hx; generalize y.toNat = y at hy; generalize z.toNat = z at hz
    refine List.cons_eq_cons.mpr ⟨?_, List.cons_eq_cons.mpr ⟨?_, List.cons_eq_cons.mpr ⟨?_,
      List.cons_eq_cons.mpr ⟨?_, ih⟩⟩⟩⟩
    all_goals exact (alphabet_getD a (by omega) (by omega)).symm
  | [x, y] =>
    have hx := hlt x; have hy := hlt y
    simp only [Spec.base64, List.flatMap_cons, Spec.byteBits, List.cons_append, List.nil_append,
      Spec.sixes, List.map_cons, b64Enc, List.flatMap_nil, List.take_succ_cons, List.take_zero,
      List.map_nil, bits_hi6 hx, bits_lo2_hi4 hy, bits_lo4]
    generalize x.toNat = x at hx; generalize y.toNat = y at hy
    refine List.cons_eq_cons.mpr ⟨?_, List.cons_eq_cons.mpr ⟨?_, List.cons_eq_cons.mpr ⟨?_, rfl⟩⟩⟩
    all_goals exact (alphabet_getD a (by omega) (by omega)).symm
  | [x] =>
    have hx := hlt x
    simp only [Spec.base64, List.flatMap_cons, Spec.byteBits, List.cons_append, List.nil_append,
      Spec.sixes, List.map_cons, b64Enc, List.flatMap_nil, List.take_succ_cons, List.take_zero,
      List.map_nil, bits_hi6 hx, bits_lo2]
    generalize x.toNat = x at hx
    refine List.cons_eq_cons.mpr ⟨?_, List.cons_eq_cons.mpr ⟨?_, rfl⟩⟩
    all_goals exact (alphabet_getD a (by omega) (by omega)).symm
  | [] => rfl

/-- **C52** Decoding the encoding of any byte string returns it. -/
theorem C52_base64_roundtrip (a : B64) (b : Bytes) : b64Dec a (b64Enc a b) = some b :=
  b64Dec_b64Enc a b

/-- **C52** Only the canonical encoding of a byte string decodes to it. -/
theorem C52_base64_canonical {a : B64} {s : Str} {b : Bytes} (h : b64Dec a s = some b) :
    s = Spec.base64 a.alphabet b := by
  rw [← C52_base64_rfc4648, b64Enc_b64Dec h]

/-- **C52** Two different accepted texts never decode to the same bytes. -/
theorem C52_base64_unambiguous {a : B64} {s t : Str} {b : Bytes} (hs : b64Dec a s = some b)
    (ht : b64Dec a t = some b) : s = t := by
  rw [C52_base64_canonical hs, C52_base64_canonical ht]

/-- **C52** Encoded text never contains a dot (so it can be put between dots). -/
theorem C52_base64_no_dot (a : B64) (b : Bytes) : '.' ∉ b64Enc a b := b64Enc_no_dot a b

/-- **C52** The padded encoding is the one of RFC 4648 section 4. -/
theorem C52_base64_padded (b : Bytes) : b64EncPad .std b = Spec.base64Padded b := by
  have hl : ∀ b : Bytes, b64PadLen b.length = (4 - (b64Enc .std b).length % 4) % 4 := by
    intro b
    induction b using b64Enc.induct with
    | case1 x y z r ih =>
      simp only [b64Enc, List.length_cons, b64PadLen] at ih ⊢
      omega
    | case2 => simp [b64Enc, b64PadLen]
    | case3 => simp [b64Enc, b64PadLen]
    | case4 => rfl
  rw [b64EncPad, hl b, C52_base64_rfc4648]; rfl

/-- **C52** Padded standard base64, as the x509 clients write it, is read back by the
unpadded decoder of the verifier after its padding is trimmed. -/
theorem C52_base64_padding (b : Bytes) : b64Dec .std (trimEndChar '=' (b64EncPad .std b)) = some b := by
  rw [trim_b64EncPad, b64Dec_b64Enc]

example : b64Enc .url [0xfb, 0xff, 0x01] = c!"-_8B" ∧ b64Dec .url c!"-_8B" = some [0xfb, 0xff, 0x01] ∧
    b64Dec .url c!"-_8" = some [0xfb, 0xff] ∧ b64Dec .url c!"-_9" = none ∧
    b64Dec .std c!"-_8" = none ∧ b64EncPad .std [0xfb] = c!"+w==" := by decide

end Oid4vp
