import Verif.Model.Json
/-!
# Independent descriptions of the text formats

Nothing here refers to the model's encoders and parsers.
-/

set_option autoImplicit false

namespace Oid4vp.Spec

/-- The characters allowed in `application/x-www-form-urlencoded` text. -/
def formAlphabet : List Char :=
  c!"ABCDEFGHIJKLMNOPQRSTUVWXYZabcdefghijklmnopqrstuvwxyz0123456789*-._+%&="

/-- The hexadecimal digits as they are written. -/
def hexDigits : List Char := c!"0123456789ABCDEF"

/-- A byte in `application/x-www-form-urlencoded` text (WHATWG URL standard, section 5.2): letters,
digits and `*-._` stand for themselves, a space is `+`, any other byte is `%` and two digits. -/
def formOctet (b : UInt8) : Str :=
  if Char.ofNat b.toNat ∈
      c!"ABCDEFGHIJKLMNOPQRSTUVWXYZabcdefghijklmnopqrstuvwxyz0123456789*-._" then
    [Char.ofNat b.toNat]
  else if b = 32 then ['+']
  else ['%', hexDigits.getD (b.toNat / 16) ' ', hexDigits.getD (b.toNat % 16) ' ']

/-- A name or a value in form text. -/
def formWord (s : Str) : Str := (s.flatMap String.utf8EncodeChar).flatMap formOctet

/-- The form text of a list of pairs. -/
def formText (l : List (Str × Str)) : Str :=
  List.intercalate c!"&" (l.map fun p => formWord p.1 ++ c!"=" ++ formWord p.2)

/-- The value of a hexadecimal digit, capital or small. -/
def HexDigit (b : UInt8) (n : Nat) : Prop :=
  (n, Char.ofNat b.toNat) ∈ (List.range 16).zip c!"0123456789ABCDEF" ∨
    (n, Char.ofNat b.toNat) ∈ (List.range 16).zip c!"0123456789abcdef"

/-- What the bytes of a name or value in form text stand for: `+` is a space, `%` and two digits are
the byte with that number, everything else (also a `%` that no two digits follow) is itself. -/
inductive FormBytes : Bytes → Bytes → Prop
  | nil : FormBytes [] []
  | space {r t} : FormBytes r t → FormBytes (43 :: r) (32 :: t)
  | octet {h l r t} {x y : Nat} : HexDigit h x → HexDigit l y → FormBytes r t →
      FormBytes (37 :: h :: l :: r) (UInt8.ofNat (16 * x + y) :: t)
  | self {b r t} : b ≠ 43 →
      (b = 37 → ∀ h l q x y, r = h :: l :: q → HexDigit h x → ¬ HexDigit l y) →
      FormBytes r t → FormBytes (b :: r) (b :: t)

/-- Bytes that begin the UTF-8 form of some character (or are all of it). -/
def Utf8Start (p : Bytes) : Prop := ∃ c : Char, p <+: String.utf8EncodeChar c

/-- Reading bytes as text (Unicode 15, section 3.9, "U+FFFD substitution of maximal subparts"): a
character's bytes are that character; where none starts, the longest part that begins some character,
but at least one byte, is one U+FFFD. -/
inductive Lossy : Bytes → Str → Prop
  | nil : Lossy [] []
  | char {c : Char} {r s} : Lossy r s → Lossy (String.utf8EncodeChar c ++ r) (c :: s)
  | bad {p r s} : p ≠ [] → (∀ c : Char, ¬ String.utf8EncodeChar c <+: p ++ r) →
      (p.length = 1 ∨ Utf8Start p) → (∀ q, q <+: p ++ r → p.length < q.length → ¬ Utf8Start q) →
      Lossy r s → Lossy (p ++ r) (Char.ofNat 0xFFFD :: s)

/-- The pair a piece of a form stands for: name and value are separated by the first `=`, and without
one the value is empty. -/
def FormPair (piece : Bytes) (p : Str × Str) : Prop :=
  ∃ k v bk bv, 61 ∉ k ∧ (piece = k ++ 61 :: v ∨ piece = k ∧ v = []) ∧
    FormBytes k bk ∧ FormBytes v bv ∧ Lossy bk p.1 ∧ Lossy bv p.2

/-- The pairs a form stands for: those of the pieces between the `&`, of which empty ones are skipped. -/
inductive FormList : Bytes → List (Str × Str) → Prop
  | nil : FormList [] []
  | last {piece p} : piece ≠ [] → 38 ∉ piece → FormPair piece p → FormList piece [p]
  | skip {r l} : FormList r l → FormList (38 :: r) l
  | more {piece p r l} : piece ≠ [] → 38 ∉ piece → FormPair piece p → FormList r l →
      FormList (piece ++ 38 :: r) (p :: l)

/-- The alphabet of RFC 4648 section 4. -/
def base64Std : List Char :=
  c!"ABCDEFGHIJKLMNOPQRSTUVWXYZabcdefghijklmnopqrstuvwxyz0123456789+/"

/-- The alphabet of RFC 4648 section 5. -/
def base64Url : List Char :=
  c!"ABCDEFGHIJKLMNOPQRSTUVWXYZabcdefghijklmnopqrstuvwxyz0123456789-_"

/-- The eight bits of a byte, most significant first. -/
def byteBits (b : UInt8) : List Nat :=
  [b.toNat / 128 % 2, b.toNat / 64 % 2, b.toNat / 32 % 2, b.toNat / 16 % 2,
   b.toNat / 8 % 2, b.toNat / 4 % 2, b.toNat / 2 % 2, b.toNat % 2]

/-- The number denoted by bits, most significant first. -/
def bitsVal (l : List Nat) : Nat := l.foldl (fun n b => n * 2 + b) 0

/-- Groups of six bits, the last one filled up with zeros on the right. -/
def sixes : List Nat → List (List Nat)
  | a :: b :: c :: d :: e :: f :: r => [a, b, c, d, e, f] :: sixes r
  | [] => []
  | l => [(l ++ [0, 0, 0, 0, 0]).take 6]

/-- RFC 4648 without padding: six bits at a time, each group is a digit. -/
def base64 (alphabet : List Char) (b : Bytes) : Str :=
  (sixes (b.flatMap byteBits)).map (fun g => alphabet.getD (bitsVal g) ' ')

/-- RFC 4648 section 4: filled up with `=` to a multiple of four characters. -/
def base64Padded (b : Bytes) : Str :=
  base64 base64Std b ++ List.replicate ((4 - (base64 base64Std b).length % 4) % 4) '='

/-- A decimal digit. -/
def Digit (c : Char) : Prop := c ∈ c!"0123456789"

/-- Digits, at least one. -/
def Digits (s : Str) : Prop := s ≠ [] ∧ ∀ c ∈ s, Digit c

/-- The integer part of a JSON number: no superfluous leading zero. -/
def IntPart (s : Str) : Prop := Digits s ∧ (s.head? = some '0' → s = ['0'])

/-- The number denoted by decimal digits. -/
def decimal (s : Str) : Nat := s.foldl (fun n c => 10 * n + c!"0123456789".idxOf c) 0

/-- The integer in decimal, without superfluous zeros or signs. -/
def IntegerText (i : Int) (s : Str) : Prop :=
  ∃ ds, IntPart ds ∧ ((0 ≤ i ∧ s = ds ∧ i = decimal ds) ∨ (i < 0 ∧ s = '-' :: ds ∧ -i = decimal ds))

/-- The fraction of a JSON number. -/
def FracPart (s : Str) : Prop := ∃ ds, s = '.' :: ds ∧ Digits ds

/-- The exponent of a JSON number. -/
def ExpPart (s : Str) : Prop :=
  ∃ e sg ds, s = e :: (sg ++ ds) ∧ (e = 'e' ∨ e = 'E') ∧ (sg = [] ∨ sg = ['+'] ∨ sg = ['-']) ∧
    Digits ds

/-- A JSON number (RFC 8259 section 6) with a fraction or an exponent. -/
def FloatText (s : Str) : Prop :=
  ∃ sg ds fr ex, s = sg ++ (ds ++ (fr ++ ex)) ∧ (sg = [] ∨ sg = ['-']) ∧ IntPart ds ∧
    (fr = [] ∨ FracPart fr) ∧ (ex = [] ∨ ExpPart ex) ∧ (fr ≠ [] ∨ ex ≠ [])

end Oid4vp.Spec
