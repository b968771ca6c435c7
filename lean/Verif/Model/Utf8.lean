import Verif.Model.Basic
/-!
# UTF-8 (`String::into_bytes`, `String::from_utf8`, `String::from_utf8_lossy`)
-/

set_option autoImplicit false

namespace Oid4vp

/-- UTF-8 encoding of one scalar value (RFC 3629). -/
def utf8Char (c : Char) : Bytes :=
  let n := c.toNat
  if n < 0x80 then [UInt8.ofNat n]
  else if n < 0x800 then [UInt8.ofNat (0xC0 + n / 64), UInt8.ofNat (0x80 + n % 64)]
  else if n < 0x10000 then
    [UInt8.ofNat (0xE0 + n / 4096), UInt8.ofNat (0x80 + n / 64 % 64), UInt8.ofNat (0x80 + n % 64)]
  else
    [UInt8.ofNat (0xF0 + n / 262144), UInt8.ofNat (0x80 + n / 4096 % 64),
     UInt8.ofNat (0x80 + n / 64 % 64), UInt8.ofNat (0x80 + n % 64)]

/-- `str::as_bytes`. -/
def utf8 (s : Str) : Bytes := s.flatMap utf8Char

/-- Is this a continuation byte `10xxxxxx`? -/
def isCont (b : UInt8) : Bool := 0x80 ≤ b.toNat && b.toNat < 0xC0

/-- Decode the first scalar value of a byte string; `none` when the bytes do not start with a
well-formed sequence (shortest form, no surrogates, at most U+10FFFF). -/
def utf8Head : Bytes → Option (Char × Bytes)
  | [] => none
  | a :: r1 =>
    let x := a.toNat
    if x < 0x80 then some (Char.ofNat x, r1)
    else if x < 0xC0 then none
    else if x < 0xE0 then
      match r1 with
      | b :: r2 =>
        let n := (x - 0xC0) * 64 + (b.toNat - 0x80)
        if isCont b && 0x80 ≤ n then some (Char.ofNat n, r2) else none
      | _ => none
    else if x < 0xF0 then
      match r1 with
      | b :: c :: r3 =>
        let n := (x - 0xE0) * 4096 + (b.toNat - 0x80) * 64 + (c.toNat - 0x80)
        if isCont b && isCont c && 0x800 ≤ n && (n < 0xD800 || 0xE000 ≤ n) then
          some (Char.ofNat n, r3)
        else none
      | _ => none
    else if x < 0xF8 then
      match r1 with
      | b :: c :: d :: r4 =>
        let n := (x - 0xF0) * 262144 + (b.toNat - 0x80) * 4096 + (c.toNat - 0x80) * 64
          + (d.toNat - 0x80)
        if isCont b && isCont c && isCont d && 0x10000 ≤ n && n < 0x110000 then
          some (Char.ofNat n, r4)
        else none
      | _ => none
    else none

/-- Strict decoding with fuel (every step consumes at least one byte). -/
def utf8DecAux : Nat → Bytes → Option Str
  | _, [] => some []
  | 0, _ :: _ => none
  | f + 1, b :: bs =>
    match utf8Head (b :: bs) with
    | none => none
    | some (c, rest) => match utf8DecAux f rest with
      | none => none
      | some s => some (c :: s)

/-- `String::from_utf8` / `str::from_utf8`. -/
def utf8Dec (b : Bytes) : Option Str := utf8DecAux b.length b

/-- May this byte follow that first byte of a sequence of three or four bytes (the `match (byte,
safe_get(i))` of `core::str::lossy::Utf8Chunks::next`)? -/
def secondOk (a b : UInt8) : Bool :=
  let x := a.toNat
  let y := b.toNat
  (x = 0xE0 && 0xA0 ≤ y && y < 0xC0) || (0xE1 ≤ x && x ≤ 0xEC && isCont b) ||
    (x = 0xED && 0x80 ≤ y && y < 0xA0) || (0xEE ≤ x && x ≤ 0xEF && isCont b) ||
    (x = 0xF0 && 0x90 ≤ y && y < 0xC0) || (0xF1 ≤ x && x ≤ 0xF3 && isCont b) ||
    (x = 0xF4 && 0x80 ≤ y && y < 0x90)

/-- What follows the invalid part at the start of these bytes, which do not start with a well-formed
sequence (`core::str::lossy::Utf8Chunks::next`): one byte, or all bytes up to the first one at which
the sequence goes wrong. -/
def utf8Skip : Bytes → Bytes
  | a :: b :: r =>
    if secondOk a b then
      match r with
      | c :: r' => if 0xF0 ≤ a.toNat && isCont c then r' else r
      | [] => []
    else b :: r
  | _ => []

/-- Lossy decoding with fuel. -/
def utf8LossyAux : Nat → Bytes → Str
  | _, [] => []
  | 0, _ :: _ => []
  | f + 1, b :: bs =>
    match utf8Head (b :: bs) with
    | none => Char.ofNat 0xFFFD :: utf8LossyAux f (utf8Skip (b :: bs))
    | some (c, rest) => c :: utf8LossyAux f rest

/-- `String::from_utf8_lossy`: one U+FFFD for every maximal invalid part. -/
def utf8Lossy (b : Bytes) : Str := utf8LossyAux b.length b

end Oid4vp
