import Verif.Model.Utf8
/-!
# `application/x-www-form-urlencoded` (`serde_urlencoded`, `form_urlencoded`)

Used by src/core/authorization_request/mod.rs:176-180,237-239 (`to_url`,
`from_query_params`) and src/core/response/mod.rs:31-50,102-117,136-143.
-/

set_option autoImplicit false

namespace Oid4vp

/-- Bytes that are copied verbatim by `form_urlencoded::byte_serialize`:
`*`, `-`, `.`, `0-9`, `A-Z`, `_`, `a-z`. -/
def formSafe (b : UInt8) : Bool :=
  let n := b.toNat
  n = 0x2A || n = 0x2D || n = 0x2E || (0x30 ≤ n && n ≤ 0x39) || (0x41 ≤ n && n ≤ 0x5A)
    || n = 0x5F || (0x61 ≤ n && n ≤ 0x7A)

/-- Upper-case hexadecimal digit. -/
def hexUpper (n : Nat) : Char :=
  if n < 10 then Char.ofNat (48 + n) else Char.ofNat (55 + n)

/-- Value of a hexadecimal digit of either case. -/
def hexVal (c : Char) : Option Nat :=
  let n := c.toNat
  if 48 ≤ n ∧ n ≤ 57 then some (n - 48)
  else if 65 ≤ n ∧ n ≤ 70 then some (n - 55)
  else if 97 ≤ n ∧ n ≤ 102 then some (n - 87)
  else none

/-- One byte under `byte_serialize`. -/
def formByte (b : UInt8) : Str :=
  if formSafe b then [Char.ofNat b.toNat]
  else if b.toNat = 0x20 then ['+']
  else ['%', hexUpper (b.toNat / 16), hexUpper (b.toNat % 16)]

/-- `form_urlencoded::byte_serialize` of a text. -/
def formEnc (s : Str) : Str := (utf8 s).flatMap formByte

/-- One `key=value` pair. -/
def formPair (p : Str × Str) : Str := formEnc p.1 ++ '=' :: formEnc p.2

/-- `serde_urlencoded::to_string` of a sequence of text pairs. -/
def formSer : List (Str × Str) → Str
  | [] => []
  | [p] => formPair p
  | p :: ps => formPair p ++ '&' :: formSer ps

/-- `+` → space and percent-decoding; malformed escapes are kept. The input text is first
turned into bytes. -/
def pctDec : Bytes → Bytes
  | [] => []
  | b :: bs =>
    if b.toNat = 0x2B then UInt8.ofNat 0x20 :: pctDec bs
    else if b.toNat = 0x25 then
      match bs with
      | h :: l :: rest =>
        match hexVal (Char.ofNat h.toNat), hexVal (Char.ofNat l.toNat) with
        | some x, some y => UInt8.ofNat (x * 16 + y) :: pctDec rest
        | _, _ => b :: pctDec (h :: l :: rest)
      | [h] => b :: pctDec [h]
      | [] => [b]
    else b :: pctDec bs

/-- Decode one component (`form_urlencoded::decode`: lossy UTF-8). -/
def formDec (s : Str) : Str := utf8Lossy (pctDec (utf8 s))

/-- Decode one `&`-separated piece: split at the first `=`, a missing `=` means an empty
value (`form_urlencoded::Parse`). -/
def formPiece (s : Str) : Str × Str :=
  match splitOnce '=' s with
  | some (k, v) => (formDec k, formDec v)
  | none => (formDec s, [])

/-- `form_urlencoded::parse`: pieces between `&`, empty pieces skipped.

The input of the library function is a byte string; every caller in the library passes
the bytes of a `str` or the body of an HTTP request, which the model takes as text. -/
def formParse (s : Str) : List (Str × Str) :=
  ((splitOn '&' s).filter (fun p => !p.isEmpty)).map formPiece

end Oid4vp
