import Verif.Model.Basic
/-!
# Base64 (`base64` crate)

`BASE64_URL_SAFE_NO_PAD`, `BASE64_STANDARD` and `BASE64_STANDARD_NO_PAD` as used in
src/verifier/client.rs:145,206,256-260, src/core/authorization_request/mod.rs:400-448 and
src/core/authorization_request/verification/{did,x509_san,x509_hash}.rs. The decoders reject
characters outside the alphabet, impossible lengths and non-zero trailing bits.
-/

set_option autoImplicit false

namespace Oid4vp

/-- The two alphabets differ in the digits 62 and 63. -/
inductive B64 where
  | std
  | url
deriving DecidableEq, Repr

/-- Digit of a six-bit value. -/
def b64Char (a : B64) (n : Nat) : Char :=
  if n < 26 then Char.ofNat (65 + n)
  else if n < 52 then Char.ofNat (97 + (n - 26))
  else if n < 62 then Char.ofNat (48 + (n - 52))
  else if n = 62 then (match a with | .std => '+' | .url => '-')
  else (match a with | .std => '/' | .url => '_')

/-- Value of a digit. -/
def b64Val (a : B64) (c : Char) : Option Nat :=
  let n := c.toNat
  if 65 ≤ n ∧ n < 91 then some (n - 65)
  else if 97 ≤ n ∧ n < 123 then some (n - 97 + 26)
  else if 48 ≤ n ∧ n < 58 then some (n - 48 + 52)
  else match a with
    | .std => if c = '+' then some 62 else if c = '/' then some 63 else none
    | .url => if c = '-' then some 62 else if c = '_' then some 63 else none

/-- Encode without padding (`Engine::encode` of a NO_PAD engine). -/
def b64Enc (a : B64) : Bytes → Str
  | x :: y :: z :: r =>
    let n := x.toNat * 65536 + y.toNat * 256 + z.toNat
    b64Char a (n / 262144) :: b64Char a (n / 4096 % 64) :: b64Char a (n / 64 % 64)
      :: b64Char a (n % 64) :: b64Enc a r
  | [x, y] =>
    let n := x.toNat * 1024 + y.toNat * 4
    [b64Char a (n / 4096), b64Char a (n / 64 % 64), b64Char a (n % 64)]
  | [x] =>
    let n := x.toNat * 16
    [b64Char a (n / 64), b64Char a (n % 64)]
  | [] => []

/-- Decode without padding (`Engine::decode` of a NO_PAD engine). -/
def b64Dec (a : B64) : Str → Option Bytes
  | p :: q :: r :: s :: rest =>
    match b64Val a p, b64Val a q, b64Val a r, b64Val a s, b64Dec a rest with
    | some p, some q, some r, some s, some bs =>
      let n := p * 262144 + q * 4096 + r * 64 + s
      some (UInt8.ofNat (n / 65536) :: UInt8.ofNat (n / 256 % 256) :: UInt8.ofNat (n % 256) :: bs)
    | _, _, _, _, _ => none
  | [p, q, r] =>
    match b64Val a p, b64Val a q, b64Val a r with
    | some p, some q, some r =>
      let n := p * 4096 + q * 64 + r
      if n % 4 = 0 then some [UInt8.ofNat (n / 1024), UInt8.ofNat (n / 4 % 256)] else none
    | _, _, _ => none
  | [p, q] =>
    match b64Val a p, b64Val a q with
    | some p, some q =>
      let n := p * 64 + q
      if n % 16 = 0 then some [UInt8.ofNat (n / 16)] else none
    | _, _ => none
  | [_] => none
  | [] => some []

/-- Number of `=` characters that pad an encoding of `n` bytes. -/
def b64PadLen (n : Nat) : Nat := (3 - n % 3) % 3

/-- `BASE64_STANDARD.encode`: with padding. -/
def b64EncPad (a : B64) (b : Bytes) : Str :=
  b64Enc a b ++ List.replicate (b64PadLen b.length) '='

end Oid4vp
