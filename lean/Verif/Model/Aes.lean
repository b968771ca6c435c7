import Verif.Model.Gcm

/-! # AES

The block cipher of the content encryptions of the crate `josekit`, which the calls at src/core/jwe.rs:140 and
examples/verifier-conformance-adapter/crypto/jwe.rs:17 reach, after FIPS 197. Values only, not timing.
-/

set_option autoImplicit false

namespace Oid4vp
namespace Aes

/-- The substitution table (FIPS 197, figure 7; inside `josekit`, src/core/jwe.rs:140). -/
def table : List UInt8 :=
  [0x63, 0x7c, 0x77, 0x7b, 0xf2, 0x6b, 0x6f, 0xc5, 0x30, 0x01, 0x67, 0x2b, 0xfe, 0xd7, 0xab, 0x76,
  0xca, 0x82, 0xc9, 0x7d, 0xfa, 0x59, 0x47, 0xf0, 0xad, 0xd4, 0xa2, 0xaf, 0x9c, 0xa4, 0x72, 0xc0,
  0xb7, 0xfd, 0x93, 0x26, 0x36, 0x3f, 0xf7, 0xcc, 0x34, 0xa5, 0xe5, 0xf1, 0x71, 0xd8, 0x31, 0x15,
  0x04, 0xc7, 0x23, 0xc3, 0x18, 0x96, 0x05, 0x9a, 0x07, 0x12, 0x80, 0xe2, 0xeb, 0x27, 0xb2, 0x75,
  0x09, 0x83, 0x2c, 0x1a, 0x1b, 0x6e, 0x5a, 0xa0, 0x52, 0x3b, 0xd6, 0xb3, 0x29, 0xe3, 0x2f, 0x84,
  0x53, 0xd1, 0x00, 0xed, 0x20, 0xfc, 0xb1, 0x5b, 0x6a, 0xcb, 0xbe, 0x39, 0x4a, 0x4c, 0x58, 0xcf,
  0xd0, 0xef, 0xaa, 0xfb, 0x43, 0x4d, 0x33, 0x85, 0x45, 0xf9, 0x02, 0x7f, 0x50, 0x3c, 0x9f, 0xa8,
  0x51, 0xa3, 0x40, 0x8f, 0x92, 0x9d, 0x38, 0xf5, 0xbc, 0xb6, 0xda, 0x21, 0x10, 0xff, 0xf3, 0xd2,
  0xcd, 0x0c, 0x13, 0xec, 0x5f, 0x97, 0x44, 0x17, 0xc4, 0xa7, 0x7e, 0x3d, 0x64, 0x5d, 0x19, 0x73,
  0x60, 0x81, 0x4f, 0xdc, 0x22, 0x2a, 0x90, 0x88, 0x46, 0xee, 0xb8, 0x14, 0xde, 0x5e, 0x0b, 0xdb,
  0xe0, 0x32, 0x3a, 0x0a, 0x49, 0x06, 0x24, 0x5c, 0xc2, 0xd3, 0xac, 0x62, 0x91, 0x95, 0xe4, 0x79,
  0xe7, 0xc8, 0x37, 0x6d, 0x8d, 0xd5, 0x4e, 0xa9, 0x6c, 0x56, 0xf4, 0xea, 0x65, 0x7a, 0xae, 0x08,
  0xba, 0x78, 0x25, 0x2e, 0x1c, 0xa6, 0xb4, 0xc6, 0xe8, 0xdd, 0x74, 0x1f, 0x4b, 0xbd, 0x8b, 0x8a,
  0x70, 0x3e, 0xb5, 0x66, 0x48, 0x03, 0xf6, 0x0e, 0x61, 0x35, 0x57, 0xb9, 0x86, 0xc1, 0x1d, 0x9e,
  0xe1, 0xf8, 0x98, 0x11, 0x69, 0xd9, 0x8e, 0x94, 0x9b, 0x1e, 0x87, 0xe9, 0xce, 0x55, 0x28, 0xdf,
  0x8c, 0xa1, 0x89, 0x0d, 0xbf, 0xe6, 0x42, 0x68, 0x41, 0x99, 0x2d, 0x0f, 0xb0, 0x54, 0xbb, 0x16]

/-- Substitution of a byte (FIPS 197 §5.1.1; inside `josekit`, src/core/jwe.rs:140). -/
def sub (b : UInt8) : UInt8 := table.getD b.toNat 0

/-- The places the bytes of a state are taken from (FIPS 197 §5.1.2; inside `josekit`, src/core/jwe.rs:140). -/
def places : List Nat := [0, 5, 10, 15, 4, 9, 14, 3, 8, 13, 2, 7, 12, 1, 6, 11]

/-- Shifting the rows (FIPS 197 §5.1.2; inside `josekit`, src/core/jwe.rs:140). -/
def shift (s : Bytes) : Bytes := places.map fun i => s.getD i 0

/-- Twice a byte in the field (FIPS 197 §4.2.1; inside `josekit`, src/core/jwe.rs:140). -/
def double (b : UInt8) : UInt8 := if b < 128 then b + b else (b + b) ^^^ 0x1b

/-- A column, mixed (FIPS 197 §5.1.3; inside `josekit`, src/core/jwe.rs:140). -/
def mixColumn (a b c d : UInt8) : Bytes :=
  [double a ^^^ (double b ^^^ b) ^^^ c ^^^ d, a ^^^ double b ^^^ (double c ^^^ c) ^^^ d,
    a ^^^ b ^^^ double c ^^^ (double d ^^^ d), (double a ^^^ a) ^^^ b ^^^ c ^^^ double d]

/-- Mixing the columns (FIPS 197 §5.1.3; inside `josekit`, src/core/jwe.rs:140). -/
def mix (s : Bytes) : Bytes :=
  mixColumn (s.getD 0 0) (s.getD 1 0) (s.getD 2 0) (s.getD 3 0) ++
    (mixColumn (s.getD 4 0) (s.getD 5 0) (s.getD 6 0) (s.getD 7 0) ++
      (mixColumn (s.getD 8 0) (s.getD 9 0) (s.getD 10 0) (s.getD 11 0) ++
        mixColumn (s.getD 12 0) (s.getD 13 0) (s.getD 14 0) (s.getD 15 0)))

/-- Adding bytes (FIPS 197 §5.1.4; inside `josekit`, src/core/jwe.rs:140). -/
def plus (x y : Bytes) : Bytes := List.zipWith (· ^^^ ·) x y

/-- The round constants (FIPS 197 §5.2; inside `josekit`, src/core/jwe.rs:140). -/
def rcon (i : Nat) : UInt8 := [0, 0x01, 0x02, 0x04, 0x08, 0x10, 0x20, 0x40, 0x80, 0x1b, 0x36].getD i 0

/-- The next word of the key schedule, after the words so far, the last first (FIPS 197 §5.2; inside `josekit`,
src/core/jwe.rs:140). -/
def next (nk : Nat) (ws : List Bytes) : Bytes :=
  let i := ws.length
  let t := ws.getD 0 []
  let t' :=
    if i % nk = 0 then plus ((t.drop 1 ++ t.take 1).map sub) [rcon (i / nk), 0, 0, 0]
    else if 6 < nk ∧ i % nk = 4 then t.map sub
    else t
  plus (ws.getD (nk - 1) []) t'

/-- So many words more (FIPS 197 §5.2; inside `josekit`, src/core/jwe.rs:140). -/
def extend (nk : Nat) : Nat → List Bytes → List Bytes
  | 0, ws => ws
  | m + 1, ws => extend nk m (next nk ws :: ws)

/-- The words of a key, the last first (FIPS 197 §5.2; inside `josekit`, src/core/jwe.rs:140). -/
def keyWords (key : Bytes) : Nat → List Bytes
  | 0 => []
  | i + 1 => (key.drop (4 * i)).take 4 :: keyWords key i

/-- The key schedule (FIPS 197 §5.2; inside `josekit`, src/core/jwe.rs:140). -/
def schedule (key : Bytes) : List Bytes :=
  let nk := key.length / 4
  (extend nk (4 * (nk + 7) - nk) (keyWords key nk)).reverse

/-- The round key (FIPS 197 §5.1.4; inside `josekit`, src/core/jwe.rs:140). -/
def roundKey (w : List Bytes) (r : Nat) : Bytes :=
  w.getD (4 * r) [] ++ (w.getD (4 * r + 1) [] ++ (w.getD (4 * r + 2) [] ++ w.getD (4 * r + 3) []))

/-- The rounds but the last (FIPS 197 §5.1; inside `josekit`, src/core/jwe.rs:140). -/
def rounds (w : List Bytes) : Nat → Nat → Bytes → Bytes
  | 0, _, s => s
  | m + 1, r, s => rounds w m (r + 1) (plus (mix (shift (s.map sub))) (roundKey w r))

/-- Encryption of a block (FIPS 197 §5.1; inside `josekit`, src/core/jwe.rs:140). -/
def encrypt (key x : Bytes) : Bytes :=
  let w := schedule key
  let nr := key.length / 4 + 6
  plus (shift ((rounds w (nr - 1) 1 (plus x (roundKey w 0))).map sub)) (roundKey w nr)

/-- AES as the block cipher of GCM (inside `josekit`, src/core/jwe.rs:140). -/
def cipher : Gcm.Cipher := fun key x i => (encrypt key x).getD i.val 0

end Aes
end Oid4vp
