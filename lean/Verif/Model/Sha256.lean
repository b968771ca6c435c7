import Verif.Model.Basic

/-! # SHA-256

`Sha256::digest` of crate `sha2`, which the code calls in src/core/iso_18013_7/mod.rs:61,181,468,
src/core/authorization_request/verification/x509_hash.rs:93, src/verifier/client.rs:145 and
examples/wallet-conformance-adapter/crypto/keys.rs:73-76. Elsewhere the model takes the hash as a parameter;
here is the function itself, as in FIPS 180-4, so that what depends on it can be stated of the real
function.
-/

set_option autoImplicit false

namespace Oid4vp.Sha256

/-- FIPS 180-4 section 4.2.2: the constants
(crate `sha2`, called by src/core/iso_18013_7/mod.rs:61). -/
def k : List UInt32 :=
  [0x428a2f98, 0x71374491, 0xb5c0fbcf, 0xe9b5dba5, 0x3956c25b, 0x59f111f1, 0x923f82a4, 0xab1c5ed5,
   0xd807aa98, 0x12835b01, 0x243185be, 0x550c7dc3, 0x72be5d74, 0x80deb1fe, 0x9bdc06a7, 0xc19bf174,
   0xe49b69c1, 0xefbe4786, 0x0fc19dc6, 0x240ca1cc, 0x2de92c6f, 0x4a7484aa, 0x5cb0a9dc, 0x76f988da,
   0x983e5152, 0xa831c66d, 0xb00327c8, 0xbf597fc7, 0xc6e00bf3, 0xd5a79147, 0x06ca6351, 0x14292967,
   0x27b70a85, 0x2e1b2138, 0x4d2c6dfc, 0x53380d13, 0x650a7354, 0x766a0abb, 0x81c2c92e, 0x92722c85,
   0xa2bfe8a1, 0xa81a664b, 0xc24b8b70, 0xc76c51a3, 0xd192e819, 0xd6990624, 0xf40e3585, 0x106aa070,
   0x19a4c116, 0x1e376c08, 0x2748774c, 0x34b0bcb5, 0x391c0cb3, 0x4ed8aa4a, 0x5b9cca4f, 0x682e6ff3,
   0x748f82ee, 0x78a5636f, 0x84c87814, 0x8cc70208, 0x90befffa, 0xa4506ceb, 0xbef9a3f7, 0xc67178f2]

/-- Rotation to the right (crate `sha2`, called by src/core/iso_18013_7/mod.rs:61). -/
def rotr (x : UInt32) (n : UInt32) : UInt32 := (x >>> n) ||| (x <<< (32 - n))

/-- The eight words of the state (crate `sha2`, called by src/core/iso_18013_7/mod.rs:61). -/
structure State where
  a : UInt32
  b : UInt32
  c : UInt32
  d : UInt32
  e : UInt32
  f : UInt32
  g : UInt32
  h : UInt32
  deriving DecidableEq

/-- FIPS 180-4 section 5.3.3: the initial state
(crate `sha2`, called by src/core/iso_18013_7/mod.rs:61). -/
def init : State :=
  ⟨0x6a09e667, 0xbb67ae85, 0x3c6ef372, 0xa54ff53a, 0x510e527f, 0x9b05688c, 0x1f83d9ab, 0x5be0cd19⟩

/-- FIPS 180-4 section 6.2.2, step 3: one round with constant `kt` and word `wt`
(crate `sha2`, called by src/core/iso_18013_7/mod.rs:61). -/
def round (s : State) (kt wt : UInt32) : State :=
  let s1 := rotr s.e 6 ^^^ rotr s.e 11 ^^^ rotr s.e 25
  let ch := (s.e &&& s.f) ^^^ ((~~~ s.e) &&& s.g)
  let t1 := s.h + s1 + ch + kt + wt
  let s0 := rotr s.a 2 ^^^ rotr s.a 13 ^^^ rotr s.a 22
  let maj := (s.a &&& s.b) ^^^ (s.a &&& s.c) ^^^ (s.b &&& s.c)
  ⟨t1 + (s0 + maj), s.a, s.b, s.c, s.d + t1, s.e, s.f, s.g⟩

/-- The next word of the message schedule from the last sixteen, oldest first
(FIPS 180-4 section 6.2.2, step 1; crate `sha2`, called by src/core/iso_18013_7/mod.rs:61). -/
def nextWord (w : List UInt32) : UInt32 :=
  match w with
  | w0 :: w1 :: _ :: _ :: _ :: _ :: _ :: _ :: _ :: w9 :: _ :: _ :: _ :: _ :: w14 :: _ =>
    (rotr w14 17 ^^^ rotr w14 19 ^^^ (w14 >>> 10)) + w9 +
      (rotr w1 7 ^^^ rotr w1 18 ^^^ (w1 >>> 3)) + w0
  | _ => 0

/-- The rounds, with the window of the last sixteen words of the schedule
(crate `sha2`, called by src/core/iso_18013_7/mod.rs:61). -/
def rounds : List UInt32 → List UInt32 → State → State
  | [], _, s => s
  | kt :: ks, w, s => rounds ks (w.tail ++ [nextWord w]) (round s kt (w.headD 0))

/-- FIPS 180-4 section 6.2.2, step 4
(crate `sha2`, called by src/core/iso_18013_7/mod.rs:61). -/
def State.add (s t : State) : State :=
  ⟨s.a + t.a, s.b + t.b, s.c + t.c, s.d + t.d, s.e + t.e, s.f + t.f, s.g + t.g, s.h + t.h⟩

/-- Four bytes at a time as a word, most significant first
(crate `sha2`, called by src/core/iso_18013_7/mod.rs:61). -/
def words : Bytes → List UInt32
  | b0 :: b1 :: b2 :: b3 :: bs =>
    ((b0.toUInt32 <<< 24) ||| (b1.toUInt32 <<< 16) ||| (b2.toUInt32 <<< 8) ||| b3.toUInt32) :: words bs
  | _ => []

/-- One block, sixteen words, after the other
(crate `sha2`, called by src/core/iso_18013_7/mod.rs:61). -/
def blocks (s : State) : List UInt32 → State
  | w0 :: w1 :: w2 :: w3 :: w4 :: w5 :: w6 :: w7 :: w8 :: w9 :: w10 :: w11 :: w12 :: w13 :: w14 :: w15 :: ws =>
    blocks (s.add (rounds k [w0, w1, w2, w3, w4, w5, w6, w7, w8, w9, w10, w11, w12, w13, w14, w15] s)) ws
  | _ => s

/-- The bytes of a word, most significant first
(crate `sha2`, called by src/core/iso_18013_7/mod.rs:61). -/
def wordBytes (x : UInt32) : Bytes :=
  [(x >>> 24).toUInt8, (x >>> 16).toUInt8, (x >>> 8).toUInt8, x.toUInt8]

/-- FIPS 180-4 section 5.1.1: a 1 bit, zeros up to 56 bytes modulo 64, and the length in bits as eight
bytes (crate `sha2`, called by src/core/iso_18013_7/mod.rs:61). -/
def pad (m : Bytes) : Bytes :=
  m ++ [0x80] ++ List.replicate ((119 - m.length % 64) % 64) 0 ++
    wordBytes (UInt32.ofNat (m.length * 8 / 2 ^ 32)) ++ wordBytes (UInt32.ofNat (m.length * 8))

/-- The bytes of the state
(crate `sha2`, called by src/core/iso_18013_7/mod.rs:61). -/
def State.bytes (s : State) : Bytes :=
  wordBytes s.a ++ wordBytes s.b ++ wordBytes s.c ++ wordBytes s.d ++
    wordBytes s.e ++ wordBytes s.f ++ wordBytes s.g ++ wordBytes s.h

end Oid4vp.Sha256

namespace Oid4vp

/-- `Sha256::digest` (src/core/iso_18013_7/mod.rs:61,181,468,
src/core/authorization_request/verification/x509_hash.rs:93, src/verifier/client.rs:145). -/
def sha256 (m : Bytes) : Bytes := (Sha256.blocks Sha256.init (Sha256.words (Sha256.pad m))).bytes

end Oid4vp
