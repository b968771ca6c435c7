import Verif.Model.Basic
import Mathlib.Data.Nat.Prime.Nth

/-! # SHA-256 after FIPS 180-4

Written with indices as in the standard: the message schedule is a function of the round, the words of a
block are addressed by position, the constants are given by the primes they come from.
-/

set_option autoImplicit false

namespace Oid4vp.Spec.Sha

/-- The first 32 bits of the fractional part of the `r`-th root of `p` (section 4.2.2 with `r = 3`,
section 5.3.3 with `r = 2`): `v` is that number for some integer part `n`. -/
def RootBits (r p : Nat) (v : BitVec 32) : Prop :=
  ∃ n, (n * 2 ^ 32 + v.toNat) ^ r ≤ p * 2 ^ (32 * r) ∧ p * 2 ^ (32 * r) < (n * 2 ^ 32 + v.toNat + 1) ^ r

/-- Section 4.1.2. -/
def bigSigma0 (x : BitVec 32) : BitVec 32 := x.rotateRight 2 ^^^ x.rotateRight 13 ^^^ x.rotateRight 22
def bigSigma1 (x : BitVec 32) : BitVec 32 := x.rotateRight 6 ^^^ x.rotateRight 11 ^^^ x.rotateRight 25
def smallSigma0 (x : BitVec 32) : BitVec 32 := x.rotateRight 7 ^^^ x.rotateRight 18 ^^^ (x >>> 3)
def smallSigma1 (x : BitVec 32) : BitVec 32 := x.rotateRight 17 ^^^ x.rotateRight 19 ^^^ (x >>> 10)
/-- For each bit, `x` chooses between `y` and `z`. -/
def choose (x y z : BitVec 32) : BitVec 32 := (x &&& y) ^^^ (~~~x &&& z)
def majority (x y z : BitVec 32) : BitVec 32 := (x &&& y) ^^^ (x &&& z) ^^^ (y &&& z)

/-- Section 6.2.2, step 1: the message schedule of a block. -/
def schedule (m : Nat → BitVec 32) (t : Nat) : BitVec 32 :=
  if t < 16 then m t
  else smallSigma1 (schedule m (t - 2)) + schedule m (t - 7) + smallSigma0 (schedule m (t - 15)) +
    schedule m (t - 16)
termination_by t

/-- The working variables `a` to `h`. -/
structure Vars where
  a : BitVec 32
  b : BitVec 32
  c : BitVec 32
  d : BitVec 32
  e : BitVec 32
  f : BitVec 32
  g : BitVec 32
  h : BitVec 32

/-- Section 6.2.2, step 3, `t` times. -/
def work (K : Nat → BitVec 32) (w : Nat → BitVec 32) (H : Vars) : Nat → Vars
  | 0 => H
  | t + 1 =>
    let v := work K w H t
    let T1 := v.h + bigSigma1 v.e + choose v.e v.f v.g + K t + w t
    let T2 := bigSigma0 v.a + majority v.a v.b v.c
    { h := v.g, g := v.f, f := v.e, e := v.d + T1, d := v.c, c := v.b, b := v.a, a := T1 + T2 }

/-- Section 6.2.2, step 4. -/
def sum (x y : Vars) : Vars :=
  { a := x.a + y.a, b := x.b + y.b, c := x.c + y.c, d := x.d + y.d,
    e := x.e + y.e, f := x.f + y.f, g := x.g + y.g, h := x.h + y.h }

/-- Word `j` of a padded message: its bytes `4j` to `4j+3`, most significant first. -/
def wordAt (p : Bytes) (j : Nat) : BitVec 32 :=
  BitVec.ofNat 32 (((((p.getD (4 * j) 0).toNat * 256 + (p.getD (4 * j + 1) 0).toNat) * 256 +
    (p.getD (4 * j + 2) 0).toNat) * 256) + (p.getD (4 * j + 3) 0).toNat)

/-- The hash value after `i` blocks of the padded message `p`. -/
def hashAfter (K : Nat → BitVec 32) (H0 : Vars) (p : Bytes) : Nat → Vars
  | 0 => H0
  | i + 1 =>
    let H := hashAfter K H0 p i
    sum H (work K (schedule fun t => wordAt p (16 * i + t)) H 64)

/-- A number as `n` bytes, most significant first. -/
def bigEndian : Nat → Nat → Bytes
  | 0, _ => []
  | n + 1, x => bigEndian n (x / 256) ++ [UInt8.ofNat x]

/-- Section 5.1.1: the message, a bit 1 and the least number of bits 0 so that with the 64 bits of the
message length the whole is a multiple of 512 bits. -/
def Padded (m p : Bytes) : Prop :=
  ∃ z, p = m ++ (0x80 :: List.replicate z 0) ++ bigEndian 8 (8 * m.length) ∧ 64 ∣ p.length ∧
    ∀ z', 64 ∣ m.length + 1 + z' + 8 → z ≤ z'

def digestOf (v : Vars) : Bytes :=
  [v.a, v.b, v.c, v.d, v.e, v.f, v.g, v.h].flatMap fun x => bigEndian 4 x.toNat

/-- `d` is the SHA-256 hash of `m`. -/
def Hash (m d : Bytes) : Prop :=
  ∃ (K : Nat → BitVec 32) (H0 : Vars) (p : Bytes),
    (∀ t < 64, RootBits 3 (Nat.nth Nat.Prime t) (K t)) ∧
    (RootBits 2 2 H0.a ∧ RootBits 2 3 H0.b ∧ RootBits 2 5 H0.c ∧ RootBits 2 7 H0.d ∧
      RootBits 2 11 H0.e ∧ RootBits 2 13 H0.f ∧ RootBits 2 17 H0.g ∧ RootBits 2 19 H0.h) ∧
    Padded m p ∧ d = digestOf (hashAfter K H0 p (p.length / 64))

end Oid4vp.Spec.Sha
