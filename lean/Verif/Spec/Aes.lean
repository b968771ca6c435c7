import Verif.Spec.Gcm

/-!
# AES

FIPS 197, with bytes as polynomials over the field of two elements modulo `X⁸ + X⁴ + X³ + X + 1`, and a state
as 16 bytes, column by column.
-/

set_option autoImplicit false

namespace Oid4vp
namespace Spec
namespace Aes

open Polynomial

/-- The element of the field of 256 elements that a byte stands for. -/
noncomputable def element (b : UInt8) : (ZMod 2)[X] := Gcm.poly b.toNat.testBit 8

/-- The polynomial of the field. -/
noncomputable def modulus : (ZMod 2)[X] := X ^ 8 + X ^ 4 + X ^ 3 + X + 1

/-- §5.1.1: the inverse in the field, zero for zero, and then an affine map of the bits. -/
def IsSub (x z : UInt8) : Prop :=
  ∃ y, (x = 0 ∧ y = 0 ∨ modulus ∣ element x * element y - 1) ∧ ∀ i < 8, z.toNat.testBit i =
    (y.toNat.testBit i ^^ y.toNat.testBit ((i + 4) % 8) ^^ y.toNat.testBit ((i + 5) % 8) ^^
      y.toNat.testBit ((i + 6) % 8) ^^ y.toNat.testBit ((i + 7) % 8) ^^ (0x63 : Nat).testBit i)

/-- The byte of a state in row `r` and column `c`. -/
def entry (s : Bytes) (r c : Nat) : UInt8 := s.getD (r + 4 * c) 0

/-- §5.1.1 and §5.1.2: each byte is substituted, and row `r` is shifted by `r`. -/
def SubShift (s t : Bytes) : Prop :=
  t.length = 16 ∧ ∀ r < 4, ∀ c < 4, IsSub (entry s r ((c + r) % 4)) (entry t r c)

/-- §5.1.3: each column is multiplied by the matrix whose first row is 2, 3, 1, 1 and whose other rows are
its rotations. -/
def MixColumns (s t : Bytes) : Prop :=
  t.length = 16 ∧ ∀ r < 4, ∀ c < 4, modulus ∣ element (entry t r c) -
    ∑ k ∈ Finset.range 4, element ([2, 3, 1, 1].getD ((k + 4 - r) % 4) 0) * element (entry s k c)

/-- §5.1.4 -/
def AddRoundKey (s : Bytes) (w : Nat → Nat → UInt8) (round : Nat) (t : Bytes) : Prop :=
  t.length = 16 ∧ ∀ r < 4, ∀ c < 4, entry t r c = entry s r c ^^^ w (4 * round + c) r

/-- §5.2: byte `r` of word `i`. The words of the key come first; the word `i` is the sum of the word one key
length before it and of the last word, which is rotated, substituted and added to a power of 2 at multiples
of the key length, and substituted in the middle of keys of eight words. -/
def KeySchedule (key : Bytes) (w : Nat → Nat → UInt8) : Prop :=
  (∀ i < key.length / 4, ∀ r < 4, w i r = key.getD (4 * i + r) 0) ∧
  ∀ i, key.length / 4 ≤ i → i < 4 * (key.length / 4 + 7) → ∀ r < 4, ∃ t,
    w i r = w (i - key.length / 4) r ^^^ t ∧
    (key.length / 4 ∣ i → ∃ s c, IsSub (w (i - 1) ((r + 1) % 4)) s ∧ t = s ^^^ c ∧
      (r = 0 → modulus ∣ element c - X ^ (i / (key.length / 4) - 1)) ∧ (r ≠ 0 → c = 0)) ∧
    (¬ key.length / 4 ∣ i → key.length = 32 ∧ i % 8 = 4 → IsSub (w (i - 1) r) t) ∧
    (¬ key.length / 4 ∣ i → ¬ (key.length = 32 ∧ i % 8 = 4) → t = w (i - 1) r)

/-- §5.1: the states after the addition of the round keys; there are 6 rounds more than words of the key, and
the last does not mix. -/
def Encrypts (key x y : Bytes) : Prop :=
  ∃ (w : Nat → Nat → UInt8) (state : Nat → Bytes), KeySchedule key w ∧ AddRoundKey x w 0 (state 0) ∧
    (∀ round, 1 ≤ round → round < key.length / 4 + 6 → ∃ s t, SubShift (state (round - 1)) s ∧ MixColumns s t ∧
      AddRoundKey t w round (state round)) ∧
    ∃ s, SubShift (state (key.length / 4 + 5)) s ∧ AddRoundKey s w (key.length / 4 + 6) y

end Aes
end Spec
end Oid4vp
