import Mathlib.Algebra.Polynomial.Basic
import Mathlib.Data.ZMod.Defs
import Verif.Spec.EcdhEs

/-!
# Galois/counter mode

NIST SP 800-38D for initialization vectors of 96 bits and tags of 128 bits, with the field of `2 ^ 128`
elements as polynomials modulo `1 + X + X² + X⁷ + X¹²⁸`.
-/

set_option autoImplicit false

namespace Oid4vp
namespace Spec
namespace Gcm

open Polynomial

/-- The polynomial of a sequence of bits, the constant term first. -/
noncomputable def poly (bit : ℕ → Bool) (n : ℕ) : (ZMod 2)[X] :=
  ∑ i ∈ Finset.range n, if bit i then X ^ i else 0

/-- Bit `i` of a byte string, the most significant bit of each byte first. -/
def bitAt (b : Bytes) (i : ℕ) : Bool := (b.getD (i / 8) 0).toNat.testBit (7 - i % 8)

/-- The element of the field that a block stands for. -/
noncomputable def element (b : Bytes) : (ZMod 2)[X] := poly (bitAt b) 128

/-- The polynomial of the field. -/
noncomputable def modulus : (ZMod 2)[X] := 1 + X + X ^ 2 + X ^ 7 + X ^ 128

/-- `padded` is the string with less than 16 zeros after it, in whole blocks. -/
def FilledUp (b padded : Bytes) : Prop :=
  ∃ z, z < 16 ∧ padded = b ++ List.replicate z 0 ∧ 16 ∣ padded.length

/-- Block `i` of a string. -/
def block (b : Bytes) (i : ℕ) : Bytes := (b.drop (16 * i)).take 16

/-- The hash of a string of whole blocks (SP 800-38D §6.4): the sum of its blocks times falling powers
of the hash key. -/
def IsGhash (h : Bytes) (text y : Bytes) : Prop :=
  y.length = 16 ∧ modulus ∣ element y -
    ∑ i ∈ Finset.range (text.length / 16), element (block text i) * element h ^ (text.length / 16 - i)

/-- `ct` and `tag` are what GCM makes of `plain` and the authenticated data (SP 800-38D §7.1): each byte of
the text is added to a byte of an encrypted counter, and the tag is the hash of the authenticated data, the
encrypted text and their lengths in bits, added to an encrypted counter. -/
def IsGcm (e : Bytes → Fin 16 → UInt8) (iv aad plain ct tag : Bytes) : Prop :=
  iv.length = 12 ∧ ct.length = plain.length ∧ tag.length = 16 ∧
    (∀ i < plain.length, ct.getD i 0 = plain.getD i 0 ^^^ e (iv ++ Sha.bigEndian 4 (2 + i / 16)) (Fin.ofNat 16 i)) ∧
    ∃ a c h s, FilledUp aad a ∧ FilledUp ct c ∧ (h = List.ofFn (e (List.replicate 16 0))) ∧
      IsGhash h (a ++ c ++ (Sha.bigEndian 8 (8 * aad.length) ++ Sha.bigEndian 8 (8 * ct.length))) s ∧
      ∀ i < 16, tag.getD i 0 = s.getD i 0 ^^^ e (iv ++ Sha.bigEndian 4 1) (Fin.ofNat 16 i)

/-- The content encryptions of RFC 7518 §5.3. -/
def gcmNames : List Str := [c!"A128GCM", c!"A192GCM", c!"A256GCM"]

end Gcm
end Spec
end Oid4vp
