import Verif.Model.Nonce
/-!
# Random nonces
-/

set_option autoImplicit false

namespace Oid4vp.Spec

/-- A letter or a digit of ASCII. -/
def AsciiAlnum (c : Char) : Prop := ('A' ≤ c ∧ c ≤ 'Z') ∨ ('a' ≤ c ∧ c ≤ 'z') ∨ ('0' ≤ c ∧ c ≤ '9')

/-- The place of a character among the upper-case letters, the lower-case letters and the digits. -/
def PlaceOf (c : Char) (i : Nat) : Prop :=
  ('A' ≤ c ∧ c ≤ 'Z' ∧ c.toNat = i + 65) ∨ ('a' ≤ c ∧ c ≤ 'z' ∧ c.toNat + 26 = i + 97) ∨
    ('0' ≤ c ∧ c ≤ '9' ∧ c.toNat + 52 = i + 48)

/-- The random word stands for the character. -/
def Yields (w : UInt32) (c : Char) : Prop := PlaceOf c (w.toNat / 2 ^ 26)

/-- The random word stands for no character. -/
def Unused (w : UInt32) : Prop := 62 * 2 ^ 26 ≤ w.toNat

/-- The words, read one after the other, leaving out those that stand for nothing, are the text; the last
word is the one for its last character. -/
inductive SpelledBy : List UInt32 → Str → Prop
  | nil : SpelledBy [] []
  | skip {w ws c s} : Unused w → SpelledBy ws (c :: s) → SpelledBy (w :: ws) (c :: s)
  | take {w ws c s} : Yields w c → SpelledBy ws s → SpelledBy (w :: ws) (c :: s)

end Oid4vp.Spec
