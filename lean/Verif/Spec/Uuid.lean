import Verif.Model.Url
/-!
# Texts of UUIDs (RFC 9562, section 4)
-/

set_option autoImplicit false

namespace Oid4vp.Spec

/-- A hexadecimal digit of either case and its value. -/
def HexChar (c : Char) (d : Nat) : Prop :=
  (d, c) ∈ (List.range 16).zip c!"0123456789abcdef" ∨ (d, c) ∈ (List.range 16).zip c!"0123456789ABCDEF"

/-- Hexadecimal digits and the number they denote. -/
inductive HexText : Str → Nat → Prop
  | nil : HexText [] 0
  | digit {l n c d} : HexText l n → HexChar c d → HexText (l ++ [c]) (16 * n + d)

/-- Five groups of 8, 4, 4, 4 and 12 digits that denote the UUID. -/
def UuidGroups (a b c d e : Str) (u : Uuid) : Prop :=
  a.length = 8 ∧ b.length = 4 ∧ c.length = 4 ∧ d.length = 4 ∧ e.length = 12 ∧
    HexText (a ++ b ++ c ++ d ++ e) u.bits.val

/-- Groups separated by hyphens. -/
def hyphened (a b c d e : Str) : Str := a ++ c!"-" ++ b ++ c!"-" ++ c ++ c!"-" ++ d ++ c!"-" ++ e

/-- A text for the UUID: the digits alone, in hyphenated groups, those in braces, or as a URN. -/
def UuidText (s : Str) (u : Uuid) : Prop :=
  ∃ a b c d e, UuidGroups a b c d e u ∧
    (s = a ++ b ++ c ++ d ++ e ∨ s = hyphened a b c d e ∨
      s = c!"{" ++ hyphened a b c d e ++ c!"}" ∨ s = c!"urn:uuid:" ++ hyphened a b c d e)

end Oid4vp.Spec
