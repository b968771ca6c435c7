import Verif.Spec.Codec
import Verif.Spec.Uuid
/-!
# JSON texts (RFC 8259) and the values they denote

Nothing here refers to the model's parser. Objects are maps: of members with the same name the last
one counts. Numbers that are no 64-bit integers are kept as they are written.
-/

set_option autoImplicit false

namespace Oid4vp.Spec

/-- White space. -/
def Space (s : Str) : Prop := ∀ c ∈ s, c ∈ c!" \t\n\r"

/-- Four hexadecimal digits. -/
def Hex4 (s : Str) (n : Nat) : Prop := s.length = 4 ∧ HexText s n

/-- The escapes of one character. -/
def shortEscapes : List (Char × Char) :=
  [('"', '"'), ('\\', '\\'), ('/', '/'), ('b', '\x08'), ('f', '\x0c'), ('n', '\n'), ('r', '\r'), ('t', '\t')]

/-- A character in a string: itself, an escape, `\u` and its number, or two of them that are a
surrogate pair. (A `Char` is never a surrogate.) -/
inductive CharText : Str → Char → Prop
  | plain {c} : 32 ≤ c.toNat → c ≠ '"' → c ≠ '\\' → CharText [c] c
  | short {e c} : (e, c) ∈ shortEscapes → CharText ['\\', e] c
  | unit {h c} : Hex4 h c.toNat → CharText ('\\' :: 'u' :: h) c
  | pair {h l n m c} : Hex4 h (0xD800 + n) → n < 1024 → Hex4 l (0xDC00 + m) → m < 1024 →
      c.toNat = 0x10000 + 1024 * n + m → CharText ('\\' :: 'u' :: h ++ '\\' :: 'u' :: l) c

/-- What stands between the quotes of a string. -/
inductive StrText : Str → Str → Prop
  | nil : StrText [] []
  | cons {t c r s} : CharText t c → StrText r s → StrText (t ++ r) (c :: s)

/-- A number. -/
inductive NumText : Str → Json → Prop
  | float {s} : FloatText s → NumText s (.flt s)
  | nat {ds} : IntPart ds → decimal ds < 2 ^ 64 → NumText ds (.int (decimal ds))
  | big {ds} : IntPart ds → 2 ^ 64 ≤ decimal ds → NumText ds (.flt ds)
  | neg {ds} : IntPart ds → 0 < decimal ds → decimal ds ≤ 2 ^ 63 →
      NumText ('-' :: ds) (.int (-(decimal ds : Int)))
  | negBig {ds} : IntPart ds → decimal ds = 0 ∨ 2 ^ 63 < decimal ds → NumText ('-' :: ds) (.flt ('-' :: ds))

/-- The elements of an array, given the texts of values. -/
inductive Items (P : Str → Json → Prop) : Str → List Json → Prop
  | one {w t w' j} : Space w → P t j → Space w' → Items P (w ++ t ++ w') [j]
  | more {w t w' j r l} : Space w → P t j → Space w' → Items P r l →
      Items P (w ++ t ++ w' ++ ',' :: r) (j :: l)

/-- A member of an object. -/
def MemberText (P : Str → Json → Prop) (s : Str) (k : Str) (j : Json) : Prop :=
  ∃ w n w1 w2 t w3, Space w ∧ Space w1 ∧ Space w2 ∧ Space w3 ∧ StrText n k ∧ P t j ∧
    s = w ++ '"' :: (n ++ '"' :: (w1 ++ ':' :: (w2 ++ (t ++ w3))))

/-- The members of an object. -/
inductive Members (P : Str → Json → Prop) : Str → List (Str × Json) → Prop
  | one {s k j} : MemberText P s k j → Members P s [(k, j)]
  | more {s k j r l} : MemberText P s k j → Members P r l → Members P (s ++ ',' :: r) ((k, j) :: l)

/-- The map that has the last of the members of each name. -/
def LastMembers (l m : List (Str × Json)) : Prop :=
  Sorted m ∧ ∀ k j, (k, j) ∈ m ↔ ∃ a b, l = a ++ (k, j) :: b ∧ ∀ j', (k, j') ∉ b

/-- A value without surrounding white space, given the texts of nested values (none if there must be
no brackets). -/
inductive ValueText (sub : Option (Str → Json → Prop)) : Str → Json → Prop
  | null : ValueText sub c!"null" .null
  | true : ValueText sub c!"true" (.bool true)
  | false : ValueText sub c!"false" (.bool false)
  | num {s j} : NumText s j → ValueText sub s j
  | str {t s} : StrText t s → ValueText sub ('"' :: t ++ ['"']) (.str s)
  | empty {P w} : sub = some P → Space w → ValueText sub ('[' :: w ++ [']']) (.arr [])
  | arr {P t l} : sub = some P → Items P t l → ValueText sub ('[' :: t ++ [']']) (.arr l)
  | emptyObj {P w} : sub = some P → Space w → ValueText sub ('{' :: w ++ ['}']) (.obj [])
  | obj {P t l m} : sub = some P → Members P t l → LastMembers l m →
      ValueText sub ('{' :: t ++ ['}']) (.obj m)

/-- A value of at most so many nested brackets. -/
def NestedText : Nat → Str → Json → Prop
  | 0 => ValueText none
  | d + 1 => ValueText (some (NestedText d))

/-- A JSON text of at most 127 nested brackets. -/
def JsonText (s : Str) (j : Json) : Prop :=
  ∃ w t w', s = w ++ t ++ w' ∧ Space w ∧ Space w' ∧ NestedText 127 t j

end Oid4vp.Spec
