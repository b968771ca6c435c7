import Verif.Spec.JsonText
/-!
# JSON texts with all their members

Where a `struct` is read from text, a member given twice is not the same as its last one.
-/

set_option autoImplicit false

namespace Oid4vp.Spec

/-- A value without surrounding white space, given the texts of nested values (none if there must be
no brackets); the members of objects in the order of the text, with repetitions. -/
inductive RawValue (sub : Option (Str → Json → Prop)) : Str → Json → Prop
  | null : RawValue sub c!"null" .null
  | true : RawValue sub c!"true" (.bool true)
  | false : RawValue sub c!"false" (.bool false)
  | num {s j} : NumText s j → RawValue sub s j
  | str {t s} : StrText t s → RawValue sub ('"' :: t ++ ['"']) (.str s)
  | empty {P w} : sub = some P → Space w → RawValue sub ('[' :: w ++ [']']) (.arr [])
  | arr {P t l} : sub = some P → Items P t l → RawValue sub ('[' :: t ++ [']']) (.arr l)
  | emptyObj {P w} : sub = some P → Space w → RawValue sub ('{' :: w ++ ['}']) (.obj [])
  | obj {P t l} : sub = some P → Members P t l → RawValue sub ('{' :: t ++ ['}']) (.obj l)

/-- A value of at most so many nested brackets, with all members. -/
def RawNested : Nat → Str → Json → Prop
  | 0 => RawValue none
  | d + 1 => RawValue (some (RawNested d))

/-- A JSON text of at most 127 nested brackets, with all members. -/
def RawText (s : Str) (j : Json) : Prop :=
  ∃ w t w', s = w ++ t ++ w' ∧ Space w ∧ Space w' ∧ RawNested 127 t j

/-- The second value is the first one with the members of its objects, at any depth, in some order. -/
inductive Reordered : Json → Json → Prop
  | atom {j} : (∀ l, j ≠ .arr l) → (∀ m, j ≠ .obj m) → Reordered j j
  | arr {l l'} : l.length = l'.length → (∀ p ∈ l.zip l', Reordered p.1 p.2) →
      Reordered (.arr l) (.arr l')
  | obj {m p m'} : m.Perm p → p.map Prod.fst = m'.map Prod.fst →
      (∀ q ∈ p.zip m', Reordered q.1.2 q.2.2) → Reordered (.obj m) (.obj m')

end Oid4vp.Spec
