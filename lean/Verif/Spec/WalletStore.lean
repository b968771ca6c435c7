import Verif.Spec.JsonRaw
import Verif.Spec.Vocabulary
import Verif.Model.Example
/-!
# The credentials file of the example wallet
-/

set_option autoImplicit false

namespace Oid4vp.Spec
open Example

/-- The value that is left of a JSON text when of the members of the same name only the last is kept,
at every level. -/
inductive Settles : Json → Json → Prop
  | null : Settles .null .null
  | bool {b} : Settles (.bool b) (.bool b)
  | int {i} : Settles (.int i) (.int i)
  | flt {s} : Settles (.flt s) (.flt s)
  | str {s} : Settles (.str s) (.str s)
  | arr {l l'} : l.length = l'.length → (∀ p ∈ l.zip l', Settles p.1 p.2) → Settles (.arr l) (.arr l')
  | obj {l l' m} : l.map Prod.fst = l'.map Prod.fst → (∀ p ∈ l.zip l', Settles p.1.2 p.2.2) →
      LastMembers l' m → Settles (.obj l) (.obj m)

/-- The fields of a structure in a JSON text: members of an object, no field given twice, or the
elements of an array in the order of the fields. -/
def FieldsOnce (names : List Str) (j : Json) (field : Str → Option Json) : Prop :=
  (∃ m, j = .obj m ∧ ∀ k ∈ names, (field k = none ∧ ∀ v, (k, v) ∉ m) ∨
    ∃ a v b, m = a ++ (k, v) :: b ∧ field k = some v ∧ ∀ x, (k, x) ∉ a ∧ (k, x) ∉ b) ∨
  ∃ l, j = .arr l ∧ l.length = names.length ∧ ∀ p ∈ names.zip l, field p.1 = some p.2

/-- The claims of a credential in the file. -/
def IsClaimMap (j : Json) (claims : List (Str × Json)) : Prop :=
  ∃ m, j = .obj m ∧ Settles (.obj m) (.obj claims)

/-- A credential in the file. -/
def IsStored (j : Json) (c : Credential) : Prop :=
  ∃ field, FieldsOnce [c!"id", c!"format", c!"vct", c!"doctype", c!"raw_credential", c!"claims"] j field ∧
    Mandatory field c!"id" IsText c.id ∧ Mandatory field c!"format" IsFormat c.format ∧
    Optional field c!"vct" IsText c.vct ∧ Optional field c!"doctype" IsText c.doctype ∧
    Mandatory field c!"raw_credential" IsText c.raw ∧ Mandatory field c!"claims" IsClaimMap c.claims

/-- The text of a credentials file. -/
def IsStore (text : Str) (cs : List Credential) : Prop :=
  ∃ j field, RawText text j ∧ FieldsOnce [c!"credentials"] j field ∧
    Mandatory field c!"credentials" (ArrayOf IsStored) cs

end Oid4vp.Spec
