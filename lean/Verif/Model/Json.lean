import Verif.Model.Basic
/-!
# JSON values (`serde_json::Value`)
-/

set_option autoImplicit false

namespace Oid4vp

/-- `serde_json::Value`.

* `int` is `Number::PosInt`/`Number::NegInt` (the parser only produces values in
  `-2^63 ≤ i < 2^64`, see `Json.WF`).
* `flt` is `Number::Float`, represented by its literal. Simplified: the library
  normalises the literal to the nearest `f64`, the model keeps the text.
* `obj` is `serde_json::Map` (a `BTreeMap`, see `Json.WF` for the order of keys). Before
  normalisation (`Json.norm`) it also serves as the raw sequence of members
  of a JSON text, in textual order and with duplicates. -/
inductive Json where
  | null
  | bool (b : Bool)
  | int (i : Int)
  | flt (lit : Str)
  | str (s : Str)
  | arr (l : List Json)
  | obj (m : List (Str × Json))
deriving Repr, Inhabited

namespace Json

mutual
/-- Structural equality of JSON values (`PartialEq for Value`). -/
def decEq : (a b : Json) → Decidable (a = b)
  | .null, .null => isTrue rfl
  | .bool a, .bool b => if h : a = b then isTrue (by rw [h]) else isFalse (by simp [h])
  | .int a, .int b => if h : a = b then isTrue (by rw [h]) else isFalse (by simp [h])
  | .flt a, .flt b => if h : a = b then isTrue (by rw [h]) else isFalse (by simp [h])
  | .str a, .str b => if h : a = b then isTrue (by rw [h]) else isFalse (by simp [h])
  | .arr a, .arr b => match decEqL a b with
    | isTrue h => isTrue (by rw [h])
    | isFalse h => isFalse (by simp [h])
  | .obj a, .obj b => match decEqM a b with
    | isTrue h => isTrue (by rw [h])
    | isFalse h => isFalse (by simp [h])
  | .null, .bool _ | .null, .int _ | .null, .flt _ | .null, .str _ | .null, .arr _ | .null, .obj _
  | .bool _, .null | .bool _, .int _ | .bool _, .flt _ | .bool _, .str _ | .bool _, .arr _
  | .bool _, .obj _ | .int _, .null | .int _, .bool _ | .int _, .flt _ | .int _, .str _
  | .int _, .arr _ | .int _, .obj _ | .flt _, .null | .flt _, .bool _ | .flt _, .int _
  | .flt _, .str _ | .flt _, .arr _ | .flt _, .obj _ | .str _, .null | .str _, .bool _
  | .str _, .int _ | .str _, .flt _ | .str _, .arr _ | .str _, .obj _ | .arr _, .null
  | .arr _, .bool _ | .arr _, .int _ | .arr _, .flt _ | .arr _, .str _ | .arr _, .obj _
  | .obj _, .null | .obj _, .bool _ | .obj _, .int _ | .obj _, .flt _ | .obj _, .str _
  | .obj _, .arr _ => isFalse (by intro h; cases h)
/-- `decEq` on arrays. -/
def decEqL : (a b : List Json) → Decidable (a = b)
  | [], [] => isTrue rfl
  | [], _ :: _ => isFalse (by simp)
  | _ :: _, [] => isFalse (by simp)
  | a :: as, b :: bs => match decEq a b, decEqL as bs with
    | isTrue h, isTrue h' => isTrue (by rw [h, h'])
    | isFalse h, _ => isFalse (by simp [h])
    | _, isFalse h => isFalse (by simp [h])
/-- `decEq` on objects. -/
def decEqM : (a b : List (Str × Json)) → Decidable (a = b)
  | [], [] => isTrue rfl
  | [], _ :: _ => isFalse (by simp)
  | _ :: _, [] => isFalse (by simp)
  | (k, a) :: as, (k', b) :: bs =>
    if hk : k = k' then
      match decEq a b, decEqM as bs with
      | isTrue h, isTrue h' => isTrue (by rw [hk, h, h'])
      | isFalse h, _ => isFalse (by simp [h])
      | _, isFalse h => isFalse (by simp [h])
    else isFalse (by simp [hk])
end

instance : DecidableEq Json := decEq

/-- `Value::as_str`. -/
def asStr? : Json → Option Str
  | .str s => some s
  | _ => none

/-- `Value::as_array`. -/
def asArr? : Json → Option (List Json)
  | .arr l => some l
  | _ => none

/-- `Value::get(key)`: `None` unless the value is an object with that key. -/
def get? (k : Str) : Json → Option Json
  | .obj m => mget k m
  | _ => none

mutual
/-- Nesting depth: number of enclosing brackets of the innermost value. -/
def depth : Json → Nat
  | .arr l => depthL l + 1
  | .obj m => depthM m + 1
  | .null | .bool _ | .int _ | .flt _ | .str _ => 0
/-- `depth` on arrays. -/
def depthL : List Json → Nat
  | [] => 0
  | j :: l => max (depth j) (depthL l)
/-- `depth` on objects. -/
def depthM : List (Str × Json) → Nat
  | [] => 0
  | (_, j) :: m => max (depth j) (depthM m)
end

mutual
/-- Deserialising raw JSON into `serde_json::Value`: members of objects are inserted one
after the other into a `BTreeMap` (sorted, the last duplicate wins). -/
def norm : Json → Json
  | .arr l => .arr (normL l)
  | .obj m => .obj (mofList (normM m))
  | .null => .null
  | .bool b => .bool b
  | .int i => .int i
  | .flt f => .flt f
  | .str s => .str s
/-- `norm` on arrays. -/
def normL : List Json → List Json
  | [] => []
  | j :: l => norm j :: normL l
/-- `norm` on members (still in textual order). -/
def normM : List (Str × Json) → List (Str × Json)
  | [] => []
  | (k, j) :: m => (k, norm j) :: normM m
end

mutual
/-- The representation invariant of `serde_json::Value`: integers fit `i64`/`u64`,
objects have strictly increasing keys. `okFlt` says which literals denote floats. -/
def WF (okFlt : Str → Prop) : Json → Prop
  | .arr l => WFL okFlt l
  | .obj m => Sorted m ∧ WFM okFlt m
  | .int i => -(2 ^ 63) ≤ i ∧ i < 2 ^ 64
  | .flt f => okFlt f
  | .null | .bool _ | .str _ => True
/-- `WF` on arrays. -/
def WFL (okFlt : Str → Prop) : List Json → Prop
  | [] => True
  | j :: l => WF okFlt j ∧ WFL okFlt l
/-- `WF` on members. -/
def WFM (okFlt : Str → Prop) : List (Str × Json) → Prop
  | [] => True
  | (_, j) :: m => WF okFlt j ∧ WFM okFlt m
end

end Json
end Oid4vp
