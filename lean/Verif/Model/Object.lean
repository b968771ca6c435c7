import Verif.Model.JsonText
/-!
# Parameter objects and typed parameters (src/core/object/mod.rs)
-/

set_option autoImplicit false

namespace Oid4vp

/-- `UntypedObject` (src/core/object/mod.rs:8-9): a JSON object, i.e. a map from texts to
JSON values sorted by key. -/
abbrev UntypedObject := List (Str × Json)

/-- `trait TypedParameter` (src/core/object/mod.rs:13-17): `KEY`, `TryFrom<Json>` and
`TryInto<Json>`. -/
class TypedParameter (α : Type) where
  key : Str
  ofJson : Json → Res α
  toJson : α → Res Json

/-- Rust's `Default`. -/
class RDefault (α : Type) where
  dflt : α

namespace UntypedObject

/-- `UntypedObject::get` (src/core/object/mod.rs:36-38). -/
def get (α : Type) [TypedParameter α] (o : UntypedObject) : Option (Res α) :=
  match mget (TypedParameter.key α) o with
  | none => none
  | some j => some (TypedParameter.ofJson j)

/-- `UntypedObject::get_or_default` (src/core/object/mod.rs:23-31). -/
def getOrDefault (α : Type) [TypedParameter α] [RDefault α] (o : UntypedObject) : Res α :=
  match mget (TypedParameter.key α) o with
  | none => .ok RDefault.dflt
  | some j => TypedParameter.ofJson j

/-- `UntypedObject::remove` (src/core/object/mod.rs:41-43): the removed parameter and the
new object. -/
def remove (α : Type) [TypedParameter α] (o : UntypedObject) : Option (Res α) × UntypedObject :=
  match mget (TypedParameter.key α) o with
  | none => (none, o)
  | some j => (some (TypedParameter.ofJson j), mdel (TypedParameter.key α) o)

/-- `UntypedObject::insert` (src/core/object/mod.rs:51-56): the previous parameter and the
new object. A value that cannot be turned into JSON leaves the object unchanged. -/
def insert {α : Type} [TypedParameter α] (t : α) (o : UntypedObject) :
    Option (Res α) × UntypedObject :=
  match TypedParameter.toJson t with
  | .error _ => (some (.error .serialize), o)
  | .ok v =>
    (match mget (TypedParameter.key α) o with
      | none => none
      | some j => some (TypedParameter.ofJson j),
     mset (TypedParameter.key α) v o)

/-- The object left behind by `insert` (callers that ignore the previous parameter). -/
def put {α : Type} [TypedParameter α] (t : α) (o : UntypedObject) : UntypedObject :=
  (insert t o).2

/-- `From<UntypedObject> for Json` (src/core/object/mod.rs:59-63). -/
def toJson (o : UntypedObject) : Json := .obj o

end UntypedObject

/-- `ParsingErrorContext::parsing_error` on `Option<Result<T>>`
(src/core/object/mod.rs:71-78): absence is an error. -/
def parsingError {α : Type} : Option (Res α) → Res α
  | none => .error .missing
  | some r => r

/-! ## The pieces of `serde_json::from_value` the parameters use -/

/-- `from_value::<String>`. -/
def strOfJson : Json → Res Str
  | .str s => .ok s
  | _ => .error .parse

/-- `from_value::<bool>`. -/
def boolOfJson : Json → Res Bool
  | .bool b => .ok b
  | _ => .error .parse

/-- `from_value::<serde_json::Map>`. -/
def objOfJson : Json → Res (List (Str × Json))
  | .obj m => .ok m
  | _ => .error .parse

/-- `from_value::<Vec<T>>`. -/
def vecOfJson {α : Type} (f : Json → Res α) : Json → Res (List α)
  | .arr l => mapR f l
  | _ => .error .parse

/-- `from_value::<Vec<String>>`. -/
def strsOfJson : Json → Res (List Str) := vecOfJson strOfJson

/-- `Json::Array` of strings. -/
def strsToJson (l : List Str) : Json := .arr (l.map .str)

/-- The fields of a derived `struct` in a JSON value: an object, or (accepted by every
derived `Deserialize`) an array with exactly one element per field, in order. -/
def structFields (names : List Str) : Json → Res (List (Str × Json))
  | .obj m => .ok m
  | .arr l => if l.length = names.length then .ok (names.zip l) else .error .parse
  | _ => .error .parse

/-- A required field. -/
def fieldReq {α : Type} (k : Str) (f : Json → Res α) (m : List (Str × Json)) : Res α :=
  match mget k m with
  | none => .error .missing
  | some j => f j

/-- An `Option` field: absent and `null` both mean `None`. -/
def fieldOpt {α : Type} (k : Str) (f : Json → Res α) (m : List (Str × Json)) : Res (Option α) :=
  match mget k m with
  | none => .ok none
  | some .null => .ok none
  | some j => (f j).map some

/-- `#[serde(skip_serializing_if = "Option::is_none")]` while serialising a struct. -/
def msetOpt {α : Type} (k : Str) (o : Option α) (m : List (Str × α)) : List (Str × α) :=
  match o with
  | some v => mset k v m
  | none => m

end Oid4vp
