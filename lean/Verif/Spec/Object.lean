import Verif.Model.Object
/-!
# Histories of a parameter object, seen from outside
-/

set_option autoImplicit false

namespace Oid4vp.Spec

/-- One call on a parameter object, for any kind of parameter. -/
inductive ObjOp : Type 1
  | insert {α : Type} [TypedParameter α] (t : α)
  | remove (α : Type) [TypedParameter α]

namespace ObjOp

/-- The name of the parameter the call is about. -/
def key : ObjOp → Str
  | @insert α _ _ => TypedParameter.key α
  | @remove α _ => TypedParameter.key α

/-- What the call leaves under its key: a value (`some (some v)`), nothing
(`some none`), or what was there (`none`, if the value has no JSON form). -/
def leaves : ObjOp → Option (Option Json)
  | @insert _ _ t => match TypedParameter.toJson t with
    | .ok v => some (some v)
    | .error _ => none
  | @remove _ _ => some none

/-- Perform the call with the library's functions. -/
def run (o : UntypedObject) : ObjOp → UntypedObject
  | @insert _ _ t => (UntypedObject.insert t o).2
  | @remove α _ => (UntypedObject.remove α o).2

end ObjOp

/-- Perform a history of calls. -/
def runOps (ops : List ObjOp) (o : UntypedObject) : UntypedObject := ops.foldl ObjOp.run o

/-- What the last effective call about a key in a history left there (`none`: there was no
such call). -/
def lastLeft (ops : List ObjOp) (k : Str) : Option (Option Json) :=
  ((ops.filter (fun op => op.key = k)).filterMap ObjOp.leaves).getLast?

/-- The value under a key after a history, according to the history alone. -/
def valueAfter (ops : List ObjOp) (o : UntypedObject) (k : Str) : Option Json :=
  match lastLeft ops k with
  | some v => v
  | none => mget k o

end Oid4vp.Spec
