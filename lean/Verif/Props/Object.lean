import Verif.Spec.Object
import Verif.Model.Params
import Verif.Lemmas.Basic
/-!
# C01: parameter objects as typed maps
-/

set_option autoImplicit false

namespace Oid4vp

open Spec

theorem objOp_run_other {o : UntypedObject} (ho : Sorted o) (op : ObjOp) {k : Str} (h : op.key ≠ k) :
    mget k (op.run o) = mget k o := by
  cases op with
  | insert t =>
    have h' : k ≠ TypedParameter.key _ := fun e => h e.symm
    simp only [ObjOp.run, UntypedObject.insert]
    cases TypedParameter.toJson t with
    | error e => rfl
    | ok v => exact mget_mset_ne h' _ _
  | remove α =>
    have h' : k ≠ TypedParameter.key α := fun e => h e.symm
    simp only [ObjOp.run, UntypedObject.remove]
    cases hg : mget (TypedParameter.key α) o with
    | none => rfl
    | some j => simp only [mget_mdel ho, if_neg h']

theorem objOp_run_self {o : UntypedObject} (ho : Sorted o) (op : ObjOp) :
    mget op.key (op.run o) = match op.leaves with | some v => v | none => mget op.key o := by
  cases op with
  | insert t =>
    simp only [ObjOp.run, ObjOp.leaves, UntypedObject.insert]
    cases TypedParameter.toJson t with
    | error e => rfl
    | ok v => exact mget_mset_self _ _ _
  | remove α =>
    simp only [ObjOp.run, ObjOp.leaves, UntypedObject.remove]
    cases hg : mget (TypedParameter.key α) o with
    | none => exact hg
    | some j => simp only [ObjOp.key, mget_mdel ho, if_true]

theorem objOp_run_sorted {o : UntypedObject} (ho : Sorted o) (op : ObjOp) : Sorted (op.run o) := by
  cases op with
  | insert t =>
    simp only [ObjOp.run, UntypedObject.insert]
    cases TypedParameter.toJson t with
    | error e => exact ho
    | ok v => exact sorted_mset ho
  | remove α =>
    simp only [ObjOp.run, UntypedObject.remove]
    cases hg : mget (TypedParameter.key α) o with
    | none => exact ho
    | some j => exact sorted_mdel ho

theorem runOps_sorted (ops : List ObjOp) {o : UntypedObject} (ho : Sorted o) : Sorted (runOps ops o) := by
  induction ops generalizing o with
  | nil => exact ho
  | cons op ops ih => exact ih (objOp_run_sorted ho op)

/-- The value under every key after every history is what the last effective call about that
key left there, or the initial one if there was none. -/
theorem runOps_mget (ops : List ObjOp) {o : UntypedObject} (ho : Sorted o) (k : Str) :
    mget k (runOps ops o) = valueAfter ops o k := by
  induction ops generalizing o with
  | nil => rfl
  | cons op ops ih =>
    rw [show runOps (op :: ops) o = runOps ops (op.run o) from rfl, ih (objOp_run_sorted ho op)]
    simp only [valueAfter, lastLeft]
    by_cases h : op.key = k
    · subst h
      rw [List.filter_cons_of_pos (by simp), List.filterMap_cons, objOp_run_self ho]
      cases hl : op.leaves with
      | none => rfl
      | some v =>
        simp only [List.getLast?_cons]
        cases ((ops.filter _).filterMap ObjOp.leaves).getLast? <;> rfl
    · rw [List.filter_cons_of_neg (by simpa using h), objOp_run_other ho op h]

/-- **C01** After any history of insertions and removals of parameters of any kinds, reading
a parameter gives exactly the conversion of what the last effective call about its key left
there (or of the initial value), and nothing if that is nothing. -/
theorem C01_object_history (ops : List ObjOp) (o : UntypedObject) (ho : Sorted o) (α : Type)
    [TypedParameter α] :
    UntypedObject.get α (runOps ops o) =
      (valueAfter ops o (TypedParameter.key α)).map TypedParameter.ofJson := by
  simp only [UntypedObject.get, runOps_mget ops ho]
  cases valueAfter ops o (TypedParameter.key α) <;> rfl

/-- **C01** Reading with a default gives the default exactly if nothing is there. -/
theorem C01_object_history_default (ops : List ObjOp) (o : UntypedObject) (ho : Sorted o) (α : Type)
    [TypedParameter α] [RDefault α] :
    UntypedObject.getOrDefault α (runOps ops o) =
      match valueAfter ops o (TypedParameter.key α) with
      | none => .ok RDefault.dflt
      | some j => TypedParameter.ofJson j := by
  simp only [UntypedObject.getOrDefault, runOps_mget ops ho]
  cases valueAfter ops o (TypedParameter.key α) <;> rfl

/-- **C01** Inserting (at any point of any history) returns the previous value under the key,
stores the new one, and touches no other key. If the value has no JSON form an error is
returned and nothing changes. -/
theorem C01_insert (ops : List ObjOp) (o : UntypedObject) (ho : Sorted o) {α : Type}
    [TypedParameter α] (t : α) :
    let o' := runOps ops o
    (∀ v, TypedParameter.toJson t = .ok v →
      (UntypedObject.insert t o').1 =
        (valueAfter ops o (TypedParameter.key α)).map TypedParameter.ofJson ∧
      UntypedObject.get α (UntypedObject.insert t o').2 = some (TypedParameter.ofJson v) ∧
      ∀ (β : Type) [TypedParameter β], TypedParameter.key β ≠ TypedParameter.key α →
        UntypedObject.get β (UntypedObject.insert t o').2 = UntypedObject.get β o') ∧
    (∀ e, TypedParameter.toJson t = .error e →
      UntypedObject.insert t o' = (some (.error .serialize), o')) := by
  refine ⟨fun v hv => ⟨?_, ?_, fun β _ hβ => ?_⟩, fun e he => ?_⟩
  · simp only [UntypedObject.insert, hv, runOps_mget ops ho]
    cases valueAfter ops o (TypedParameter.key α) <;> rfl
  · simp only [UntypedObject.insert, hv, UntypedObject.get, mget_mset_self]
  · simp only [UntypedObject.insert, hv, UntypedObject.get, mget_mset, if_neg hβ]
  · simp only [UntypedObject.insert, he]

/-- **C01** Removing returns the value under the key, leaves the key absent, and touches no
other key. -/
theorem C01_remove (ops : List ObjOp) (o : UntypedObject) (ho : Sorted o) (α : Type)
    [TypedParameter α] :
    let o' := runOps ops o
    (UntypedObject.remove α o').1 =
      (valueAfter ops o (TypedParameter.key α)).map TypedParameter.ofJson ∧
    UntypedObject.get α (UntypedObject.remove α o').2 = none ∧
    ∀ (β : Type) [TypedParameter β], TypedParameter.key β ≠ TypedParameter.key α →
      UntypedObject.get β (UntypedObject.remove α o').2 = UntypedObject.get β o' := by
  have hs := runOps_sorted ops ho
  refine ⟨?_, ?_, fun β _ hβ => ?_⟩
  · simp only [UntypedObject.remove, runOps_mget ops ho]
    cases valueAfter ops o (TypedParameter.key α) <;> rfl
  · simp only [UntypedObject.remove]
    cases hg : mget (TypedParameter.key α) (runOps ops o) with
    | none => simp only [UntypedObject.get, hg]
    | some j => simp only [UntypedObject.get, mget_mdel hs, if_true]
  · simp only [UntypedObject.remove]
    cases hg : mget (TypedParameter.key α) (runOps ops o) with
    | none => rfl
    | some j => simp only [UntypedObject.get, mget_mdel hs, if_neg hβ]

/-- **C01** The object stays a map with strictly increasing keys. -/
theorem C01_sorted (ops : List ObjOp) (o : UntypedObject) (ho : Sorted o) : Sorted (runOps ops o) :=
  runOps_sorted ops ho

/-- A history with overwriting, removal and two kinds of parameters under one key. -/
def objHistory : List ObjOp :=
  [.insert (Nonce.mk c!"n1"), .insert (State.mk c!"s"), .insert (Nonce.mk c!"n2"),
   .insert (VpFormats.mk []), .remove VpFormatsSupported, .remove State, .insert (State.mk c!"t"),
   .remove State]

example : UntypedObject.get Nonce (runOps objHistory [(c!"aud", .int 1)]) = some (.ok ⟨c!"n2"⟩) := by
  decide

example : UntypedObject.get State (runOps objHistory [(c!"state", .str c!"old")]) = none := by decide

example : UntypedObject.get VpFormats (runOps objHistory []) = none := by decide

example : UntypedObject.get Audience (runOps objHistory [(c!"aud", .int 1)]) = some (.error .parse) := by
  decide

example : (UntypedObject.insert (Nonce.mk c!"n3") (runOps objHistory [])).1 = some (.ok ⟨c!"n2"⟩) := by
  decide

end Oid4vp
