import Verif.Props.JsonGrammar
import Verif.Lemmas.JsonPretty
/-!
# C73: the order in which the members of objects are written does not matter

`serde_json` writes the members of an object sorted by name, or in the order of insertion if its
feature `preserve_order` is on, as it is for the examples and tests (/repo/Cargo.toml:59).
-/

set_option autoImplicit false

namespace Oid4vp
open Spec

/-- What is known of a reordered value. -/
structure OrderFacts (j j' : Json) : Prop where
  norm : j'.norm = j
  numOk : j'.NumOk
  depth : j'.depth = j.depth

theorem orderFacts_list {l l' : List Json} (hl : l.length = l'.length)
    (h : ∀ p ∈ l.zip l', OrderFacts p.1 p.2) :
    Json.normL l' = l ∧ Json.NumOkL l' ∧ Json.depthL l' = Json.depthL l := by
  induction l generalizing l' with
  | nil => cases l' with
    | nil => simp [Json.normL, Json.NumOkL]
    | cons => simp at hl
  | cons x xs ih => cases l' with
    | nil => simp at hl
    | cons y ys =>
      simp only [List.zip_cons_cons, List.mem_cons, forall_eq_or_imp] at h
      obtain ⟨a, b, c⟩ := ih (by simpa using hl) h.2
      simp [Json.normL, Json.NumOkL, Json.depthL, a, b, c, h.1.norm, h.1.numOk, h.1.depth]

theorem orderFacts_members {l l' : List (Str × Json)} (hl : l.map Prod.fst = l'.map Prod.fst)
    (h : ∀ p ∈ l.zip l', OrderFacts p.1.2 p.2.2) :
    Json.normM l' = l ∧ Json.NumOkM l' ∧ Json.depthM l' = Json.depthM l := by
  induction l generalizing l' with
  | nil => cases l' with
    | nil => simp [Json.normM, Json.NumOkM]
    | cons => simp at hl
  | cons x xs ih => cases l' with
    | nil => simp at hl
    | cons y ys =>
      obtain ⟨k, x⟩ := x
      obtain ⟨k', y⟩ := y
      simp only [List.zip_cons_cons, List.mem_cons, forall_eq_or_imp] at h
      simp only [List.map_cons, List.cons.injEq] at hl
      obtain ⟨a, b, c⟩ := ih hl.2 h.2
      simp [Json.normM, Json.NumOkM, Json.depthM, a, b, c, h.1.norm, h.1.numOk, h.1.depth, hl.1]

theorem depthM_perm {l l' : List (Str × Json)} (h : l.Perm l') : Json.depthM l = Json.depthM l' := by
  induction h with
  | nil => rfl
  | cons x _ ih => obtain ⟨k, x⟩ := x; simp [Json.depthM, ih]
  | swap x y l => obtain ⟨k, x⟩ := x; obtain ⟨k', y⟩ := y; simp [Json.depthM, Nat.max_left_comm]
  | trans _ _ h1 h2 => exact h1.trans h2

theorem orderFacts {j j' : Json} (h : Reordered j j') (hw : j.WF FltLit) : OrderFacts j j' := by
  induction h with
  | atom ha ho => exact ⟨norm_of_WF _ hw, numOk_of_WF _ hw, rfl⟩
  | @arr l l' hl _ ih =>
    rw [Json.WF, wfL_iff] at hw
    obtain ⟨a, b, c⟩ := orderFacts_list hl
      (fun p hp => ih p hp (hw _ (List.of_mem_zip hp).1))
    exact ⟨by rw [Json.norm, a], by rw [Json.NumOk]; exact b, by rw [Json.depth, Json.depth, c]⟩
  | @obj m p m' hp hk _ ih =>
    rw [Json.WF, wfM_iff] at hw
    obtain ⟨a, b, c⟩ := orderFacts_members hk
      (fun q hq => ih q hq (hw.2 _ (hp.symm.subset (List.of_mem_zip hq).1)))
    refine ⟨?_, by rw [Json.NumOk]; exact b, ?_⟩
    · rw [Json.norm, a, mofList_perm hw.1 hp.symm]
    · rw [Json.depth, Json.depth, c, depthM_perm hp]

/-- **C73** A value written with the members of its objects in any order, on one line or on many,
is read as the same value. -/
theorem C73_any_order {j j' : Json} (hr : Reordered j j') (h : j.WF FloatText) (hd : j.depth < 128) :
    JsonText (jPrint j') j ∧ JsonText (jPretty 0 j') j := by
  have ⟨h1, h2, h3⟩ := orderFacts hr (wf_mono (fun _ => fltLit_of_floatText) j h)
  have hd' : j'.depth ≤ jsonMaxDepth := by rw [h3]; exact Nat.le_of_lt_succ hd
  rw [← jParse_iff, ← jParse_iff]
  refine ⟨by rw [jParse_jPrint_norm hd' h2, h1], ?_⟩
  rw [jParse, jParseRaw_pretty hd' h2, ← h1]

/-- A claims set and the same in order of insertion. -/
def orderSample : Json × Json :=
  (.obj [(c!"a", .arr [.obj [(c!"x", .int 1), (c!"y", .bool true)]]), (c!"b", .null)],
   .obj [(c!"b", .null), (c!"a", .arr [.obj [(c!"y", .bool true), (c!"x", .int 1)]])])

theorem orderSample_reordered : Reordered orderSample.1 orderSample.2 := by
  refine .obj (List.Perm.swap _ _ _) rfl ?_
  simp only [List.zip_cons_cons, List.mem_cons, forall_eq_or_imp, List.zip_nil_left, List.not_mem_nil,
    false_imp_iff, implies_true, and_true]
  refine ⟨.atom (by simp) (by simp), .arr rfl ?_⟩
  simp only [List.zip_cons_cons, List.mem_cons, forall_eq_or_imp, List.zip_nil_left, List.not_mem_nil,
    false_imp_iff, implies_true, and_true]
  refine .obj (List.Perm.swap _ _ _) rfl ?_
  simp only [List.zip_cons_cons, List.mem_cons, forall_eq_or_imp, List.zip_nil_left, List.not_mem_nil,
    false_imp_iff, implies_true, and_true]
  exact ⟨.atom (by simp) (by simp), .atom (by simp) (by simp)⟩

theorem orderSample_wf : orderSample.1.WF FloatText := by
  simp only [orderSample, Json.WF, Json.WFM, Json.WFL, Sorted]
  refine ⟨⟨?_, ?_⟩, ⟨⟨⟨?_, ?_⟩, by omega, trivial, trivial⟩, trivial⟩, trivial, trivial⟩
  · intro p hp; simp at hp; subst hp; decide
  · simp
  · intro p hp; simp at hp; subst hp; decide
  · simp

example : JsonText c!"{\"b\":null,\"a\":[{\"y\":true,\"x\":1}]}" orderSample.1 :=
  (C73_any_order orderSample_reordered orderSample_wf (by decide)).1

end Oid4vp
