import Verif.Model.JsonPretty
import Verif.Lemmas.JsonRaw
import Verif.Lemmas.JsonText
/-!
# The texts of the pretty printer are JSON texts
-/

set_option autoImplicit false

namespace Oid4vp
open Spec

theorem space_newLine (n : Nat) : Space (newLine n) := by
  intro c hc
  simp only [newLine, List.mem_cons, List.mem_replicate] at hc
  rcases hc with rfl | ⟨-, rfl⟩ <;> decide

theorem strText_print (s : Str) : StrText (s.flatMap jEsc) s := by
  obtain ⟨t, ht, e⟩ := pStr_sound _ _ _ _ (pStr_lit s [])
  rwa [List.append_cancel_right e]

theorem rawNested_sub {d : Nat} {t : Str} {j : Json} (h : ∀ sub, RawValue sub t j) : RawNested d t j := by
  cases d <;> exact h _

mutual
theorem rawNested_pretty (n : Nat) (j : Json) (d : Nat) (hd : j.depth ≤ d) (hn : j.NumOk) :
    RawNested d (jPretty n j) j := by
  match j with
  | .null => exact rawNested_sub fun _ => .null
  | .bool true => exact rawNested_sub fun _ => .true
  | .bool false => exact rawNested_sub fun _ => .false
  | .int i =>
    refine rawNested_sub fun _ => .num ?_
    obtain ⟨t, e, ht⟩ := pNum_sound (pNum_int (by simpa [Json.NumOk] using hn) stop_nil (i := i))
    rw [← List.append_cancel_right e] at ht
    exact ht
  | .flt f =>
    refine rawNested_sub fun _ => .num ?_
    obtain ⟨t, e, ht⟩ := pNum_sound (s := f) (r := []) hn
    rw [List.append_nil] at e
    rw [← e] at ht
    exact ht
  | .str s =>
    have := fun sub => RawValue.str (sub := sub) (strText_print s)
    exact rawNested_sub fun sub => by simpa [jPretty, jPrint, jStr] using this sub
  | .arr [] =>
    cases d with
    | zero => simp [Json.depth] at hd
    | succ d => exact RawValue.empty (w := []) rfl space_nil
  | .obj [] =>
    cases d with
    | zero => simp [Json.depth] at hd
    | succ d => exact RawValue.emptyObj (w := []) rfl space_nil
  | .arr (j :: l) =>
    cases d with
    | zero => simp [Json.depth] at hd
    | succ d =>
      simp only [Json.depth, Json.depthL] at hd
      simp only [Json.NumOk, Json.NumOkL] at hn
      obtain ⟨u, e, h⟩ := items_pretty n l d (newLine (n + 1)) _ j (space_newLine _)
        (rawNested_pretty (n + 1) j d (by omega) hn.1) (by omega) hn.2
      rw [jPretty, e]
      exact RawValue.arr rfl h
  | .obj ((k, j) :: m) =>
    cases d with
    | zero => simp [Json.depth] at hd
    | succ d =>
      simp only [Json.depth, Json.depthM] at hd
      simp only [Json.NumOk, Json.NumOkM] at hn
      obtain ⟨u, e, h⟩ := members_pretty n m d k _ j
        (rawNested_pretty (n + 1) j d (by omega) hn.1) (by omega) hn.2
      rw [jPretty, e]
      exact RawValue.obj rfl h
theorem items_pretty (n : Nat) (l : List Json) (d : Nat) (w t : Str) (j : Json) (hw : Space w)
    (ht : RawNested d t j) (hd : Json.depthL l ≤ d) (hn : Json.NumOkL l) :
    ∃ u, w ++ (t ++ jPrettyL n l) = u ++ [']'] ∧ Items (RawNested d) u (j :: l) := by
  match l with
  | [] => exact ⟨w ++ t ++ newLine n, by simp [jPrettyL], .one hw ht (space_newLine n)⟩
  | j' :: l =>
    simp only [Json.depthL] at hd
    simp only [Json.NumOkL] at hn
    obtain ⟨u, e, h⟩ := items_pretty n l d (newLine (n + 1)) _ j' (space_newLine _)
      (rawNested_pretty (n + 1) j' d (by omega) hn.1) (by omega) hn.2
    refine ⟨w ++ t ++ [] ++ ',' :: u, ?_, .more hw ht space_nil h⟩
    rw [jPrettyL, e]
    simp
theorem members_pretty (n : Nat) (m : List (Str × Json)) (d : Nat) (k t : Str) (j : Json)
    (ht : RawNested d t j) (hd : Json.depthM m ≤ d) (hn : Json.NumOkM m) :
    ∃ u, newLine (n + 1) ++ (jStr k ++ (c!": " ++ (t ++ jPrettyM n m))) = u ++ ['}'] ∧
      Members (RawNested d) u ((k, j) :: m) := by
  have hsp : Space [' '] := by intro c h; simp at h; subst h; decide
  match m with
  | [] =>
    refine ⟨_, ?_, .one ⟨newLine (n + 1), k.flatMap jEsc, [], [' '], t, newLine n, space_newLine _, space_nil, hsp,
      space_newLine _, strText_print k, ht, rfl⟩⟩
    simp [jPrettyM, jStr]
  | (k', j') :: m =>
    simp only [Json.depthM] at hd
    simp only [Json.NumOkM] at hn
    obtain ⟨u, e, h⟩ := members_pretty n m d k' _ j' (rawNested_pretty (n + 1) j' d (by omega) hn.1)
      (by omega) hn.2
    refine ⟨_, ?_, .more ⟨newLine (n + 1), k.flatMap jEsc, [], [' '], t, [], space_newLine _, space_nil, hsp,
      space_nil, strText_print k, ht, rfl⟩ h⟩
    rw [jPrettyM, e]
    simp [jStr]
end

theorem rawText_pretty {j : Json} (hd : j.depth ≤ jsonMaxDepth) (hn : j.NumOk) : RawText (jPretty 0 j) j :=
  ⟨[], _, [], by simp, space_nil, space_nil, rawNested_pretty 0 j _ hd hn⟩

theorem jParseRaw_pretty {j : Json} (hd : j.depth ≤ jsonMaxDepth) (hn : j.NumOk) :
    jParseRaw (jPretty 0 j) = .ok j := RawJson.jParseRaw_iff.2 (rawText_pretty hd hn)

theorem jParse_pretty {j : Json} (hd : j.depth ≤ jsonMaxDepth) (h : j.WF FltLit) :
    jParse (jPretty 0 j) = .ok j := by
  have := jParseRaw_pretty hd (numOk_of_WF j h)
  have h' := jParse_jPrint hd h
  have h'' := jParseRaw_jPrint hd (numOk_of_WF j h)
  unfold jParse at h' ⊢
  rw [this]
  rwa [h''] at h'

end Oid4vp
