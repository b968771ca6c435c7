import Verif.Model.Params
import Verif.Lemmas.Basic
/-!
# Lemmas on struct fields, lists and the parameter objects
-/

set_option autoImplicit false

namespace Oid4vp

theorem mget_msetOpt {α : Type} (k k' : Str) (o : Option α) (m : List (Str × α)) :
    mget k (msetOpt k' o m) = if k = k' then o.or (mget k m) else mget k m := by
  cases o with
  | none => by_cases h : k = k' <;> simp [msetOpt, h]
  | some v => by_cases h : k = k' <;> simp [msetOpt, mget_mset, h]

theorem sorted_msetOpt {α : Type} {k : Str} {o : Option α} {m : List (Str × α)} (h : Sorted m) :
    Sorted (msetOpt k o m) := by
  cases o with
  | none => exact h
  | some v => exact sorted_mset h

theorem mapR_map_eq_self {α β : Type} {f : β → Res α} {g : α → β} {l : List α} :
    mapR f (l.map g) = .ok l ↔ ∀ x ∈ l, f (g x) = .ok x := by
  induction l with
  | nil => simp [mapR]
  | cons a l ih =>
    simp only [List.map_cons, mapR, List.mem_cons, forall_eq_or_imp]
    constructor
    · intro h
      split at h
      · simp at h
      · split at h
        · simp at h
        · rename_i b hb _ bs hbs
          simp only [Except.ok.injEq, List.cons.injEq] at h
          rw [h.1] at hb; rw [h.2] at hbs
          exact ⟨hb, ih.mp hbs⟩
    · intro h
      rw [h.1, ih.mpr h.2]

theorem vec_roundtrip {α : Type} {f : Json → Res α} {g : α → Json} {l : List α} :
    vecOfJson f (.arr (l.map g)) = .ok l ↔ ∀ x ∈ l, f (g x) = .ok x := mapR_map_eq_self

theorem nev_roundtrip {α : Type} {f : Json → Res α} {g : α → Json} {v : NonEmptyVec α} :
    NonEmptyVec.ofJson f (v.toJson g) = .ok v ↔ v.vec ≠ [] ∧ ∀ x ∈ v.vec, f (g x) = .ok x := by
  simp only [NonEmptyVec.ofJson, NonEmptyVec.toJson]
  constructor
  · intro h
    split at h
    · simp at h
    · rename_i l hl
      simp only [NonEmptyVec.tryFrom] at h
      split at h
      · simp at h
      · rename_i hne
        simp only [Except.ok.injEq] at h
        subst h
        exact ⟨by simpa using hne, vec_roundtrip.mp hl⟩
  · rintro ⟨hne, h⟩
    rw [vec_roundtrip.mpr h]
    simp [NonEmptyVec.tryFrom, hne]

theorem nev_ofJson_ok {α : Type} {f : Json → Res α} {j : Json} {v : NonEmptyVec α}
    (h : NonEmptyVec.ofJson f j = .ok v) : v.vec ≠ [] ∧
      ∃ l, j = .arr l ∧ mapR f l = .ok v.vec := by
  simp only [NonEmptyVec.ofJson] at h
  split at h
  · simp at h
  · rename_i l hl
    simp only [NonEmptyVec.tryFrom] at h
    split at h
    · simp at h
    · rename_i hne
      simp only [Except.ok.injEq] at h
      subst h
      refine ⟨by simpa using hne, ?_⟩
      cases j with
      | arr l' => exact ⟨l', rfl, hl⟩
      | null => simp [vecOfJson] at hl
      | bool _ => simp [vecOfJson] at hl
      | int _ => simp [vecOfJson] at hl
      | flt _ => simp [vecOfJson] at hl
      | str _ => simp [vecOfJson] at hl
      | obj _ => simp [vecOfJson] at hl

theorem mapR_mem {α β : Type} {f : α → Res β} {l : List α} {l' : List β} (h : mapR f l = .ok l') :
    (∀ y ∈ l', ∃ x ∈ l, f x = .ok y) ∧ (∀ x ∈ l, ∃ y ∈ l', f x = .ok y) ∧ l'.length = l.length := by
  induction l generalizing l' with
  | nil => simp only [mapR, Except.ok.injEq] at h; subst h; simp
  | cons a l ih =>
    simp only [mapR] at h
    split at h
    · simp at h
    · split at h
      · simp at h
      · rename_i b hb _ bs hbs
        simp only [Except.ok.injEq] at h
        subst h
        obtain ⟨h1, h2, h3⟩ := ih hbs
        refine ⟨?_, ?_, by simp [h3]⟩
        · intro y hy
          rcases List.mem_cons.mp hy with rfl | hy
          · exact ⟨a, by simp, hb⟩
          · obtain ⟨x, hx, hxy⟩ := h1 y hy
            exact ⟨x, by simp [hx], hxy⟩
        · intro x hx
          rcases List.mem_cons.mp hx with rfl | hx
          · exact ⟨b, by simp, hb⟩
          · obtain ⟨y, hy, hxy⟩ := h2 x hx
            exact ⟨y, by simp [hy], hxy⟩

theorem fieldOpt_some {α : Type} {k : Str} {f : Json → Res α} {j : Json} {m : List (Str × Json)}
    (hm : mget k m = some j) (hj : j ≠ .null) : fieldOpt k f m = (f j).map some := by
  cases j <;> simp_all [fieldOpt]

theorem fieldOpt_ok {α : Type} {k : Str} {f : Json → Res α} {m : List (Str × Json)} {o : Option α}
    (h : fieldOpt k f m = .ok o) :
    (∀ x, o = some x → ∃ j, mget k m = some j ∧ f j = .ok x) ∧
      (∀ j, mget k m = some j → j ≠ .null → ∃ x, o = some x ∧ f j = .ok x) := by
  cases hg : mget k m with
  | none =>
    simp only [fieldOpt, hg, Except.ok.injEq] at h
    subst h; simp
  | some j =>
    by_cases hj : j = .null
    · subst hj
      simp only [fieldOpt, hg, Except.ok.injEq] at h
      subst h
      refine ⟨by simp, ?_⟩
      intro j' hj' hne
      simp only [Option.some.injEq] at hj'
      exact absurd hj'.symm hne
    · rw [fieldOpt_some hg hj] at h
      cases hf : f j with
      | error e => simp [hf, Except.map] at h
      | ok x =>
        simp only [hf, Except.map, Except.ok.injEq] at h
        subst h
        refine ⟨?_, ?_⟩
        · intro y hy; cases hy; exact ⟨j, rfl, hf⟩
        · intro j' hj' _; cases hj'; exact ⟨x, rfl, hf⟩

theorem fieldReq_ok {α : Type} {k : Str} {f : Json → Res α} {m : List (Str × Json)} {x : α}
    (h : fieldReq k f m = .ok x) : ∃ j, mget k m = some j ∧ f j = .ok x := by
  simp only [fieldReq] at h
  split at h
  · simp at h
  · rename_i j hj; exact ⟨j, hj, h⟩

theorem fieldOpt_roundtrip {α : Type} {k : Str} {f : Json → Res α} {g : α → Json} {o : Option α}
    {m : List (Str × Json)} (hm : mget k m = o.map g) (hg : ∀ x, g x ≠ .null) :
    fieldOpt k f m = .ok o ↔ ∀ x, o = some x → f (g x) = .ok x := by
  cases o with
  | none => simp only [Option.map_none] at hm; simp [fieldOpt, hm]
  | some x =>
    rw [fieldOpt_some hm (hg x)]
    cases hf : f (g x) with
    | error e => simp [Except.map, hf]
    | ok y => simp [Except.map, hf]

theorem fieldReq_roundtrip {α : Type} {k : Str} {f : Json → Res α} {j : Json}
    {m : List (Str × Json)} (hm : mget k m = some j) : fieldReq k f m = f j := by
  simp [fieldReq, hm]

theorem bind_ok_iff {α β : Type} {x : Res α} {f : α → Res β} {b : β} :
    (x >>= f) = .ok b ↔ ∃ a, x = .ok a ∧ f a = .ok b := by
  cases x with
  | error e => simp [bind, Except.bind]
  | ok a => simp [bind, Except.bind]

theorem map_ok_iff {α β : Type} {x : Res α} {f : α → β} {b : β} :
    Except.map f x = .ok b ↔ ∃ a, x = .ok a ∧ f a = b := by
  cases x with
  | error e => simp [Except.map]
  | ok a => simp [Except.map]

theorem strOfJson_ok {j : Json} {s : Str} : strOfJson j = .ok s ↔ j = .str s := by
  cases j <;> simp [strOfJson]

theorem boolOfJson_ok {j : Json} {b : Bool} : boolOfJson j = .ok b ↔ j = .bool b := by
  cases j <;> simp [boolOfJson]

theorem objOfJson_ok {j : Json} {m : List (Str × Json)} : objOfJson j = .ok m ↔ j = .obj m := by
  cases j <;> simp [objOfJson]

theorem strs_roundtrip (l : List Str) : strsOfJson (strsToJson l) = .ok l := by
  simp only [strsOfJson, strsToJson]
  exact vec_roundtrip.mpr fun x _ => rfl

theorem strsOfJson_ok {j : Json} {l : List Str} : strsOfJson j = .ok l ↔ j = strsToJson l := by
  constructor
  · intro h
    cases j with
    | arr js =>
      simp only [strsOfJson, vecOfJson] at h
      simp only [strsToJson, Json.arr.injEq]
      induction js generalizing l with
      | nil => simp only [mapR, Except.ok.injEq] at h; subst h; rfl
      | cons j js ih =>
        simp only [mapR] at h
        split at h
        · simp at h
        · split at h
          · simp at h
          · rename_i hb _ _ hbs
            simp only [Except.ok.injEq] at h
            subst h
            rw [List.map_cons, ← ih hbs, strOfJson_ok.mp hb]
    | _ => simp [strsOfJson, vecOfJson] at h
  · rintro rfl; exact strs_roundtrip l

end Oid4vp
