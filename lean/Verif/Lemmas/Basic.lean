import Verif.Model.Basic
import Mathlib.Data.List.Forall2
/-!
# Lemmas about the basic vocabulary
-/

set_option autoImplicit false

namespace Oid4vp

theorem Char.toNat_inj {a b : Char} (h : a.toNat = b.toNat) : a = b := by
  have := congrArg Char.ofNat h
  simpa [Char.ofNat_toNat] using this

/-! ## Order on texts -/

theorem strLt_irrefl (s : Str) : strLt s s = false := by
  induction s with
  | nil => rfl
  | cons a s ih => simp [strLt, ih]

theorem strLt_trans {a b c : Str} : strLt a b = true → strLt b c = true → strLt a c = true := by
  induction a generalizing b c with
  | nil => intro h1 h2; cases b <;> cases c <;> simp_all [strLt]
  | cons x xs ih =>
    intro h1 h2
    cases b with
    | nil => simp [strLt] at h1
    | cons y ys =>
      cases c with
      | nil => simp [strLt] at h2
      | cons z zs =>
        simp only [strLt] at h1 h2 ⊢
        by_cases hxy : x.toNat < y.toNat
        · by_cases hyz : y.toNat < z.toNat
          · simp [Nat.lt_trans hxy hyz]
          · simp only [hyz, if_false] at h2
            by_cases h : y = z
            · subst h; simp [hxy]
            · simp [h] at h2
        · simp only [hxy, if_false] at h1
          by_cases h : x = y
          · subst h
            simp only [if_true] at h1
            by_cases hyz : x.toNat < z.toNat
            · simp [hyz]
            · simp only [hyz, if_false] at h2 ⊢
              by_cases h : x = z
              · subst h; simp only [if_true] at h2 ⊢; exact ih h1 h2
              · simp [h] at h2
          · simp [h] at h1

theorem strLt_total {a b : Str} : a ≠ b → strLt a b = false → strLt b a = true := by
  induction a generalizing b with
  | nil => intro h1 h2; cases b <;> simp_all [strLt]
  | cons x xs ih =>
    intro h1 h2
    cases b with
    | nil => simp [strLt]
    | cons y ys =>
      simp only [strLt] at h2 ⊢
      by_cases hxy : x.toNat < y.toNat
      · simp [hxy] at h2
      · simp only [hxy, if_false] at h2
        by_cases h : x = y
        · subst h
          simp only [if_true] at h2
          simp [ih (fun h => h1 (by rw [h])) h2]
        · have : x.toNat ≠ y.toNat := fun e => h (Char.toNat_inj e)
          have : y.toNat < x.toNat := by omega
          simp [this]

theorem strLt_ne {a b : Str} (h : strLt a b = true) : a ≠ b := by
  intro e; subst e; simp [strLt_irrefl] at h

theorem strLt_asymm {a b : Str} (h : strLt a b = true) : strLt b a = false := by
  cases hb : strLt b a with
  | false => rfl
  | true => have := strLt_trans h hb; simp [strLt_irrefl] at this

/-! ## Association lists -/

section Maps
variable {α β : Type}

@[simp] theorem mget_nil (k : Str) : mget k ([] : List (Str × α)) = none := rfl

theorem mget_mset (k k' : Str) (v : α) (m : List (Str × α)) :
    mget k (mset k' v m) = if k = k' then some v else mget k m := by
  induction m with
  | nil => simp [mset, mget]
  | cons p m ih =>
    obtain ⟨q, w⟩ := p
    simp only [mset]
    by_cases h : k' = q
    · subst h
      simp only [if_true, mget]
      by_cases hk : k = k' <;> simp [hk]
    · simp only [h, if_false]
      by_cases hl : strLt k' q = true
      · simp [hl, mget]
      · rw [if_neg hl]
        simp only [mget, ih]
        by_cases hq : k = q
        · simp [hq, Ne.symm h]
        · simp [hq]

theorem mget_mset_self (k : Str) (v : α) (m : List (Str × α)) : mget k (mset k v m) = some v := by
  simp [mget_mset]

theorem mget_mset_ne {k k' : Str} (h : k ≠ k') (v : α) (m : List (Str × α)) :
    mget k (mset k' v m) = mget k m := by
  simp [mget_mset, h]

theorem mem_of_mget {k : Str} {v : α} {m : List (Str × α)} (h : mget k m = some v) :
    (k, v) ∈ m := by
  induction m with
  | nil => simp at h
  | cons p m ih =>
    obtain ⟨q, w⟩ := p
    simp only [mget] at h
    by_cases hk : k = q
    · simp [hk] at h; subst h; subst hk; simp
    · simp only [hk, if_false] at h; exact List.mem_cons_of_mem _ (ih h)

theorem mget_none_of_notMem {k : Str} {m : List (Str × α)} (h : ∀ v, (k, v) ∉ m) :
    mget k m = none := by
  cases hm : mget k m with
  | none => rfl
  | some v => exact absurd (mem_of_mget hm) (h v)

theorem mget_of_lt {k : Str} {m : List (Str × α)} (h : ∀ p ∈ m, strLt k p.1 = true) :
    mget k m = none := by
  apply mget_none_of_notMem
  intro v hv
  have := h _ hv
  simp [strLt_irrefl] at this

theorem mget_of_mem {k : Str} {v : α} {m : List (Str × α)} (hs : Sorted m) (h : (k, v) ∈ m) :
    mget k m = some v := by
  induction m with
  | nil => simp at h
  | cons p m ih =>
    obtain ⟨q, w⟩ := p
    simp only [mget]
    by_cases hk : k = q
    · subst hk
      rcases List.mem_cons.mp h with h | h
      · cases h; simp
      · exact absurd rfl (strLt_ne (hs.1 _ h))
    · rcases List.mem_cons.mp h with h | h
      · cases h; exact absurd rfl hk
      · simp only [hk, if_false]; exact ih hs.2 h

theorem mem_mset {k : Str} {v : α} {m : List (Str × α)} {p : Str × α} (h : p ∈ mset k v m) :
    p = (k, v) ∨ p ∈ m := by
  induction m with
  | nil => simp [mset] at h; exact .inl h
  | cons q m ih =>
    obtain ⟨q, w⟩ := q
    simp only [mset] at h
    split at h
    · rcases List.mem_cons.mp h with h | h
      · exact .inl h
      · exact .inr (List.mem_cons_of_mem _ h)
    · split at h
      · rcases List.mem_cons.mp h with h | h
        · exact .inl h
        · exact .inr h
      · rcases List.mem_cons.mp h with h | h
        · exact .inr (by rw [h]; simp)
        · rcases ih h with h | h
          · exact .inl h
          · exact .inr (List.mem_cons_of_mem _ h)

theorem sorted_mset {k : Str} {v : α} {m : List (Str × α)} (h : Sorted m) :
    Sorted (mset k v m) := by
  induction m with
  | nil => simp [mset, Sorted]
  | cons q m ih =>
    obtain ⟨q, w⟩ := q
    simp only [mset]
    split
    · next e => subst e; exact h
    · next e =>
      split
      · next hl =>
        refine ⟨?_, h⟩
        intro p hp
        rcases List.mem_cons.mp hp with hp | hp
        · rw [hp]; exact hl
        · exact strLt_trans hl (h.1 _ hp)
      · next hl =>
        refine ⟨?_, ih h.2⟩
        intro p hp
        rcases mem_mset hp with hp | hp
        · rw [hp]; exact strLt_total e (by simpa using hl)
        · exact h.1 _ hp

theorem sorted_mdel {k : Str} {m : List (Str × α)} (h : Sorted m) : Sorted (mdel k m) := by
  induction m with
  | nil => trivial
  | cons q m ih =>
    obtain ⟨q, w⟩ := q
    simp only [mdel]
    split
    · exact h.2
    · refine ⟨?_, ih h.2⟩
      have hsub : ∀ (l : List (Str × α)) p, p ∈ mdel k l → p ∈ l := by
        intro l
        induction l with
        | nil => simp [mdel]
        | cons a l ih =>
          obtain ⟨a, b⟩ := a
          intro p hp
          simp only [mdel] at hp
          split at hp
          · exact List.mem_cons_of_mem _ hp
          · rcases List.mem_cons.mp hp with hp | hp
            · rw [hp]; simp
            · exact List.mem_cons_of_mem _ (ih _ hp)
      intro p hp
      exact h.1 _ (hsub _ _ hp)

theorem mget_mdel {k k' : Str} {m : List (Str × α)} (h : Sorted m) :
    mget k (mdel k' m) = if k = k' then none else mget k m := by
  induction m with
  | nil => simp [mdel]
  | cons q m ih =>
    obtain ⟨q, w⟩ := q
    simp only [mdel]
    by_cases e : k' = q
    · subst e
      simp only [if_true, mget]
      by_cases hk : k = k'
      · subst hk
        simp [mget_of_lt h.1]
      · simp [hk]
    · simp only [e, if_false, mget, ih h.2]
      by_cases hk : k = q
      · have : k ≠ k' := fun e' => e (by rw [← e', hk])
        simp [hk, Ne.symm e]
      · simp [hk]

/-- A sorted association list is determined by its lookups. -/
theorem map_ext {m m' : List (Str × α)} (h : Sorted m) (h' : Sorted m')
    (he : ∀ k, mget k m = mget k m') : m = m' := by
  induction m generalizing m' with
  | nil =>
    cases m' with
    | nil => rfl
    | cons p m' => obtain ⟨k, v⟩ := p; have := he k; simp [mget] at this
  | cons p m ih =>
    obtain ⟨k, v⟩ := p
    cases m' with
    | nil => have := he k; simp [mget] at this
    | cons p' m' =>
      obtain ⟨k', v'⟩ := p'
      have hk : k = k' := by
        by_cases e : k = k'
        · exact e
        · exfalso
          have h1 := he k
          have h2 := he k'
          simp only [mget, if_true, e, if_false, Ne.symm e] at h1 h2
          have m1 := h'.1 _ (mem_of_mget h1.symm)
          have m2 := h.1 _ (mem_of_mget h2)
          simp only at m1 m2
          have := strLt_asymm m1
          simp_all
      subst hk
      have hv := he k
      simp only [mget, if_true] at hv
      have hv : v = v' := by simpa using hv
      subst hv
      congr 1
      apply ih h.2 h'.2
      intro j
      by_cases e : j = k
      · subst e
        rw [mget_of_lt h.1, mget_of_lt h'.1]
      · have := he j
        simpa [mget, e] using this

theorem mset_cons_of_lt {k : Str} {v : α} {m : List (Str × α)} (h : ∀ p ∈ m, strLt k p.1 = true) :
    mset k v m = (k, v) :: m := by
  cases m with
  | nil => rfl
  | cons p m =>
    obtain ⟨q, w⟩ := p
    have := h (q, w) (by simp)
    simp [mset, this, strLt_ne this]

theorem foldl_mset_sorted {l m : List (Str × α)} (h : Sorted m) :
    Sorted (l.foldl (fun m p => mset p.1 p.2 m) m) := by
  induction l generalizing m with
  | nil => exact h
  | cons p l ih => exact ih (sorted_mset h)

theorem mofList_sorted (l : List (Str × α)) : Sorted (mofList l) :=
  foldl_mset_sorted (by trivial)

/-- The value a list of assignments leaves under a key: the last one. -/
def lastOf (k : Str) (l : List (Str × α)) : Option α := mget k l.reverse

theorem mget_append (k : Str) (l l' : List (Str × α)) :
    mget k (l ++ l') = (mget k l).or (mget k l') := by
  induction l with
  | nil => simp
  | cons p l ih =>
    obtain ⟨q, w⟩ := p
    simp only [List.cons_append, mget]
    by_cases h : k = q <;> simp [h, ih]

theorem mget_foldl_mset (k : Str) (l m : List (Str × α)) :
    mget k (l.foldl (fun m p => mset p.1 p.2 m) m) = (mget k l.reverse).or (mget k m) := by
  induction l generalizing m with
  | nil => simp
  | cons p l ih =>
    obtain ⟨q, w⟩ := p
    simp only [List.foldl_cons, ih, List.reverse_cons, mget_append, mget_mset]
    by_cases h : k = q <;> cases mget k l.reverse <;> simp [mget, h]

theorem mget_mofList (k : Str) (l : List (Str × α)) : mget k (mofList l) = mget k l.reverse := by
  simp [mofList, mget_foldl_mset]

/-- Keys pairwise different. -/
def NoDupKeys (l : List (Str × α)) : Prop := (l.map Prod.fst).Nodup

theorem mget_of_mem_nodup {k : Str} {v : α} {l : List (Str × α)} (hn : NoDupKeys l)
    (h : (k, v) ∈ l) : mget k l = some v := by
  induction l with
  | nil => simp at h
  | cons p l ih =>
    obtain ⟨q, w⟩ := p
    simp only [NoDupKeys, List.map_cons, List.nodup_cons] at hn
    simp only [mget]
    rcases List.mem_cons.mp h with h1 | h1
    · cases h1; simp
    · by_cases e : k = q
      · subst e
        exact absurd (List.mem_map.mpr ⟨_, h1, rfl⟩) hn.1
      · simp only [e, if_false]; exact ih hn.2 h1

theorem mget_perm {k : Str} {l l' : List (Str × α)} (hn : NoDupKeys l) (hp : l.Perm l') :
    mget k l = mget k l' := by
  have hn' : NoDupKeys l' := (hp.map Prod.fst).nodup_iff.mp hn
  cases h : mget k l with
  | some v => exact (mget_of_mem_nodup hn' (hp.mem_iff.mp (mem_of_mget h))).symm
  | none =>
    cases h' : mget k l' with
    | none => rfl
    | some v =>
      have := mget_of_mem_nodup hn (hp.mem_iff.mpr (mem_of_mget h'))
      rw [h] at this; exact absurd this (by simp)

theorem sorted_nodup {m : List (Str × α)} (h : Sorted m) : NoDupKeys m := by
  induction m with
  | nil => simp [NoDupKeys]
  | cons p m ih =>
    obtain ⟨k, v⟩ := p
    simp only [NoDupKeys, List.map_cons, List.nodup_cons]
    refine ⟨?_, ih h.2⟩
    intro hk
    obtain ⟨p, hp, e⟩ := List.mem_map.mp hk
    have := h.1 _ hp
    rw [e] at this
    simp [strLt_irrefl] at this

/-- Collecting any enumeration of a map's entries gives the map back. -/
theorem mofList_perm {m l : List (Str × α)} (h : Sorted m) (hp : l.Perm m) : mofList l = m := by
  apply map_ext (mofList_sorted l) h
  intro k
  rw [mget_mofList]
  have h1 := mget_perm (k := k) (sorted_nodup h) ((List.reverse_perm l).trans hp).symm
  exact h1.symm

theorem mofList_self {m : List (Str × α)} (h : Sorted m) : mofList m = m :=
  mofList_perm h (List.Perm.refl m)

theorem mget_map (f : α → β) (k : Str) (m : List (Str × α)) :
    mget k (m.map (fun p => (p.1, f p.2))) = (mget k m).map f := by
  induction m with
  | nil => rfl
  | cons p m ih =>
    obtain ⟨q, w⟩ := p
    simp only [List.map_cons, mget]
    by_cases h : k = q <;> simp [h, ih]

theorem sorted_map (f : α → β) {m : List (Str × α)} (h : Sorted m) :
    Sorted (m.map (fun p => (p.1, f p.2))) := by
  induction m with
  | nil => trivial
  | cons p m ih =>
    obtain ⟨q, w⟩ := p
    refine ⟨?_, ih h.2⟩
    intro p' hp'
    obtain ⟨p, hp, e⟩ := List.mem_map.mp hp'
    rw [← e]; exact h.1 _ hp

end Maps

/-! ## String functions -/

theorem splitOnce_eq_some {c : Char} {s a b : Str} :
    splitOnce c s = some (a, b) ↔ s = a ++ c :: b ∧ c ∉ a := by
  induction s generalizing a b with
  | nil => simp [splitOnce]
  | cons x xs ih =>
    simp only [splitOnce]
    by_cases h : x = c
    · subst h
      simp only [if_true, Option.some.injEq, Prod.mk.injEq]
      constructor
      · rintro ⟨rfl, rfl⟩; simp
      · rintro ⟨h1, h2⟩
        cases a with
        | nil => simp at h1; simp [h1]
        | cons y ys => simp at h1; simp [h1.1] at h2
    · simp only [h, if_false]
      cases hs : splitOnce c xs with
      | none =>
        simp only [reduceCtorEq, false_iff, not_and]
        intro h1 h2
        cases a with
        | nil => simp at h1; exact h h1.1
        | cons y ys =>
          simp at h1 h2
          have := (ih (a := ys) (b := b)).mpr ⟨h1.2, h2.2⟩
          rw [hs] at this; simp at this
      | some p =>
        obtain ⟨p, q⟩ := p
        simp only [Option.some.injEq, Prod.mk.injEq]
        have := (ih (a := p) (b := q)).mp hs
        constructor
        · rintro ⟨rfl, rfl⟩
          simp [this.1, this.2, Ne.symm h]
        · rintro ⟨h1, h2⟩
          cases a with
          | nil => simp at h1; exact absurd h1.1 h
          | cons y ys =>
            simp at h1 h2
            have h3 := (ih (a := ys) (b := b)).mpr ⟨h1.2, h2.2⟩
            rw [hs] at h3
            simp at h3
            simp [h3, h1.1]

theorem splitOnce_eq_none {c : Char} {s : Str} : splitOnce c s = none ↔ c ∉ s := by
  induction s with
  | nil => simp [splitOnce]
  | cons x xs ih =>
    simp only [splitOnce]
    by_cases h : x = c
    · simp [h]
    · simp only [h, if_false, List.mem_cons, not_or]
      cases hs : splitOnce c xs with
      | none => simp [ih.mp hs, Ne.symm h]
      | some p => simp only [reduceCtorEq, false_iff, not_and]; intro _ h2; rw [ih.mpr h2] at hs; simp at hs

theorem splitOnce_append {c : Char} {a b : Str} (h : c ∉ a) :
    splitOnce c (a ++ c :: b) = some (a, b) := splitOnce_eq_some.mpr ⟨rfl, h⟩

theorem rsplitOnce_eq_none {c : Char} {s : Str} : rsplitOnce c s = none ↔ c ∉ s := by
  induction s with
  | nil => simp [rsplitOnce]
  | cons x xs ih =>
    simp only [rsplitOnce]
    cases hs : rsplitOnce c xs with
    | none =>
      by_cases h : x = c
      · simp [h]
      · simp [h, ih.mp hs, Ne.symm h]
    | some p =>
      simp only [reduceCtorEq, List.mem_cons, not_or, false_iff, not_and]
      intro _ h2; rw [ih.mpr h2] at hs; simp at hs

theorem rsplitOnce_eq_some {c : Char} {s a b : Str} :
    rsplitOnce c s = some (a, b) ↔ s = a ++ c :: b ∧ c ∉ b := by
  induction s generalizing a b with
  | nil => simp [rsplitOnce]
  | cons x xs ih =>
    simp only [rsplitOnce]
    cases hs : rsplitOnce c xs with
    | none =>
      have hc := rsplitOnce_eq_none.mp hs
      simp only
      by_cases h : x = c
      · subst h
        simp only [if_true, Option.some.injEq, Prod.mk.injEq]
        constructor
        · rintro ⟨rfl, rfl⟩; simp [hc]
        · rintro ⟨h1, h2⟩
          cases a with
          | nil => simp at h1; simp [h1]
          | cons y ys => simp at h1; rw [h1.2] at hc; simp at hc
      · simp only [h, if_false, reduceCtorEq, false_iff, not_and]
        intro h1 h2
        cases a with
        | nil => simp at h1; exact h h1.1
        | cons y ys => simp at h1; rw [h1.2] at hc; simp at hc
    | some p =>
      obtain ⟨p, q⟩ := p
      simp only [Option.some.injEq, Prod.mk.injEq]
      have := (ih (a := p) (b := q)).mp hs
      constructor
      · rintro ⟨rfl, rfl⟩
        simp [this.1, this.2]
      · rintro ⟨h1, h2⟩
        cases a with
        | nil => simp at h1; rw [← h1.2, this.1] at h2; simp at h2
        | cons y ys =>
          simp at h1
          have h3 := (ih (a := ys) (b := b)).mpr ⟨h1.2, h2⟩
          rw [hs] at h3
          simp at h3
          simp [h3, h1.1]

theorem stripPrefix_eq_some {p s r : Str} : stripPrefix p s = some r ↔ s = p ++ r := by
  induction p generalizing s with
  | nil => simp [stripPrefix]
  | cons x xs ih =>
    cases s with
    | nil => simp [stripPrefix]
    | cons y ys =>
      simp only [stripPrefix, List.cons_append, List.cons.injEq]
      by_cases h : x = y
      · simp [h, ih]
      · simp [h, Ne.symm h]

theorem stripPrefix_append (p r : Str) : stripPrefix p (p ++ r) = some r :=
  stripPrefix_eq_some.mpr rfl

theorem startsWith_iff {p s : Str} : startsWith p s = true ↔ ∃ r, s = p ++ r := by
  simp only [startsWith, Option.isSome_iff_exists, stripPrefix_eq_some]

theorem splitOn_ne_nil (c : Char) (s : Str) : splitOn c s ≠ [] := by
  induction s with
  | nil => simp [splitOn]
  | cons x xs ih =>
    simp only [splitOn]
    split
    · simp
    · split <;> simp

theorem splitOn_of_notMem {c : Char} {s : Str} (h : c ∉ s) : splitOn c s = [s] := by
  induction s with
  | nil => rfl
  | cons x xs ih =>
    simp only [List.mem_cons, not_or] at h
    simp [splitOn, Ne.symm h.1, ih h.2]

theorem splitOn_append {c : Char} {a b : Str} (h : c ∉ a) :
    splitOn c (a ++ c :: b) = a :: splitOn c b := by
  induction a with
  | nil => simp [splitOn]
  | cons x xs ih =>
    simp only [List.mem_cons, not_or] at h
    simp [splitOn, Ne.symm h.1, ih h.2]

theorem joinWith_splitOn (c : Char) (s : Str) : joinWith c (splitOn c s) = s := by
  induction s with
  | nil => rfl
  | cons x xs ih =>
    simp only [splitOn]
    by_cases h : x = c
    · subst h
      simp only [if_true]
      cases hs : splitOn x xs with
      | nil => exact absurd hs (splitOn_ne_nil _ _)
      | cons p ps => rw [hs] at ih; simp [joinWith, ih]
    · simp only [h, if_false]
      cases hs : splitOn c xs with
      | nil => exact absurd hs (splitOn_ne_nil _ _)
      | cons p ps =>
        rw [hs] at ih
        cases ps with
        | nil => simp [joinWith] at ih ⊢; exact ih
        | cons q qs => simp [joinWith] at ih ⊢; exact ih

theorem mapR_ok {α β : Type} {f : α → Res β} {l : List α} {l' : List β}
    (h : List.Forall₂ (fun a b => f a = .ok b) l l') : mapR f l = .ok l' := by
  induction h with
  | nil => rfl
  | cons h1 _ ih => simp [mapR, h1, ih]

theorem mapR_eq_ok {α β : Type} {f : α → Res β} {l : List α} {l' : List β} :
    mapR f l = .ok l' ↔ List.Forall₂ (fun a b => f a = .ok b) l l' := by
  constructor
  · intro h
    induction l generalizing l' with
    | nil => simp [mapR] at h; subst h; exact .nil
    | cons a as ih =>
      simp only [mapR] at h
      cases hf : f a with
      | error e => simp [hf] at h
      | ok b =>
        simp only [hf] at h
        cases hm : mapR f as with
        | error e => simp [hm] at h
        | ok bs => simp [hm] at h; subst h; exact .cons hf (ih hm)
  · exact mapR_ok

theorem mapR_map_ok {α β : Type} {f : α → Res β} {g : β → α} {l : List β}
    (h : ∀ b ∈ l, f (g b) = .ok b) : mapR f (l.map g) = .ok l := by
  induction l with
  | nil => rfl
  | cons a as ih =>
    simp only [List.map_cons, mapR, h a (by simp)]
    rw [ih (fun b hb => h b (List.mem_cons_of_mem _ hb))]

theorem trimEndChar_replicate (c : Char) (s : Str) (n : Nat) :
    trimEndChar c (s ++ List.replicate n c) = trimEndChar c s := by
  have h : ∀ (n : Nat) (l : Str), (List.replicate n c ++ l).dropWhile (· == c)
      = l.dropWhile (· == c) := by
    intro n l
    induction n with
    | zero => simp
    | succ n ih => simp [List.replicate_succ, ih]
  simp only [trimEndChar, List.reverse_append, List.reverse_replicate, h]

theorem trimEndChar_of_notMem {c : Char} {s : Str} (h : c ∉ s) : trimEndChar c s = s := by
  simp only [trimEndChar]
  have : s.reverse.dropWhile (· == c) = s.reverse := by
    cases hs : s.reverse with
    | nil => rfl
    | cons x xs =>
      have hx : x ∈ s := by rw [← List.mem_reverse, hs]; simp
      have : x ≠ c := fun e => h (e ▸ hx)
      simp [this]
  rw [this, List.reverse_reverse]

end Oid4vp
