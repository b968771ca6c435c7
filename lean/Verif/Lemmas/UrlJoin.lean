import Verif.Model.UrlJoin
import Verif.Spec.UrlJoin
import Verif.Lemmas.UrlRead
/-!
# Lemmas about resolving references
-/

set_option autoImplicit false

namespace Oid4vp

open Spec

theorem segments_false (s : Str) : segments false s = splitOn '/' s := by
  induction s with
  | nil => rfl
  | cons c s ih =>
    simp only [segments, splitOn, ih, slash_false]
    cases splitOn '/' s <;> rfl

theorem segments_dir {sp : Bool} {m : List Str} (h : ∀ x ∈ m, ∀ c ∈ x, isSlash sp c = false) (ref : Str) :
    segments sp (m.flatMap (· ++ ['/']) ++ ref) = m ++ segments sp ref := by
  induction m with
  | nil => rfl
  | cons x m ih =>
    rw [List.flatMap_cons, List.append_assoc, List.append_assoc, List.singleton_append,
      segments_append (h x (by simp)) (isSlash_slash sp), ih (fun z hz => h z (by simp [hz]))]
    rfl

theorem joinWith_snoc (m : List Str) (y : Str) : joinWith '/' (m ++ [y]) = m.flatMap (· ++ ['/']) ++ y := by
  induction m with
  | nil => simp [joinWith]
  | cons x m ih =>
    cases m with
    | nil => simp [joinWith]
    | cons z m =>
      rw [List.cons_append, List.cons_append, joinWith, ← List.cons_append, ih]
      · simp
      · simp

theorem walk_dir {m : List Str} (h : ∀ x ∈ m, isDotDot x = false ∧ isDot x = false) {l : List Str} (hl : l ≠ [])
    (acc : List Str) : walk acc (m ++ l) = walk (acc ++ m) l := by
  induction m generalizing acc with
  | nil => simp
  | cons x m ih =>
    have hx := h x (by simp)
    obtain ⟨z, zs, e⟩ : ∃ z zs, m ++ l = z :: zs := by
      cases hml : m ++ l with
      | nil => simp at hml; exact absurd hml.2 hl
      | cons z zs => exact ⟨z, zs, rfl⟩
    rw [List.cons_append, e, walk, if_neg (by simp [hx.1]), if_neg (by simp [hx.2]), ← e,
      ih (fun z hz => h z (by simp [hz]))]
    simp

/-- The directory of a path as it stays. -/
theorem pathNorm_dir {sp : Bool} {r : Str} (h : PathNorm sp ('/' :: r)) :
    ∃ m y, r = m.flatMap (· ++ ['/']) ++ y ∧ '/' ∉ y ∧ (∀ x ∈ m, SegOk sp x) ∧ dirSegments ('/' :: r) = m := by
  obtain ⟨l, hne, e, h⟩ := h
  obtain ⟨-, rfl⟩ := List.cons.inj e
  obtain ⟨m, y, rfl⟩ : ∃ m y, l = m ++ [y] := ⟨_, _, (List.dropLast_append_getLast hne).symm⟩
  have hf : ∀ x ∈ m ++ [y], ∀ c ∈ x, isSlash false c = false := by
    intro x hx c hc
    have := ((h x hx).1 c hc).1
    simp only [isSlash, Bool.or_eq_false_iff] at this ⊢
    exact ⟨this.1, by simp⟩
  refine ⟨m, y, joinWith_snoc m y, no_slash.mpr (hf y (by simp)), fun x hx => h x (by simp [hx]), ?_⟩
  rw [dirSegments, ← segments_false, segments_join hne hf, List.dropLast_concat]

theorem flatMap_last (m : List Str) : m.flatMap (· ++ ['/']) = [] ∨ (m.flatMap (· ++ ['/'])).getLast? = some '/' := by
  rcases List.eq_nil_or_concat m with rfl | ⟨l, x, rfl⟩
  · exact .inl rfl
  · right; simp

/-- There is one place to cut after a slash such that no slash follows. -/
theorem slashCut_unique {a b c d : Str} (h : a ++ b = c ++ d) (ha : a = [] ∨ a.getLast? = some '/') (hb : '/' ∉ b)
    (hc : c = [] ∨ c.getLast? = some '/') (hd : '/' ∉ d) : a = c ∧ b = d := by
  have key : ∀ {a b c d : Str}, a ++ b = c ++ d → (a = [] ∨ a.getLast? = some '/') → '/' ∉ b →
      (c = [] ∨ c.getLast? = some '/') → '/' ∉ d → a.length ≤ c.length := by
    intro a b c d h ha hb hc hd
    by_contra hlt
    rw [Nat.not_le] at hlt
    rcases ha with rfl | ha
    · simp at hlt
    · obtain ⟨a', rfl⟩ := List.getLast?_eq_some_iff.mp ha
      have hle : c.length ≤ a'.length := by simp at hlt; omega
      rw [List.append_assoc] at h
      obtain ⟨e, he⟩ : ∃ e, a' = c ++ e := by
        rcases List.append_eq_append_iff.mp h with ⟨e, h1, h2⟩ | ⟨e, h1, h2⟩
        · have : e = [] := by
            have := congrArg List.length h1
            rw [List.length_append] at this
            exact List.length_eq_zero_iff.mp (by omega)
          exact ⟨[], by rw [h1, this]; simp⟩
        · exact ⟨e, h1⟩
      subst he
      rw [List.append_assoc] at h
      have := List.append_cancel_left h
      exact hd (by rw [← this]; simp)
  have hl := Nat.le_antisymm (key h ha hb hc hd) (key h.symm hc hd ha hb)
  exact List.append_inj h hl

/-- Putting the reference behind the directory and removing dots, against walking on from the directory. -/
theorem beside_path_eq {sp : Bool} {path dir ref : Str}
    (hp : path = [] ∨ ∃ r, path = '/' :: r ∧ hierPath sp r = '/' :: r) (hd : DirText path dir) :
    '/' :: joinWith '/' (walk (dirSegments path) ((segments sp ref).map (escape pathKeep))) =
      hierPath sp (dir ++ ref) := by
  rcases hp with rfl | ⟨r, rfl, hr⟩
  · rcases hd with ⟨-, rfl⟩ | ⟨last, h, -⟩
    · rfl
    · cases h
  · obtain ⟨m, y, h1, h2, h3, h4⟩ := pathNorm_dir (pathNorm_iff.mpr hr)
    rcases hd with ⟨h, -⟩ | ⟨last, h, h5, h6⟩
    · cases h
    · have e : r = dir ++ last := by simpa using h
      obtain ⟨rfl, -⟩ := slashCut_unique (h1.symm.trans e) (flatMap_last m) h2 h6 h5
      rw [h4, hierPath, segments_dir (fun x hx c hc => ((h3 x hx).1 c hc).1), List.map_append]
      have : m.map (escape pathKeep) = m := by
        conv_rhs => rw [← List.map_id m]
        exact List.map_congr_left fun x hx => escape_kept (fun c hc => ((h3 x hx).1 c hc).2)
      rw [this, walk_dir (fun x hx => (h3 x hx).2) (by simpa using segments_ne_nil sp ref)]
      rfl

theorem dirText_exists {sp : Bool} {path : Str}
    (hp : path = [] ∨ ∃ r, path = '/' :: r ∧ hierPath sp r = '/' :: r) : ∃ dir, DirText path dir := by
  rcases hp with rfl | ⟨r, rfl, hr⟩
  · exact ⟨[], .inl ⟨rfl, rfl⟩⟩
  · obtain ⟨m, y, h1, h2, -, -⟩ := pathNorm_dir (pathNorm_iff.mpr hr)
    exact ⟨_, .inr ⟨y, by rw [h1]; simp, h2, flatMap_last m⟩⟩

theorem canBeBase_iff (u : Url) : u.canBeBase = true ↔ Hierarchical u := by
  obtain ⟨s, a, p, q, f⟩ := u
  cases a with
  | some a => simp [Url.canBeBase, Hierarchical]
  | none =>
    cases p with
    | nil => simp [Url.canBeBase, Hierarchical]
    | cons c p =>
      simp only [Url.canBeBase, Hierarchical]
      split <;> simp_all

theorem base_path {base : Url} (hw : base.WF) (hh : Hierarchical base) :
    base.path = [] ∨ ∃ r, base.path = '/' :: r ∧ hierPath (isSpecial base.scheme) r = '/' :: r := by
  have : base.path = [] ∨ ∃ r, base.path = '/' :: r := by
    rcases hh with h | h
    · exact hw.path_auth h
    · cases hp : base.path with
      | nil => exact .inl rfl
      | cons c r => rw [hp] at h; cases h; exact .inr ⟨r, rfl⟩
  rcases this with h | ⟨r, h⟩
  · exact .inl h
  · exact .inr ⟨r, h, hw.path_ok r h⟩

theorem refHier_iff {base : Url} (hw : base.WF) {s : Str} (hh : Hierarchical base ∨ s = []) (a : Option Str)
    (p : Str) : RefHier base (isSpecial base.scheme) s a p ↔ relativeHier base s = some (a, p) := by
  constructor
  · intro h
    cases h with
    | same => rfl
    | authority hc hd h =>
      rw [separator_iff] at hc hd
      simp only [relativeHier, hc, hd, if_true]
      exact (hierText_iff _ _ _ _).mp h
    | rooted hc hd h =>
      rename_i c rest
      rw [separator_iff] at hc
      rw [pathText_iff] at h
      subst h
      simp only [relativeHier, hc, if_true]
      cases rest with
      | nil => rfl
      | cons d r =>
        have := hd d rfl
        rw [separator_iff] at this
        simp [this]
    | beside hne hc hd h =>
      rename_i dir
      rcases hh with hh | rfl
      · rw [pathText_iff] at h
        subst h
        cases s with
        | nil => exact absurd rfl hne
        | cons c cs =>
          have := hc c rfl
          rw [separator_iff] at this
          simp only [relativeHier, if_neg this]
          rw [beside_path_eq (base_path hw hh) hd]
      · exact absurd rfl hne
  · intro h
    simp only [relativeHier] at h
    split at h
    · cases h; exact .same
    · next c cs =>
      have hh : Hierarchical base := by rcases hh with hh | hh <;> [exact hh; cases hh]
      split at h
      · next hc =>
        split at h
        · next d r =>
          split at h
          · next hd =>
            exact .authority ((separator_iff _ _).mpr hc) ((separator_iff _ _).mpr hd) ((hierText_iff _ _ _ _).mpr h)
          · next hd =>
            cases h
            refine .rooted ((separator_iff _ _).mpr hc) ?_ ((pathText_iff _ _ _).mpr rfl)
            intro x hx
            cases hx
            rw [separator_iff]; exact hd
        · cases h
          exact .rooted ((separator_iff _ _).mpr hc) (by simp) ((pathText_iff _ _ _).mpr rfl)
      · next hc =>
        cases h
        obtain ⟨dir, hd⟩ := dirText_exists (base_path hw hh)
        rw [beside_path_eq (base_path hw hh) hd]
        refine .beside (by simp) ?_ hd ((pathText_iff _ _ _).mpr rfl)
        intro x hx
        cases hx
        rw [separator_iff]; exact hc

theorem marked_opt' (c : Char) (o : Option Str) : marked [c] o = optText c o := by cases o <;> rfl

theorem refText_iff {base : Url} (hw : base.WF) (s : Str) (u : Url) :
    RefText base s u ↔ base.relative s = some u := by
  constructor
  · rintro ⟨hier, q, f, sp, rfl, hq, hf, hsp, hb, hs, hh, hqe, hfe⟩
    rw [special_iff] at hsp
    have hsp : sp = isSpecial base.scheme := Bool.eq_iff_iff.mpr hsp
    subst hsp
    rw [marked_opt'] at hf
    rw [refHier_iff hw (by rcases hb with hb | hb <;> [exact .inl hb; exact .inr hb.1])] at hh
    rw [optEscaped_iff fragmentKept_iff] at hfe
    simp only [optEscaped_iff (queryKept_iff _)] at hqe
    rw [Url.relative, marked_opt', marked_opt', splitOpt_optText hf]
    dsimp only
    rw [splitOpt_optText hq]
    dsimp only
    have hcond : (base.canBeBase || (decide (hier = []) && q.isNone && f.isSome)) = true := by
      rcases hb with hb | ⟨h1, h2, h3⟩
      · rw [(canBeBase_iff base).mpr hb]; rfl
      · cases f with
        | none => exact absurd rfl h3
        | some f => simp [h1, h2]
    rw [if_pos hcond, hh]
    obtain ⟨us, ua, up, uq, uf⟩ := u
    simp only at hs hqe hfe ⊢
    subst hs hfe
    split at hqe <;> next hc => rw [hqe]; simp [hc]
  · intro h
    rw [Url.relative] at h
    generalize hf : splitOpt '#' s = hqf at h
    obtain ⟨hq, f⟩ := hqf
    dsimp only at h
    generalize hq' : splitOpt '?' hq = hhh at h
    obtain ⟨hier, q⟩ := hhh
    dsimp only at h
    obtain ⟨rfl, hf2⟩ := splitOpt_eq hf
    obtain ⟨rfl, hq2⟩ := splitOpt_eq hq'
    split at h
    · next hc =>
      have hb : Hierarchical base ∨ (hier = [] ∧ q = none ∧ f ≠ none) := by
        rw [Bool.or_eq_true, canBeBase_iff] at hc
        rcases hc with hc | hc
        · exact .inl hc
        · simp only [Bool.and_eq_true, decide_eq_true_eq] at hc
          refine .inr ⟨hc.1.1, by simpa using hc.1.2, ?_⟩
          rintro rfl; simp at hc
      split at h
      · next a p hr =>
        cases h
        refine ⟨hier, q, f, isSpecial base.scheme, by rw [marked_opt', marked_opt'], hq2,
          by rw [marked_opt']; exact hf2, (special_iff _).symm, hb, rfl, ?_, ?_,
          (optEscaped_iff fragmentKept_iff _ _).mpr rfl⟩
        · exact (refHier_iff hw (by rcases hb with hb | hb <;> [exact .inl hb; exact .inr hb.1]) _ _).mpr hr
        · dsimp only
          split
          · rfl
          · exact (optEscaped_iff (queryKept_iff _) _ _).mpr rfl
      · cases h
    · cases h

theorem splitScheme_iff (s name rest : Str) : splitScheme s = some (name, rest) ↔
    ∃ written, SchemeText written name ∧ s = written ++ c!":" ++ rest := by
  constructor
  · intro h
    rw [splitScheme] at h
    split at h
    · next c cs r hs =>
      split at h
      · next hc =>
        cases h
        obtain ⟨hs, -⟩ := splitOnce_eq_some.mp hs
        exact ⟨c :: cs, (schemeText_iff _ _).mpr ⟨c, cs, rfl, hc.1, hc.2, rfl⟩, by rw [hs]; simp⟩
      · cases h
    · cases h
  · rintro ⟨w, hw, rfl⟩
    obtain ⟨c, cs, rfl, h1, h2, rfl⟩ := (schemeText_iff _ _).mp hw
    have hcol : ':' ∉ c :: cs := by
      rw [List.mem_cons, not_or]
      refine ⟨fun e => ?_, fun hm => isSchemeChar_not_colon (List.all_eq_true.mp h2 _ hm) rfl⟩
      rw [← e] at h1; revert h1; decide
    rw [splitScheme, List.append_assoc, List.singleton_append, splitOnce_append hcol]
    simp only
    rw [if_pos ⟨h1, h2⟩]

theorem twoSlashes_iff (s : Str) : twoSlashes s = false ↔
    ∀ c d r, s = c :: d :: r → ¬ (Separator true c ∧ Separator true d) := by
  simp only [separator_iff]
  constructor
  · rintro h c d r rfl hcd
    simp [twoSlashes, hcd] at h
  · intro h
    unfold twoSlashes
    split
    · next c d r =>
      have := h c d r rfl
      simpa using this
    · rfl

end Oid4vp
