import Verif.Spec.Url
import Verif.Lemmas.Url
import Verif.Lemmas.Uuid
import Verif.Lemmas.Lossy
/-!
# Escapes and paths of URLs, against their specification
-/

set_option autoImplicit false

namespace Oid4vp
open Spec

theorem digitChar_eq (n : Nat) (h : n < 10) : Nat.digitChar n = Char.ofNat (48 + n) := by
  have : ∀ k : Fin 10, Nat.digitChar k.val = Char.ofNat (48 + k.val) := by decide
  exact this ⟨n, h⟩

theorem digitsAux_toDigits (f n : Nat) (h : n < f) : digitsAux f n = Nat.toDigits 10 n := by
  induction f generalizing n with
  | zero => omega
  | succ f ih =>
    rw [digitsAux, Nat.toDigits_eq_if (by decide)]
    split
    · rename_i hn; rw [digitChar_eq n hn]
    · rename_i hn
      rw [ih _ (by omega), digitChar_eq _ (by omega)]

/-! ## Characters -/

/-- Two classes of ASCII characters are equal if they agree on the 128 of them. -/
theorem ascii_ext {P Q : Char → Bool} (hP : ∀ c, P c = true → c.toNat < 128) (hQ : ∀ c, Q c = true → c.toNat < 128)
    (h : ∀ n : Fin 128, P (Char.ofNat n.val) = Q (Char.ofNat n.val)) (c : Char) : P c = true ↔ Q c = true := by
  have key : c.toNat < 128 → P c = Q c := by
    intro hl
    have := h ⟨c.toNat, hl⟩
    simpa only [Char.ofNat_toNat] using this
  exact ⟨fun e => key (hP c e) ▸ e, fun e => (key (hQ c e)).symm ▸ e⟩

theorem visible_ascii : ∀ c ∈ visible, c.toNat < 128 := by decide

theorem mem_visible (c : Char) : c ∈ visible ↔ isGraphic c = true := by
  have := ascii_ext (P := fun c => decide (c ∈ visible)) (Q := isGraphic)
    (fun c h => visible_ascii c (by simpa using h))
    (fun c h => by simp only [isGraphic, Bool.and_eq_true, decide_eq_true_eq] at h; omega) (by decide +kernel) c
  simpa using this

theorem opaqueKept_iff (c : Char) : OpaqueKept c ↔ opaqueKeep c = true := by
  rw [OpaqueKept, mem_visible]
  have h : c = ' ' ↔ c.toNat = 32 := ⟨fun h => h ▸ rfl, fun h => char_lt h⟩
  simp only [h, isGraphic, opaqueKeep, Bool.and_eq_true, decide_eq_true_eq]
  omega

theorem fragmentKept_iff (c : Char) : FragmentKept c ↔ fragmentKeep c = true := by
  simp only [FragmentKept, VisibleBut, mem_visible, fragmentKeep, Bool.and_eq_true, Bool.not_eq_true',
    ← Bool.not_eq_true, List.contains_iff_mem]

theorem pathKept_iff (c : Char) : PathKept c ↔ pathKeep c = true := by
  simp only [PathKept, VisibleBut, mem_visible, pathKeep, fragmentKeep, Bool.and_eq_true, Bool.not_eq_true',
    ← Bool.not_eq_true, List.contains_iff_mem, and_assoc]
  refine and_congr_right fun _ => ?_
  rw [← not_or, ← List.mem_append]
  rfl

theorem userKept_iff (c : Char) : UserKept c ↔ userKeep c = true := by
  simp only [UserKept, VisibleBut, mem_visible, userKeep, pathKeep, fragmentKeep, Bool.and_eq_true, Bool.not_eq_true',
    ← Bool.not_eq_true, List.contains_iff_mem, and_assoc]
  refine and_congr_right fun _ => ?_
  rw [← not_or, ← not_or, ← List.mem_append, ← List.mem_append]
  rfl

theorem queryKept_iff (sp : Bool) (c : Char) : QueryKept sp c ↔ queryKeep sp c = true := by
  simp only [QueryKept, VisibleBut, mem_visible, queryKeep, Bool.and_eq_true, Bool.not_eq_true',
    ← Bool.not_eq_true, List.contains_iff_mem, decide_eq_true_eq]

/-! ## Escapes -/

theorem byteEscape_eq (b : UInt8) : byteEscape b = pctByte b := by
  have key : ∀ n : Fin 16, c!"0123456789ABCDEF".getD n.val ' ' = hexUpper n.val := by decide
  have hb := b.toNat_lt
  have h1 := key ⟨b.toNat / 16, by omega⟩
  have h2 := key ⟨b.toNat % 16, by omega⟩
  simp only at h1 h2
  rw [byteEscape, h1, h2, pctByte]

theorem escape_cons (keep : Char → Bool) (c : Char) (s : Str) :
    escape keep (c :: s) = (if keep c then [c] else (utf8Char c).flatMap pctByte) ++ escape keep s := rfl

theorem escaped_iff {Kept : Char → Prop} {keep : Char → Bool} (h : ∀ c, Kept c ↔ keep c = true) (s t : Str) :
    Escaped Kept s t ↔ t = escape keep s := by
  have hb : (byteEscape : UInt8 → Str) = pctByte := funext byteEscape_eq
  constructor
  · intro e
    induction e with
    | nil => rfl
    | keep hk _ ih => rw [escape_cons, if_pos ((h _).mp hk), ih]; rfl
    | escape hk _ ih => rw [escape_cons, if_neg (fun e => hk ((h _).mpr e)), ih, utf8Char_encode, hb]
  · rintro rfl
    induction s with
    | nil => exact .nil
    | cons c s ih =>
      rw [escape_cons]
      by_cases hc : keep c = true
      · rw [if_pos hc]; exact .keep ((h c).mpr hc) ih
      · rw [if_neg hc, utf8Char_encode, ← hb]; exact .escape (fun e => hc ((h c).mp e)) ih

theorem optEscaped_iff {Kept : Char → Prop} {keep : Char → Bool} (h : ∀ c, Kept c ↔ keep c = true)
    (s t : Option Str) : OptEscaped Kept s t ↔ t = s.map (escape keep) := by
  constructor
  · rintro (_ | he)
    · rfl
    · rw [(escaped_iff h _ _).mp he]; rfl
  · rintro rfl
    cases s with
    | none => exact .none
    | some s => exact .some ((escaped_iff h _ _).mpr rfl)

theorem pointwise_map {α β : Type} {R : α → β → Prop} {f : α → β} (h : ∀ a b, R a b ↔ b = f a) (l : List α)
    (m : List β) : Pointwise R l m ↔ m = l.map f := by
  simp only [Pointwise]
  induction l generalizing m with
  | nil => cases m <;> simp
  | cons a l ih =>
    cases m with
    | nil => simp
    | cons b m =>
      rw [List.map_cons, List.cons.injEq, ← ih m]
      simp only [List.zip_cons_cons, List.mem_cons, forall_eq_or_imp, h, List.length_cons,
        Nat.add_right_cancel_iff]
      exact and_left_comm

theorem joinWith_intercalate (c : Char) (l : List Str) : joinWith c l = List.intercalate [c] l := by
  induction l with
  | nil => rfl
  | cons s l ih =>
    cases l with
    | nil => simp [joinWith, List.intercalate]
    | cons t l => simp [joinWith, ih, List.intercalate, List.intersperse]

/-- Induction from the end of a list. -/
theorem snoc_ind {α : Type} {P : List α → Prop} (nil : P []) (snoc : ∀ l a, P l → P (l ++ [a])) (l : List α) : P l := by
  have h : ∀ m : List α, P m.reverse := by
    intro m
    induction m with
    | nil => exact nil
    | cons a m ih => rw [List.reverse_cons]; exact snoc _ _ ih
  have := h l.reverse
  rwa [List.reverse_reverse] at this

/-! ## Paths -/

theorem separator_iff (sp : Bool) (c : Char) : Separator sp c ↔ isSlash sp c = true := by
  simp [Separator, isSlash]

theorem not_separator {sp : Bool} {s : Str} :
    (∀ c ∈ s, ¬ Separator sp c) ↔ ∀ c ∈ s, isSlash sp c = false := by
  simp only [separator_iff, Bool.not_eq_true]

theorem segments_cons_slash {sp : Bool} {c : Char} {s : Str} (h : isSlash sp c = true) :
    segments sp (c :: s) = [] :: segments sp s := by rw [segments, if_pos h]

theorem segmentsOf_iff (sp : Bool) (s : Str) (l : List Str) : SegmentsOf sp s l ↔ l = segments sp s := by
  constructor
  · intro h
    induction h with
    | one h => rw [segments_of_clean (not_separator.mp h)]
    | more h hd _ ih => rw [segments_append (not_separator.mp h) ((separator_iff _ _).mp hd), ih]
  · rintro rfl
    induction s with
    | nil => exact .one (by simp)
    | cons c s ih =>
      by_cases hc : isSlash sp c = true
      · rw [segments_cons_slash hc]
        exact .more (s := []) (by simp) ((separator_iff _ _).mpr hc) ih
      · have hc' : ¬ Separator sp c := fun h => hc ((separator_iff _ _).mp h)
        rw [segments, if_neg hc]
        generalize segments sp s = l at ih
        cases ih with
        | one h => exact .one (by simpa [hc'] using h)
        | more h hd hr =>
          rw [← List.cons_append]
          exact .more (by simpa [hc'] using h) hd hr

theorem dotText_iff (s : Str) : DotText s ↔ isDot s = true := by
  simp [DotText, isDot]

theorem upText_iff (s : Str) : UpText s ↔ isDotDot s = true := by
  constructor
  · rintro ⟨a, b, ha, hb, rfl⟩
    rcases ha with rfl | rfl | rfl <;> rcases hb with rfl | rfl | rfl <;> rfl
  · intro h
    simp only [isDotDot, List.contains_iff_mem] at h
    simp only [List.mem_cons, List.not_mem_nil, or_false] at h
    rcases h with rfl | rfl | rfl | rfl | rfl | rfl | rfl | rfl | rfl
    · exact ⟨c!".", c!".", .inl rfl, .inl rfl, rfl⟩
    · exact ⟨c!"%2e", c!"%2e", .inr (.inl rfl), .inr (.inl rfl), rfl⟩
    · exact ⟨c!"%2e", c!"%2E", .inr (.inl rfl), .inr (.inr rfl), rfl⟩
    · exact ⟨c!"%2E", c!"%2e", .inr (.inr rfl), .inr (.inl rfl), rfl⟩
    · exact ⟨c!"%2E", c!"%2E", .inr (.inr rfl), .inr (.inr rfl), rfl⟩
    · exact ⟨c!"%2e", c!".", .inr (.inl rfl), .inl rfl, rfl⟩
    · exact ⟨c!"%2E", c!".", .inr (.inr rfl), .inl rfl, rfl⟩
    · exact ⟨c!".", c!"%2e", .inl rfl, .inr (.inl rfl), rfl⟩
    · exact ⟨c!".", c!"%2E", .inl rfl, .inr (.inr rfl), rfl⟩

theorem dot_not_up {s : Str} (h : isDot s = true) : isDotDot s = false := by
  simp only [isDot, List.contains_iff_mem] at h
  simp only [List.mem_cons, List.not_mem_nil, or_false] at h
  rcases h with rfl | rfl | rfl <;> rfl

/-- One step of a walk. -/
def stepDir (d : List Str) (s : Str) : List Str :=
  if isDotDot s then d.dropLast else if isDot s then d else d ++ [s]

theorem walk_snoc (acc l : List Str) (s : Str) : walk acc (l ++ [s]) =
    if isDotDot s || isDot s then stepDir (l.foldl stepDir acc) s ++ [[]] else l.foldl stepDir acc ++ [s] := by
  induction l generalizing acc with
  | nil =>
    simp only [List.nil_append, walk, List.foldl_nil, stepDir]
    cases isDotDot s <;> cases isDot s <;> rfl
  | cons x l ih =>
    have e : walk acc (x :: l ++ [s]) = walk (stepDir acc x) (l ++ [s]) := by
      cases l with
      | nil =>
        simp only [List.cons_append, List.nil_append, walk, stepDir]
        cases isDotDot x <;> cases isDot x <;> rfl
      | cons y l =>
        simp only [List.cons_append, walk, stepDir]
        cases isDotDot x <;> cases isDot x <;> rfl
    rw [e, ih, List.foldl_cons]

theorem dirAfter_iff (l d : List Str) : DirAfter l d ↔ d = l.foldl stepDir [] := by
  constructor
  · intro h
    induction h with
    | root => rfl
    | into _ h1 h2 ih =>
      rw [dotText_iff] at h1; rw [upText_iff] at h2
      rw [List.foldl_append, ← ih, List.foldl_cons, List.foldl_nil, stepDir, if_neg h2, if_neg h1]
    | stay _ h1 ih =>
      rw [dotText_iff] at h1
      rw [List.foldl_append, ← ih, List.foldl_cons, List.foldl_nil, stepDir, dot_not_up h1, if_neg (by simp), if_pos h1]
    | up _ h1 ih =>
      rw [upText_iff] at h1
      rw [List.foldl_append, ← ih, List.foldl_cons, List.foldl_nil, stepDir, if_pos h1]
  · rintro rfl
    induction l using snoc_ind with
    | nil => exact .root
    | snoc l s ih =>
      rw [List.foldl_append, List.foldl_cons, List.foldl_nil, stepDir]
      split
      · next h => exact .up ih ((upText_iff s).mpr h)
      · next h =>
        split
        · next h' => exact .stay ih ((dotText_iff s).mpr h')
        · next h' => exact .into ih (fun e => h' ((dotText_iff s).mp e)) (fun e => h ((upText_iff s).mp e))

theorem pathSegments_iff {l out : List Str} (hl : l ≠ []) : PathSegments l out ↔ out = walk [] l := by
  constructor
  · intro h
    cases h with
    | file hd h1 h2 =>
      rw [dotText_iff] at h1; rw [upText_iff] at h2
      rw [walk_snoc, if_neg (by simp [h1, h2]), ← (dirAfter_iff _ _).mp hd]
    | dir h1 hd =>
      rw [dotText_iff, upText_iff] at h1
      rw [walk_snoc, if_pos (by simpa [or_comm] using h1), (dirAfter_iff _ _).mp hd, List.foldl_append]
      rfl
  · rintro rfl
    obtain ⟨m, s, rfl⟩ : ∃ m s, l = m ++ [s] := ⟨_, _, (List.dropLast_append_getLast hl).symm⟩
    rw [walk_snoc]
    split
    · next h =>
      refine .dir (by rw [dotText_iff, upText_iff]; simpa [or_comm] using h) ?_
      rw [dirAfter_iff, List.foldl_append]
      rfl
    · next h =>
      simp only [Bool.or_eq_true, not_or] at h
      exact .file ((dirAfter_iff _ _).mpr rfl) (fun e => h.2 ((dotText_iff s).mp e))
        (fun e => h.1 ((upText_iff s).mp e))

theorem pathText_iff (sp : Bool) (raw path : Str) : PathText sp raw path ↔ path = hierPath sp raw := by
  have hm := pointwise_map (R := Escaped PathKept) (fun a b => escaped_iff pathKept_iff a b)
  have hne : (segments sp raw).map (escape pathKeep) ≠ [] := by simpa using segments_ne_nil sp raw
  constructor
  · rintro ⟨segs, esc, walked, h1, h2, h3, rfl⟩
    rw [segmentsOf_iff] at h1
    subst h1
    rw [hm] at h2
    subst h2
    rw [(pathSegments_iff hne).mp h3, ← joinWith_intercalate, hierPath]
  · rintro rfl
    exact ⟨_, _, _, (segmentsOf_iff _ _ _).mpr rfl, (hm _ _).mpr rfl, (pathSegments_iff hne).mpr rfl, by
      rw [hierPath, joinWith_intercalate]⟩

end Oid4vp
