import Verif.Lemmas.JsonRead
import Verif.Spec.JsonRaw
/-!
# Reading JSON text with all members

As in `Lemmas/JsonRead.lean`, before the members are put into maps.
-/

set_option autoImplicit false

namespace Oid4vp.RawJson
open Spec

/-- What a sound parser of values returns. -/
def Sound (p : Str → Res (Json × Str)) (P : Str → Json → Prop) : Prop :=
  ∀ s j r, p s = .ok (j, r) → ∃ w t, s = w ++ t ++ r ∧ Space w ∧ P t j

theorem pElems_sound {p : Str → Res (Json × Str)} {P : Str → Json → Prop} (hp : Sound p P) (f : Nat) :
    ∀ (first : Bool) (s : Str) (l : List Json) (r : Str), pElems p f first s = .ok (l, r) →
      (∃ w, Space w ∧ l = [] ∧ s = w ++ ']' :: r) ∨
      ∃ w t, Space w ∧ Items P t l ∧ s = w ++ (if first then [] else [',']) ++ t ++ ']' :: r := by
  induction f with
  | zero => intro first s l r h; simp [pElems] at h
  | succ f ih =>
    intro first s l r h
    obtain ⟨w, hw, e⟩ := skipWs_split s
    simp only [pElems] at h
    cases hs : skipWs s with
    | nil => rw [hs] at h; simp at h
    | cons c cs =>
      rw [hs] at h e
      simp only at h
      split at h
      · rename_i hc
        simp only [Except.ok.injEq, Prod.mk.injEq] at h
        exact .inl ⟨w, hw, h.1.symm, by rw [e, hc, h.2]⟩
      · cases hsep : pSep first c cs with
        | error e => rw [hsep] at h; simp at h
        | ok s' =>
          rw [hsep] at h
          simp only at h
          have hs' : c :: cs = (if first then [] else [',']) ++ s' := by
            cases first with
            | true => simp [pSep] at hsep; simp [hsep]
            | false =>
              simp only [pSep, Bool.false_eq_true, if_false] at hsep
              split at hsep
              · rename_i hc
                simp only [Except.ok.injEq] at hsep
                simp [hc, hsep]
              · simp at hsep
          cases hj : p s' with
          | error e => rw [hj] at h; simp at h
          | ok q =>
            obtain ⟨j, r1⟩ := q
            rw [hj] at h
            simp only at h
            obtain ⟨w1, t1, e1, hw1, ht1⟩ := hp _ _ _ hj
            cases hl : pElems p f false r1 with
            | error e => rw [hl] at h; simp at h
            | ok q =>
              obtain ⟨l', r2⟩ := q
              rw [hl] at h
              simp only [Except.ok.injEq, Prod.mk.injEq] at h
              obtain ⟨rfl, rfl⟩ := h
              refine .inr ?_
              rcases ih _ _ _ _ hl with ⟨w2, hw2, rfl, e2⟩ | ⟨w2, t2, hw2, hi, e2⟩
              · refine ⟨w, w1 ++ t1 ++ w2, hw, .one hw1 ht1 hw2, ?_⟩
                rw [e, hs', e1, e2]; simp
              · refine ⟨w, w1 ++ t1 ++ w2 ++ ',' :: t2, hw, .more hw1 ht1 hw2 hi, ?_⟩
                rw [e, hs', e1, e2]; simp

theorem pMembers_sound {p : Str → Res (Json × Str)} {P : Str → Json → Prop} (hp : Sound p P) (f : Nat) :
    ∀ (first : Bool) (s : Str) (l : List (Str × Json)) (r : Str), pMembers p f first s = .ok (l, r) →
      (∃ w, Space w ∧ l = [] ∧ s = w ++ '}' :: r) ∨
      ∃ w t, Space w ∧ Members P t l ∧ s = w ++ (if first then [] else [',']) ++ t ++ '}' :: r := by
  induction f with
  | zero => intro first s l r h; simp [pMembers] at h
  | succ f ih =>
    intro first s l r h
    obtain ⟨w, hw, e⟩ := skipWs_split s
    simp only [pMembers] at h
    cases hs : skipWs s with
    | nil => rw [hs] at h; simp at h
    | cons c cs =>
      rw [hs] at h e
      simp only at h
      split at h
      · rename_i hc
        simp only [Except.ok.injEq, Prod.mk.injEq] at h
        exact .inl ⟨w, hw, h.1.symm, by rw [e, hc, h.2]⟩
      · cases hsep : pSep first c cs with
        | error e => rw [hsep] at h; simp at h
        | ok s' =>
          rw [hsep] at h
          simp only at h
          have hs' : c :: cs = (if first then [] else [',']) ++ s' := by
            cases first with
            | true => simp [pSep] at hsep; simp [hsep]
            | false =>
              simp only [pSep, Bool.false_eq_true, if_false] at hsep
              split at hsep
              · rename_i hc
                simp only [Except.ok.injEq] at hsep
                simp [hc, hsep]
              · simp at hsep
          obtain ⟨w0, hw0, e0⟩ := skipWs_split s'
          cases hq : skipWs s' with
          | nil => rw [hq] at h; simp at h
          | cons q ks =>
            rw [hq] at h e0
            simp only at h
            split at h
            · rename_i hq'
              subst hq'
              cases hk : pStr (ks.length + 1) ks with
              | error e => rw [hk] at h; simp at h
              | ok x =>
                obtain ⟨k, r0⟩ := x
                rw [hk] at h
                simp only at h
                obtain ⟨n, hn, en⟩ := pStr_sound _ _ _ _ hk
                obtain ⟨wa, hwa, ea⟩ := skipWs_split r0
                cases hd : skipWs r0 with
                | nil => rw [hd] at h; simp at h
                | cons d r3 =>
                  rw [hd] at h ea
                  simp only at h
                  split at h
                  · rename_i hcol
                    subst hcol
                    cases hj : p r3 with
                    | error e => rw [hj] at h; simp at h
                    | ok q =>
                      obtain ⟨j, r1⟩ := q
                      rw [hj] at h
                      simp only at h
                      obtain ⟨w1, t1, e1, hw1, ht1⟩ := hp _ _ _ hj
                      cases hl : pMembers p f false r1 with
                      | error e => rw [hl] at h; simp at h
                      | ok q =>
                        obtain ⟨l', r2⟩ := q
                        rw [hl] at h
                        simp only [Except.ok.injEq, Prod.mk.injEq] at h
                        obtain ⟨rfl, rfl⟩ := h
                        refine .inr ?_
                        rcases ih _ _ _ _ hl with ⟨w2, hw2, rfl, e2⟩ | ⟨w2, t2, hw2, hi, e2⟩
                        · refine ⟨w, _, hw, .one ⟨w0, n, wa, w1, t1, w2, hw0, hwa, hw1, hw2, hn, ht1, rfl⟩, ?_⟩
                          rw [e, hs', e0, en, ea, e1, e2]; simp
                        · refine ⟨w, _, hw, .more ⟨w0, n, wa, w1, t1, w2, hw0, hwa, hw1, hw2, hn, ht1, rfl⟩ hi, ?_⟩
                          rw [e, hs', e0, en, ea, e1, e2]; simp
                  · simp at h
            · simp at h

/-- A parser and the texts of nested values. -/
def SubSound : Option (Str → Res (Json × Str)) → Option (Str → Json → Prop) → Prop
  | none, none => True
  | some p, some P => Sound p P
  | _, _ => False

theorem pVal_sound {sub : Option (Str → Res (Json × Str))} {P : Option (Str → Json → Prop)}
    (hsub : SubSound sub P) : Sound (pVal sub) (RawValue P) := by
  intro s j r h
  obtain ⟨w, hw, e⟩ := skipWs_split s
  have word : ∀ (x : Str) (k : Json) (cs : Str), pWord x k cs = .ok (j, r) → j = k ∧ cs = x ++ r := by
    intro x k cs h
    unfold pWord at h
    split at h
    · rename_i r' hr
      simp only [Except.ok.injEq, Prod.mk.injEq] at h
      exact ⟨h.1.symm, by rw [← h.2]; exact stripPrefix_eq_some.1 hr⟩
    · simp at h
  simp only [pVal] at h
  cases hs : skipWs s with
  | nil => rw [hs] at h; simp at h
  | cons c cs =>
    rw [hs] at h e
    simp only at h
    split at h
    · rename_i hc
      obtain ⟨rfl, e2⟩ := word _ _ _ h
      exact ⟨w, c!"null", by rw [e, hc, e2]; simp, hw, .null⟩
    · split at h
      · rename_i hc
        obtain ⟨rfl, e2⟩ := word _ _ _ h
        exact ⟨w, c!"true", by rw [e, hc, e2]; simp, hw, .true⟩
      · split at h
        · rename_i hc
          obtain ⟨rfl, e2⟩ := word _ _ _ h
          exact ⟨w, c!"false", by rw [e, hc, e2]; simp, hw, .false⟩
        · split at h
          · rename_i hc
            cases hk : pStr (cs.length + 1) cs with
            | error e => rw [hk] at h; simp at h
            | ok x =>
              obtain ⟨k, r0⟩ := x
              rw [hk] at h
              simp only [Except.ok.injEq, Prod.mk.injEq] at h
              obtain ⟨rfl, rfl⟩ := h
              obtain ⟨n, hn, en⟩ := pStr_sound _ _ _ _ hk
              exact ⟨w, _, by rw [e, hc, en]; simp, hw, .str hn⟩
          · split at h
            · rename_i hc
              match sub, P, hsub, h with
              | none, none, _, h => simp at h
              | some p, some P, hsub, h =>
                simp only at h
                cases hl : pElems p (cs.length + 1) true cs with
                | error e => rw [hl] at h; simp at h
                | ok x =>
                  obtain ⟨l, r0⟩ := x
                  rw [hl] at h
                  simp only [Except.ok.injEq, Prod.mk.injEq] at h
                  obtain ⟨rfl, rfl⟩ := h
                  rcases pElems_sound hsub _ _ _ _ _ hl with ⟨w2, hw2, rfl, e2⟩ | ⟨w2, t2, hw2, hi, e2⟩
                  · exact ⟨w, _, by rw [e, hc, e2]; simp, hw, .empty rfl hw2⟩
                  · refine ⟨w, '[' :: (w2 ++ t2) ++ [']'], by rw [e, hc, e2]; simp, hw, .arr rfl ?_⟩
                    generalize l = l' at hi ⊢
                    cases hi with
                    | one h1 h2 h3 =>
                      rw [← List.append_assoc, ← List.append_assoc]
                      exact .one (fun x hx => (List.mem_append.1 hx).elim (hw2 x) (h1 x)) h2 h3
                    | more h1 h2 h3 h4 =>
                      rw [← List.append_assoc, ← List.append_assoc, ← List.append_assoc]
                      exact .more (fun x hx => (List.mem_append.1 hx).elim (hw2 x) (h1 x)) h2 h3 h4
            · split at h
              · rename_i hc
                match sub, P, hsub, h with
                | none, none, _, h => simp at h
                | some p, some P, hsub, h =>
                  simp only at h
                  cases hl : pMembers p (cs.length + 1) true cs with
                  | error e => rw [hl] at h; simp at h
                  | ok x =>
                    obtain ⟨l, r0⟩ := x
                    rw [hl] at h
                    simp only [Except.ok.injEq, Prod.mk.injEq] at h
                    obtain ⟨rfl, rfl⟩ := h
                    have pre : ∀ {w2 t : Str} {k : Str} {j : Json}, Space w2 → MemberText P t k j →
                        MemberText P (w2 ++ t) k j := by
                      rintro w2 t k j hw2 ⟨w, n, w1, w2', t', w3, h1, h2, h3, h4, h5, h6, rfl⟩
                      exact ⟨w2 ++ w, n, w1, w2', t', w3,
                        fun x hx => (List.mem_append.1 hx).elim (hw2 x) (h1 x), h2, h3, h4, h5, h6, by simp⟩
                    rcases pMembers_sound hsub _ _ _ _ _ hl with ⟨w2, hw2, rfl, e2⟩ | ⟨w2, t2, hw2, hi, e2⟩
                    · exact ⟨w, _, by rw [e, hc, e2]; simp, hw, .emptyObj rfl hw2⟩
                    · refine ⟨w, '{' :: (w2 ++ t2) ++ ['}'], by rw [e, hc, e2]; simp, hw,
                        .obj (l := l) rfl ?_⟩
                      generalize l = l' at hi
                      cases hi with
                      | one h1 => exact .one (pre hw2 h1)
                      | more h1 h2 => rw [← List.append_assoc]; exact .more (pre hw2 h1) h2
              · obtain ⟨t, et, ht⟩ := pNum_sound h
                exact ⟨w, t, by rw [e, et, List.append_assoc], hw, .num ht⟩

theorem pJson_sound (d : Nat) : Sound (pJson d) (RawNested d) := by
  induction d with
  | zero => exact pVal_sound (sub := none) (P := none) trivial
  | succ d ih => exact pVal_sound (sub := some (pJson d)) (P := some (RawNested d)) ih

/-! ## Completeness -/

/-- What a complete parser of values does. -/
def Complete (p : Str → Res (Json × Str)) (P : Str → Json → Prop) : Prop :=
  ∀ t j, P t j → (∃ c cs, t = c :: cs ∧ isWs c = false ∧ c ≠ ']') ∧
    ∃ raw : Json, raw = j ∧ ∀ w r, Space w → Stop r → p (w ++ t ++ r) = .ok (raw, r)

theorem pElems_complete {p : Str → Res (Json × Str)} {P : Str → Json → Prop} (hp : Complete p P)
    {t : Str} {l : List Json} (h : Items P t l) :
    ∃ l', l' = l ∧ ∀ f r, t.length < f →
      pElems p f true (t ++ ']' :: r) = .ok (l', r) ∧
      ∀ w, Space w → pElems p f false (w ++ (',' :: t ++ ']' :: r)) = .ok (l', r) := by
  have close : ∀ f r w, Space w → pElems p (f + 1) false (w ++ ']' :: r) = .ok ([], r) := by
    intro f r w hw
    simp only [pElems, skipWs_space hw, skipWs_head (c := ']') (by decide), if_true]
  have stop : ∀ {r : Str}, Stop (']' :: r) := stop_cons (by decide)
  have stop' : ∀ {r : Str}, Stop (',' :: r) := stop_cons (by decide)
  induction h with
  | @one w t w' j hw ht hw' =>
    obtain ⟨⟨c, cs, rfl, h1, h2⟩, raw, hr, hpp⟩ := hp _ _ ht
    refine ⟨[raw], by simp [hr], ?_⟩
    intro f r hf
    obtain ⟨f, rfl⟩ : ∃ g, f = g + 2 := by
      simp only [List.length_append, List.length_cons] at hf
      exact ⟨f - 2, by omega⟩
    have e1 := hpp w (w' ++ ']' :: r) hw (space_stop hw' stop)
    constructor
    · have e2 := hpp [] (w' ++ ']' :: r) space_nil (space_stop hw' stop)
      have es : skipWs (w ++ c :: cs ++ w' ++ ']' :: r) = c :: (cs ++ (w' ++ ']' :: r)) := by
        simp only [List.append_assoc, skipWs_space hw]
        exact skipWs_head h1
      rw [pElems, es]
      simp only [if_neg h2, pSep, if_true]
      simp only [List.nil_append, List.cons_append] at e2
      simp only [e2, close _ _ _ hw']
    · intro w0 hw0
      simp only [List.append_assoc, List.cons_append] at e1 ⊢
      rw [pElems, skipWs_space hw0, skipWs_head (c := ',') (by decide)]
      simp only
      rw [if_neg (by decide)]
      simp only [pSep, Bool.false_eq_true, if_false, if_true, e1, close f r w' hw']
  | @more w t w' j t2 l2 hw ht hw' _ ih =>
    obtain ⟨⟨c, cs, rfl, h1, h2⟩, raw, hr, hpp⟩ := hp _ _ ht
    obtain ⟨l', hl', ih⟩ := ih
    refine ⟨raw :: l', by simp [hr, hl'], ?_⟩
    intro f r hf
    obtain ⟨f, rfl, hf2⟩ : ∃ g, f = g + 1 ∧ t2.length < g := by
      simp only [List.length_append, List.length_cons] at hf
      exact ⟨f - 1, by omega, by omega⟩
    have i2 := (ih f r hf2).2 w' hw'
    have e1 := hpp w (w' ++ (',' :: t2 ++ ']' :: r)) hw (space_stop hw' stop')
    constructor
    · have e2 := hpp [] (w' ++ (',' :: t2 ++ ']' :: r)) space_nil (space_stop hw' stop')
      have es : skipWs (w ++ c :: cs ++ w' ++ ',' :: t2 ++ ']' :: r) =
          c :: (cs ++ (w' ++ (',' :: t2 ++ ']' :: r))) := by
        simp only [List.append_assoc, skipWs_space hw]
        exact skipWs_head h1
      rw [pElems, es]
      simp only [if_neg h2, pSep, if_true]
      simp only [List.nil_append, List.cons_append] at e2 i2 ⊢
      simp only [e2, i2]
    · intro w0 hw0
      simp only [List.append_assoc, List.cons_append] at e1 i2 ⊢
      rw [pElems, skipWs_space hw0, skipWs_head (c := ',') (by decide)]
      simp only
      rw [if_neg (by decide)]
      simp only [pSep, Bool.false_eq_true, if_false, if_true, e1, i2]

theorem pMembers_complete {p : Str → Res (Json × Str)} {P : Str → Json → Prop} (hp : Complete p P)
    {t : Str} {l : List (Str × Json)} (h : Members P t l) :
    ∃ l', l' = l ∧ ∀ f r, t.length < f →
      pMembers p f true (t ++ '}' :: r) = .ok (l', r) ∧
      ∀ w, Space w → pMembers p f false (w ++ (',' :: t ++ '}' :: r)) = .ok (l', r) := by
  have close : ∀ f r w, Space w → pMembers p (f + 1) false (w ++ '}' :: r) = .ok ([], r) := by
    intro f r w hw
    simp only [pMembers, skipWs_space hw, skipWs_head (c := '}') (by decide), if_true]
  have stop : ∀ {r : Str}, Stop ('}' :: r) := stop_cons (by decide)
  have stop' : ∀ {r : Str}, Stop (',' :: r) := stop_cons (by decide)
  have step : ∀ {s k : Str} {j : Json}, MemberText P s k j → 2 ≤ s.length ∧
      ∃ raw : Json, raw = j ∧ ∃ w3, Space w3 ∧ ∀ f rest l' r, Stop rest →
        pMembers p f false (w3 ++ rest) = .ok (l', r) →
        pMembers p (f + 1) true (s ++ rest) = .ok ((k, raw) :: l', r) ∧
        ∀ w0, Space w0 → pMembers p (f + 1) false (w0 ++ ',' :: (s ++ rest)) = .ok ((k, raw) :: l', r) := by
    rintro s k j ⟨w, n, w1, w2, t, w3, hw, hw1, hw2, hw3, hn, ht, rfl⟩
    obtain ⟨-, raw, hr, hpp⟩ := hp _ _ ht
    refine ⟨by simp only [List.length_append, List.length_cons]; omega, raw, hr, w3, hw3, ?_⟩
    intro f rest l' r hst hrest
    have e1 := hpp w2 (w3 ++ rest) hw2 (space_stop hw3 hst)
    simp only [List.append_assoc] at e1
    have ek := pStr_complete hn ((n ++ '"' :: (w1 ++ ':' :: (w2 ++ (t ++ (w3 ++ rest))))).length + 1)
      (w1 ++ ':' :: (w2 ++ (t ++ (w3 ++ rest)))) (by
        have := strText_length hn
        simp only [List.length_append]; omega)
    constructor
    · simp only [List.append_assoc, List.cons_append]
      rw [pMembers, skipWs_space hw, skipWs_head (c := '"') (by decide)]
      simp only
      rw [if_neg (by decide)]
      simp only [pSep, if_true, skipWs_head (c := '"') (by decide), ek, skipWs_space hw1,
        skipWs_head (c := ':') (by decide), e1, hrest]
    · intro w0 hw0
      simp only [List.append_assoc, List.cons_append]
      rw [pMembers, skipWs_space hw0, skipWs_head (c := ',') (by decide)]
      simp only
      rw [if_neg (by decide)]
      simp only [pSep, Bool.false_eq_true, if_false, if_true, skipWs_space hw,
        skipWs_head (c := '"') (by decide), ek, skipWs_space hw1,
        skipWs_head (c := ':') (by decide), e1, hrest]
  induction h with
  | @one s k j h =>
    obtain ⟨hlen, raw, hr, w3, hw3, hs⟩ := step h
    refine ⟨[(k, raw)], by simp [hr], ?_⟩
    intro f r hf
    obtain ⟨f, rfl⟩ : ∃ g, f = g + 2 := ⟨f - 2, by omega⟩
    exact hs _ _ _ _ stop (close f r w3 hw3)
  | @more s k j t2 l2 h _ ih =>
    obtain ⟨hlen, raw, hr, w3, hw3, hs⟩ := step h
    obtain ⟨l', hl', ih⟩ := ih
    refine ⟨(k, raw) :: l', by simp [hr, hl'], ?_⟩
    intro f r hf
    obtain ⟨f, rfl, hf2⟩ : ∃ g, f = g + 1 ∧ t2.length < g := by
      simp only [List.length_append, List.length_cons] at hf
      exact ⟨f - 1, by omega, by omega⟩
    have := hs f (',' :: t2 ++ '}' :: r) l' r stop' ((ih f r hf2).2 w3 hw3)
    simp only [List.append_assoc, List.cons_append] at this ⊢
    exact this

/-- A complete parser and the texts of nested values. -/
def SubComplete : Option (Str → Res (Json × Str)) → Option (Str → Json → Prop) → Prop
  | none, none => True
  | some p, some P => Complete p P
  | _, _ => False

theorem pVal_complete {sub : Option (Str → Res (Json × Str))} {P : Option (Str → Json → Prop)}
    (hsub : SubComplete sub P) : Complete (pVal sub) (RawValue P) := by
  have get : ∀ {Q}, P = some Q → ∃ p, sub = some p ∧ Complete p Q := by
    intro Q hP
    match sub, P, hsub, hP with
    | some p, some _, h, rfl => exact ⟨p, rfl, h⟩
  intro t j h
  cases h with
  | null =>
    refine ⟨⟨'n', _, rfl, by decide, by decide⟩, .null, rfl, ?_⟩
    intro w r hw _
    simp only [List.append_assoc, pVal, skipWs_space hw, List.cons_append, skipWs_head (c := 'n') (by decide)]
    exact pWord_complete (x := c!"ull")
  | true =>
    refine ⟨⟨'t', _, rfl, by decide, by decide⟩, .bool true, rfl, ?_⟩
    intro w r hw _
    simp only [List.append_assoc, pVal, skipWs_space hw, List.cons_append, skipWs_head (c := 't') (by decide)]
    exact pWord_complete (x := c!"rue")
  | false =>
    refine ⟨⟨'f', _, rfl, by decide, by decide⟩, .bool false, rfl, ?_⟩
    intro w r hw _
    simp only [List.append_assoc, pVal, skipWs_space hw, List.cons_append, skipWs_head (c := 'f') (by decide)]
    exact pWord_complete (x := c!"alse")
  | num h =>
    obtain ⟨c, cs, rfl, hc⟩ := pNum_head (pNum_whole h)
    have hh : isWs c = false ∧ c ≠ ']' ∧ c ≠ 'n' ∧ c ≠ 't' ∧ c ≠ 'f' ∧ c ≠ '"' ∧ c ≠ '[' ∧ c ≠ '{' := by
      rcases hc with hc | rfl
      · have := (digit_iff c).2 hc
        have key : ∀ c ∈ c!"0123456789", isWs c = false ∧ c ≠ ']' ∧ c ≠ 'n' ∧ c ≠ 't' ∧ c ≠ 'f' ∧ c ≠ '"' ∧
          c ≠ '[' ∧ c ≠ '{' := by decide
        exact key c this
      · decide
    refine ⟨⟨c, cs, rfl, hh.1, hh.2.1⟩, j, rfl, ?_⟩
    intro w r hw hr
    have e := pNum_complete h hr
    simp only [List.append_assoc, pVal, skipWs_space hw, List.cons_append, skipWs_head hh.1] at e ⊢
    obtain ⟨-, -, h1, h2, h3, h4, h5, h6⟩ := hh
    simp only [if_neg h1, if_neg h2, if_neg h3, if_neg h4, if_neg h5, if_neg h6, e]
  | @str t s h =>
    refine ⟨⟨'"', _, rfl, by decide, by decide⟩, .str s, rfl, ?_⟩
    intro w r hw hr
    have ek := pStr_complete h ((t ++ '"' :: r).length + 1) r (by
      have := strText_length h
      simp only [List.length_append]; omega)
    simp only [List.append_assoc, pVal, skipWs_space hw, List.cons_append, List.nil_append,
      skipWs_head (c := '"') (by decide)]
    rw [if_neg (by decide), if_neg (by decide), if_neg (by decide), if_pos trivial]
    simp only [ek]
  | @empty Q w1 hP hw1 =>
    obtain ⟨p, rfl, hp⟩ := get hP
    refine ⟨⟨'[', _, rfl, by decide, by decide⟩, .arr [], rfl, ?_⟩
    intro w r hw hr
    simp only [List.append_assoc, pVal, skipWs_space hw, List.cons_append, List.nil_append,
      skipWs_head (c := '[') (by decide)]
    rw [if_neg (by decide), if_neg (by decide), if_neg (by decide), if_neg (by decide), if_pos trivial]
    simp only [pElems, skipWs_space hw1, skipWs_head (c := ']') (by decide), if_true]
  | @arr Q t l hP hi =>
    obtain ⟨p, rfl, hp⟩ := get hP
    obtain ⟨l', hl, hi⟩ := pElems_complete hp hi
    refine ⟨⟨'[', _, rfl, by decide, by decide⟩, .arr l', by simp [hl], ?_⟩
    intro w r hw hr
    have := (hi ((t ++ ']' :: r).length + 1) r (by simp only [List.length_append]; omega)).1
    simp only [List.append_assoc, pVal, skipWs_space hw, List.cons_append, List.nil_append,
      skipWs_head (c := '[') (by decide)]
    rw [if_neg (by decide), if_neg (by decide), if_neg (by decide), if_neg (by decide), if_pos trivial]
    simp only [this]
  | @emptyObj Q w1 hP hw1 =>
    obtain ⟨p, rfl, hp⟩ := get hP
    refine ⟨⟨'{', _, rfl, by decide, by decide⟩, .obj [], rfl, ?_⟩
    intro w r hw hr
    simp only [List.append_assoc, pVal, skipWs_space hw, List.cons_append, List.nil_append,
      skipWs_head (c := '{') (by decide)]
    rw [if_neg (by decide), if_neg (by decide), if_neg (by decide), if_neg (by decide), if_neg (by decide),
      if_pos trivial]
    simp only [pMembers, skipWs_space hw1, skipWs_head (c := '}') (by decide), if_true]
  | @obj Q t l hP hi =>
    obtain ⟨p, rfl, hp⟩ := get hP
    obtain ⟨l', hl, hi⟩ := pMembers_complete hp hi
    refine ⟨⟨'{', _, rfl, by decide, by decide⟩, .obj l', by simp [hl], ?_⟩
    intro w r hw hr
    have := (hi ((t ++ '}' :: r).length + 1) r (by simp only [List.length_append]; omega)).1
    simp only [List.append_assoc, pVal, skipWs_space hw, List.cons_append, List.nil_append,
      skipWs_head (c := '{') (by decide)]
    rw [if_neg (by decide), if_neg (by decide), if_neg (by decide), if_neg (by decide), if_neg (by decide),
      if_pos trivial]
    simp only [this]

theorem pJson_complete (d : Nat) : Complete (pJson d) (RawNested d) := by
  induction d with
  | zero => exact pVal_complete (sub := none) (P := none) trivial
  | succ d ih => exact pVal_complete (sub := some (pJson d)) (P := some (RawNested d)) ih

/-- A value in brackets ends with its last bracket, whatever follows. -/
theorem pVal_closed {sub : Option (Str → Res (Json × Str))} {P : Option (Str → Json → Prop)}
    (hsub : SubComplete sub P) {t : Str} {j : Json} (h : RawValue P t j)
    (hj : (∃ m, j = .obj m) ∨ ∃ l, j = .arr l) (w r : Str) (hw : Space w) :
    pVal sub (w ++ t ++ r) = .ok (j, r) := by
  have get : ∀ {Q}, P = some Q → ∃ p, sub = some p ∧ Complete p Q := by
    intro Q hP
    match sub, P, hsub, hP with
    | some p, some _, h, rfl => exact ⟨p, rfl, h⟩
  cases h with
  | null => simp at hj
  | true => simp at hj
  | false => simp at hj
  | num h => cases h <;> simp at hj
  | str h => simp at hj
  | @empty Q w1 hP hw1 =>
    obtain ⟨p, rfl, hp⟩ := get hP
    simp only [List.append_assoc, pVal, skipWs_space hw, List.cons_append, List.nil_append,
      skipWs_head (c := '[') (by decide)]
    rw [if_neg (by decide), if_neg (by decide), if_neg (by decide), if_neg (by decide), if_pos trivial]
    simp only [pElems, skipWs_space hw1, skipWs_head (c := ']') (by decide), if_true]
  | @arr Q t l hP hi =>
    obtain ⟨p, rfl, hp⟩ := get hP
    obtain ⟨l', rfl, hi'⟩ := pElems_complete hp hi
    have := (hi' ((t ++ ']' :: r).length + 1) r (by simp only [List.length_append]; omega)).1
    simp only [List.append_assoc, pVal, skipWs_space hw, List.cons_append, List.nil_append,
      skipWs_head (c := '[') (by decide)]
    rw [if_neg (by decide), if_neg (by decide), if_neg (by decide), if_neg (by decide), if_pos trivial]
    simp only [this]
  | @emptyObj Q w1 hP hw1 =>
    obtain ⟨p, rfl, hp⟩ := get hP
    simp only [List.append_assoc, pVal, skipWs_space hw, List.cons_append, List.nil_append,
      skipWs_head (c := '{') (by decide)]
    rw [if_neg (by decide), if_neg (by decide), if_neg (by decide), if_neg (by decide), if_neg (by decide),
      if_pos trivial]
    simp only [pMembers, skipWs_space hw1, skipWs_head (c := '}') (by decide), if_true]
  | @obj Q t l hP hi =>
    obtain ⟨p, rfl, hp⟩ := get hP
    obtain ⟨l', rfl, hi'⟩ := pMembers_complete hp hi
    have := (hi' ((t ++ '}' :: r).length + 1) r (by simp only [List.length_append]; omega)).1
    simp only [List.append_assoc, pVal, skipWs_space hw, List.cons_append, List.nil_append,
      skipWs_head (c := '{') (by decide)]
    rw [if_neg (by decide), if_neg (by decide), if_neg (by decide), if_neg (by decide), if_neg (by decide),
      if_pos trivial]
    simp only [this]

theorem pJson_closed {d : Nat} {t : Str} {j : Json} (h : RawNested d t j)
    (hj : (∃ m, j = .obj m) ∨ ∃ l, j = .arr l) (w r : Str) (hw : Space w) :
    pJson d (w ++ t ++ r) = .ok (j, r) := by
  cases d with
  | zero => exact pVal_closed (sub := none) (P := none) trivial h hj w r hw
  | succ d => exact pVal_closed (sub := some (pJson d)) (P := some (RawNested d)) (pJson_complete d) h hj w r hw

theorem jParseRaw_iff {s : Str} {j : Json} : jParseRaw s = .ok j ↔ RawText s j := by
  constructor
  · intro h
    unfold jParseRaw at h
    cases hp : pJson jsonMaxDepth s with
    | error e => rw [hp] at h; simp at h
    | ok x =>
      obtain ⟨raw, r⟩ := x
      rw [hp] at h
      simp only at h
      split at h
      · rename_i hr
        cases h
        obtain ⟨w, t, e, h1, h2⟩ := pJson_sound _ _ _ _ hp
        obtain ⟨w', hw', e'⟩ := skipWs_split r
        rw [hr, List.append_nil] at e'
        exact ⟨w, t, r, e, h1, e' ▸ hw', h2⟩
      · cases h
  · rintro ⟨w, t, w', rfl, hw, hw', ht⟩
    obtain ⟨-, raw, hr, h⟩ := pJson_complete _ _ _ ht
    have hst : Stop w' := by have := space_stop hw' stop_nil; rwa [List.append_nil] at this
    have hsk : skipWs w' = [] := by have := skipWs_space (s := []) hw'; rwa [List.append_nil] at this
    have := h w w' hw hst
    unfold jParseRaw
    have e : jsonMaxDepth = 127 := rfl
    rw [e, this]
    simp only [hsk, if_true, hr]

end Oid4vp.RawJson
