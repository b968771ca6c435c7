import Verif.Spec.Codec
import Verif.Lemmas.JsonText
/-!
# Float literals, and the shape of parsed JSON
-/

set_option autoImplicit false

namespace Oid4vp

theorem digit_isDigit {c : Char} (h : Spec.Digit c) : isDigit c = true := by
  simp only [Spec.Digit, List.mem_cons, List.not_mem_nil, or_false] at h
  rcases h with rfl | rfl | rfl | rfl | rfl | rfl | rfl | rfl | rfl | rfl <;> decide

theorem spanDigits_all {s : Str} (h : ∀ c ∈ s, isDigit c = true) : spanDigits s = (s, []) := by
  have := spanDigits_append (rest := []) h (by simp)
  simpa using this

theorem pExp_expPart {s : Str} (h : s = [] ∨ Spec.ExpPart s) : pExp s = some (s, []) := by
  rcases h with rfl | ⟨e, sg, ds, rfl, he, hsg, hne, hd⟩
  · rfl
  · have hd' : ∀ c ∈ ds, isDigit c = true := fun c hc => digit_isDigit (hd c hc)
    rcases hsg with rfl | rfl | rfl
    · cases ds with
      | nil => exact absurd rfl hne
      | cons d ds =>
        have h1 : d ≠ '+' ∧ d ≠ '-' := by
          have := hd' d (by simp)
          constructor <;> (rintro rfl; revert this; decide)
        simp [pExp, he, h1.1, h1.2, spanDigits_all hd']
    · simp [pExp, he, spanDigits_all hd', hne]
    · simp [pExp, he, spanDigits_all hd', hne]

theorem expPart_head {s : Str} (h : s = [] ∨ Spec.ExpPart s) :
    ∀ c, s.head? = some c → isDigit c = false ∧ c ≠ '.' := by
  rcases h with rfl | ⟨e, sg, ds, rfl, he, -⟩
  · simp
  · intro c hc
    simp at hc; subst hc
    rcases he with rfl | rfl <;> decide

theorem pFrac_fracPart {s ex : Str} (h : s = [] ∨ Spec.FracPart s)
    (hex : ex = [] ∨ Spec.ExpPart ex) : pFrac (s ++ ex) = some (s, ex) := by
  rcases h with rfl | ⟨ds, rfl, hne, hd⟩
  · cases ex with
    | nil => rfl
    | cons c ex => simp [pFrac, (expPart_head hex c rfl).2]
  · have hs := spanDigits_append (rest := ex) (fun c hc => digit_isDigit (hd c hc))
      (fun c hc => (expPart_head hex c hc).1)
    simp [pFrac, hs, hne]

/-- Texts of floats are what the model takes for float literals. -/
theorem fltLit_of_floatText {s : Str} (h : Spec.FloatText s) : FltLit s := by
  obtain ⟨sg, ds, fr, ex, rfl, hsg, ⟨⟨hne, hd⟩, h0⟩, hfr, hex, hfe⟩ := h
  have hd' : ∀ c ∈ ds, isDigit c = true := fun c hc => digit_isDigit (hd c hc)
  have hhead : ∀ c, (fr ++ ex).head? = some c → isDigit c = false := by
    intro c hc
    rcases hfr with rfl | ⟨fs, rfl, -⟩
    · exact (expPart_head hex c hc).1
    · simp at hc; subst hc; decide
  have hs := spanDigits_append hd' hhead
  have key : ∀ neg : Bool, pUNum neg (ds ++ (fr ++ ex)) =
      .ok (.flt ((if neg then ['-'] else []) ++ ds ++ fr ++ ex), []) := by
    intro neg
    simp only [pUNum, hs]
    rw [if_neg hne, if_neg, pFrac_fracPart hfr hex]
    · simp only [pExp_expPart hex]
      rw [if_neg]
      rintro ⟨e1, e2⟩
      rcases hfe with h | h
      · exact h e1
      · exact h e2
    · rintro ⟨h1, h2⟩
      rw [h0 h1] at h2
      exact h2 rfl
  rcases hsg with rfl | rfl
  · cases ds with
    | nil => exact absurd rfl hne
    | cons d ds =>
      have h1 : d ≠ '-' := by
        have := hd' d (by simp)
        rintro rfl; revert this; decide
      have := key false
      simp only [List.cons_append, List.nil_append, FltLit, pNum, if_neg h1] at this ⊢
      simpa using this
  · have := key true
    simp only [List.cons_append, List.nil_append, FltLit, pNum, if_true] at this ⊢
    simpa using this

mutual
theorem wf_mono {P Q : Str → Prop} (h : ∀ s, P s → Q s) (j : Json) : j.WF P → j.WF Q := by
  match j with
  | .null | .bool _ | .str _ => intro _; simp [Json.WF]
  | .int i => intro hj; simpa [Json.WF] using hj
  | .flt f => simp only [Json.WF]; exact h f
  | .arr l => simp only [Json.WF]; exact wfL_mono h l
  | .obj m => simp only [Json.WF]; exact fun hj => ⟨hj.1, wfM_mono h m hj.2⟩
theorem wfL_mono {P Q : Str → Prop} (h : ∀ s, P s → Q s) (l : List Json) :
    Json.WFL P l → Json.WFL Q l := by
  match l with
  | [] => simp [Json.WFL]
  | j :: l => simp only [Json.WFL]; exact fun hj => ⟨wf_mono h j hj.1, wfL_mono h l hj.2⟩
theorem wfM_mono {P Q : Str → Prop} (h : ∀ s, P s → Q s) (m : List (Str × Json)) :
    Json.WFM P m → Json.WFM Q m := by
  match m with
  | [] => simp [Json.WFM]
  | (k, j) :: m => simp only [Json.WFM]; exact fun hj => ⟨wf_mono h j hj.1, wfM_mono h m hj.2⟩
end


/-! ## Parsed values are well-formed -/

theorem isDigit_digit {c : Char} (h : isDigit c = true) : Spec.Digit c := by
  have key : ∀ n : Fin 58, isDigit (Char.ofNat n.val) = true → Spec.Digit (Char.ofNat n.val) := by
    unfold Spec.Digit; decide
  have hlt : c.toNat < 58 := by
    simp only [isDigit, Bool.and_eq_true, decide_eq_true_eq] at h; omega
  have := key ⟨c.toNat, hlt⟩
  simp only [Char.ofNat_toNat] at this
  exact this h

theorem spanDigits_spec {s : Str} (h : (spanDigits s).1 ≠ []) : Spec.Digits (spanDigits s).1 :=
  ⟨h, fun c hc => isDigit_digit (spanDigits_digits s c hc)⟩

theorem pFrac_spec {s t r : Str} (h : pFrac s = some (t, r)) : t = [] ∨ Spec.FracPart t := by
  cases s with
  | nil => simp only [pFrac, Option.some.injEq, Prod.mk.injEq] at h; exact .inl h.1.symm
  | cons c cs =>
    simp only [pFrac] at h
    split at h
    · split at h
      · simp at h
      · rename_i h1 h2
        simp only [Option.some.injEq, Prod.mk.injEq] at h
        exact .inr ⟨_, by rw [← h.1, h1], spanDigits_spec h2⟩
    · simp only [Option.some.injEq, Prod.mk.injEq] at h; exact .inl h.1.symm

theorem pExp_spec {s t r : Str} (h : pExp s = some (t, r)) : t = [] ∨ Spec.ExpPart t := by
  cases s with
  | nil => simp only [pExp, Option.some.injEq, Prod.mk.injEq] at h; exact .inl h.1.symm
  | cons e cs =>
    simp only [pExp] at h
    split at h
    · rename_i he
      cases cs with
      | nil => simp at h
      | cons c cs =>
        simp only at h
        split at h
        · rename_i hc
          split at h
          · simp at h
          · rename_i h2
            simp only [Option.some.injEq, Prod.mk.injEq] at h
            refine .inr ⟨e, [c], _, h.1.symm, he, .inr ?_, spanDigits_spec h2⟩
            rcases hc with rfl | rfl <;> simp
        · split at h
          · simp at h
          · rename_i h2
            simp only [Option.some.injEq, Prod.mk.injEq] at h
            exact .inr ⟨e, [], _, h.1.symm, he, .inl rfl, spanDigits_spec h2⟩
    · simp only [Option.some.injEq, Prod.mk.injEq] at h; exact .inl h.1.symm

/-- The digits of an integer are read back as the same integer literal. -/
theorem pUNum_mkInt {neg : Bool} {ds : Str} (hne : ds ≠ []) (hd : ∀ c ∈ ds, isDigit c = true)
    (h0 : ¬ (ds.head? = some '0' ∧ ds.length ≠ 1)) : pUNum neg ds = .ok (mkInt neg ds, []) := by
  simp only [pUNum, spanDigits_all hd, if_neg hne, if_neg h0, pFrac, pExp, and_self, if_true]

theorem mkInt_wf {neg : Bool} {ds : Str} (hne : ds ≠ []) (hd : ∀ c ∈ ds, isDigit c = true)
    (h0 : ¬ (ds.head? = some '0' ∧ ds.length ≠ 1)) : (mkInt neg ds).WF FltLit := by
  have hp := pUNum_mkInt (neg := neg) hne hd h0
  have hneg : neg = true → mkInt neg ds = .flt ('-' :: ds) → FltLit ('-' :: ds) := by
    intro hn he
    subst hn
    simp only [FltLit, pNum, if_true, hp, he]
  have hpos : neg = false → mkInt neg ds = .flt ds → FltLit ds := by
    intro hn he
    subst hn
    cases ds with
    | nil => exact absurd rfl hne
    | cons d ds =>
      have h1 : d ≠ '-' := by
        have := hd d (by simp)
        rintro rfl; revert this; decide
      simp only [FltLit, pNum, if_neg h1, hp, he]
  cases neg with
  | true =>
    simp only [mkInt, if_true] at hneg ⊢
    split
    · rename_i h; simp only [Json.WF]; exact hneg trivial (by rw [if_pos h])
    · split
      · rename_i h; simp only [Json.WF]; omega
      · rename_i h1 h2; simp only [Json.WF]; exact hneg trivial (by rw [if_neg h1, if_neg h2])
  | false =>
    simp only [mkInt, Bool.false_eq_true, if_false] at hpos ⊢
    split
    · rename_i h; simp only [Json.WF]; omega
    · rename_i h; simp only [Json.WF]; exact hpos trivial (by rw [if_neg h])

theorem pUNum_wf {neg : Bool} {s r : Str} {j : Json} (h : pUNum neg s = .ok (j, r)) :
    j.WF FltLit ∧ j.depth = 0 := by
  simp only [pUNum] at h
  split at h
  · simp at h
  · rename_i hne
    split at h
    · simp at h
    · rename_i h0
      split at h
      · simp at h
      · rename_i fr r1 hfr
        split at h
        · simp at h
        · rename_i ex r2 hex
          split at h
          · simp only [Except.ok.injEq, Prod.mk.injEq] at h
            rw [← h.1]
            refine ⟨mkInt_wf hne (spanDigits_digits s) h0, ?_⟩
            simp only [mkInt]
            split
            · split
              · rfl
              · split <;> rfl
            · split <;> rfl
          · rename_i hfe
            simp only [Except.ok.injEq, Prod.mk.injEq] at h
            rw [← h.1]
            refine ⟨?_, rfl⟩
            simp only [Json.WF]
            apply fltLit_of_floatText
            refine ⟨if neg then ['-'] else [], (spanDigits s).1, fr, ex, by simp, ?_,
              ⟨spanDigits_spec hne, ?_⟩, pFrac_spec hfr, pExp_spec hex, ?_⟩
            · cases neg <;> simp
            · intro hh
              have hl : (spanDigits s).1.length = 1 :=
                Decidable.byContradiction fun hl => h0 ⟨hh, hl⟩
              match hds : (spanDigits s).1 with
              | [] => rw [hds] at hl; simp at hl
              | [c] => rw [hds] at hh; simpa using hh
              | _ :: _ :: _ => rw [hds] at hl; simp at hl
            · rcases Classical.em (fr = []) with h1 | h1
              · exact .inr fun h2 => hfe ⟨h1, h2⟩
              · exact .inl h1

theorem pNum_wf {s r : Str} {j : Json} (h : pNum s = .ok (j, r)) : j.WF FltLit ∧ j.depth = 0 := by
  cases s with
  | nil => simp [pNum] at h
  | cons c cs =>
    simp only [pNum] at h
    split at h <;> exact pUNum_wf h

/-- Raw parsed values: numbers are in range, depth is bounded; keys in any order. -/
def RawOk (d : Nat) (j : Json) : Prop := j.norm.WF FltLit ∧ j.depth ≤ d

theorem pElems_ok {p : Str → Res (Json × Str)} {P : Json → Prop}
    (hp : ∀ s j r, p s = .ok (j, r) → P j) (f : Nat) (first : Bool) (s : Str) (l : List Json)
    (r : Str) (h : pElems p f first s = .ok (l, r)) : ∀ j ∈ l, P j := by
  induction f generalizing first s l r with
  | zero => simp [pElems] at h
  | succ f ih =>
    simp only [pElems] at h
    split at h
    · simp at h
    · split at h
      · simp only [Except.ok.injEq, Prod.mk.injEq] at h
        rw [← h.1]; simp
      · split at h
        · simp at h
        · split at h
          · simp at h
          · rename_i j r1 hj
            split at h
            · simp at h
            · rename_i l' r2 hl
              simp only [Except.ok.injEq, Prod.mk.injEq] at h
              rw [← h.1]
              intro x hx
              rcases List.mem_cons.mp hx with rfl | hx
              · exact hp _ _ _ hj
              · exact ih _ _ _ _ hl x hx

theorem pMembers_ok {p : Str → Res (Json × Str)} {P : Json → Prop}
    (hp : ∀ s j r, p s = .ok (j, r) → P j) (f : Nat) (first : Bool) (s : Str)
    (m : List (Str × Json)) (r : Str) (h : pMembers p f first s = .ok (m, r)) :
    ∀ x ∈ m, P x.2 := by
  induction f generalizing first s m r with
  | zero => simp [pMembers] at h
  | succ f ih =>
    simp only [pMembers] at h
    split at h
    · simp at h
    · split at h
      · simp only [Except.ok.injEq, Prod.mk.injEq] at h
        rw [← h.1]; simp
      · split at h
        · simp at h
        · split at h
          · simp at h
          · split at h
            · split at h
              · simp at h
              · split at h
                · simp at h
                · split at h
                  · split at h
                    · simp at h
                    · rename_i j r1 hj
                      split at h
                      · simp at h
                      · rename_i l' r2 hl
                        simp only [Except.ok.injEq, Prod.mk.injEq] at h
                        rw [← h.1]
                        intro x hx
                        rcases List.mem_cons.mp hx with rfl | hx
                        · exact hp _ _ _ hj
                        · exact ih _ _ _ _ hl x hx
                  · simp at h
            · simp at h

theorem normL_eq (l : List Json) : Json.normL l = l.map Json.norm := by
  induction l with
  | nil => rfl
  | cons j l ih => simp [Json.normL, ih]

theorem normM_eq (m : List (Str × Json)) : Json.normM m = m.map (fun p => (p.1, p.2.norm)) := by
  induction m with
  | nil => rfl
  | cons p m ih => simp [Json.normM, ih]

theorem mem_mofList {α : Type} {m : List (Str × α)} {p : Str × α} (h : p ∈ mofList m) : p ∈ m := by
  have hg := mget_of_mem (mofList_sorted m) (show (p.1, p.2) ∈ mofList m from h)
  rw [mget_mofList] at hg
  exact List.mem_reverse.mp (mem_of_mget hg)

theorem rawOk_arr {d : Nat} {l : List Json} (h : ∀ j ∈ l, RawOk d j) : RawOk (d + 1) (.arr l) := by
  constructor
  · simp only [Json.norm, Json.WF, normL_eq, wfL_iff, List.mem_map]
    rintro _ ⟨j, hj, rfl⟩
    exact (h j hj).1
  · simp only [Json.depth]
    exact Nat.succ_le_succ (depthL_le.mpr fun j hj => (h j hj).2)

theorem rawOk_obj {d : Nat} {m : List (Str × Json)} (h : ∀ p ∈ m, RawOk d p.2) :
    RawOk (d + 1) (.obj m) := by
  constructor
  · simp only [Json.norm, Json.WF, normM_eq]
    refine ⟨mofList_sorted _, wfM_iff.mpr ?_⟩
    intro p hp
    have := mem_mofList hp
    obtain ⟨q, hq, rfl⟩ := List.mem_map.mp this
    exact (h q hq).1
  · simp only [Json.depth]
    exact Nat.succ_le_succ (depthM_le.mpr fun p hp => (h p hp).2)

theorem pWord_ok {w s r : Str} {j k : Json} (h : pWord w k s = .ok (j, r)) : j = k := by
  simp only [pWord] at h
  split at h
  · simp only [Except.ok.injEq, Prod.mk.injEq] at h; exact h.1.symm
  · simp at h

theorem pVal_ok {d : Nat} {sub : Option (Str → Res (Json × Str))} {s r : Str} {j : Json}
    (hsub : ∀ p, sub = some p → ∀ s j r, p s = .ok (j, r) → RawOk d j)
    (h : pVal sub s = .ok (j, r)) : RawOk (if sub.isSome then d + 1 else 0) j := by
  simp only [pVal] at h
  split at h
  · simp at h
  · split at h
    · rw [pWord_ok h]; simp [RawOk, Json.norm, Json.WF, Json.depth]
    · split at h
      · rw [pWord_ok h]; simp [RawOk, Json.norm, Json.WF, Json.depth]
      · split at h
        · rw [pWord_ok h]; simp [RawOk, Json.norm, Json.WF, Json.depth]
        · split at h
          · split at h
            · simp at h
            · simp only [Except.ok.injEq, Prod.mk.injEq] at h
              rw [← h.1]; simp [RawOk, Json.norm, Json.WF, Json.depth]
          · split at h
            · split at h
              · simp at h
              · split at h
                · simp at h
                · rename_i hp _ _ _ hl
                  simp only [Except.ok.injEq, Prod.mk.injEq] at h
                  rw [← h.1]
                  exact rawOk_arr (pElems_ok (hsub _ rfl) _ _ _ _ _ hl)
            · split at h
              · split at h
                · simp at h
                · split at h
                  · simp at h
                  · rename_i hl
                    simp only [Except.ok.injEq, Prod.mk.injEq] at h
                    rw [← h.1]
                    exact rawOk_obj (pMembers_ok (hsub _ rfl) _ _ _ _ _ hl)
              · have h1 := pNum_wf h
                refine ⟨?_, by rw [h1.2]; exact Nat.zero_le _⟩
                rw [norm_of_WF j h1.1]; exact h1.1

theorem pJson_ok (d : Nat) : ∀ (s : Str) (j : Json) (r : Str), pJson d s = .ok (j, r) → RawOk d j := by
  induction d with
  | zero =>
    intro s j r h
    exact pVal_ok (d := 0) (fun p hp => by simp at hp) h
  | succ d ih =>
    intro s j r h
    refine pVal_ok (sub := some (pJson d)) (fun p hp => ?_) h
    cases hp; exact ih

mutual
theorem norm_depth (j : Json) : j.norm.depth ≤ j.depth := by
  match j with
  | .null | .bool _ | .int _ | .flt _ | .str _ => simp [Json.norm]
  | .arr l =>
    simp only [Json.norm, Json.depth]
    exact Nat.succ_le_succ (normL_depth l)
  | .obj m =>
    simp only [Json.norm, Json.depth]
    refine Nat.succ_le_succ (depthM_le.mpr fun p hp => ?_)
    exact Nat.le_trans (depthM_le.mp (Nat.le_refl _) p (mem_mofList hp)) (normM_depth m)
theorem normL_depth (l : List Json) : Json.depthL (Json.normL l) ≤ Json.depthL l := by
  match l with
  | [] => simp [Json.normL]
  | j :: l =>
    simp only [Json.normL, Json.depthL]
    have := norm_depth j; have := normL_depth l; omega
theorem normM_depth (m : List (Str × Json)) : Json.depthM (Json.normM m) ≤ Json.depthM m := by
  match m with
  | [] => simp [Json.normM]
  | (k, j) :: m =>
    simp only [Json.normM, Json.depthM]
    have := norm_depth j; have := normM_depth m; omega
end

theorem jParse_wf {s : Str} {j : Json} (h : jParse s = .ok j) :
    j.WF FltLit ∧ j.depth ≤ jsonMaxDepth := by
  simp only [jParse, jParseRaw] at h
  split at h
  · rename_i j' h1
    split at h1
    · simp at h1
    · split at h1
      · rename_i h2 _
        simp only [Except.ok.injEq] at h h1
        subst h1; subst h
        have := pJson_ok _ _ _ _ h2
        exact ⟨this.1, Nat.le_trans (norm_depth _) this.2⟩
      · simp at h1
  · simp at h

theorem digit_iff (c : Char) : Spec.Digit c ↔ isDigit c = true := by
  constructor
  · have : ∀ c ∈ c!"0123456789", isDigit c = true := by decide
    exact this c
  · intro h
    have key : ∀ n : Fin 128, isDigit (Char.ofNat n.val) = true → Char.ofNat n.val ∈ c!"0123456789" := by
      decide
    have hl : c.toNat < 128 := by
      simp only [isDigit, Bool.and_eq_true, decide_eq_true_eq] at h; omega
    have := key ⟨c.toNat, hl⟩
    simp only [Char.ofNat_toNat] at this
    exact this h

theorem decimal_eq {s : Str} (h : ∀ c ∈ s, isDigit c = true) : Spec.decimal s = digitsVal s := by
  have key : ∀ c ∈ c!"0123456789", c!"0123456789".idxOf c = c.toNat - 48 := by decide
  have : ∀ n, s.foldl (fun n c => 10 * n + c!"0123456789".idxOf c) n =
      s.foldl (fun n c => n * 10 + (c.toNat - 48)) n := by
    induction s with
    | nil => intro n; rfl
    | cons c s ih =>
      intro n
      simp only [List.foldl_cons]
      rw [key c ((digit_iff c).mpr (h c (by simp))), Nat.mul_comm,
        ih (fun c hc => h c (List.mem_cons_of_mem _ hc))]
  exact this 0

end Oid4vp
