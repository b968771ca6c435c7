import Verif.Model.JsonText
import Verif.Lemmas.Utf8
/-!
# JSON text lemmas: printing then parsing
-/

set_option autoImplicit false

namespace Oid4vp

/-! ## Strings -/

theorem hexLower_spec : ∀ n : Fin 16, jHex (hexLower n.val) = some n.val := by decide

theorem jEsc_length_pos (c : Char) : 1 ≤ (jEsc c).length := by
  simp only [jEsc]
  repeat' split
  all_goals simp

theorem flatMap_jEsc_length (s : Str) : s.length ≤ (s.flatMap jEsc).length := by
  induction s with
  | nil => simp
  | cons c s ih =>
    have := jEsc_length_pos c
    simp only [List.flatMap_cons, List.length_append, List.length_cons]
    omega

theorem pStr_jEsc (c : Char) (f : Nat) (tail : Str) :
    pStr (f + 1) (jEsc c ++ tail) = consR c (pStr f tail) := by
  have key : ∀ m, m = c.toNat → Char.ofNat m = c := by
    intro m e; rw [e, Char.ofNat_toNat]
  simp only [jEsc]
  split
  · next h => subst h; simp [pStr, simpleEsc]
  split
  · next h => subst h; simp [pStr, simpleEsc]
  split
  · next h => have := key 8 h.symm; subst this; simp [pStr, simpleEsc]
  split
  · next h => have := key 12 h.symm; subst this; simp [pStr, simpleEsc]
  split
  · next h => have := key 10 h.symm; subst this; simp [pStr, simpleEsc]
  split
  · next h => have := key 13 h.symm; subst this; simp [pStr, simpleEsc]
  split
  · next h => have := key 9 h.symm; subst this; simp [pStr, simpleEsc]
  split
  · next h =>
    have h1 := hexLower_spec ⟨c.toNat / 16, by omega⟩
    have h2 := hexLower_spec ⟨c.toNat % 16, by omega⟩
    simp only at h1 h2
    have h0 : jHex '0' = some 0 := by decide
    have hv : 0 * 4096 + 0 * 256 + c.toNat / 16 * 16 + c.toNat % 16 = c.toNat := by omega
    simp only [List.cons_append, List.nil_append, pStr]
    rw [if_neg (by decide), if_pos trivial]
    simp only [if_true, hex4, h0, h1, h2, hv]
    rw [if_neg (by omega), if_neg (by omega), Char.ofNat_toNat]
  · next h1 h2 _ _ _ _ _ h8 =>
    simp [pStr, h1, h2, h8]

theorem pStr_flatMap (s : Str) (f : Nat) (rest : Str) (hf : s.length < f) :
    pStr f (s.flatMap jEsc ++ '"' :: rest) = .ok (s, rest) := by
  induction s generalizing f with
  | nil =>
    cases f with
    | zero => simp at hf
    | succ f => simp [pStr]
  | cons c s ih =>
    cases f with
    | zero => simp at hf
    | succ f =>
      simp only [List.flatMap_cons, List.append_assoc]
      rw [pStr_jEsc, ih f (by simp at hf; omega)]
      rfl

/-- Parsing a printed string literal after its opening quote. -/
theorem pStr_lit (s rest : Str) :
    pStr ((s.flatMap jEsc ++ '"' :: rest).length + 1) (s.flatMap jEsc ++ '"' :: rest)
      = .ok (s, rest) := by
  apply pStr_flatMap
  have := flatMap_jEsc_length s
  simp only [List.length_append, List.length_cons]
  omega

/-! ## Numbers -/

/-- The text after a number does not continue it. -/
def Stop (rest : Str) : Prop :=
  ∀ c, rest.head? = some c → isDigit c = false ∧ c ≠ '.' ∧ c ≠ 'e' ∧ c ≠ 'E'

theorem stop_nil : Stop [] := by intro c h; simp at h

theorem stop_cons {c : Char} {r : Str} (h : isDigit c = false ∧ c ≠ '.' ∧ c ≠ 'e' ∧ c ≠ 'E') :
    Stop (c :: r) := by
  intro c' h'; simp at h'; subst h'; exact h

theorem spanDigits_append {s rest : Str} (h : ∀ c ∈ s, isDigit c = true)
    (hr : ∀ c, rest.head? = some c → isDigit c = false) :
    spanDigits (s ++ rest) = (s, rest) := by
  induction s with
  | nil =>
    cases rest with
    | nil => rfl
    | cons c r => simp [spanDigits, hr c rfl]
  | cons c s ih =>
    have hc := h c (by simp)
    simp only [List.cons_append, spanDigits, hc, if_true]
    rw [ih (fun c hc => h c (List.mem_cons_of_mem _ hc))]

theorem spanDigits_digits (s : Str) : ∀ c ∈ (spanDigits s).1, isDigit c = true := by
  induction s with
  | nil => simp [spanDigits]
  | cons c s ih =>
    simp only [spanDigits]
    split
    · next h =>
      intro c' hc'
      rcases List.mem_cons.mp hc' with rfl | hc'
      · exact h
      · exact ih c' hc'
    · simp

theorem spanDigits_eq (s : Str) : (spanDigits s).1 ++ (spanDigits s).2 = s := by
  induction s with
  | nil => rfl
  | cons c s ih => simp only [spanDigits]; split <;> simp [ih]

theorem spanDigits_ext {s rest : Str} (hr : ∀ c, rest.head? = some c → isDigit c = false) :
    spanDigits (s ++ rest) = ((spanDigits s).1, (spanDigits s).2 ++ rest) := by
  induction s with
  | nil =>
    cases rest with
    | nil => rfl
    | cons c r => simp [spanDigits, hr c rfl]
  | cons c s ih =>
    simp only [List.cons_append, spanDigits, ih]
    split <;> simp

theorem digit_char : ∀ n : Fin 10, isDigit (Char.ofNat (48 + n.val)) = true
    ∧ (Char.ofNat (48 + n.val)).toNat - 48 = n.val := by decide

theorem digitsAux_digits (f n : Nat) : ∀ c ∈ digitsAux f n, isDigit c = true := by
  induction f generalizing n with
  | zero => simp [digitsAux]
  | succ f ih =>
    intro c hc
    simp only [digitsAux] at hc
    split at hc
    · next h => simp at hc; subst hc; exact (digit_char ⟨n, h⟩).1
    · rcases List.mem_append.mp hc with hc | hc
      · exact ih _ c hc
      · simp at hc; subst hc; exact (digit_char ⟨n % 10, by omega⟩).1

theorem digitsVal_append (s : Str) (c : Char) :
    digitsVal (s ++ [c]) = digitsVal s * 10 + (c.toNat - 48) := by
  simp [digitsVal]

theorem digitsAux_val (f n : Nat) (h : n < f) : digitsVal (digitsAux f n) = n := by
  induction f generalizing n with
  | zero => omega
  | succ f ih =>
    simp only [digitsAux]
    split
    · next h => simp [digitsVal, (digit_char ⟨n, h⟩).2]
    · next h10 =>
      rw [digitsVal_append, ih (n / 10) (by omega), (digit_char ⟨n % 10, by omega⟩).2]
      simp only; omega

theorem digitsAux_head (f n : Nat) (h : n < f) :
    ∃ c r, digitsAux f n = c :: r ∧ (c = '0' → n = 0 ∧ r = []) := by
  induction f generalizing n with
  | zero => omega
  | succ f ih =>
    simp only [digitsAux]
    split
    · next h10 =>
      refine ⟨_, [], rfl, ?_⟩
      intro e
      have : ∀ m : Fin 10, Char.ofNat (48 + m.val) = '0' → m.val = 0 := by decide
      exact ⟨this ⟨n, h10⟩ e, rfl⟩
    · next h10 =>
      obtain ⟨c, r, e, hc⟩ := ih (n / 10) (by omega)
      rw [e]
      refine ⟨c, r ++ [Char.ofNat (48 + n % 10)], by simp, ?_⟩
      intro e0
      have := (hc e0).1
      omega

theorem natStr_digits (n : Nat) : ∀ c ∈ natStr n, isDigit c = true := digitsAux_digits _ _
theorem natStr_val (n : Nat) : digitsVal (natStr n) = n := digitsAux_val _ _ (by omega)
theorem natStr_head (n : Nat) : ∃ c r, natStr n = c :: r ∧ (c = '0' → n = 0 ∧ r = []) :=
  digitsAux_head _ _ (by omega)

theorem natStr_ne_nil (n : Nat) : natStr n ≠ [] := by
  obtain ⟨c, r, e, _⟩ := natStr_head n; rw [e]; simp

theorem natStr_inj {m n : Nat} (h : natStr m = natStr n) : m = n := by
  rw [← natStr_val m, h, natStr_val]

theorem pFrac_stop {rest : Str} (h : Stop rest) : pFrac rest = some ([], rest) := by
  cases rest with
  | nil => rfl
  | cons c r => simp [pFrac, (h c rfl).2.1]

theorem pExp_stop {rest : Str} (h : Stop rest) : pExp rest = some ([], rest) := by
  cases rest with
  | nil => rfl
  | cons c r => have := (h c rfl).2.2; simp [pExp, this.1, this.2]

theorem pUNum_nat (neg : Bool) (n : Nat) {rest : Str} (h : Stop rest) :
    pUNum neg (natStr n ++ rest) = .ok (mkInt neg (natStr n), rest) := by
  have hs := spanDigits_append (natStr_digits n) (fun c hc => (h c hc).1)
  simp only [pUNum, hs]
  rw [if_neg (natStr_ne_nil n), if_neg]
  · simp [pFrac_stop h, pExp_stop h]
  · obtain ⟨c, r, e, hc⟩ := natStr_head n
    rw [e]
    simp only [List.head?_cons, Option.some.injEq, List.length_cons]
    intro ⟨h1, h2⟩
    have := (hc h1).2
    subst this
    simp at h2

theorem pNum_int {i : Int} (hi : -(2 ^ 63) ≤ i ∧ i < 2 ^ 64) {rest : Str} (h : Stop rest) :
    pNum (intStr i ++ rest) = .ok (.int i, rest) := by
  simp only [intStr]
  split
  · next hn =>
    simp only [List.cons_append, pNum, if_true]
    rw [pUNum_nat true _ h]
    simp only [mkInt, natStr_val, if_true]
    rw [if_neg (by omega), if_pos (by omega)]
    congr 3
    omega
  · next hn =>
    obtain ⟨c, r, e, _⟩ := natStr_head i.natAbs
    have hd := natStr_digits i.natAbs c (by rw [e]; simp)
    have hne : c ≠ '-' := by intro hc; subst hc; exact absurd hd (by decide)
    have : pNum (natStr i.natAbs ++ rest) = pUNum false (natStr i.natAbs ++ rest) := by
      rw [e]; simp [pNum, hne]
    rw [this, pUNum_nat false _ h]
    simp only [mkInt, natStr_val]
    rw [if_neg (by simp), if_pos (by omega)]
    congr 3
    omega

/-- A literal that denotes a float: it is a JSON number read in full and not as an
integer. -/
def FltLit (lit : Str) : Prop := pNum lit = .ok (.flt lit, [])

instance (lit : Str) : Decidable (FltLit lit) := by unfold FltLit; infer_instance

theorem pExp_ext {s t r rest : Str} (hs : pExp s = some (t, r)) (h : Stop rest) :
    pExp (s ++ rest) = some (t, r ++ rest) := by
  have hd : ∀ c, rest.head? = some c → isDigit c = false := fun c hc => (h c hc).1
  cases s with
  | nil => simp only [pExp, Option.some.injEq, Prod.mk.injEq] at hs; obtain ⟨rfl, rfl⟩ := hs
           simpa using pExp_stop h
  | cons e cs =>
    simp only [List.cons_append, pExp] at hs ⊢
    split at hs
    · next he =>
      rw [if_pos he]
      cases cs with
      | nil => simp at hs
      | cons sg ds =>
        simp only [List.cons_append] at hs ⊢
        split at hs
        · next hsg =>
          rw [if_pos hsg, spanDigits_ext hd]
          split at hs
          · simp at hs
          · next hne =>
            simp only [Option.some.injEq, Prod.mk.injEq] at hs
            obtain ⟨rfl, rfl⟩ := hs
            rw [if_neg hne]
        · next hsg =>
          have := spanDigits_ext (s := sg :: ds) hd
          rw [List.cons_append] at this
          rw [if_neg hsg, this]
          split at hs
          · simp at hs
          · next hne =>
            simp only [Option.some.injEq, Prod.mk.injEq] at hs
            obtain ⟨rfl, rfl⟩ := hs
            rw [if_neg hne]
    · next he =>
      simp only [Option.some.injEq, Prod.mk.injEq] at hs
      obtain ⟨rfl, rfl⟩ := hs
      rw [if_neg he]; rfl

theorem pFrac_ext {s t r rest : Str} (hs : pFrac s = some (t, r)) (h : Stop rest) :
    pFrac (s ++ rest) = some (t, r ++ rest) := by
  have hd : ∀ c, rest.head? = some c → isDigit c = false := fun c hc => (h c hc).1
  cases s with
  | nil => simp only [pFrac, Option.some.injEq, Prod.mk.injEq] at hs; obtain ⟨rfl, rfl⟩ := hs
           simpa using pFrac_stop h
  | cons e cs =>
    simp only [List.cons_append, pFrac] at hs ⊢
    split at hs
    · next he =>
      rw [if_pos he, spanDigits_ext hd]
      split at hs
      · simp at hs
      · next hne =>
        simp only [Option.some.injEq, Prod.mk.injEq] at hs
        obtain ⟨rfl, rfl⟩ := hs
        rw [if_neg hne]
    · next he =>
      simp only [Option.some.injEq, Prod.mk.injEq] at hs
      obtain ⟨rfl, rfl⟩ := hs
      rw [if_neg he]; rfl

theorem pUNum_ext {neg : Bool} {s r rest : Str} {j : Json} (hs : pUNum neg s = .ok (j, r))
    (h : Stop rest) : pUNum neg (s ++ rest) = .ok (j, r ++ rest) := by
  have hd : ∀ c, rest.head? = some c → isDigit c = false := fun c hc => (h c hc).1
  simp only [pUNum, spanDigits_ext hd] at hs ⊢
  split at hs
  · simp at hs
  · next h1 =>
    rw [if_neg h1]
    split at hs
    · simp at hs
    · next h2 =>
      rw [if_neg h2]
      cases hf : pFrac (spanDigits s).2 with
      | none => simp [hf] at hs
      | some p =>
        obtain ⟨fr, r1⟩ := p
        simp only [hf] at hs
        simp only [pFrac_ext hf h]
        cases he : pExp r1 with
        | none => simp [he] at hs
        | some p =>
          obtain ⟨ex, r2⟩ := p
          simp only [he] at hs
          simp only [pExp_ext he h]
          split at hs
          · next h3 =>
            rw [if_pos h3]
            simp only [Except.ok.injEq, Prod.mk.injEq] at hs ⊢
            exact ⟨hs.1, by rw [hs.2]⟩
          · next h3 =>
            rw [if_neg h3]
            simp only [Except.ok.injEq, Prod.mk.injEq] at hs ⊢
            exact ⟨hs.1, by rw [hs.2]⟩

theorem pNum_ext {s r rest : Str} {j : Json} (hs : pNum s = .ok (j, r)) (h : Stop rest) :
    pNum (s ++ rest) = .ok (j, r ++ rest) := by
  cases s with
  | nil => simp [pNum] at hs
  | cons c cs =>
    simp only [pNum, List.cons_append] at hs ⊢
    split at hs
    · next hc => rw [if_pos hc]; exact pUNum_ext hs h
    · next hc => rw [if_neg hc]; exact pUNum_ext (s := c :: cs) hs h

/-- A number literal starts with a digit or a minus sign. -/
theorem pNum_head {s r : Str} {j : Json} (hs : pNum s = .ok (j, r)) :
    ∃ c cs, s = c :: cs ∧ (isDigit c = true ∨ c = '-') := by
  cases s with
  | nil => simp [pNum] at hs
  | cons c cs =>
    refine ⟨c, cs, rfl, ?_⟩
    by_cases hc : c = '-'
    · exact .inr hc
    · left
      simp only [pNum, hc, if_false, pUNum, spanDigits] at hs
      cases hd : isDigit c with
      | true => rfl
      | false => simp [hd] at hs

/-! ## Values -/

mutual
/-- Every number in the value is one the printer and parser agree on. -/
def Json.NumOk : Json → Prop
  | .arr l => Json.NumOkL l
  | .obj m => Json.NumOkM m
  | .int i => -(2 ^ 63) ≤ i ∧ i < 2 ^ 64
  | .flt f => FltLit f
  | .null | .bool _ | .str _ => True
def Json.NumOkL : List Json → Prop
  | [] => True
  | j :: l => Json.NumOk j ∧ Json.NumOkL l
def Json.NumOkM : List (Str × Json) → Prop
  | [] => True
  | (_, j) :: m => Json.NumOk j ∧ Json.NumOkM m
end

/-- The first character of a printed value. -/
theorem jPrint_head (j : Json) (h : j.NumOk) :
    ∃ c cs, jPrint j = c :: cs ∧ isWs c = false ∧ c ≠ ']' ∧ c ≠ '}' := by
  match j with
  | .null => exact ⟨_, _, by rw [jPrint], by decide⟩
  | .bool true => exact ⟨_, _, by rw [jPrint], by decide⟩
  | .bool false => exact ⟨_, _, by rw [jPrint], by decide⟩
  | .str s => exact ⟨'"', _, by rw [jPrint]; rfl, by decide⟩
  | .arr [] => exact ⟨_, _, by rw [jPrint], by decide⟩
  | .arr (j :: l) => exact ⟨'[', _, by rw [jPrint], by decide⟩
  | .obj [] => exact ⟨_, _, by rw [jPrint], by decide⟩
  | .obj ((k, j) :: m) => exact ⟨'{', _, by rw [jPrint], by decide⟩
  | .int i =>
    simp only [Json.NumOk] at h
    have := pNum_int h stop_nil
    obtain ⟨c, cs, e, hc⟩ := pNum_head this
    simp only [List.append_nil] at e
    refine ⟨c, cs, by simp [jPrint, e], ?_⟩
    rcases hc with hc | rfl
    · simp [isDigit] at hc
      refine ⟨?_, ?_, ?_⟩
      · simp only [isWs, Bool.or_eq_false_iff, decide_eq_false_iff_not]
        refine ⟨⟨⟨?_, ?_⟩, ?_⟩, ?_⟩ <;> (rintro rfl; revert hc; decide)
      · rintro rfl; revert hc; decide
      · rintro rfl; revert hc; decide
    · decide
  | .flt f =>
    simp only [Json.NumOk] at h
    obtain ⟨c, cs, e, hc⟩ := pNum_head h
    refine ⟨c, cs, by simp [jPrint, e], ?_⟩
    rcases hc with hc | rfl
    · simp [isDigit] at hc
      refine ⟨?_, ?_, ?_⟩
      · simp only [isWs, Bool.or_eq_false_iff, decide_eq_false_iff_not]
        refine ⟨⟨⟨?_, ?_⟩, ?_⟩, ?_⟩ <;> (rintro rfl; revert hc; decide)
      · rintro rfl; revert hc; decide
      · rintro rfl; revert hc; decide
    · decide

theorem skipWs_cons {c : Char} {s : Str} (h : isWs c = false) : skipWs (c :: s) = c :: s := by
  simp [skipWs, h]

theorem pVal_num {sub : Option (Str → Res (Json × Str))} {s r rest : Str} {j : Json}
    (hs : pNum s = .ok (j, r)) (h : Stop rest) :
    pVal sub (s ++ rest) = .ok (j, r ++ rest) := by
  obtain ⟨c, cs, e, hc⟩ := pNum_head hs
  have h2 := pNum_ext hs h
  subst e
  have hw : isWs c = false := by
    rcases hc with hc | rfl
    · simp [isDigit] at hc
      simp only [isWs, Bool.or_eq_false_iff, decide_eq_false_iff_not]
      refine ⟨⟨⟨?_, ?_⟩, ?_⟩, ?_⟩ <;> (rintro rfl; revert hc; decide)
    · decide
  have hne : c ≠ 'n' ∧ c ≠ 't' ∧ c ≠ 'f' ∧ c ≠ '"' ∧ c ≠ '[' ∧ c ≠ '{' := by
    rcases hc with hc | rfl
    · simp [isDigit] at hc
      refine ⟨?_, ?_, ?_, ?_, ?_, ?_⟩ <;> (rintro rfl; revert hc; decide)
    · decide
  obtain ⟨n1, n2, n3, n4, n5, n6⟩ := hne
  simp only [List.cons_append] at h2 ⊢
  simp only [pVal, skipWs_cons hw]
  rw [if_neg n1, if_neg n2, if_neg n3, if_neg n4, if_neg n5, if_neg n6, h2]

theorem jPrintL_stop (l : List Json) (rest : Str) : Stop (jPrintL l ++ rest) := by
  cases l with
  | nil => exact stop_cons (by decide)
  | cons j l => rw [jPrintL]; exact stop_cons (by decide)

theorem jPrintM_stop (m : List (Str × Json)) (rest : Str) : Stop (jPrintM m ++ rest) := by
  cases m with
  | nil => exact stop_cons (by decide)
  | cons p m => obtain ⟨k, j⟩ := p; rw [jPrintM]; exact stop_cons (by decide)

theorem jPrintL_length (l : List Json) : l.length < (jPrintL l).length := by
  induction l with
  | nil => simp [jPrintL]
  | cons j l ih => simp only [jPrintL, List.length_cons, List.length_append]; omega

theorem jPrintM_length (m : List (Str × Json)) : m.length < (jPrintM m).length := by
  induction m with
  | nil => simp [jPrintM]
  | cons p m ih => obtain ⟨k, j⟩ := p; simp only [jPrintM, List.length_cons, List.length_append]; omega

mutual
theorem pJson_jPrint (j : Json) (d : Nat) (rest : Str) (hd : j.depth ≤ d) (hn : j.NumOk)
    (hr : Stop rest) : pJson d (jPrint j ++ rest) = .ok (j, rest) := by
  match j with
  | .null => cases d <;> simp [pJson, pVal, jPrint, skipWs, isWs, pWord, stripPrefix]
  | .bool true => cases d <;> simp [pJson, pVal, jPrint, skipWs, isWs, pWord, stripPrefix]
  | .bool false => cases d <;> simp [pJson, pVal, jPrint, skipWs, isWs, pWord, stripPrefix]
  | .int i =>
    have h := pNum_int (by simpa [Json.NumOk] using hn) stop_nil (i := i)
    rw [List.append_nil] at h
    have := fun sub => pVal_num (sub := sub) h hr
    cases d <;> simp only [pJson, jPrint, this] <;> simp
  | .flt f =>
    have := fun sub => pVal_num (sub := sub) (s := f) (r := []) hn hr
    cases d <;> simp only [pJson, jPrint, this] <;> simp
  | .str s =>
    have h : jPrint (.str s) ++ rest = '"' :: (s.flatMap jEsc ++ '"' :: rest) := by
      simp [jPrint, jStr]
    rw [h]
    cases d <;> simp only [pJson, pVal, skipWs_cons (c := '"') (by decide)] <;>
      rw [if_neg (by decide), if_neg (by decide), if_neg (by decide), if_pos trivial, pStr_lit]
  | .arr [] =>
    cases d with
    | zero => simp [Json.depth] at hd
    | succ d => simp [pJson, pVal, jPrint, skipWs, isWs, pElems]
  | .arr (j :: l) =>
    cases d with
    | zero => simp [Json.depth] at hd
    | succ d =>
      simp only [Json.depth, Json.depthL] at hd
      simp only [Json.NumOk, Json.NumOkL] at hn
      have e : jPrint (.arr (j :: l)) ++ rest = '[' :: (jPrint j ++ (jPrintL l ++ rest)) := by
        simp [jPrint]
      rw [e]
      have h1 := pJson_jPrint j d (jPrintL l ++ rest) (by omega) hn.1 (jPrintL_stop l rest)
      obtain ⟨c, cs, hc, hw, hb, _⟩ := jPrint_head j hn.1
      have hlen := jPrintL_length l
      have h2 := pElems_jPrint l d rest ((jPrint j ++ (jPrintL l ++ rest)).length)
        (by omega) hn.2 (by simp only [List.length_append]; rw [hc]; simp only [List.length_cons]; omega)
      simp only [pJson, pVal, skipWs_cons (c := '[') (by decide)]
      rw [if_neg (by decide), if_neg (by decide), if_neg (by decide), if_neg (by decide), if_pos trivial]
      simp only [pElems]
      have hsk : skipWs (jPrint j ++ (jPrintL l ++ rest)) = c :: (cs ++ (jPrintL l ++ rest)) := by
        rw [hc, List.cons_append, skipWs_cons hw]
      rw [hsk]
      simp only [hb, if_false, pSep, if_true]
      rw [hc, List.cons_append] at h1
      rw [h1]
      simp only [h2]
  | .obj [] =>
    cases d with
    | zero => simp [Json.depth] at hd
    | succ d => simp [pJson, pVal, jPrint, skipWs, isWs, pMembers]
  | .obj ((k, j) :: m) =>
    cases d with
    | zero => simp [Json.depth] at hd
    | succ d =>
      simp only [Json.depth, Json.depthM] at hd
      simp only [Json.NumOk, Json.NumOkM] at hn
      have e : jPrint (.obj ((k, j) :: m)) ++ rest
          = '{' :: ('"' :: (k.flatMap jEsc ++ '"' :: (':' :: (jPrint j ++ (jPrintM m ++ rest))))) := by
        simp [jPrint, jStr]
      rw [e]
      have h1 := pJson_jPrint j d (jPrintM m ++ rest) (by omega) hn.1 (jPrintM_stop m rest)
      have hlen := jPrintM_length m
      have h2 := pMembers_jPrint m d rest
        ('"' :: (k.flatMap jEsc ++ '"' :: (':' :: (jPrint j ++ (jPrintM m ++ rest))))).length
        (by omega) hn.2 (by simp only [List.length_append, List.length_cons]; omega)
      simp only [pJson, pVal, skipWs_cons (c := '{') (by decide)]
      rw [if_neg (by decide), if_neg (by decide), if_neg (by decide), if_neg (by decide),
        if_neg (by decide), if_pos trivial]
      simp only [pMembers, skipWs_cons (c := '"') (by decide), pSep, if_true]
      rw [if_neg (by decide), pStr_lit]
      simp only [skipWs_cons (c := ':') (by decide), if_true]
      rw [h1]
      simp only [h2]
theorem pElems_jPrint (l : List Json) (d : Nat) (rest : Str) (f : Nat)
    (hd : Json.depthL l ≤ d) (hn : Json.NumOkL l) (hf : l.length < f) :
    pElems (pJson d) f false (jPrintL l ++ rest) = .ok (l, rest) := by
  match l, f with
  | [], f + 1 => simp [pElems, jPrintL, skipWs, isWs]
  | j :: l, f + 1 =>
    simp only [Json.depthL] at hd
    simp only [Json.NumOkL] at hn
    have h1 := pJson_jPrint j d (jPrintL l ++ rest) (by omega) hn.1 (jPrintL_stop l rest)
    have h2 := pElems_jPrint l d rest f (by omega) hn.2 (by simp at hf; omega)
    simp only [jPrintL, List.cons_append, List.append_assoc, pElems,
      skipWs_cons (c := ',') (by decide), pSep]
    rw [if_neg (by decide), if_neg (by decide), if_pos trivial]
    simp only [h1, h2]
theorem pMembers_jPrint (m : List (Str × Json)) (d : Nat) (rest : Str) (f : Nat)
    (hd : Json.depthM m ≤ d) (hn : Json.NumOkM m) (hf : m.length < f) :
    pMembers (pJson d) f false (jPrintM m ++ rest) = .ok (m, rest) := by
  match m, f with
  | [], f + 1 => simp [pMembers, jPrintM, skipWs, isWs]
  | (k, j) :: m, f + 1 =>
    simp only [Json.depthM] at hd
    simp only [Json.NumOkM] at hn
    have h1 := pJson_jPrint j d (jPrintM m ++ rest) (by omega) hn.1 (jPrintM_stop m rest)
    have h2 := pMembers_jPrint m d rest f (by omega) hn.2 (by simp at hf; omega)
    have e : jPrintM ((k, j) :: m) ++ rest
        = ',' :: ('"' :: (k.flatMap jEsc ++ '"' :: (':' :: (jPrint j ++ (jPrintM m ++ rest))))) := by
      simp [jPrintM, jStr]
    rw [e]
    simp only [pMembers, skipWs_cons (c := ',') (by decide), pSep]
    rw [if_neg (by decide), if_neg (by decide), if_pos trivial]
    simp only [skipWs_cons (c := '"') (by decide), if_true]
    rw [pStr_lit]
    simp only [skipWs_cons (c := ':') (by decide), if_true]
    rw [h1]
    simp only [h2]
end

/-! ## Values nested too deeply -/

mutual
theorem pJson_deep (j : Json) (d : Nat) (rest : Str) (hd : d < j.depth) (hn : j.NumOk) :
    pJson d (jPrint j ++ rest) = .error .recursion := by
  match j with
  | .null | .bool _ | .int _ | .flt _ | .str _ => simp [Json.depth] at hd
  | .arr [] =>
    simp [Json.depth, Json.depthL] at hd
    subst hd
    simp [pJson, pVal, jPrint, skipWs, isWs]
  | .arr (j :: l) =>
    have e : jPrint (.arr (j :: l)) ++ rest = '[' :: (jPrint j ++ (jPrintL l ++ rest)) := by
      simp [jPrint]
    rw [e]
    simp only [Json.depth, Json.depthL] at hd
    simp only [Json.NumOk, Json.NumOkL] at hn
    cases d with
    | zero =>
      simp only [pJson, pVal, skipWs_cons (c := '[') (by decide)]
      rw [if_neg (by decide), if_neg (by decide), if_neg (by decide), if_neg (by decide),
        if_pos trivial]
    | succ d =>
      obtain ⟨c, cs, hc, hw, hb, _⟩ := jPrint_head j hn.1
      have hlen := jPrintL_length l
      simp only [pJson, pVal, skipWs_cons (c := '[') (by decide)]
      rw [if_neg (by decide), if_neg (by decide), if_neg (by decide), if_neg (by decide),
        if_pos trivial]
      simp only [pElems]
      have hsk : skipWs (jPrint j ++ (jPrintL l ++ rest)) = c :: (cs ++ (jPrintL l ++ rest)) := by
        rw [hc, List.cons_append, skipWs_cons hw]
      rw [hsk]
      simp only [hb, if_false, pSep, if_true]
      rw [← List.cons_append, ← hc]
      by_cases hj : d < j.depth
      · rw [pJson_deep j d _ hj hn.1]
      · rw [pJson_jPrint j d (jPrintL l ++ rest) (by omega) hn.1 (jPrintL_stop l rest)]
        simp only
        rw [pElems_deep l d rest _ (by omega) hn.2 (by
          simp only [List.length_append]; rw [hc]; simp only [List.length_cons]; omega)]
  | .obj [] =>
    simp [Json.depth, Json.depthM] at hd
    subst hd
    simp [pJson, pVal, jPrint, skipWs, isWs]
  | .obj ((k, j) :: m) =>
    have e : jPrint (.obj ((k, j) :: m)) ++ rest
        = '{' :: ('"' :: (k.flatMap jEsc ++ '"' :: (':' :: (jPrint j ++ (jPrintM m ++ rest))))) := by
      simp [jPrint, jStr]
    rw [e]
    simp only [Json.depth, Json.depthM] at hd
    simp only [Json.NumOk, Json.NumOkM] at hn
    cases d with
    | zero =>
      simp only [pJson, pVal, skipWs_cons (c := '{') (by decide)]
      rw [if_neg (by decide), if_neg (by decide), if_neg (by decide), if_neg (by decide),
        if_neg (by decide), if_pos trivial]
    | succ d =>
      have hlen := jPrintM_length m
      simp only [pJson, pVal, skipWs_cons (c := '{') (by decide)]
      rw [if_neg (by decide), if_neg (by decide), if_neg (by decide), if_neg (by decide),
        if_neg (by decide), if_pos trivial]
      simp only [pMembers, skipWs_cons (c := '"') (by decide), pSep, if_true]
      rw [if_neg (by decide), pStr_lit]
      simp only [skipWs_cons (c := ':') (by decide), if_true]
      by_cases hj : d < j.depth
      · rw [pJson_deep j d _ hj hn.1]
      · rw [pJson_jPrint j d (jPrintM m ++ rest) (by omega) hn.1 (jPrintM_stop m rest)]
        simp only
        rw [pMembers_deep m d rest _ (by omega) hn.2 (by
          simp only [List.length_append, List.length_cons]; omega)]
theorem pElems_deep (l : List Json) (d : Nat) (rest : Str) (f : Nat)
    (hd : d < Json.depthL l) (hn : Json.NumOkL l) (hf : l.length < f) :
    pElems (pJson d) f false (jPrintL l ++ rest) = .error .recursion := by
  match l, f with
  | [], _ => simp [Json.depthL] at hd
  | j :: l, f + 1 =>
    simp only [Json.depthL] at hd
    simp only [Json.NumOkL] at hn
    simp only [jPrintL, List.cons_append, List.append_assoc, pElems,
      skipWs_cons (c := ',') (by decide), pSep]
    rw [if_neg (by decide), if_neg (by decide), if_pos trivial]
    simp only
    by_cases hj : d < j.depth
    · rw [pJson_deep j d _ hj hn.1]
    · rw [pJson_jPrint j d (jPrintL l ++ rest) (by omega) hn.1 (jPrintL_stop l rest)]
      simp only
      rw [pElems_deep l d rest f (by omega) hn.2 (by simp at hf; omega)]
theorem pMembers_deep (m : List (Str × Json)) (d : Nat) (rest : Str) (f : Nat)
    (hd : d < Json.depthM m) (hn : Json.NumOkM m) (hf : m.length < f) :
    pMembers (pJson d) f false (jPrintM m ++ rest) = .error .recursion := by
  match m, f with
  | [], _ => simp [Json.depthM] at hd
  | (k, j) :: m, f + 1 =>
    simp only [Json.depthM] at hd
    simp only [Json.NumOkM] at hn
    have e : jPrintM ((k, j) :: m) ++ rest
        = ',' :: ('"' :: (k.flatMap jEsc ++ '"' :: (':' :: (jPrint j ++ (jPrintM m ++ rest))))) := by
      simp [jPrintM, jStr]
    rw [e]
    simp only [pMembers, skipWs_cons (c := ',') (by decide), pSep]
    rw [if_neg (by decide), if_neg (by decide), if_pos trivial]
    simp only [skipWs_cons (c := '"') (by decide), if_true]
    rw [pStr_lit]
    simp only [skipWs_cons (c := ':') (by decide), if_true]
    by_cases hj : d < j.depth
    · rw [pJson_deep j d _ hj hn.1]
    · rw [pJson_jPrint j d (jPrintM m ++ rest) (by omega) hn.1 (jPrintM_stop m rest)]
      simp only
      rw [pMembers_deep m d rest f (by omega) hn.2 (by simp at hf; omega)]
end

/-! ## Normal forms -/

mutual
theorem norm_of_WF {P : Str → Prop} (j : Json) (h : j.WF P) : j.norm = j := by
  match j with
  | .null | .bool _ | .int _ | .flt _ | .str _ => rfl
  | .arr l => simp only [Json.WF] at h; rw [Json.norm, normL_of_WF l h]
  | .obj m =>
    simp only [Json.WF] at h
    rw [Json.norm, normM_of_WF m h.2, mofList_self h.1]
theorem normL_of_WF {P : Str → Prop} (l : List Json) (h : Json.WFL P l) : Json.normL l = l := by
  match l with
  | [] => rfl
  | j :: l => simp only [Json.WFL] at h; rw [Json.normL, norm_of_WF j h.1, normL_of_WF l h.2]
theorem normM_of_WF {P : Str → Prop} (m : List (Str × Json)) (h : Json.WFM P m) :
    Json.normM m = m := by
  match m with
  | [] => rfl
  | (k, j) :: m => simp only [Json.WFM] at h; rw [Json.normM, norm_of_WF j h.1, normM_of_WF m h.2]
end

mutual
theorem numOk_of_WF (j : Json) (h : j.WF FltLit) : j.NumOk := by
  match j with
  | .null | .bool _ | .str _ => simp [Json.NumOk]
  | .int _ | .flt _ => simpa [Json.NumOk, Json.WF] using h
  | .arr l => simp only [Json.WF] at h; simp only [Json.NumOk]; exact numOkL_of_WF l h
  | .obj m => simp only [Json.WF] at h; simp only [Json.NumOk]; exact numOkM_of_WF m h.2
theorem numOkL_of_WF (l : List Json) (h : Json.WFL FltLit l) : Json.NumOkL l := by
  match l with
  | [] => simp [Json.NumOkL]
  | j :: l =>
    simp only [Json.WFL] at h; simp only [Json.NumOkL]
    exact ⟨numOk_of_WF j h.1, numOkL_of_WF l h.2⟩
theorem numOkM_of_WF (m : List (Str × Json)) (h : Json.WFM FltLit m) : Json.NumOkM m := by
  match m with
  | [] => simp [Json.NumOkM]
  | (k, j) :: m =>
    simp only [Json.WFM] at h; simp only [Json.NumOkM]
    exact ⟨numOk_of_WF j h.1, numOkM_of_WF m h.2⟩
end

/-- Printing then reading raw members. -/
theorem jParseRaw_jPrint {j : Json} (hd : j.depth ≤ jsonMaxDepth) (hn : j.NumOk) :
    jParseRaw (jPrint j) = .ok j := by
  have := pJson_jPrint j jsonMaxDepth [] hd hn stop_nil
  rw [List.append_nil] at this
  simp [jParseRaw, this, skipWs]

theorem jParseRaw_deep {j : Json} (hd : jsonMaxDepth < j.depth) (hn : j.NumOk) :
    jParseRaw (jPrint j) = .error .recursion := by
  have := pJson_deep j jsonMaxDepth [] hd hn
  rw [List.append_nil] at this
  simp [jParseRaw, this]

theorem jParse_jPrint_norm {j : Json} (hd : j.depth ≤ jsonMaxDepth) (hn : j.NumOk) :
    jParse (jPrint j) = .ok j.norm := by
  simp [jParse, jParseRaw_jPrint hd hn]

/-- Printing then reading a `serde_json::Value`. -/
theorem jParse_jPrint {j : Json} (hd : j.depth ≤ jsonMaxDepth) (h : j.WF FltLit) :
    jParse (jPrint j) = .ok j := by
  rw [jParse_jPrint_norm hd (numOk_of_WF j h), norm_of_WF j h]

theorem jParseBytes_jPrint {j : Json} (hd : j.depth ≤ jsonMaxDepth) (h : j.WF FltLit) :
    jParseBytes (utf8 (jPrint j)) = .ok j := by
  simp [jParseBytes, utf8Dec_utf8, jParse_jPrint hd h]

/-- Members of a map, member by member. -/
theorem wfM_iff {P : Str → Prop} {m : List (Str × Json)} :
    Json.WFM P m ↔ ∀ p ∈ m, p.2.WF P := by
  induction m with
  | nil => simp [Json.WFM]
  | cons p m ih => obtain ⟨k, j⟩ := p; simp [Json.WFM, ih]

theorem wfL_iff {P : Str → Prop} {l : List Json} : Json.WFL P l ↔ ∀ j ∈ l, j.WF P := by
  induction l with
  | nil => simp [Json.WFL]
  | cons j l ih => simp [Json.WFL, ih]

theorem depthM_le {m : List (Str × Json)} {n : Nat} :
    Json.depthM m ≤ n ↔ ∀ p ∈ m, p.2.depth ≤ n := by
  induction m with
  | nil => simp [Json.depthM]
  | cons p m ih => obtain ⟨k, j⟩ := p; simp [Json.depthM, Nat.max_le, ih]

theorem depthL_le {l : List Json} {n : Nat} : Json.depthL l ≤ n ↔ ∀ j ∈ l, j.depth ≤ n := by
  induction l with
  | nil => simp [Json.depthL]
  | cons j l ih => simp [Json.depthL, Nat.max_le, ih]

end Oid4vp
