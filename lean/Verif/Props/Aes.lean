import Verif.Lemmas.Aes
import Verif.Props.Gcm

/-! # AES (C128) -/

set_option autoImplicit false

namespace Oid4vp

open Aes Spec Spec.Aes

namespace Aes

/-! ## States -/

theorem state_ext {t u : Bytes} (ht : t.length = 16) (hu : u.length = 16)
    (h : ∀ r < 4, ∀ c < 4, entry t r c = entry u r c) : t = u := by
  apply eq_of_getD (by rw [ht, hu])
  intro i hi
  rw [ht] at hi
  have := h (i % 4) (by omega) (i / 4) (by omega)
  rw [entry, entry, Nat.mod_add_div] at this
  exact this

theorem shift_length (s : Bytes) : (shift s).length = 16 := rfl

theorem mix_length (s : Bytes) : (mix s).length = 16 := rfl

theorem plus_length {x y : Bytes} {n : Nat} (hx : x.length = n) (hy : y.length = n) : (plus x y).length = n := by
  rw [plus, List.length_zipWith, hx, hy, Nat.min_self]

theorem plus_getD {x y : Bytes} {n : Nat} (hx : x.length = n) (hy : y.length = n) (i : Nat) (hi : i < n) :
    (plus x y).getD i 0 = x.getD i 0 ^^^ y.getD i 0 := by
  rw [List.getD_eq_getElem _ _ (by rw [plus_length hx hy]; exact hi), List.getD_eq_getElem _ _ (by rw [hx]; exact hi),
    List.getD_eq_getElem _ _ (by rw [hy]; exact hi)]
  simp only [plus, List.getElem_zipWith]

theorem map_sub_getD (s : Bytes) (i : Nat) (hi : i < s.length) : (s.map sub).getD i 0 = sub (s.getD i 0) := by
  rw [List.getD_eq_getElem _ _ (by rw [List.length_map]; exact hi), List.getD_eq_getElem _ _ hi, List.getElem_map]

theorem shift_entry (s : Bytes) (r : Nat) (hr : r < 4) (c : Nat) (hc : c < 4) :
    entry (shift s) r c = entry s r ((c + r) % 4) := by
  interval_cases r <;> interval_cases c <;> rfl

theorem subShift_iff {s : Bytes} (hs : s.length = 16) (t : Bytes) : SubShift s t ↔ t = shift (s.map sub) := by
  have key : ∀ r < 4, ∀ c < 4, entry (shift (s.map sub)) r c = sub (entry s r ((c + r) % 4)) := by
    intro r hr c hc
    rw [shift_entry _ r hr c hc, entry, entry, map_sub_getD _ _ (by rw [hs]; omega)]
  constructor
  · rintro ⟨ht, h⟩
    apply state_ext ht rfl
    intro r hr c hc
    rw [(isSub_iff _ _).1 (h r hr c hc), key r hr c hc]
  · rintro rfl
    exact ⟨rfl, fun r hr c hc => (isSub_iff _ _).2 (key r hr c hc)⟩

theorem mix_entry (s : Bytes) (r : Nat) (hr : r < 4) (c : Nat) (hc : c < 4) :
    entry (mix s) r c = (mixColumn (entry s 0 c) (entry s 1 c) (entry s 2 c) (entry s 3 c)).getD r 0 := by
  interval_cases r <;> interval_cases c <;> rfl

theorem ψ_mixColumn (f : Nat → UInt8) (r : Nat) (hr : r < 4) :
    ψ (Spec.Aes.element ((mixColumn (f 0) (f 1) (f 2) (f 3)).getD r 0)) =
      ψ (∑ k ∈ Finset.range 4, Spec.Aes.element (([2, 3, 1, 1] : List UInt8).getD ((k + 4 - r) % 4) 0) *
        Spec.Aes.element (f k)) := by
  interval_cases r <;>
    simp only [mixColumn, Finset.sum_range_succ, Finset.sum_range_zero, List.getD_cons_zero, List.getD_cons_succ,
      Nat.reduceAdd, Nat.reduceSub, Nat.reduceMod, element_one, element_two, element_three, element_xor, map_add,
      map_mul, map_zero, map_one, ψ_double] <;>
    ring

theorem mixColumns_iff (s t : Bytes) : MixColumns s t ↔ t = mix s := by
  constructor
  · rintro ⟨ht, h⟩
    apply state_ext ht rfl
    intro r hr c hc
    apply unique
    rw [ψ_eq.2 (h r hr c hc), mix_entry s r hr c hc, ψ_mixColumn (fun k => entry s k c) r hr]
  · rintro rfl
    refine ⟨rfl, fun r hr c hc => ψ_eq.1 ?_⟩
    rw [mix_entry s r hr c hc, ψ_mixColumn (fun k => entry s k c) r hr]

/-! ## The key schedule -/

/-- Byte `r` of what is added to word `i - nk`, after the word `prev`. -/
def step (nk i : Nat) (prev : Nat → UInt8) (r : Nat) : UInt8 :=
  if i % nk = 0 then sub (prev ((r + 1) % 4)) ^^^ (if r = 0 then rcon (i / nk) else 0)
  else if 6 < nk ∧ i % nk = 4 then sub (prev r)
  else prev r

/-- The schedule as equations. -/
def Recurrence (key : Bytes) (nk n : Nat) (w : Nat → Nat → UInt8) : Prop :=
  ∀ i < n, ∀ r < 4, w i r = if i < nk then key.getD (4 * i + r) 0 else w (i - nk) r ^^^ step nk i (w (i - 1)) r

theorem recurrence_unique {key : Bytes} {nk n : Nat} (hk : 0 < nk) {w v : Nat → Nat → UInt8}
    (hw : Recurrence key nk n w) (hv : Recurrence key nk n v) : ∀ i < n, ∀ r < 4, w i r = v i r := by
  intro i
  induction i using Nat.strong_induction_on with
  | _ i ih =>
    intro hi r hr
    rw [hw i hi r hr, hv i hi r hr]
    by_cases h : i < nk
    · rw [if_pos h, if_pos h]
    · rw [if_neg h, if_neg h, ih (i - nk) (by omega) (by omega) r hr]
      congr 1
      rw [step, step, ih (i - 1) (by omega) (by omega) _ (Nat.mod_lt _ (by decide)),
        ih (i - 1) (by omega) (by omega) r hr]

theorem ψ_rcon : ∀ i, 1 ≤ i → i ≤ 10 → ψ (Spec.Aes.element (rcon i)) = ψ (Polynomial.X ^ (i - 1)) := by
  intro i
  induction i with
  | zero => omega
  | succ i ih =>
    intro h1 h2
    by_cases h0 : i = 0
    · subst h0
      show ψ (Spec.Aes.element 1) = _
      rw [element_one]; simp
    · have hd : rcon (i + 1) = double (rcon i) := by
        have : 1 ≤ i := by omega
        have : i ≤ 9 := by omega
        interval_cases i <;> decide
      rw [hd, ψ_double, ih (by omega) (by omega), ← map_mul, ← pow_succ']
      congr 2
      omega

theorem schedule_iff {key : Bytes} (hk : key.length ∈ [16, 24, 32]) (w : Nat → Nat → UInt8) :
    KeySchedule key w ↔ Recurrence key (key.length / 4) (4 * (key.length / 4 + 7)) w := by
  have h3 : key.length = 16 ∨ key.length = 24 ∨ key.length = 32 := by simpa using hk
  generalize hnk : key.length / 4 = nk
  have hnk' : nk = 4 ∨ nk = 6 ∨ nk = 8 := by omega
  have h32 : key.length = 32 ↔ 6 < nk := by omega
  have hrc : ∀ i, nk ≤ i → i < 4 * (nk + 7) → 1 ≤ i / nk ∧ i / nk ≤ 10 := by
    intro i h1 h2
    rcases hnk' with rfl | rfl | rfl <;> omega
  have hdvd : ∀ i, nk ∣ i ↔ i % nk = 0 := fun i => Nat.dvd_iff_mod_eq_zero
  have hmid : ∀ i, (key.length = 32 ∧ i % 8 = 4) ↔ (6 < nk ∧ i % nk = 4) := by
    intro i
    rcases hnk' with rfl | rfl | rfl
    · omega
    · omega
    · rw [h32]
  have hone : ∀ i, nk ≤ i → i < 4 * (nk + 7) → ∀ r < 4, (∃ t, w i r = w (i - nk) r ^^^ t ∧
      (nk ∣ i → ∃ s c, IsSub (w (i - 1) ((r + 1) % 4)) s ∧ t = s ^^^ c ∧
        (r = 0 → Spec.Aes.modulus ∣ Spec.Aes.element c - Polynomial.X ^ (i / nk - 1)) ∧ (r ≠ 0 → c = 0)) ∧
      (¬ nk ∣ i → key.length = 32 ∧ i % 8 = 4 → IsSub (w (i - 1) r) t) ∧
      (¬ nk ∣ i → ¬ (key.length = 32 ∧ i % 8 = 4) → t = w (i - 1) r)) ↔
      w i r = w (i - nk) r ^^^ step nk i (w (i - 1)) r := by
    intro i h1 h2 r hr
    obtain ⟨g1, g2⟩ := hrc i h1 h2
    constructor
    · rintro ⟨t, ht, a1, a2, a3⟩
      rw [ht]
      congr 1
      rw [step]
      by_cases hz : i % nk = 0
      · obtain ⟨s, c, b1, b2, b3, b4⟩ := a1 ((hdvd i).2 hz)
        rw [if_pos hz, b2, (isSub_iff _ _).1 b1]
        congr 1
        by_cases hr0 : r = 0
        · rw [if_pos hr0]
          apply unique
          rw [ψ_eq.2 (b3 hr0), ψ_rcon _ g1 g2]
        · rw [if_neg hr0, b4 hr0]
      · have hn : ¬ nk ∣ i := fun h => hz ((hdvd i).1 h)
        rw [if_neg hz]
        by_cases hm : 6 < nk ∧ i % nk = 4
        · rw [if_pos hm, (isSub_iff _ _).1 (a2 hn ((hmid i).2 hm))]
        · rw [if_neg hm, a3 hn (fun h => hm ((hmid i).1 h))]
    · intro h
      refine ⟨_, h, ?_, ?_, ?_⟩
      · intro hd
        refine ⟨sub (w (i - 1) ((r + 1) % 4)), if r = 0 then rcon (i / nk) else 0, (isSub_iff _ _).2 rfl, ?_, ?_, ?_⟩
        · rw [step, if_pos ((hdvd i).1 hd)]
        · intro hr0
          rw [if_pos hr0]
          exact ψ_eq.1 (ψ_rcon _ g1 g2)
        · intro hr0
          rw [if_neg hr0]
      · intro hd hm
        rw [step, if_neg (fun h => hd ((hdvd i).2 h)), if_pos ((hmid i).1 hm)]
        exact (isSub_iff _ _).2 rfl
      · intro hd hm
        rw [step, if_neg (fun h => hd ((hdvd i).2 h)), if_neg (fun h => hm ((hmid i).2 h))]
  rw [KeySchedule, hnk]
  constructor
  · rintro ⟨p1, p2⟩ i hi r hr
    by_cases h : i < nk
    · rw [if_pos h, p1 i h r hr]
    · rw [if_neg h, (hone i (by omega) hi r hr).1 (p2 i (by omega) hi r hr)]
  · intro h
    refine ⟨fun i hi r hr => ?_, fun i h1 h2 r hr => (hone i h1 h2 r hr).2 ?_⟩
    · rw [h i (by omega) r hr, if_pos hi]
    · rw [h i h2 r hr, if_neg (by omega)]

/-- Word `i` of words listed from the last. -/
def word (ws : List Bytes) (i : Nat) : Bytes := ws.getD (ws.length - 1 - i) []

theorem word_cons {x : Bytes} {ws : List Bytes} {i : Nat} (h : i < ws.length) : word (x :: ws) i = word ws i := by
  have : (x :: ws).length - 1 - i = (ws.length - 1 - i) + 1 := by rw [List.length_cons]; omega
  rw [word, word, this, List.getD_cons_succ]

theorem word_last (x : Bytes) (ws : List Bytes) : word (x :: ws) ws.length = x := by
  have : (x :: ws).length - 1 - ws.length = 0 := by rw [List.length_cons]; omega
  rw [word, this, List.getD_cons_zero]

theorem word_mem {ws : List Bytes} {i : Nat} (h : i < ws.length) : word ws i ∈ ws := by
  rw [word, List.getD_eq_getElem _ _ (by omega)]
  exact List.getElem_mem _

/-- Words of four bytes that obey the equations. -/
def Fits (key : Bytes) (nk : Nat) (ws : List Bytes) : Prop :=
  (∀ x ∈ ws, x.length = 4) ∧ Recurrence key nk ws.length (fun i r => (word ws i).getD r 0)

theorem step_congr {nk i : Nat} {p q : Nat → UInt8} (h : ∀ r < 4, p r = q r) {r : Nat} (hr : r < 4) :
    step nk i p r = step nk i q r := by
  rw [step, step, h _ (Nat.mod_lt _ (by decide)), h r hr]

theorem fits_cons {key : Bytes} {nk : Nat} {ws : List Bytes} (h : Fits key nk ws) {x : Bytes} (hx : x.length = 4)
    (hl : ∀ r < 4, x.getD r 0 = if ws.length < nk then key.getD (4 * ws.length + r) 0
      else (word ws (ws.length - nk)).getD r 0 ^^^ step nk ws.length (fun r => (word ws (ws.length - 1)).getD r 0) r)
    (hk : 0 < nk) : Fits key nk (x :: ws) := by
  refine ⟨?_, ?_⟩
  · intro y hy
    rcases List.mem_cons.1 hy with rfl | hy
    · exact hx
    · exact h.1 y hy
  · intro i hi r hr
    rw [List.length_cons] at hi
    by_cases he : i = ws.length
    · subst he
      simp only [word_last]
      rw [hl r hr]
      by_cases hn : ws.length < nk
      · rw [if_pos hn, if_pos hn]
      · rw [if_neg hn, if_neg hn, word_cons (by omega), word_cons (by omega)]
    · have hlt : i < ws.length := by omega
      have := h.2 i hlt r hr
      simp only at this ⊢
      rw [word_cons hlt, this]
      by_cases hn : i < nk
      · rw [if_pos hn, if_pos hn]
      · rw [if_neg hn, if_neg hn, word_cons (by omega), word_cons (by omega)]

theorem fits_keyWords {key : Bytes} {nk : Nat} (hk : key.length = 4 * nk) (m : Nat) (hm : m ≤ nk) (h0 : 0 < nk) :
    (keyWords key m).length = m ∧ Fits key nk (keyWords key m) := by
  induction m with
  | zero => exact ⟨rfl, by simp [keyWords], fun i hi => absurd hi (by simp [keyWords])⟩
  | succ m ih =>
    obtain ⟨h1, h2⟩ := ih (by omega)
    refine ⟨by rw [keyWords, List.length_cons, h1], ?_⟩
    rw [keyWords]
    apply fits_cons h2 _ _ h0
    · rw [List.length_take, List.length_drop]; omega
    · intro r hr
      rw [h1, if_pos (by omega)]
      simp only [List.getD_eq_getElem?_getD]
      rw [List.getElem?_take_of_lt hr, List.getElem?_drop]

theorem next_eq {key : Bytes} {nk : Nat} {ws : List Bytes} (h : Fits key nk ws) (hk : 0 < nk) (hl : nk ≤ ws.length) :
    (next nk ws).length = 4 ∧ ∀ r < 4, (next nk ws).getD r 0 =
      (word ws (ws.length - nk)).getD r 0 ^^^ step nk ws.length (fun r => (word ws (ws.length - 1)).getD r 0) r := by
  have e0 : ws.getD 0 [] = word ws (ws.length - 1) := by
    rw [word]; congr 1; omega
  have e1 : ws.getD (nk - 1) [] = word ws (ws.length - nk) := by
    rw [word]; congr 1; omega
  have l0 := h.1 _ (word_mem (ws := ws) (i := ws.length - 1) (by omega))
  have l1 := h.1 _ (word_mem (ws := ws) (i := ws.length - nk) (by omega))
  rw [next, e0, e1]
  generalize word ws (ws.length - 1) = t at *
  generalize word ws (ws.length - nk) = u at *
  obtain ⟨a, b, c, d, rfl⟩ : ∃ a b c d, t = [a, b, c, d] := by
    match t, l0 with
    | [a, b, c, d], _ => exact ⟨a, b, c, d, rfl⟩
  have hs : ∀ t' : Bytes, t'.length = 4 → (∀ r < 4, t'.getD r 0 = step nk ws.length (fun r => [a, b, c, d].getD r 0) r) →
      (plus u t').length = 4 ∧ ∀ r < 4, (plus u t').getD r 0 =
        u.getD r 0 ^^^ step nk ws.length (fun r => [a, b, c, d].getD r 0) r := by
    intro t' h4 hg
    exact ⟨plus_length l1 h4, fun r hr => by rw [plus_getD l1 h4 r hr, hg r hr]⟩
  apply hs
  · split
    · rfl
    · split <;> rfl
  · intro r hr
    rw [step]
    by_cases hz : ws.length % nk = 0
    · rw [if_pos hz, if_pos hz]
      interval_cases r <;> rfl
    · rw [if_neg hz, if_neg hz]
      by_cases hm : 6 < nk ∧ ws.length % nk = 4
      · rw [if_pos hm, if_pos hm]
        interval_cases r <;> rfl
      · rw [if_neg hm, if_neg hm]

theorem fits_extend {key : Bytes} {nk : Nat} (hk : 0 < nk) (m : Nat) {ws : List Bytes} (h : Fits key nk ws)
    (hl : nk ≤ ws.length) : (extend nk m ws).length = ws.length + m ∧ Fits key nk (extend nk m ws) := by
  induction m generalizing ws with
  | zero => exact ⟨rfl, h⟩
  | succ m ih =>
    obtain ⟨n1, n2⟩ := next_eq h hk hl
    obtain ⟨h1, h2⟩ := ih (ws := next nk ws :: ws)
      (fits_cons h n1 (fun r hr => by rw [if_neg (by omega)]; exact n2 r hr) hk) (by rw [List.length_cons]; omega)
    rw [List.length_cons] at h1
    exact ⟨by rw [extend, h1]; omega, h2⟩

/-- Byte `r` of word `i` of the computed schedule. -/
def wordByte (key : Bytes) (i r : Nat) : UInt8 := ((schedule key).getD i []).getD r 0

theorem schedule_spec {key : Bytes} (hk : key.length ∈ [16, 24, 32]) :
    (schedule key).length = 4 * (key.length / 4 + 7) ∧ (∀ x ∈ schedule key, x.length = 4) ∧
      Recurrence key (key.length / 4) (4 * (key.length / 4 + 7)) (wordByte key) := by
  have h3 : key.length = 16 ∨ key.length = 24 ∨ key.length = 32 := by simpa using hk
  have hpos : 0 < key.length / 4 := by omega
  obtain ⟨a1, a2⟩ := fits_keyWords (key := key) (nk := key.length / 4) (by omega) (key.length / 4) (le_refl _) hpos
  obtain ⟨b1, b2, b3⟩ := fits_extend hpos (4 * (key.length / 4 + 7) - key.length / 4) a2 (by rw [a1])
  rw [a1] at b1
  have hlen : (schedule key).length = 4 * (key.length / 4 + 7) := by
    rw [schedule, List.length_reverse, b1]; omega
  refine ⟨hlen, fun x hx => b2 x (List.mem_reverse.1 hx), ?_⟩
  have hw : ∀ i < 4 * (key.length / 4 + 7), (schedule key).getD i [] =
      word (extend (key.length / 4) (4 * (key.length / 4 + 7) - key.length / 4) (keyWords key (key.length / 4))) i := by
    intro i hi
    rw [word, schedule, List.getD_eq_getElem _ _ (by rw [List.length_reverse, b1]; omega), List.getElem_reverse,
      List.getD_eq_getElem _ _ (by rw [b1]; omega)]
  intro i hi r hr
  have := b3 i (by rw [b1]; omega) r hr
  simp only at this
  rw [wordByte, hw i hi, this]
  by_cases hn : i < key.length / 4
  · rw [if_pos hn, if_pos hn]
  · rw [if_neg hn, if_neg hn, wordByte, hw _ (by omega)]
    congr 1
    apply step_congr _ hr
    intro r' _
    rw [wordByte, hw _ (by omega)]

theorem word_length {key : Bytes} (hk : key.length ∈ [16, 24, 32]) {i : Nat} (hi : i < 4 * (key.length / 4 + 7)) :
    ((schedule key).getD i []).length = 4 := by
  obtain ⟨h1, h2, -⟩ := schedule_spec hk
  rw [List.getD_eq_getElem _ _ (by rw [h1]; exact hi)]
  exact h2 _ (List.getElem_mem _)

theorem roundKey_spec {key : Bytes} (hk : key.length ∈ [16, 24, 32]) {n : Nat} (hn : n < key.length / 4 + 7) :
    (roundKey (schedule key) n).length = 16 ∧
      ∀ r < 4, ∀ c < 4, entry (roundKey (schedule key) n) r c = wordByte key (4 * n + c) r := by
  have l0 := word_length hk (i := 4 * n) (by omega)
  have l1 := word_length hk (i := 4 * n + 1) (by omega)
  have l2 := word_length hk (i := 4 * n + 2) (by omega)
  have l3 := word_length hk (i := 4 * n + 3) (by omega)
  refine ⟨by simp only [roundKey, List.length_append, l0, l1, l2, l3], ?_⟩
  intro r hr c hc
  have e : wordByte key (4 * n + c) r = ((schedule key).getD (4 * n + c) []).getD r 0 := rfl
  rw [e, entry, roundKey]
  interval_cases c
  · rw [List.getD_append _ _ _ _ (by rw [l0]; omega)]; rfl
  · rw [List.getD_append_right _ _ _ _ (by rw [l0]; omega), l0, List.getD_append _ _ _ _ (by rw [l1]; omega)]
    congr 1
  · rw [List.getD_append_right _ _ _ _ (by rw [l0]; omega), l0, List.getD_append_right _ _ _ _ (by rw [l1]; omega), l1,
      List.getD_append _ _ _ _ (by rw [l2]; omega)]
    congr 1
  · rw [List.getD_append_right _ _ _ _ (by rw [l0]; omega), l0, List.getD_append_right _ _ _ _ (by rw [l1]; omega), l1,
      List.getD_append_right _ _ _ _ (by rw [l2]; omega), l2]
    congr 1

theorem addRoundKey_iff {key : Bytes} (hk : key.length ∈ [16, 24, 32]) {w : Nat → Nat → UInt8}
    (hw : KeySchedule key w) {n : Nat} (hn : n < key.length / 4 + 7) {s : Bytes} (hs : s.length = 16) (t : Bytes) :
    AddRoundKey s w n t ↔ t = plus s (roundKey (schedule key) n) := by
  obtain ⟨h1, h2⟩ := roundKey_spec hk hn
  have h3 : key.length = 16 ∨ key.length = 24 ∨ key.length = 32 := by simpa using hk
  have hu := recurrence_unique (by omega) ((schedule_iff hk w).1 hw) (schedule_spec hk).2.2
  have key : ∀ r < 4, ∀ c < 4, entry (plus s (roundKey (schedule key) n)) r c = entry s r c ^^^ w (4 * n + c) r := by
    intro r hr c hc
    rw [hu (4 * n + c) (by omega) r hr, ← h2 r hr c hc, entry, entry, entry, plus_getD hs h1 _ (by omega)]
  constructor
  · rintro ⟨ht, h⟩
    apply state_ext ht (plus_length hs h1)
    intro r hr c hc
    rw [h r hr c hc, key r hr c hc]
  · rintro rfl
    exact ⟨plus_length hs h1, key⟩

/-- The state after `n` rounds. -/
def after (key x : Bytes) : Nat → Bytes
  | 0 => plus x (roundKey (schedule key) 0)
  | n + 1 => plus (mix (shift ((after key x n).map sub))) (roundKey (schedule key) (n + 1))

theorem rounds_after (key x : Bytes) (m n : Nat) :
    rounds (schedule key) m (n + 1) (after key x n) = after key x (n + m) := by
  induction m generalizing n with
  | zero => rfl
  | succ m ih =>
    have := ih (n + 1)
    rw [after] at this
    rw [rounds, this]
    congr 1
    omega

theorem after_length {key x : Bytes} (hk : key.length ∈ [16, 24, 32]) (hx : x.length = 16) {n : Nat}
    (hn : n < key.length / 4 + 7) : (after key x n).length = 16 := by
  cases n with
  | zero => exact plus_length hx (roundKey_spec hk hn).1
  | succ n => exact plus_length rfl (roundKey_spec hk hn).1

end Aes

/-- **C128** What is computed is AES, with keys of 128, 192 and 256 bits. -/
theorem C128_encrypt_iff {key x : Bytes} (hk : key.length ∈ [16, 24, 32]) (hx : x.length = 16) (y : Bytes) :
    Encrypts key x y ↔ y = Aes.encrypt key x := by
  have henc : Aes.encrypt key x = plus (shift ((after key x (key.length / 4 + 5)).map sub))
      (roundKey (schedule key) (key.length / 4 + 6)) := by
    have := rounds_after key x (key.length / 4 + 5) 0
    rw [Nat.zero_add, Nat.zero_add] at this
    rw [← this]; rfl
  rw [henc]
  constructor
  · rintro ⟨w, state, hw, h0, hr, s, hs, hy⟩
    have hst : ∀ n < key.length / 4 + 6, state n = after key x n := by
      intro n
      induction n with
      | zero => intro _; exact (addRoundKey_iff hk hw (by omega) hx _).1 h0
      | succ n ih =>
        intro hn
        obtain ⟨s, t, g1, g2, g3⟩ := hr (n + 1) (by omega) hn
        rw [Nat.add_sub_cancel, ih (by omega), subShift_iff (after_length hk hx (by omega))] at g1
        rw [mixColumns_iff, g1] at g2
        rw [g2] at g3
        exact (addRoundKey_iff hk hw (by omega) rfl _).1 g3
    rw [hst _ (by omega), subShift_iff (after_length hk hx (by omega))] at hs
    rw [hs] at hy
    exact (addRoundKey_iff hk hw (by omega) rfl _).1 hy
  · rintro rfl
    have hw := (schedule_iff hk _).2 (schedule_spec hk).2.2
    refine ⟨wordByte key, after key x, hw, (addRoundKey_iff hk hw (by omega) hx _).2 rfl, ?_, _,
      (subShift_iff (after_length hk hx (by omega)) _).2 rfl, (addRoundKey_iff hk hw (by omega) rfl _).2 rfl⟩
    intro n h1 h2
    obtain ⟨m, rfl⟩ : ∃ m, n = m + 1 := ⟨n - 1, by omega⟩
    exact ⟨_, _, (subShift_iff (after_length hk hx (by omega)) _).2 rfl, (mixColumns_iff _ _).2 rfl,
      (addRoundKey_iff hk hw (by omega) rfl _).2 rfl⟩

/- FIPS 197, appendix C.1. -/
example : Encrypts [0x00, 0x01, 0x02, 0x03, 0x04, 0x05, 0x06, 0x07, 0x08, 0x09, 0x0a, 0x0b, 0x0c, 0x0d, 0x0e, 0x0f]
    [0x00, 0x11, 0x22, 0x33, 0x44, 0x55, 0x66, 0x77, 0x88, 0x99, 0xaa, 0xbb, 0xcc, 0xdd, 0xee, 0xff]
    [0x69, 0xc4, 0xe0, 0xd8, 0x6a, 0x7b, 0x04, 0x30, 0xd8, 0xcd, 0xb7, 0x80, 0x70, 0xb4, 0xc5, 0x5a] :=
  (C128_encrypt_iff (by decide) (by decide) _).2 (by decide +kernel)

/- FIPS 197, appendix C.2. -/
example : Encrypts [0x00, 0x01, 0x02, 0x03, 0x04, 0x05, 0x06, 0x07, 0x08, 0x09, 0x0a, 0x0b, 0x0c, 0x0d, 0x0e, 0x0f,
        0x10, 0x11, 0x12, 0x13, 0x14, 0x15, 0x16, 0x17]
    [0x00, 0x11, 0x22, 0x33, 0x44, 0x55, 0x66, 0x77, 0x88, 0x99, 0xaa, 0xbb, 0xcc, 0xdd, 0xee, 0xff]
    [0xdd, 0xa9, 0x7c, 0xa4, 0x86, 0x4c, 0xdf, 0xe0, 0x6e, 0xaf, 0x70, 0xa0, 0xec, 0x0d, 0x71, 0x91] :=
  (C128_encrypt_iff (by decide) (by decide) _).2 (by decide +kernel)

/- FIPS 197, appendix C.3. -/
example : Encrypts [0x00, 0x01, 0x02, 0x03, 0x04, 0x05, 0x06, 0x07, 0x08, 0x09, 0x0a, 0x0b, 0x0c, 0x0d, 0x0e, 0x0f,
        0x10, 0x11, 0x12, 0x13, 0x14, 0x15, 0x16, 0x17, 0x18, 0x19, 0x1a, 0x1b, 0x1c, 0x1d, 0x1e, 0x1f]
    [0x00, 0x11, 0x22, 0x33, 0x44, 0x55, 0x66, 0x77, 0x88, 0x99, 0xaa, 0xbb, 0xcc, 0xdd, 0xee, 0xff]
    [0x8e, 0xa2, 0xb7, 0xca, 0x51, 0x67, 0x45, 0xbf, 0xea, 0xfc, 0x49, 0x90, 0x4b, 0x49, 0x60, 0x89] :=
  (C128_encrypt_iff (by decide) (by decide) _).2 (by decide +kernel)

/-! ## GCM with AES -/

namespace Aes

theorem encrypt_length {key x : Bytes} (hk : key.length ∈ [16, 24, 32]) (hx : x.length = 16) :
    (Aes.encrypt key x).length = 16 := by
  obtain ⟨w, state, -, -, -, s, -, h, -⟩ := (C128_encrypt_iff hk hx _).2 rfl
  exact h

theorem ofFn_cipher {key x : Bytes} (hk : key.length ∈ [16, 24, 32]) (hx : x.length = 16) :
    List.ofFn (cipher key x) = Aes.encrypt key x := by
  have hl := encrypt_length hk hx
  apply List.ext_getElem (by rw [List.length_ofFn, hl])
  intro i h1 h2
  rw [List.getElem_ofFn, cipher, List.getD_eq_getElem _ _ (by simpa using h2)]

theorem isGcm_congr {e f : Bytes → Fin 16 → UInt8} (h : ∀ x : Bytes, x.length = 16 → e x = f x)
    {iv aad plain ct tag : Bytes} (g : Spec.Gcm.IsGcm e iv aad plain ct tag) : Spec.Gcm.IsGcm f iv aad plain ct tag := by
  obtain ⟨h1, h2, h3, h4, a, c, k, s, h5, h6, rfl, h7, h8⟩ := g
  have hb : ∀ n, e (iv ++ Sha.bigEndian 4 n) = f (iv ++ Sha.bigEndian 4 n) := by
    intro n
    apply h
    rw [List.length_append, h1, shaBytes_eq, beBytes_length]
  refine ⟨h1, h2, h3, ?_, a, c, _, s, h5, h6, rfl, ?_, ?_⟩
  · intro i hi
    rw [h4 i hi, hb]
  · rw [← h _ (by rw [List.length_replicate])]
    exact h7
  · intro i hi
    rw [h8 i hi, hb]

end Aes

/-- **C128** A block cipher that is AES is the one that is computed. -/
theorem C128_cipher {key : Bytes} (hk : key.length ∈ [16, 24, 32]) (e : Bytes → Fin 16 → UInt8) :
    (∀ x : Bytes, x.length = 16 → Encrypts key x (List.ofFn (e x))) ↔ ∀ x : Bytes, x.length = 16 → e x = Aes.cipher key x := by
  constructor
  · intro h x hx
    have := (C128_encrypt_iff hk hx _).1 (h x hx)
    rw [← ofFn_cipher hk hx] at this
    exact List.ofFn_injective this
  · intro h x hx
    rw [C128_encrypt_iff hk hx, h x hx, ofFn_cipher hk hx]

/-- **C128** With AES inside, encryption and decryption under a GCM name are GCM with AES, whatever function
stands for AES. -/
theorem C128_gcm_iff {enc : Str} (he : enc ∈ Spec.Gcm.gcmNames) {key : Bytes} (hk : key.length ∈ [16, 24, 32])
    {e : Bytes → Fin 16 → UInt8} (hae : ∀ x : Bytes, x.length = 16 → Encrypts key x (List.ofFn (e x)))
    (other : EcdhEs.Aead) (iv aad plain ct tag : Bytes) :
    ((Gcm.aead Aes.cipher other).lock enc key iv aad plain = .ok (ct, tag) ↔ Spec.Gcm.IsGcm e iv aad plain ct tag) ∧
    ((Gcm.aead Aes.cipher other).unlock enc key iv aad ct tag = .ok plain ↔ Spec.Gcm.IsGcm e iv aad plain ct tag) := by
  have h := (C128_cipher hk e).1 hae
  have hg : Spec.Gcm.IsGcm (Aes.cipher key) iv aad plain ct tag ↔ Spec.Gcm.IsGcm e iv aad plain ct tag :=
    ⟨isGcm_congr fun x hx => (h x hx).symm, isGcm_congr h⟩
  exact ⟨by rw [C127_lock_iff _ _ he, hg], by rw [C127_unlock_iff _ _ he, hg]⟩

/-- **C128** There is such a function. -/
theorem C128_aes_exists {key : Bytes} (hk : key.length ∈ [16, 24, 32]) :
    ∃ e : Bytes → Fin 16 → UInt8, ∀ x : Bytes, x.length = 16 → Encrypts key x (List.ofFn (e x)) :=
  ⟨Aes.cipher key, (C128_cipher hk _).2 fun _ _ => rfl⟩

/-- **C128** The example verifier's key works as C62 assumes, with AES-GCM inside: of the encryption only the
random values are left open. -/
theorem C128_key_works {d e : Nat} {Q E : CurvePoint} (hQ : KeyPair d Q) (hE : KeyPair e E)
    {other : EcdhEs.Aead} (ho : Opens other) {iv : Bytes} (hiv : iv.length = 12)
    {jwkOk : List (Str × Json) → Bool} {claimOk : Str → Json → Bool}
    (hok : jwkOk (VerifierApp.publishedJwk (EcdhEs.jwkFor d)) = true)
    (hclaims : ∀ j st, claimOk c!"vp_token" j = true ∧ claimOk c!"state" st = true) :
    KeyWorks (EcdhEs.generated (Gcm.aead Aes.cipher other) d)
      (EcdhEs.josekit jwkOk claimOk (Gcm.aead Aes.cipher other) e iv) :=
  C127_key_works hQ hE Aes.cipher ho hiv hok hclaims

/- Test cases 1 and 2 of the specification of GCM, from the key alone. -/
set_option maxRecDepth 100000 in
example : (Gcm.aead Aes.cipher noOther).lock c!"A128GCM" (List.replicate 16 0) (List.replicate 12 0) [] [] =
    .ok ([], [0x58, 0xe2, 0xfc, 0xce, 0xfa, 0x7e, 0x30, 0x61, 0x36, 0x7f, 0x1d, 0x57, 0xa4, 0xe7, 0x45, 0x5a]) := by
  decide +kernel

set_option maxRecDepth 100000 in
example : (Gcm.aead Aes.cipher noOther).lock c!"A128GCM" (List.replicate 16 0) (List.replicate 12 0) []
      (List.replicate 16 0) =
    .ok ([0x03, 0x88, 0xda, 0xce, 0x60, 0xb6, 0xa3, 0x92, 0xf3, 0x28, 0xc2, 0xb9, 0x71, 0xb2, 0xfe, 0x78],
      [0xab, 0x6e, 0x47, 0xd4, 0x2c, 0xec, 0x13, 0xbd, 0xf5, 0x3a, 0x67, 0xb2, 0x12, 0x57, 0xbd, 0xdf]) := by
  decide +kernel

/- Test case 4: a text of 60 bytes, with authenticated data of 20. -/
set_option maxRecDepth 100000 in
example : (Gcm.aead Aes.cipher noOther).lock c!"A128GCM"
      [0xfe, 0xff, 0xe9, 0x92, 0x86, 0x65, 0x73, 0x1c, 0x6d, 0x6a, 0x8f, 0x94, 0x67, 0x30, 0x83, 0x08]
      [0xca, 0xfe, 0xba, 0xbe, 0xfa, 0xce, 0xdb, 0xad, 0xde, 0xca, 0xf8, 0x88]
      [0xfe, 0xed, 0xfa, 0xce, 0xde, 0xad, 0xbe, 0xef, 0xfe, 0xed, 0xfa, 0xce, 0xde, 0xad, 0xbe, 0xef,
        0xab, 0xad, 0xda, 0xd2]
      [0xd9, 0x31, 0x32, 0x25, 0xf8, 0x84, 0x06, 0xe5, 0xa5, 0x59, 0x09, 0xc5, 0xaf, 0xf5, 0x26, 0x9a,
        0x86, 0xa7, 0xa9, 0x53, 0x15, 0x34, 0xf7, 0xda, 0x2e, 0x4c, 0x30, 0x3d, 0x8a, 0x31, 0x8a, 0x72,
        0x1c, 0x3c, 0x0c, 0x95, 0x95, 0x68, 0x09, 0x53, 0x2f, 0xcf, 0x0e, 0x24, 0x49, 0xa6, 0xb5, 0x25,
        0xb1, 0x6a, 0xed, 0xf5, 0xaa, 0x0d, 0xe6, 0x57, 0xba, 0x63, 0x7b, 0x39] =
    .ok ([0x42, 0x83, 0x1e, 0xc2, 0x21, 0x77, 0x74, 0x24, 0x4b, 0x72, 0x21, 0xb7, 0x84, 0xd0, 0xd4, 0x9c,
        0xe3, 0xaa, 0x21, 0x2f, 0x2c, 0x02, 0xa4, 0xe0, 0x35, 0xc1, 0x7e, 0x23, 0x29, 0xac, 0xa1, 0x2e,
        0x21, 0xd5, 0x14, 0xb2, 0x54, 0x66, 0x93, 0x1c, 0x7d, 0x8f, 0x6a, 0x5a, 0xac, 0x84, 0xaa, 0x05,
        0x1b, 0xa3, 0x0b, 0x39, 0x6a, 0x0a, 0xac, 0x97, 0x3d, 0x58, 0xe0, 0x91],
      [0x5b, 0xc9, 0x4f, 0xbc, 0x32, 0x21, 0xa5, 0xdb, 0x94, 0xfa, 0xe9, 0x5a, 0xe7, 0x12, 0x1a, 0x47]) := by
  decide +kernel

/- A key that works, with secrets 3 and 5. -/
example : KeyWorks (EcdhEs.generated (Gcm.aead Aes.cipher noOther) 3)
    (EcdhEs.josekit (fun _ => true) (fun _ _ => true) (Gcm.aead Aes.cipher noOther) 5 (List.replicate 12 7)) :=
  C128_key_works (keyPair_small (d := 3) (by decide) (by decide +kernel))
    (keyPair_small (d := 5) (by decide) (by decide +kernel)) noOther_opens (by decide) rfl (fun _ _ => ⟨rfl, rfl⟩)

end Oid4vp
