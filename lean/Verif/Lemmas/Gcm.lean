import Mathlib.Algebra.CharP.Two
import Mathlib.Algebra.Polynomial.CoeffList
import Mathlib.Algebra.Polynomial.Monic
import Mathlib.RingTheory.Ideal.Quotient.Operations
import Mathlib.RingTheory.Polynomial.Basic
import Mathlib.Tactic.ComputeDegree
import Mathlib.Tactic.LinearCombination
import Verif.Model.Gcm
import Verif.Spec.Gcm

/-! # Blocks as polynomials -/

set_option autoImplicit false

namespace Oid4vp
namespace Gcm

open Polynomial Spec.Gcm

/-! ## Bits and bytes -/

@[simp] theorem byteBits_length (b : UInt8) : (byteBits b).length = 8 := rfl

theorem bits_cons (b : UInt8) (l : Bytes) : bits (b :: l) = byteBits b ++ bits l := rfl

theorem bits_length (l : Bytes) : (bits l).length = 8 * l.length := by
  induction l with
  | nil => rfl
  | cons b l ih => rw [bits_cons, List.length_append, ih, byteBits_length, List.length_cons]; omega

theorem ofBits_length (k : Nat) (l : List Bool) : (ofBits k l).length = k := by
  induction k generalizing l with
  | zero => rfl
  | succ k ih => rw [ofBits, List.length_cons, ih]

theorem add_length {x y : List Bool} {n : Nat} (hx : x.length = n) (hy : y.length = n) : (add x y).length = n := by
  rw [add, List.length_zipWith, hx, hy, Nat.min_self]

set_option maxRecDepth 20000 in
theorem byteBits_of : ∀ a b c d e f g h : Bool, byteBits (ofByteBits [a, b, c, d, e, f, g, h]) = [a, b, c, d, e, f, g, h] := by
  decide

theorem byteBits_ofByteBits {l : List Bool} (h : l.length = 8) : byteBits (ofByteBits l) = l := by
  match l, h with
  | [a, b, c, d, e, f, g, h], _ => exact byteBits_of a b c d e f g h

theorem bits_ofBits {k : Nat} {l : List Bool} (h : l.length = 8 * k) : bits (ofBits k l) = l := by
  induction k generalizing l with
  | zero => rw [List.length_eq_zero_iff.1 (by omega : l.length = 0)]; rfl
  | succ k ih =>
    rw [ofBits, bits_cons, byteBits_ofByteBits (by rw [List.length_take]; omega),
      ih (by rw [List.length_drop]; omega), List.take_append_drop]

set_option maxRecDepth 20000 in
theorem ofByteBits_small : ∀ n < 256, ofByteBits (byteBits (UInt8.ofNat n)) = UInt8.ofNat n := by decide

theorem ofByteBits_byteBits (b : UInt8) : ofByteBits (byteBits b) = b := by
  have := ofByteBits_small b.toNat b.toNat_lt
  rwa [UInt8.ofNat_toNat] at this

theorem ofBits_bits (l : Bytes) : ofBits l.length (bits l) = l := by
  induction l with
  | nil => rfl
  | cons b l ih =>
    rw [List.length_cons, ofBits, bits_cons, List.take_left' (byteBits_length b), List.drop_left' (byteBits_length b),
      ih, ofByteBits_byteBits]

theorem byteBits_xor (a b : UInt8) : byteBits (a ^^^ b) = add (byteBits a) (byteBits b) := by
  simp only [byteBits, add, UInt8.toNat_xor, Nat.testBit_xor, List.zipWith_cons_cons, List.zipWith_nil_left]

theorem bits_xor (x y : Bytes) : bits (List.zipWith (· ^^^ ·) x y) = add (bits x) (bits y) := by
  induction x generalizing y with
  | nil => simp [bits, add]
  | cons a x ih =>
    cases y with
    | nil => simp [bits, add]
    | cons b y =>
      rw [List.zipWith_cons_cons, bits_cons, bits_cons, bits_cons, ih, byteBits_xor, add, add, add,
        List.zipWith_append (by rfl)]

theorem bits_getD (l : Bytes) (i : Nat) : (bits l).getD i false = bitAt l i := by
  induction l generalizing i with
  | nil => simp [bits, bitAt]
  | cons b l ih =>
    rw [bits_cons]
    by_cases hi : i < 8
    · rw [List.getD_append _ _ _ _ (by simpa using hi)]
      have h0 : i / 8 = 0 := by omega
      have h1 : i % 8 = i := by omega
      rw [bitAt, h0, h1]
      have : i = 0 ∨ i = 1 ∨ i = 2 ∨ i = 3 ∨ i = 4 ∨ i = 5 ∨ i = 6 ∨ i = 7 := by omega
      rcases this with rfl | rfl | rfl | rfl | rfl | rfl | rfl | rfl <;> rfl
    · rw [List.getD_append_right _ _ _ _ (by simpa using hi), ih, byteBits_length, bitAt, bitAt]
      have h0 : i / 8 = (i - 8) / 8 + 1 := by omega
      have h1 : i % 8 = (i - 8) % 8 := by omega
      rw [h0, h1, List.getD_cons_succ]

/-! ## Polynomials -/

/-- The polynomial of a list of bits. -/
noncomputable def lp : List Bool → (ZMod 2)[X]
  | [] => 0
  | b :: l => (if b then 1 else 0) + X * lp l

theorem lp_eq_sum (l : List Bool) : lp l = poly (fun i => l.getD i false) l.length := by
  induction l with
  | nil => simp [lp, poly]
  | cons b l ih =>
    rw [lp, poly, List.length_cons, Finset.sum_range_succ', ih, poly, Finset.mul_sum, add_comm]
    congr 1
    · apply Finset.sum_congr rfl
      intro i _
      rw [List.getD_cons_succ]
      split
      · rw [pow_succ, mul_comm]
      · rw [mul_zero]

theorem element_eq {b : Bytes} (h : b.length = 16) : element b = lp (bits b) := by
  rw [lp_eq_sum, bits_length, h, element]
  congr 1
  funext i
  exact (bits_getD b i).symm

theorem lp_coeff (l : List Bool) (i : Nat) : (lp l).coeff i = if l.getD i false then 1 else 0 := by
  induction l generalizing i with
  | nil => simp [lp]
  | cons b l ih =>
    rw [lp, coeff_add]
    cases i with
    | zero => cases b <;> simp
    | succ i =>
      rw [coeff_X_mul, ih, List.getD_cons_succ]
      cases b <;> simp [coeff_one]

theorem lp_replicate (n : Nat) : lp (List.replicate n false) = 0 := by
  induction n with
  | zero => rfl
  | succ n ih => rw [List.replicate_succ, lp, ih]; simp

theorem two_eq (p : (ZMod 2)[X]) : p + p = 0 := CharTwo.add_self_eq_zero p

theorem lp_add {x y : List Bool} (h : x.length = y.length) : lp (add x y) = lp x + lp y := by
  induction x generalizing y with
  | nil => cases y with
    | nil => simp [lp, add]
    | cons => simp at h
  | cons a x ih =>
    cases y with
    | nil => simp at h
    | cons b y =>
      have e : add (a :: x) (b :: y) = xor a b :: add x y := rfl
      rw [e, lp, lp, lp, ih (by simpa using h)]
      have := two_eq 1
      cases a <;> cases b <;> simp <;> first | ring1 | linear_combination -this

theorem lp_concat (l : List Bool) (b : Bool) : lp (l ++ [b]) = lp l + (if b then X ^ l.length else 0) := by
  induction l with
  | nil => cases b <;> simp [lp]
  | cons a l ih =>
    rw [List.cons_append, lp, lp, ih]
    cases b <;> simp <;> ring

/-- Polynomials modulo the one of the field. -/
noncomputable abbrev φ : (ZMod 2)[X] →+* (ZMod 2)[X] ⧸ Ideal.span {modulus} := Ideal.Quotient.mk _

theorem φ_eq {p q : (ZMod 2)[X]} : φ p = φ q ↔ modulus ∣ p - q := by
  rw [Ideal.Quotient.eq, Ideal.mem_span_singleton]

theorem lp_red : lp red = 1 + X + X ^ 2 + X ^ 7 := by
  rw [red]
  simp only [lp, lp_replicate]
  simp
  ring

theorem red_length : red.length = 128 := by simp [red]

theorem mulX_length {v : List Bool} (h : v.length = 128) : (mulX v).length = 128 := by
  have : (false :: v.dropLast).length = 128 := by simp [h]
  rw [mulX]
  split
  · exact add_length this red_length
  · exact this

theorem pow_aux (r : (ZMod 2)[X]) {n m : ℕ} (h : n = m + 1) : r + X ^ n = r + X * X ^ m := by
  rw [h, pow_succ']

set_option maxRecDepth 20000 in
theorem modulus_eq : modulus = 1 + X + X ^ 2 + X ^ 7 + X * X ^ 127 :=
  pow_aux _ rfl

theorem reduce_aux (p r q : (ZMod 2)[X]) : X * p + r - X * (p + q) = r + X * q := by
  have := two_eq (X * q)
  linear_combination -this

theorem reduce (p : (ZMod 2)[X]) : modulus ∣ X * p + (1 + X + X ^ 2 + X ^ 7) - X * (p + X ^ 127) := by
  rw [reduce_aux, ← modulus_eq]

theorem mulX_concat (l : List Bool) (b : Bool) :
    mulX (l ++ [b]) = if b = true then add (false :: l) red else false :: l := by
  rw [mulX, List.getLast?_concat, List.dropLast_concat]
  cases b
  · rw [if_neg (by simp), if_neg (by simp)]
  · rw [if_pos rfl, if_pos rfl]

theorem φ_mulX {v : List Bool} (h : v.length = 128) : φ (lp (mulX v)) = φ (X * lp v) := by
  have hne : v ≠ [] := by
    intro hv
    rw [hv] at h
    simp at h
  obtain ⟨l, b, hv⟩ : ∃ l b, v = l ++ [b] := ⟨v.dropLast, v.getLast hne, (List.dropLast_append_getLast hne).symm⟩
  rw [hv] at h
  have hl : l.length = 127 := by simpa using h
  have h0 : lp (false :: l) = X * lp l := by simp [lp]
  rw [hv, mulX_concat, lp_concat, hl]
  cases b
  · rw [if_neg Bool.false_ne_true, if_neg Bool.false_ne_true, h0, add_zero]
  · rw [if_pos rfl, if_pos rfl, lp_add (by rw [red_length, List.length_cons, hl]), h0, lp_red, φ_eq]
    exact reduce _

theorem mul_length (x v : List Bool) (h : v.length = 128) : (mul x v).length = 128 := by
  induction x generalizing v with
  | nil => simp [mul]
  | cons b x ih =>
    rw [mul]
    refine add_length ?_ (ih _ (mulX_length h))
    cases b
    · simp
    · exact h

theorem φ_mul (x v : List Bool) (h : v.length = 128) : φ (lp (mul x v)) = φ (lp x) * φ (lp v) := by
  induction x generalizing v with
  | nil => rw [mul, lp_replicate]; simp [lp]
  | cons b x ih =>
    have hv : (if b = true then v else List.replicate 128 false).length = 128 := by
      cases b
      · simp
      · exact h
    rw [mul, lp_add (by rw [hv, mul_length _ _ (mulX_length h)]), map_add, ih _ (mulX_length h), φ_mulX h, lp]
    cases b
    · rw [if_neg (by decide), if_neg (by decide), lp_replicate]; simp only [map_add, map_mul, map_zero]; ring
    · simp; ring

theorem modulus_monic : modulus.Monic := by
  unfold modulus
  monicity!

theorem modulus_degree : modulus.natDegree = 128 := by
  unfold modulus
  compute_degree!

set_option maxRecDepth 20000 in
theorem lp_unique {x y : List Bool} (hx : x.length = 128) (hy : y.length = 128) (h : φ (lp x) = φ (lp y)) : x = y := by
  have hd : modulus ∣ lp (add x y) := by
    rw [lp_add (by rw [hx, hy])]
    have := φ_eq.1 h
    rwa [CharTwo.sub_eq_add] at this
  have hz : lp (add x y) = 0 := by
    by_contra hne
    have hlt : (lp (add x y)).natDegree < modulus.natDegree := ?_
    · exact modulus_monic.not_dvd_of_natDegree_lt hne hlt hd
    rw [modulus_degree]
    rw [Polynomial.natDegree_lt_iff_degree_lt hne, Polynomial.degree_lt_iff_coeff_zero]
    intro m hm
    rw [lp_coeff, List.getD_eq_default _ _ (by rw [add_length hx hy]; exact hm)]
    rfl
  apply List.ext_getElem (by rw [hx, hy])
  intro i h1 h2
  have hc := congrArg (fun p => p.coeff i) hz
  simp only [lp_coeff, coeff_zero, ite_eq_right_iff, one_ne_zero, imp_false, Bool.not_eq_true] at hc
  have hi : i < (add x y).length := by rw [add_length hx hy]; omega
  rw [List.getD_eq_getElem _ _ hi] at hc
  simp only [add, List.getElem_zipWith] at hc
  simpa using hc

theorem ghash_from (h y : List Bool) (hh : h.length = 128) (hy : y.length = 128) (bs : List Bytes)
    (hb : ∀ b ∈ bs, b.length = 16) :
    (bs.foldl (fun y x => mul (add y (bits x)) h) y).length = 128 ∧
    φ (lp (bs.foldl (fun y x => mul (add y (bits x)) h) y)) = φ (lp y) * φ (lp h) ^ bs.length +
      ∑ i ∈ Finset.range bs.length, φ (element (bs.getD i [])) * φ (lp h) ^ (bs.length - i) := by
  induction bs generalizing y with
  | nil => simp [hy]
  | cons x bs ih =>
    have hx : x.length = 16 := hb x (by simp)
    have hbx : (bits x).length = 128 := by rw [bits_length, hx]
    obtain ⟨h1, h2⟩ := ih (mul (add y (bits x)) h) (mul_length _ _ hh) (fun b hb' => hb b (by simp [hb']))
    rw [List.foldl_cons]
    refine ⟨h1, ?_⟩
    rw [h2, φ_mul _ _ hh, lp_add (by rw [hy, hbx]), List.length_cons, Finset.sum_range_succ', map_add]
    simp only [List.getD_cons_succ, List.getD_cons_zero, Nat.add_sub_add_right, Nat.sub_zero]
    rw [element_eq hx]
    ring

end Gcm
end Oid4vp
