import Mathlib.Tactic.IntervalCases
import Verif.Lemmas.Gcm
import Verif.Model.Aes
import Verif.Spec.Aes

/-! # Bytes as elements of the field of 256 elements -/

set_option autoImplicit false

namespace Oid4vp
namespace Aes

open Polynomial Spec.Aes Gcm

/-- The bits of a byte, the least significant first. -/
def low (b : UInt8) : List Bool :=
  [b.toNat.testBit 0, b.toNat.testBit 1, b.toNat.testBit 2, b.toNat.testBit 3, b.toNat.testBit 4,
    b.toNat.testBit 5, b.toNat.testBit 6, b.toNat.testBit 7]

theorem low_getD (b : UInt8) (i : Nat) (hi : i < 8) : (low b).getD i false = b.toNat.testBit i := by
  interval_cases i <;> rfl

theorem element_eq (b : UInt8) : Spec.Aes.element b = lp (low b) := by
  rw [lp_eq_sum, Spec.Aes.element, Spec.Gcm.poly, Spec.Gcm.poly]
  apply Finset.sum_congr rfl
  intro i hi
  rw [low_getD b i (Finset.mem_range.1 hi)]

theorem byte_ext {a b : UInt8} (h : ∀ i < 8, a.toNat.testBit i = b.toNat.testBit i) : a = b := by
  apply UInt8.toNat_inj.1
  apply Nat.eq_of_testBit_eq
  intro i
  by_cases hi : i < 8
  · exact h i hi
  · have hp : 2 ^ 8 ≤ 2 ^ i := Nat.pow_le_pow_right (by decide) (by omega)
    rw [Nat.testBit_lt_two_pow (Nat.lt_of_lt_of_le a.toNat_lt hp),
      Nat.testBit_lt_two_pow (Nat.lt_of_lt_of_le b.toNat_lt hp)]

theorem all_bytes {p : UInt8 → Prop} (h : ∀ n < 256, p (UInt8.ofNat n)) (b : UInt8) : p b := by
  have := h b.toNat b.toNat_lt
  rwa [UInt8.ofNat_toNat] at this

theorem low_xor (a b : UInt8) : low (a ^^^ b) = add (low a) (low b) := by
  simp only [low, add, UInt8.toNat_xor, Nat.testBit_xor, List.zipWith_cons_cons, List.zipWith_nil_left]

theorem element_xor (a b : UInt8) :
    Spec.Aes.element (a ^^^ b) = Spec.Aes.element a + Spec.Aes.element b := by
  rw [element_eq, element_eq, element_eq, low_xor, lp_add (by rfl)]

/-- Polynomials modulo the one of the field. -/
noncomputable abbrev ψ : (ZMod 2)[X] →+* (ZMod 2)[X] ⧸ Ideal.span {Spec.Aes.modulus} := Ideal.Quotient.mk _

theorem ψ_eq {p q : (ZMod 2)[X]} : ψ p = ψ q ↔ Spec.Aes.modulus ∣ p - q := by
  rw [Ideal.Quotient.eq, Ideal.mem_span_singleton]

theorem low_double : ∀ b : UInt8, low (double b) =
    if b.toNat.testBit 7 then add (false :: (low b).dropLast) [true, true, false, true, true, false, false, false]
    else false :: (low b).dropLast :=
  all_bytes (by decide +kernel)

theorem ψ_double (b : UInt8) : ψ (Spec.Aes.element (double b)) = ψ X * ψ (Spec.Aes.element b) := by
  rw [← map_mul, ψ_eq, element_eq, element_eq, low_double]
  have hs : lp (low b) = lp (low b).dropLast + (if b.toNat.testBit 7 then X ^ 7 else 0) :=
    lp_concat (low b).dropLast (b.toNat.testBit 7)
  rw [hs]
  have h0 : lp (false :: (low b).dropLast) = X * lp (low b).dropLast := by simp [lp]
  cases b.toNat.testBit 7
  · simp only [Bool.false_eq_true, if_false]
    rw [h0, add_zero, sub_self]
    exact dvd_zero _
  · simp only [if_true]
    rw [lp_add (by rfl), h0]
    have hr : lp [true, true, false, true, true, false, false, false] = 1 + X + X ^ 3 + X ^ 4 := by
      simp [lp]; ring
    rw [hr]
    refine ⟨1, ?_⟩
    rw [Spec.Aes.modulus]
    have := two_eq (X ^ 8)
    linear_combination -this

theorem modulus_monic : Spec.Aes.modulus.Monic := by
  unfold Spec.Aes.modulus
  monicity!

theorem modulus_degree : Spec.Aes.modulus.natDegree = 8 := by
  unfold Spec.Aes.modulus
  compute_degree!

theorem unique {a b : UInt8} (h : ψ (Spec.Aes.element a) = ψ (Spec.Aes.element b)) : a = b := by
  have hd : Spec.Aes.modulus ∣ lp (low (a ^^^ b)) := by
    rw [← element_eq, element_xor]
    have := ψ_eq.1 h
    rwa [CharTwo.sub_eq_add] at this
  have hz : lp (low (a ^^^ b)) = 0 := by
    by_contra hne
    have hlt : (lp (low (a ^^^ b))).natDegree < Spec.Aes.modulus.natDegree := ?_
    · exact modulus_monic.not_dvd_of_natDegree_lt hne hlt hd
    rw [modulus_degree, Polynomial.natDegree_lt_iff_degree_lt hne, Polynomial.degree_lt_iff_coeff_zero]
    intro m hm
    rw [lp_coeff, List.getD_eq_default _ _ hm]
    rfl
  apply byte_ext
  intro i hi
  have hc := congrArg (fun p => p.coeff i) hz
  simp only [lp_coeff, coeff_zero, ite_eq_right_iff, one_ne_zero, imp_false, Bool.not_eq_true] at hc
  rw [low_getD _ i hi, UInt8.toNat_xor, Nat.testBit_xor] at hc
  simpa using hc

/-- The product in the field. -/
def times : List Bool → UInt8 → UInt8
  | [], _ => 0
  | b :: l, v => (if b then v else 0) ^^^ times l (double v)

theorem element_zero : Spec.Aes.element 0 = 0 := by
  rw [element_eq]; exact lp_replicate 8

theorem ψ_times (l : List Bool) (v : UInt8) :
    ψ (Spec.Aes.element (times l v)) = ψ (lp l) * ψ (Spec.Aes.element v) := by
  induction l generalizing v with
  | nil => rw [times, element_zero, lp, map_zero, zero_mul]
  | cons b l ih =>
    rw [times, element_xor, map_add, ih, ψ_double, lp]
    cases b
    · simp only [Bool.false_eq_true, if_false, element_zero, map_zero, map_add, map_mul]; ring
    · simp only [if_true, map_add, map_mul, map_one]; ring

theorem element_one : Spec.Aes.element 1 = 1 := by
  have h : low 1 = true :: List.replicate 7 false := rfl
  rw [element_eq, h, lp, lp_replicate]; simp

theorem element_two : Spec.Aes.element 2 = X := by
  have h : low 2 = false :: true :: List.replicate 6 false := rfl
  rw [element_eq, h, lp, lp, lp_replicate]; simp

theorem element_three : Spec.Aes.element 3 = X + 1 := by
  have h : (3 : UInt8) = 2 ^^^ 1 := rfl
  rw [h, element_xor, element_two, element_one]

/-! ## Substitution -/

/-- The inverses. -/
def inverses : List UInt8 :=
  [0x00, 0x01, 0x8d, 0xf6, 0xcb, 0x52, 0x7b, 0xd1, 0xe8, 0x4f, 0x29, 0xc0, 0xb0, 0xe1, 0xe5, 0xc7,
  0x74, 0xb4, 0xaa, 0x4b, 0x99, 0x2b, 0x60, 0x5f, 0x58, 0x3f, 0xfd, 0xcc, 0xff, 0x40, 0xee, 0xb2,
  0x3a, 0x6e, 0x5a, 0xf1, 0x55, 0x4d, 0xa8, 0xc9, 0xc1, 0x0a, 0x98, 0x15, 0x30, 0x44, 0xa2, 0xc2,
  0x2c, 0x45, 0x92, 0x6c, 0xf3, 0x39, 0x66, 0x42, 0xf2, 0x35, 0x20, 0x6f, 0x77, 0xbb, 0x59, 0x19,
  0x1d, 0xfe, 0x37, 0x67, 0x2d, 0x31, 0xf5, 0x69, 0xa7, 0x64, 0xab, 0x13, 0x54, 0x25, 0xe9, 0x09,
  0xed, 0x5c, 0x05, 0xca, 0x4c, 0x24, 0x87, 0xbf, 0x18, 0x3e, 0x22, 0xf0, 0x51, 0xec, 0x61, 0x17,
  0x16, 0x5e, 0xaf, 0xd3, 0x49, 0xa6, 0x36, 0x43, 0xf4, 0x47, 0x91, 0xdf, 0x33, 0x93, 0x21, 0x3b,
  0x79, 0xb7, 0x97, 0x85, 0x10, 0xb5, 0xba, 0x3c, 0xb6, 0x70, 0xd0, 0x06, 0xa1, 0xfa, 0x81, 0x82,
  0x83, 0x7e, 0x7f, 0x80, 0x96, 0x73, 0xbe, 0x56, 0x9b, 0x9e, 0x95, 0xd9, 0xf7, 0x02, 0xb9, 0xa4,
  0xde, 0x6a, 0x32, 0x6d, 0xd8, 0x8a, 0x84, 0x72, 0x2a, 0x14, 0x9f, 0x88, 0xf9, 0xdc, 0x89, 0x9a,
  0xfb, 0x7c, 0x2e, 0xc3, 0x8f, 0xb8, 0x65, 0x48, 0x26, 0xc8, 0x12, 0x4a, 0xce, 0xe7, 0xd2, 0x62,
  0x0c, 0xe0, 0x1f, 0xef, 0x11, 0x75, 0x78, 0x71, 0xa5, 0x8e, 0x76, 0x3d, 0xbd, 0xbc, 0x86, 0x57,
  0x0b, 0x28, 0x2f, 0xa3, 0xda, 0xd4, 0xe4, 0x0f, 0xa9, 0x27, 0x53, 0x04, 0x1b, 0xfc, 0xac, 0xe6,
  0x7a, 0x07, 0xae, 0x63, 0xc5, 0xdb, 0xe2, 0xea, 0x94, 0x8b, 0xc4, 0xd5, 0x9d, 0xf8, 0x90, 0x6b,
  0xb1, 0x0d, 0xd6, 0xeb, 0xc6, 0x0e, 0xcf, 0xad, 0x08, 0x4e, 0xd7, 0xe3, 0x5d, 0x50, 0x1e, 0xb3,
  0x5b, 0x23, 0x38, 0x34, 0x68, 0x46, 0x03, 0x8c, 0xdd, 0x9c, 0x7d, 0xa0, 0xcd, 0x1a, 0x41, 0x1c]

/-- The inverse of a byte. -/
def inverse (b : UInt8) : UInt8 := inverses.getD b.toNat 0

theorem times_inverse : ∀ b : UInt8, b = 0 ∨ times (low b) (inverse b) = 1 :=
  all_bytes (by decide +kernel)

theorem sub_bits : ∀ b : UInt8, ∀ i < 8, (sub b).toNat.testBit i =
    ((inverse b).toNat.testBit i ^^ (inverse b).toNat.testBit ((i + 4) % 8) ^^ (inverse b).toNat.testBit ((i + 5) % 8) ^^
      (inverse b).toNat.testBit ((i + 6) % 8) ^^ (inverse b).toNat.testBit ((i + 7) % 8) ^^ (0x63 : Nat).testBit i) :=
  all_bytes (by decide +kernel)

theorem isSub_iff (x z : UInt8) : IsSub x z ↔ z = sub x := by
  have hprod : x ≠ 0 → ψ (Spec.Aes.element x) * ψ (Spec.Aes.element (inverse x)) = 1 := by
    intro hx
    have := (times_inverse x).resolve_left hx
    have h2 := ψ_times (low x) (inverse x)
    rw [this, element_one, map_one, ← element_eq] at h2
    exact h2.symm
  have hzero : inverse 0 = 0 := rfl
  constructor
  · rintro ⟨y, hy, hb⟩
    have e : y = inverse x := by
      rcases hy with ⟨rfl, rfl⟩ | hy
      · rfl
      · have h1 : ψ (Spec.Aes.element x) * ψ (Spec.Aes.element y) = 1 := by
          rw [← map_mul, ← map_one ψ]; exact ψ_eq.2 hy
        by_cases hx : x = 0
        · subst hx
          have h0 : ψ (Spec.Aes.element 1) = ψ (Spec.Aes.element 0) := by
            rw [element_one, element_zero, map_zero, map_one, ← h1, element_zero, map_zero, zero_mul]
          exact absurd (unique h0) (by decide)
        · apply unique
          have h2 := hprod hx
          calc ψ (Spec.Aes.element y) = (ψ (Spec.Aes.element x) * ψ (Spec.Aes.element (inverse x))) * ψ (Spec.Aes.element y) := by
                rw [h2, one_mul]
            _ = (ψ (Spec.Aes.element x) * ψ (Spec.Aes.element y)) * ψ (Spec.Aes.element (inverse x)) := by ring
            _ = ψ (Spec.Aes.element (inverse x)) := by rw [h1, one_mul]
    subst e
    apply byte_ext
    intro i hi
    rw [hb i hi, sub_bits x i hi]
  · rintro rfl
    refine ⟨inverse x, ?_, sub_bits x⟩
    by_cases hx : x = 0
    · subst hx; exact .inl ⟨rfl, rfl⟩
    · right
      apply ψ_eq.1
      rw [map_mul, map_one]
      exact hprod hx

end Aes
end Oid4vp
