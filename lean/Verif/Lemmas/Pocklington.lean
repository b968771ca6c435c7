import Mathlib.NumberTheory.LucasPrimality
import Mathlib.FieldTheory.Finite.Basic
import Mathlib.Tactic.NormNum.Prime
import Mathlib.Tactic.Ring
import Mathlib.Tactic.LinearCombination
import Verif.Model.P256

/-!
# The two moduli of P-256 are prime

Pocklington's criterion, in the form that needs the factored part of `N - 1` to be above the square
root of `N`, and the Brillhart–Lehmer–Selfridge form that needs it to be above the cube root only.
-/

set_option autoImplicit false

namespace Oid4vp
namespace P256

/-! ## Powers -/

theorem powAux_eq (m : Nat) : ∀ (fuel a e acc : Nat), e < 2 ^ fuel →
    powAux m fuel a e acc % m = acc * a ^ e % m := by
  intro fuel
  induction fuel with
  | zero =>
    intro a e acc h
    have : e = 0 := by simpa using h
    subst this
    simp [powAux]
  | succ fuel ih =>
    intro a e acc h
    have h2 : e / 2 < 2 ^ fuel := by
      rw [Nat.pow_succ] at h
      omega
    have hsq : (a * a % m) ^ (e / 2) % m = a ^ (2 * (e / 2)) % m := by
      rw [Nat.pow_mod, Nat.mod_mod, ← Nat.pow_mod, pow_mul, pow_two]
    rw [powAux]
    rcases Nat.mod_two_eq_zero_or_one e with h0 | h1
    · rw [if_neg (by omega), ih _ _ _ h2, Nat.mul_mod, hsq, ← Nat.mul_mod]
      congr 3
      omega
    · rw [if_pos h1, ih _ _ _ h2, Nat.mul_mod, hsq, Nat.mod_mod, ← Nat.mul_mod, mul_assoc,
        ← pow_succ']
      congr 3
      omega

/-- `powMod` is the power. -/
theorem powMod_eq (a e m : Nat) (h : e < 2 ^ 256) : powMod a e m = a ^ e % m := by
  rw [powMod, powAux_eq m 256 _ _ _ h, one_mul, Nat.pow_mod, Nat.mod_mod, ← Nat.pow_mod]

/-! ## Pocklington's criterion -/

/-- A divisor of `M` that does not divide `M / q` has the whole power of `q` in it. -/
theorem pow_dvd_of_not_dvd_div {M m q k : Nat} (hq : q.Prime) (hm : m ∣ M) (hn : ¬ m ∣ M / q)
    (hk : q ^ k ∣ M) : q ^ k ∣ m := by
  obtain ⟨c, rfl⟩ := hm
  have hc : ¬ q ∣ c := by
    rintro ⟨d, rfl⟩
    apply hn
    rw [show m * (q * d) = q * (m * d) by ring, Nat.mul_div_cancel_left _ hq.pos]
    exact Dvd.intro _ rfl
  exact (Nat.Coprime.pow_left k ((Nat.Prime.coprime_iff_not_dvd hq).2 hc)).dvd_of_dvd_mul_right hk

/-- What is checked about one prime factor `q` of `N - 1`, with the base `a`. -/
def Certified (N q a : Nat) : Prop :=
  powMod a (N - 1) N = 1 ∧ Nat.gcd (powMod a ((N - 1) / q) N + (N - 1)) N = 1

/-- Every prime factor of `N` is one more than a multiple of `F`. -/
theorem dvd_sub_one {N F r : Nat} (hN : 1 < N) (hN2 : N ≤ 2 ^ 256) (hF : F ∣ N - 1)
    (h : ∀ q, q.Prime → q ∣ F → ∃ a, Certified N q a) (hr : r.Prime) (hrN : r ∣ N) :
    F ∣ r - 1 := by
  rw [Nat.dvd_iff_prime_pow_dvd_dvd]
  intro q k hq hk
  rcases Nat.eq_zero_or_pos k with rfl | hk0
  · simp
  obtain ⟨a, h1, h2⟩ := h q hq ((dvd_pow_self q (by omega)).trans hk)
  have hlt : N - 1 < 2 ^ 256 := by omega
  have hlt2 : (N - 1) / q < 2 ^ 256 := lt_of_le_of_lt (Nat.div_le_self _ _) hlt
  rw [powMod_eq _ _ _ hlt] at h1
  rw [powMod_eq _ _ _ hlt2] at h2
  have : Fact r.Prime := ⟨hr⟩
  have cast : ∀ e : Nat, ((a ^ e % N : Nat) : ZMod r) = (a : ZMod r) ^ e := by
    intro e
    have : (((a ^ e % N : Nat) : ZMod r)) = ((a ^ e : Nat) : ZMod r) := by
      rw [ZMod.natCast_eq_natCast_iff]
      exact (Nat.mod_modEq _ _).of_dvd hrN
    rw [this, Nat.cast_pow]
  have ha : (a : ZMod r) ^ (N - 1) = 1 := by rw [← cast, h1, Nat.cast_one]
  have hne : (a : ZMod r) ^ ((N - 1) / q) ≠ 1 := by
    intro he
    have hd : r ∣ a ^ ((N - 1) / q) % N + (N - 1) := by
      rw [← ZMod.natCast_eq_zero_iff, Nat.cast_add, cast, he, Nat.cast_sub (by omega),
        (ZMod.natCast_eq_zero_iff N r).2 hrN]
      simp
    have := Nat.dvd_gcd hd hrN
    rw [h2] at this
    exact hr.one_lt.ne' (Nat.dvd_one.1 this)
  have hane : (a : ZMod r) ≠ 0 := by
    intro h0
    rw [h0, zero_pow (by omega)] at ha
    exact zero_ne_one ha
  have := pow_dvd_of_not_dvd_div hq (orderOf_dvd_of_pow_eq_one ha)
    (fun hd => hne (orderOf_dvd_iff_pow_eq_one.1 hd)) (hk.trans hF)
  exact this.trans (orderOf_dvd_of_pow_eq_one (ZMod.pow_card_sub_one_eq_one hane))

/-- A prime divisor of a product of powers of primes is one of the primes. -/
theorem mem_of_dvd_prod {q : Nat} (hq : q.Prime) : ∀ fs : List (Nat × Nat × Nat),
    (∀ f ∈ fs, f.1.Prime) → q ∣ (fs.map (fun f => f.1 ^ f.2.1)).prod → ∃ f ∈ fs, f.1 = q := by
  intro fs
  induction fs with
  | nil =>
    intro _ h
    exact absurd (Nat.dvd_one.1 h) hq.one_lt.ne'
  | cons f fs ih =>
    intro hp h
    rw [List.map_cons, List.prod_cons, hq.dvd_mul] at h
    rcases h with h | h
    · exact ⟨f, by simp, ((Nat.prime_dvd_prime_iff_eq hq (hp f (by simp))).1
        (hq.dvd_of_dvd_pow h)).symm⟩
    · obtain ⟨g, hg, e⟩ := ih (fun g hg => hp g (by simp [hg])) h
      exact ⟨g, by simp [hg], e⟩

/-- The number a list of factors (prime, exponent, base) stands for. -/
def factored (fs : List (Nat × Nat × Nat)) : Nat := (fs.map (fun f => f.1 ^ f.2.1)).prod

/-- The check of a certificate. -/
def checked (N : Nat) (fs : List (Nat × Nat × Nat)) : Bool :=
  (N - 1) % factored fs == 0 && fs.all (fun f => powMod f.2.2 (N - 1) N == 1 &&
    Nat.gcd (powMod f.2.2 ((N - 1) / f.1) N + (N - 1)) N == 1)

theorem check_spec {N : Nat} {fs : List (Nat × Nat × Nat)} (hp : ∀ f ∈ fs, f.1.Prime)
    (h : checked N fs = true) : factored fs ∣ N - 1 ∧
      ∀ q, q.Prime → q ∣ factored fs → ∃ a, Certified N q a := by
  simp only [checked, Bool.and_eq_true, beq_iff_eq, List.all_eq_true] at h
  refine ⟨Nat.dvd_of_mod_eq_zero h.1, fun q hq hd => ?_⟩
  obtain ⟨f, hf, rfl⟩ := mem_of_dvd_prod hq fs hp hd
  exact ⟨f.2.2, h.2 f hf⟩

/-- **Pocklington**, with a factored part above the square root. -/
theorem prime_of_check {N : Nat} (fs : List (Nat × Nat × Nat)) (hN : 1 < N) (hN2 : N ≤ 2 ^ 256)
    (hp : ∀ f ∈ fs, f.1.Prime) (h : checked N fs = true) (hF : N < factored fs * factored fs) :
    N.Prime := by
  obtain ⟨hd, hc⟩ := check_spec hp h
  by_contra hnp
  have hr := Nat.minFac_prime (n := N) (by omega)
  have hrd := dvd_sub_one hN hN2 hd hc hr (Nat.minFac_dvd N)
  have hle := Nat.le_of_dvd (by have := hr.one_lt; omega) hrd
  have hsq := Nat.minFac_sq_le_self (by omega) hnp
  have : factored fs * factored fs ≤ N.minFac ^ 2 := by
    rw [pow_two]
    exact Nat.mul_le_mul (by omega) (by omega)
  omega

/-- **Brillhart, Lehmer and Selfridge**, with a factored part above the cube root: `s` shows that a
number is not a square. -/
theorem prime_of_check3 {N : Nat} (fs : List (Nat × Nat × Nat)) (s : Nat) (hN : 1 < N)
    (hN2 : N ≤ 2 ^ 256) (hp : ∀ f ∈ fs, f.1.Prime) (h : checked N fs = true)
    (hF : (N - 1) / factored fs / factored fs + 1 < factored fs)
    (hs : s * s + 4 * ((N - 1) / factored fs / factored fs) <
      ((N - 1) / factored fs % factored fs) * ((N - 1) / factored fs % factored fs))
    (hs2 : ((N - 1) / factored fs % factored fs) * ((N - 1) / factored fs % factored fs) <
      (s + 1) * (s + 1) + 4 * ((N - 1) / factored fs / factored fs)) : N.Prime := by
  obtain ⟨hd, hc⟩ := check_spec hp h
  by_contra hnp
  have hr := Nat.minFac_prime (n := N) (by omega)
  have hrd := dvd_sub_one hN hN2 hd hc hr (Nat.minFac_dvd N)
  obtain ⟨c, hc'⟩ := Nat.minFac_dvd N
  have hsq := Nat.minFac_sq_le_self (by omega) hnp
  revert hd hrd hF hs hs2 hc' hsq
  generalize factored fs = F
  have hr1 := hr.one_lt
  generalize N.minFac = r at *
  rintro hF hs hs2 ⟨R, hR⟩ ⟨a, ha⟩ hc' hsq
  have hF0 : 0 < F := by omega
  have hra : r = F * a + 1 := by omega
  have hrc : r ≤ c := by
    rw [hc', pow_two] at hsq
    exact Nat.le_of_mul_le_mul_left hsq (by omega)
  have hcd : F ∣ c - 1 := by
    have h1 : N = F * R + 1 := by omega
    have h2 : F * R + 1 = F * (a * c) + c := by
      rw [← h1, hc', hra]; ring
    have h3 : F * R = F * (a * c) + (c - 1) := by omega
    exact (Nat.dvd_add_right (Dvd.intro _ rfl)).1 (h3 ▸ Dvd.intro _ rfl)
  obtain ⟨b, hb⟩ := hcd
  have hcb : c = F * b + 1 := by omega
  have ha0 : 0 < a := by
    rcases Nat.eq_zero_or_pos a with rfl | h
    · omega
    · exact h
  have hb0 : 0 < b := by
    rcases Nat.eq_zero_or_pos b with rfl | h
    · omega
    · exact h
  have hRe : R = a * b * F + (a + b) := by
    have h1 : F * R + 1 = (F * a + 1) * (F * b + 1) := by
      rw [← hra, ← hcb, ← hc']; omega
    have h2 : F * R = F * (a * b * F + (a + b)) := by
      have : (F * a + 1) * (F * b + 1) = F * (a * b * F + (a + b)) + 1 := by ring
      omega
    exact Nat.eq_of_mul_eq_mul_left hF0 h2
  rw [hR, Nat.mul_div_cancel_left _ hF0] at hF hs hs2
  have hab : a + b ≤ a * b + 1 := by
    obtain ⟨x, rfl⟩ : ∃ x, a = x + 1 := ⟨a - 1, by omega⟩
    obtain ⟨y, rfl⟩ : ∃ y, b = y + 1 := ⟨b - 1, by omega⟩
    have : (x + 1) * (y + 1) = x * y + x + y + 1 := by ring
    have := Nat.zero_le (x * y)
    omega
  have hu : a * b ≤ R / F := by
    rw [Nat.le_div_iff_mul_le hF0]; omega
  have hlt : a + b < F := by omega
  have hdiv : R / F = a * b := by
    rw [hRe, Nat.mul_comm, Nat.mul_add_div hF0, Nat.div_eq_of_lt hlt, Nat.add_zero]
  have hmod : R % F = a + b := by
    rw [hRe, Nat.mul_comm, Nat.mul_add_mod, Nat.mod_eq_of_lt hlt]
  rw [hdiv, hmod] at hs hs2
  rcases Nat.le_total a b with hle | hle
  · obtain ⟨k, rfl⟩ := Nat.exists_eq_add_of_le hle
    have e1 : (a + (a + k)) * (a + (a + k)) = k * k + 4 * (a * (a + k)) := by ring
    have l1 : s * s < k * k := by omega
    have l2 : k * k < (s + 1) * (s + 1) := by omega
    have := Nat.mul_self_lt_mul_self_iff.1 l1
    have := Nat.mul_self_lt_mul_self_iff.1 l2
    omega
  · obtain ⟨k, rfl⟩ := Nat.exists_eq_add_of_le hle
    have e1 : (b + k + b) * (b + k + b) = k * k + 4 * ((b + k) * b) := by ring
    have l1 : s * s < k * k := by omega
    have l2 : k * k < (s + 1) * (s + 1) := by omega
    have := Nat.mul_self_lt_mul_self_iff.1 l1
    have := Nat.mul_self_lt_mul_self_iff.1 l2
    omega

/-! ## The two primes -/

theorem prime_a : Nat.Prime 187019741 := by
  refine prime_of_check [(9350987, 1, 2)] (by norm_num) (by norm_num) ?_ (by decide +kernel)
    (by decide +kernel)
  intro f hf
  simp only [List.mem_cons, List.not_mem_nil, or_false] at hf
  rcases hf with rfl
  norm_num

set_option maxRecDepth 20000 in
theorem prime_b : Nat.Prime 622491383 := by
  refine prime_of_check [(311245691, 1, 2)] (by norm_num) (by norm_num) ?_ (by decide +kernel)
    (by decide +kernel)
  intro f hf
  simp only [List.mem_cons, List.not_mem_nil, or_false] at hf
  rcases hf with rfl
  norm_num

set_option maxRecDepth 20000 in
theorem prime_c : Nat.Prime 1002328039319 := by
  refine prime_of_check [(126241, 1, 2), (3969899, 1, 2)] (by norm_num) (by norm_num) ?_
    (by decide +kernel) (by decide +kernel)
  intro f hf
  simp only [List.mem_cons, List.not_mem_nil, or_false] at hf
  rcases hf with rfl | rfl <;> norm_num

set_option maxRecDepth 20000 in
/-- The prime of the field is prime. -/
theorem p_prime : Nat.Prime p := by
  refine prime_of_check3 [(2, 1, 3), (3, 1, 2), (5, 2, 2), (17, 1, 2), (257, 1, 2), (641, 1, 2),
    (1531, 1, 2), (65537, 1, 2), (490463, 1, 2), (6700417, 1, 2)] 128950946036093660256175050240
    (by decide +kernel) (by decide +kernel) ?_ (by decide +kernel) (by decide +kernel)
    (by decide +kernel) (by decide +kernel)
  intro f hf
  simp only [List.mem_cons, List.not_mem_nil, or_false] at hf
  rcases hf with rfl | rfl | rfl | rfl | rfl | rfl | rfl | rfl | rfl | rfl <;> norm_num

set_option maxRecDepth 20000 in
/-- The order of the base point is prime. -/
theorem n_prime : Nat.Prime n := by
  refine prime_of_check [(2, 4, 7), (3, 1, 2), (71, 1, 2), (131, 1, 2), (373, 1, 2), (3407, 1, 2),
    (17449, 1, 2), (38189, 1, 2), (187019741, 1, 2), (622491383, 1, 2), (1002328039319, 1, 2)]
    (by decide +kernel) (by decide +kernel) ?_ (by decide +kernel) (by decide +kernel)
  intro f hf
  simp only [List.mem_cons, List.not_mem_nil, or_false] at hf
  rcases hf with rfl | rfl | rfl | rfl | rfl | rfl | rfl | rfl | rfl | rfl | rfl
  case inr.inr.inr.inr.inr.inr.inr.inr.inl => exact prime_a
  case inr.inr.inr.inr.inr.inr.inr.inr.inr.inl => exact prime_b
  case inr.inr.inr.inr.inr.inr.inr.inr.inr.inr => exact prime_c
  all_goals norm_num

end P256
end Oid4vp
