import Verif.Spec.P256
import Verif.Lemmas.Pocklington

/-!
# The computed arithmetic is the group of the curve
-/

set_option autoImplicit false

namespace Oid4vp
namespace P256

open Spec

theorem p_eq : p = fieldPrime := by
  unfold fieldPrime
  decide +kernel

theorem n_eq : n = groupOrder := by
  unfold groupOrder
  decide +kernel

instance fieldFact : Fact fieldPrime.Prime := ⟨p_eq ▸ p_prime⟩
instance orderFact : Fact groupOrder.Prime := ⟨n_eq ▸ n_prime⟩

theorem p_lt : p < 2 ^ 256 := by decide +kernel
theorem n_lt : n < 2 ^ 256 := by decide +kernel

theorem cast_p : ((p : ℕ) : ZMod fieldPrime) = 0 := by
  rw [p_eq]; exact ZMod.natCast_self _

theorem cast_mod (a : ℕ) : ((a % p : ℕ) : ZMod fieldPrime) = (a : ZMod fieldPrime) := by
  rw [p_eq]; exact ZMod.natCast_mod _ _

theorem cast_neg {a : ℕ} (h : a ≤ p) : ((p - a : ℕ) : ZMod fieldPrime) = -(a : ZMod fieldPrime) := by
  rw [Nat.cast_sub h, cast_p, zero_sub]

theorem cast_inj {a b : ℕ} (ha : a < p) (hb : b < p)
    (h : (a : ZMod fieldPrime) = (b : ZMod fieldPrime)) : a = b := by
  rw [ZMod.natCast_eq_natCast_iff', ← p_eq, Nat.mod_eq_of_lt ha, Nat.mod_eq_of_lt hb] at h
  exact h

/-- Fermat's inverse. -/
theorem cast_inv (a : ℕ) : ((inv a p : ℕ) : ZMod fieldPrime) = (a : ZMod fieldPrime)⁻¹ := by
  have h2 : p - 2 < 2 ^ 256 := lt_of_le_of_lt (Nat.sub_le _ _) p_lt
  rw [inv, powMod_eq _ _ _ h2, cast_mod, Nat.cast_pow]
  by_cases h : (a : ZMod fieldPrime) = 0
  · rw [h, zero_pow (by decide +kernel), inv_zero]
  · rw [eq_comm, inv_eq_iff_eq_inv, eq_comm]
    apply inv_eq_of_mul_eq_one_left
    rw [← pow_succ']
    have := ZMod.pow_card_sub_one_eq_one h
    rw [show p - 2 + 1 = fieldPrime - 1 by rw [← p_eq]; decide +kernel]
    exact this

theorem mod_lt (a : ℕ) : a % p < p := Nat.mod_lt _ (by decide +kernel)

/-- The discriminant is not zero: the curve is nonsingular everywhere. -/
theorem disc_ne : curve.Δ ≠ 0 := by
  have e : curve.Δ = -((16 * (27 * (b * b) - 4 * 27) : ℕ) : ZMod fieldPrime) := by
    rw [Nat.cast_mul, Nat.cast_sub (by decide +kernel)]
    simp only [WeierstrassCurve.Δ, WeierstrassCurve.b₂, WeierstrassCurve.b₄, WeierstrassCurve.b₆,
      WeierstrassCurve.b₈, curve]
    rw [show (41058363725152142129326129780047268409114441015993725554835256314039467401291 : ℕ) = b
      by decide +kernel]
    push_cast
    ring
  rw [e, neg_ne_zero, Ne, ZMod.natCast_eq_zero_iff, ← p_eq, Nat.dvd_iff_mod_eq_zero]
  decide +kernel

/-- What a computed point stands for. -/
def Rep : Pt → CurvePoint → Prop
  | .inf, P => P = 0
  | .aff x y, P => HasCoordinates P x y

theorem Rep.unique {q q' : Pt} {P : CurvePoint} (h : Rep q P) (h' : Rep q' P) : q = q' := by
  cases q <;> cases q'
  · rfl
  · obtain ⟨_, _, hn, e⟩ := h'
    rw [show P = 0 from h] at e
    exact absurd e.symm (WeierstrassCurve.Affine.Point.some_ne_zero _)
  · obtain ⟨_, _, hn, e⟩ := h
    rw [show P = 0 from h'] at e
    exact absurd e.symm (WeierstrassCurve.Affine.Point.some_ne_zero _)
  · obtain ⟨a, b, hn, e⟩ := h
    obtain ⟨a', b', hn', e'⟩ := h'
    rw [e] at e'
    injection e' with e1 e2
    rw [← p_eq] at a b a' b'
    rw [cast_inj a a' e1, cast_inj b b' e2]

theorem chord_rep {x₁ y₁ x₂ l : ℕ} {P : CurvePoint} (hx : x₁ < p) (hy : y₁ < p) (hx2 : x₂ < p)
    (ℓ : ZMod fieldPrime) (hl : (l : ZMod fieldPrime) = ℓ)
    (h : ∃ h : curve.Nonsingular (curve.addX x₁ x₂ ℓ) (curve.addY x₁ x₂ y₁ ℓ), P = .some _ _ h) :
    Rep (chord l x₁ y₁ x₂) P := by
  obtain ⟨hn, rfl⟩ := h
  have ex : (((l * l + (p - x₁) + (p - x₂)) % p : ℕ) : ZMod fieldPrime) = curve.addX x₁ x₂ ℓ := by
    rw [cast_mod, Nat.cast_add, Nat.cast_add, cast_neg hx.le, cast_neg hx2.le, Nat.cast_mul, hl]
    simp only [WeierstrassCurve.Affine.addX, curve]
    ring
  have ey : (((l * (x₁ + (p - (l * l + (p - x₁) + (p - x₂)) % p)) + (p - y₁)) % p : ℕ) :
      ZMod fieldPrime) = curve.addY x₁ x₂ y₁ ℓ := by
    rw [cast_mod, Nat.cast_add, cast_neg hy.le, Nat.cast_mul, hl, Nat.cast_add,
      cast_neg (mod_lt _).le, ex]
    simp only [WeierstrassCurve.Affine.addY, WeierstrassCurve.Affine.negAddY,
      WeierstrassCurve.Affine.negY, curve]
    ring
  refine ⟨?_, ?_, ?_⟩
  · rw [← p_eq]; exact mod_lt _
  · rw [← p_eq]; exact mod_lt _
  · simp only [ex, ey]
    exact ⟨hn, trivial⟩

/-- Addition is the group's. -/
theorem add_rep {q q' : Pt} {P P' : CurvePoint} (h : Rep q P) (h' : Rep q' P') :
    Rep (add q q') (P + P') := by
  cases q with
  | inf =>
    rw [show P = 0 from h, zero_add]
    simpa [add] using h'
  | aff x₁ y₁ =>
    cases q' with
    | inf =>
      rw [show P' = 0 from h', add_zero]
      simpa [add] using h
    | aff x₂ y₂ =>
      obtain ⟨hx1, hy1, hn1, rfl⟩ := h
      obtain ⟨hx2, hy2, hn2, rfl⟩ := h'
      rw [← p_eq] at hx1 hy1 hx2 hy2
      have negY : ∀ x y : ZMod fieldPrime, curve.negY x y = -y := by
        intro x y
        simp [WeierstrassCurve.Affine.negY, curve]
      rw [add]
      by_cases hx : x₁ = x₂
      · rw [if_pos hx]
        subst hx
        by_cases hy : (y₁ + y₂) % p = 0
        · rw [if_pos hy]
          refine WeierstrassCurve.Affine.Point.add_of_Y_eq rfl ?_
          rw [negY, eq_neg_iff_add_eq_zero, ← Nat.cast_add, ← cast_mod, hy, Nat.cast_zero]
        · rw [if_neg hy]
          have hyn : (y₁ : ZMod fieldPrime) ≠ curve.negY (x₁ : ZMod fieldPrime) y₂ := by
            rw [negY, Ne, eq_neg_iff_add_eq_zero, ← Nat.cast_add, ZMod.natCast_eq_zero_iff, ← p_eq,
              Nat.dvd_iff_mod_eq_zero]
            exact hy
          refine chord_rep hx1 hy1 hx2 _ ?_
            ⟨_, WeierstrassCurve.Affine.Point.add_of_Y_ne hyn⟩
          rw [WeierstrassCurve.Affine.slope_of_Y_ne rfl hyn, cast_mod, Nat.cast_mul, Nat.cast_add,
            cast_inv, cast_neg (by decide +kernel), negY, div_eq_mul_inv]
          simp only [curve]
          push_cast
          congr 1
          · ring
          · ring
      · rw [if_neg hx]
        have hxn : (x₁ : ZMod fieldPrime) ≠ x₂ := fun e => hx (cast_inj hx1 hx2 e)
        refine chord_rep hx1 hy1 hx2 _ ?_ ⟨_, WeierstrassCurve.Affine.Point.add_of_X_ne hxn⟩
        rw [WeierstrassCurve.Affine.slope_of_X_ne hxn, cast_mod, Nat.cast_mul, cast_inv,
          Nat.cast_add, Nat.cast_add, cast_neg hy2.le, cast_neg hx2.le, div_eq_mul_inv]
        ring

theorem mulAux_rep : ∀ (fuel k : ℕ) (q acc : Pt) (P A : CurvePoint), k < 2 ^ fuel → Rep q P →
    Rep acc A → Rep (mulAux fuel k q acc) (A + k • P) := by
  intro fuel
  induction fuel with
  | zero =>
    intro k q acc P A hk _ ha
    have : k = 0 := by simpa using hk
    subst this
    simpa [mulAux] using ha
  | succ fuel ih =>
    intro k q acc P A hk hq ha
    have h2 : k / 2 < 2 ^ fuel := by
      rw [Nat.pow_succ] at hk
      omega
    rw [mulAux]
    have hdbl := add_rep hq hq
    rcases Nat.mod_two_eq_zero_or_one k with h0 | h1
    · rw [if_neg (by omega)]
      have := ih (k / 2) _ _ _ _ h2 hdbl ha
      rwa [← two_nsmul, ← mul_nsmul', show k / 2 * 2 = k by omega] at this
    · rw [if_pos h1]
      have := ih (k / 2) _ _ _ _ h2 hdbl (add_rep ha hq)
      rwa [← two_nsmul, ← mul_nsmul', add_assoc, ← succ_nsmul',
        show k / 2 * 2 + 1 = k by omega] at this

/-- Multiplication is the group's. -/
theorem mul_rep {k : ℕ} {q : Pt} {P : CurvePoint} (hk : k < 2 ^ 256) (h : Rep q P) :
    Rep (mul k q) (k • P) := by
  have := mulAux_rep 256 k q .inf P 0 hk h rfl
  rwa [zero_add] at this

/-- The base point is on the curve. -/
theorem base_nonsingular :
    curve.Nonsingular ((gx : ℕ) : ZMod fieldPrime) ((gy : ℕ) : ZMod fieldPrime) := by
  rw [← WeierstrassCurve.Affine.equation_iff_nonsingular_of_Δ_ne_zero disc_ne,
    WeierstrassCurve.Affine.equation_iff]
  have e : ((gy * gy + 3 * gx : ℕ) : ZMod fieldPrime) = ((gx * gx * gx + b : ℕ) : ZMod fieldPrime) := by
    rw [ZMod.natCast_eq_natCast_iff', ← p_eq]
    decide +kernel
  push_cast at e
  simp only [curve]
  rw [show (41058363725152142129326129780047268409114441015993725554835256314039467401291 : ℕ) = b
      by decide +kernel]
  linear_combination e

/-- The base point. -/
def G : CurvePoint := .some _ _ base_nonsingular

theorem G_coordinates : HasCoordinates G gx gy :=
  ⟨by rw [← p_eq]; decide +kernel, by rw [← p_eq]; decide +kernel, base_nonsingular, rfl⟩

theorem G_base : IsBasePoint G := by
  have := G_coordinates
  rwa [show gx = 48439561293906451759052585252797914202762949526041747995844080717082404635286
      by decide +kernel,
    show gy = 36134250956749795798585127919587881956611106672985015071877198253568414405109
      by decide +kernel] at this

theorem base_unique {P : CurvePoint} (h : IsBasePoint P) : P = G := by
  obtain ⟨_, _, hn, rfl⟩ := h
  obtain ⟨_, _, hn', e⟩ := G_base
  exact e.symm

theorem base_rep : Rep base G := G_coordinates

set_option maxRecDepth 100000 in
theorem order_computed : mul n base = .inf := by decide +kernel

/-- The base point has the order `n`. -/
theorem n_smul : n • G = 0 := by
  have h : ∀ k, k < 2 ^ 256 → mul k base = .inf → k • G = 0 := by
    intro k hk e
    have := mul_rep hk base_rep
    rw [e] at this
    exact this
  exact h n n_lt order_computed

theorem smul_congr {a b : ℕ} (h : a % n = b % n) : a • G = b • G := by
  rw [← Nat.div_add_mod a n, ← Nat.div_add_mod b n, h, add_nsmul, add_nsmul, mul_nsmul, mul_nsmul,
    n_smul, nsmul_zero, nsmul_zero]

/-! ## Signatures -/

theorem ocast_mod (a : ℕ) : ((a % n : ℕ) : ZMod groupOrder) = (a : ZMod groupOrder) := by
  rw [n_eq]; exact ZMod.natCast_mod _ _

theorem ocast_inv (a : ℕ) : ((inv a n : ℕ) : ZMod groupOrder) = (a : ZMod groupOrder)⁻¹ := by
  have h2 : n - 2 < 2 ^ 256 := lt_of_le_of_lt (Nat.sub_le _ _) n_lt
  rw [inv, powMod_eq _ _ _ h2, ocast_mod, Nat.cast_pow]
  by_cases h : (a : ZMod groupOrder) = 0
  · rw [h, zero_pow (by decide +kernel), inv_zero]
  · rw [eq_comm, inv_eq_iff_eq_inv, eq_comm]
    apply inv_eq_of_mul_eq_one_left
    rw [← pow_succ']
    have := ZMod.pow_card_sub_one_eq_one h
    rw [show n - 2 + 1 = groupOrder - 1 by rw [← n_eq]; decide +kernel]
    exact this

theorem ocast_iff {a b : ℕ} : (a : ZMod groupOrder) = (b : ZMod groupOrder) ↔ a % n = b % n := by
  rw [ZMod.natCast_eq_natCast_iff', ← n_eq]

theorem ocast_zero {a : ℕ} : (a : ZMod groupOrder) = 0 ↔ a % n = 0 := by
  rw [ZMod.natCast_eq_zero_iff, ← n_eq, Nat.dvd_iff_mod_eq_zero]

theorem coordinates_ne_zero {P : CurvePoint} {x y : ℕ} (h : HasCoordinates P x y) : P ≠ 0 := by
  obtain ⟨_, _, _, rfl⟩ := h
  exact WeierstrassCurve.Affine.Point.some_ne_zero _

/-- What signing returns verifies. -/
theorem sign_correct {d k e r s : ℕ} (hk : k < 2 ^ 256) (h : sign d k e = some (r, s)) :
    IsSignature (d • G) e r s := by
  have hrep : Rep (mul k base) (k • G) := mul_rep hk base_rep
  rw [sign] at h
  revert h hrep
  generalize mul k base = q
  intro h hrep
  cases q with
  | inf => simp at h
  | aff x y =>
    simp only at h
    split at h
    · simp at h
    · rename_i hne
      rw [not_or] at hne
      simp only [Option.some.injEq, Prod.mk.injEq] at h
      obtain ⟨rfl, hs⟩ := h
      rw [hs] at hne
      have hn0 : 0 < n := by decide +kernel
      have hk0 : (k : ZMod groupOrder) ≠ 0 := by
        intro h0
        have : k % n = 0 % n := by rw [ocast_zero] at h0; rw [h0, Nat.zero_mod]
        have h0 := smul_congr this
        rw [zero_nsmul] at h0
        exact coordinates_ne_zero hrep h0
      have hsc : (s : ZMod groupOrder) = (k : ZMod groupOrder)⁻¹ *
          ((e : ZMod groupOrder) + ((x % n : ℕ) : ZMod groupOrder) * (d : ZMod groupOrder)) := by
        rw [← hs, ocast_mod, Nat.cast_mul, ocast_inv, Nat.cast_add, Nat.cast_mul]
      have hslt : s < n := by rw [← hs]; exact Nat.mod_lt _ hn0
      have hs0 : (s : ZMod groupOrder) ≠ 0 := by
        rw [Ne, ocast_zero, Nat.mod_eq_of_lt hslt]
        exact hne.2
      have hw : (s : ZMod groupOrder) * ((inv s n : ℕ) : ZMod groupOrder) = 1 := by
        rw [ocast_inv]; exact mul_inv_cancel₀ hs0
      refine ⟨Nat.pos_of_ne_zero hne.1, by rw [← n_eq]; exact Nat.mod_lt _ hn0,
        Nat.pos_of_ne_zero hne.2, by rw [← n_eq]; exact hslt, G, inv s n, x, y, G_base, ?_, ?_, by
        rw [n_eq]⟩
      · rw [← n_eq]
        rw [← Nat.cast_mul, ← Nat.cast_one, ocast_iff] at hw
        rw [hw]
        decide +kernel
      · have : (e * inv s n % n) • G + (x % n * inv s n % n) • d • G = k • G := by
          rw [← mul_nsmul', ← add_nsmul]
          apply smul_congr
          rw [← ocast_iff, Nat.cast_add, Nat.cast_mul, ocast_mod, ocast_mod]
          push_cast
          have hks : (k : ZMod groupOrder) * (s : ZMod groupOrder) =
              (e : ZMod groupOrder) + ((x % n : ℕ) : ZMod groupOrder) * (d : ZMod groupOrder) := by
            rw [hsc, ← mul_assoc, mul_inv_cancel₀ hk0, one_mul]
          linear_combination (-((inv s n : ℕ) : ZMod groupOrder)) * hks +
            (k : ZMod groupOrder) * hw
        rw [← n_eq, this]
        exact hrep

/-- Different secrets have different public keys. -/
theorem secret_unique {d d' : ℕ} (hd : d < n) (hd' : d' < n) (h : d • G = d' • G) : d = d' := by
  have ho : addOrderOf G = n := by
    have hdvd := addOrderOf_dvd_of_nsmul_eq_zero n_smul
    rcases (Nat.dvd_prime n_prime).1 hdvd with h1 | h1
    · rw [AddMonoid.addOrderOf_eq_one_iff] at h1
      exact absurd h1 (coordinates_ne_zero G_coordinates)
    · exact h1
  rw [nsmul_eq_nsmul_iff_modEq, ho] at h
  rwa [Nat.ModEq, Nat.mod_eq_of_lt hd, Nat.mod_eq_of_lt hd'] at h

end P256
end Oid4vp
