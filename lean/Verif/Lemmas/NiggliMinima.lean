import Verif.Spec.Lattice
import Mathlib.Tactic.Linarith
import Mathlib.Tactic.LinearCombination
import Mathlib.Tactic.Positivity
import Mathlib.Algebra.Order.Field.Basic

/-! Niggli conditions imply that the basis vectors are successive minima. -/

namespace Spec

set_option linter.unusedSectionVars false

variable {K : Type*} [Field K] [LinearOrder K] [IsStrictOrderedRing K]

/-- Squared length of the integer combination `p a + q b + r c`. -/
def qform (A B C xi eta zeta : K) (p q r : ℤ) : K :=
  (p : K) * p * A + (q : K) * q * B + (r : K) * r * C + (q : K) * r * xi + (p : K) * r * eta +
    (p : K) * q * zeta

theorem form1 (P Q R : ℤ) (h : P ≠ 0 ∨ Q ≠ 0 ∨ R ≠ 0) : 0 ≤ P * P + Q * Q + R * R - Q * R - P * R - 1 := by
  by_contra hc
  have hp := mul_self_nonneg P
  have hq := mul_self_nonneg Q
  have h1 := mul_self_nonneg (P - R)
  have h2 := mul_self_nonneg (Q - R)
  have e : 2 * (P * P + Q * Q + R * R - Q * R - P * R) =
    P * P + Q * Q + (P - R) * (P - R) + (Q - R) * (Q - R) := by ring
  have eP : P = 0 := mul_self_eq_zero.1 (by linarith)
  have eQ : Q = 0 := mul_self_eq_zero.1 (by linarith)
  have eR : P - R = 0 := mul_self_eq_zero.1 (by linarith)
  have : R = 0 := by linarith
  simp_all

theorem form2 (Q R : ℤ) (h : Q ≠ 0 ∨ R ≠ 0) : 0 ≤ Q * Q + R * R - Q * R - 1 := by
  have := form1 Q 0 R (by tauto)
  linarith

/-- Bound for the worst sign pattern of type I / each vertex for type II:
coefficients `u` of `B` and `v` of `A` with `0 ≤ u`, `0 ≤ u + v`. -/
theorem comb_nonneg {A B : K} (hA : 0 ≤ A) (hAB : A ≤ B) (u v : ℤ) (hu : 0 ≤ u) (huv : 0 ≤ u + v) :
    0 ≤ (u : K) * B + (v : K) * A := by
  have h1 : (0 : K) ≤ u := by exact_mod_cast hu
  have h2 : (0 : K) ≤ (u : K) + v := by exact_mod_cast huv
  nlinarith [mul_le_mul_of_nonneg_left hAB h1, mul_nonneg h2 hA]

variable {A B C xi eta zeta : K}

theorem qform_neg (p q r : ℤ) : qform A B C xi eta zeta (-p) (-q) (-r) = qform A B C xi eta zeta p q r := by
  unfold qform; push_cast; ring

/-- Third minimum, for `r > 0`. -/
theorem third_aux (h : NiggliNumbers A B C xi eta zeta) (hA : 0 ≤ A) (p q r : ℤ) (hr : 0 < r) :
    C ≤ qform A B C xi eta zeta p q r := by
  have hB : 0 ≤ B := hA.trans h.ab
  have hr1 : 1 ≤ r * r := by nlinarith
  have hrK : (0 : K) ≤ (r : K) * r - 1 := by
    have : ((1 : ℤ) : K) ≤ ((r * r : ℤ) : K) := by exact_mod_cast hr1
    push_cast at this; linarith
  -- C may be replaced by B in the excess
  have hC : ((r : K) * r - 1) * B ≤ ((r : K) * r - 1) * C := mul_le_mul_of_nonneg_left h.bc hrK
  suffices hs : 0 ≤ (p : K) * p * A + (q : K) * q * B + ((r : K) * r - 1) * B + (q : K) * r * xi +
      (p : K) * r * eta + (p : K) * q * zeta by
    unfold qform; linarith
  have hxi := abs_le.1 h.xi_le
  have heta := abs_le.1 h.eta_le
  have hzeta := abs_le.1 h.zeta_le
  -- the integer forms
  have hrK0 : (0 : K) ≤ (r : K) := by exact_mod_cast hr.le
  have cast : ∀ u v : ℤ, 0 ≤ u → 0 ≤ u + v → 0 ≤ (u : K) * B + (v : K) * A := fun u v =>
    comb_nonneg hA h.ab u v
  rcases h.type with ⟨tx, ty, tz⟩ | ⟨tx, ty, tz⟩
  · -- type I
    rcases le_total 0 q with hq | hq <;> rcases le_total 0 p with hp | hp
    · -- all products nonnegative
      have hqK : (0 : K) ≤ q := by exact_mod_cast hq
      have hpK : (0 : K) ≤ p := by exact_mod_cast hp
      positivity
    · -- p ≤ 0 ≤ q : pr ≤ 0, pq ≤ 0
      have hqK : (0 : K) ≤ q := by exact_mod_cast hq
      have hpK : (p : K) ≤ 0 := by exact_mod_cast hp
      have f := form1 q r (-p) (by omega)
      have := cast (q * q + r * r - 1) (p * p + p * r + p * q) (by nlinarith) (by linarith)
      push_cast at this
      have e1 : (p : K) * r * A ≤ (p : K) * r * eta :=
        mul_le_mul_of_nonpos_left heta.2 (mul_nonpos_of_nonpos_of_nonneg hpK hrK0)
      have e2 : (p : K) * q * A ≤ (p : K) * q * zeta :=
        mul_le_mul_of_nonpos_left hzeta.2 (mul_nonpos_of_nonpos_of_nonneg hpK hqK)
      have e3 : 0 ≤ (q : K) * r * xi := mul_nonneg (mul_nonneg hqK hrK0) tx.le
      linarith
    · -- q ≤ 0 ≤ p : qr ≤ 0, pq ≤ 0
      have hqK : (q : K) ≤ 0 := by exact_mod_cast hq
      have hpK : (0 : K) ≤ p := by exact_mod_cast hp
      have f := form1 p r (-q) (by omega)
      have f2 := form2 (-q) r (by omega)
      have := cast (q * q + r * r + q * r - 1) (p * p + p * q) (by linarith) (by linarith)
      push_cast at this
      have e1 : (q : K) * r * B ≤ (q : K) * r * xi :=
        mul_le_mul_of_nonpos_left hxi.2 (mul_nonpos_of_nonpos_of_nonneg hqK hrK0)
      have e2 : (p : K) * q * A ≤ (p : K) * q * zeta :=
        mul_le_mul_of_nonpos_left hzeta.2 (mul_nonpos_of_nonneg_of_nonpos hpK hqK)
      have e3 : 0 ≤ (p : K) * r * eta := mul_nonneg (mul_nonneg hpK hrK0) ty.le
      linarith
    · -- both ≤ 0
      have hqK : (q : K) ≤ 0 := by exact_mod_cast hq
      have hpK : (p : K) ≤ 0 := by exact_mod_cast hp
      have f := form1 (-p) (-q) r (by omega)
      have f2 := form2 (-q) r (by omega)
      have := cast (q * q + r * r + q * r - 1) (p * p + p * r) (by linarith) (by linarith)
      push_cast at this
      have e1 : (q : K) * r * B ≤ (q : K) * r * xi :=
        mul_le_mul_of_nonpos_left hxi.2 (mul_nonpos_of_nonpos_of_nonneg hqK hrK0)
      have e2 : (p : K) * r * A ≤ (p : K) * r * eta :=
        mul_le_mul_of_nonpos_left heta.2 (mul_nonpos_of_nonpos_of_nonneg hpK hrK0)
      have e3 : 0 ≤ (p : K) * q * zeta := mul_nonneg (mul_nonneg_of_nonpos_of_nonpos hpK hqK) tz.le
      linarith
  · -- type II
    rcases le_total 0 q with hq | hq <;> rcases le_total 0 p with hp | hp
    · -- all nonnegative: the bound on the sum is needed
      have hqK : (0 : K) ≤ q := by exact_mod_cast hq
      have hpK : (0 : K) ≤ p := by exact_mod_cast hp
      have hs := h.sum_nonneg
      have f2 := form2 q r (by omega)
      by_cases m1 : q * r ≤ p * r ∧ q * r ≤ p * q
      · have f := form1 q r p (by omega)
        have := cast (q * q + r * r - q * r - 1) (p * p + q * r - p * r - p * q) (by linarith)
          (by linarith)
        push_cast at this
        have d1 : (0 : K) ≤ (p : K) * r - q * r := by
          have : ((q * r : ℤ) : K) ≤ ((p * r : ℤ) : K) := by exact_mod_cast m1.1
          push_cast at this; linarith
        have d2 : (0 : K) ≤ (p : K) * q - q * r := by
          have : ((q * r : ℤ) : K) ≤ ((p * q : ℤ) : K) := by exact_mod_cast m1.2
          push_cast at this; linarith
        have k1 := mul_nonneg d1 (show 0 ≤ A + eta by linarith)
        have k2 := mul_nonneg d2 (show 0 ≤ A + zeta by linarith)
        have k3 := mul_nonneg (mul_nonneg hqK hrK0) hs
        linarith
      · by_cases m2 : p * r ≤ p * q ∧ p * r ≤ q * r
        · have f := form1 p r q (by omega)
          have := cast (q * q + r * r - q * r - 1) (p * p - p * q) (by linarith)
            (by linarith)
          push_cast at this
          have d1 : (0 : K) ≤ (q : K) * r - p * r := by
            have : ((p * r : ℤ) : K) ≤ ((q * r : ℤ) : K) := by exact_mod_cast m2.2
            push_cast at this; linarith
          have d2 : (0 : K) ≤ (p : K) * q - p * r := by
            have : ((p * r : ℤ) : K) ≤ ((p * q : ℤ) : K) := by exact_mod_cast m2.1
            push_cast at this; linarith
          have k1 := mul_nonneg d1 (show 0 ≤ B + xi by linarith)
          have k2 := mul_nonneg d2 (show 0 ≤ A + zeta by linarith)
          have k3 := mul_nonneg (mul_nonneg hpK hrK0) hs
          linarith
        · have m3 : p * q ≤ p * r ∧ p * q ≤ q * r := by
            by_contra hcon
            rw [not_and_or] at m1 m2 hcon
            omega
          have f := form1 p q r (by omega)
          have := cast (q * q + r * r - q * r - 1) (p * p - p * r) (by linarith)
            (by linarith)
          push_cast at this
          have d1 : (0 : K) ≤ (q : K) * r - p * q := by
            have : ((p * q : ℤ) : K) ≤ ((q * r : ℤ) : K) := by exact_mod_cast m3.2
            push_cast at this; linarith
          have d2 : (0 : K) ≤ (p : K) * r - p * q := by
            have : ((p * q : ℤ) : K) ≤ ((p * r : ℤ) : K) := by exact_mod_cast m3.1
            push_cast at this; linarith
          have k1 := mul_nonneg d1 (show 0 ≤ B + xi by linarith)
          have k2 := mul_nonneg d2 (show 0 ≤ A + eta by linarith)
          have k3 := mul_nonneg (mul_nonneg hpK hqK) hs
          linarith
    · -- p ≤ 0 ≤ q: only qr contributes
      have hqK : (0 : K) ≤ q := by exact_mod_cast hq
      have hpK : (p : K) ≤ 0 := by exact_mod_cast hp
      have f2 := form2 q r (by omega)
      have := cast (q * q + r * r - q * r - 1) (p * p) (by linarith) (by nlinarith [mul_self_nonneg p])
      push_cast at this
      have e1 := mul_nonneg (mul_nonneg hqK hrK0) (show 0 ≤ B + xi by linarith)
      have e2 := mul_nonneg (mul_nonneg (neg_nonneg.2 hpK) hrK0) (neg_nonneg.2 ty)
      have e3 := mul_nonneg (mul_nonneg (neg_nonneg.2 hpK) hqK) (neg_nonneg.2 tz)
      linarith
    · -- q ≤ 0 ≤ p: only pr contributes
      have hqK : (q : K) ≤ 0 := by exact_mod_cast hq
      have hpK : (0 : K) ≤ p := by exact_mod_cast hp
      have f2 := form2 p r (by omega)
      have := cast (q * q + r * r - 1) (p * p - p * r) (by nlinarith) (by nlinarith [mul_self_nonneg q])
      push_cast at this
      have e1 := mul_nonneg (mul_nonneg hpK hrK0) (show 0 ≤ A + eta by linarith)
      have e2 := mul_nonneg (mul_nonneg (neg_nonneg.2 hqK) hrK0) (neg_nonneg.2 tx)
      have e3 := mul_nonneg (mul_nonneg hpK (neg_nonneg.2 hqK)) (neg_nonneg.2 tz)
      linarith
    · -- both ≤ 0: only pq contributes
      have hqK : (q : K) ≤ 0 := by exact_mod_cast hq
      have hpK : (p : K) ≤ 0 := by exact_mod_cast hp
      have f2 : 0 ≤ p * p + q * q - p * q := by nlinarith [mul_self_nonneg (p - q), mul_self_nonneg p, mul_self_nonneg q]
      have := cast (q * q + r * r - 1) (p * p - p * q) (by nlinarith) (by linarith)
      push_cast at this
      have e1 := mul_nonneg (mul_nonneg (neg_nonneg.2 hpK) (neg_nonneg.2 hqK)) (show 0 ≤ A + zeta by linarith)
      have e2 := mul_nonneg (mul_nonneg (neg_nonneg.2 hqK) hrK0) (neg_nonneg.2 tx)
      have e3 := mul_nonneg (mul_nonneg (neg_nonneg.2 hpK) hrK0) (neg_nonneg.2 ty)
      linarith

theorem third_min (h : NiggliNumbers A B C xi eta zeta) (hA : 0 ≤ A) (p q r : ℤ) (hr : r ≠ 0) :
    C ≤ qform A B C xi eta zeta p q r := by
  rcases lt_or_gt_of_ne hr with h' | h'
  · rw [← qform_neg]; exact third_aux h hA _ _ _ (by omega)
  · exact third_aux h hA _ _ _ h'

theorem second_min (h : NiggliNumbers A B C xi eta zeta) (hA : 0 ≤ A) (p q r : ℤ)
    (hqr : q ≠ 0 ∨ r ≠ 0) : B ≤ qform A B C xi eta zeta p q r := by
  by_cases hr : r = 0
  · subst hr
    have hq : q ≠ 0 := by tauto
    have hq1 : 1 ≤ q * q := by
      have := mul_self_pos.2 hq; omega
    have hzeta := abs_le.1 h.zeta_le
    unfold qform; simp only [Int.cast_zero, mul_zero, zero_mul, add_zero]
    have cast : ∀ u v : ℤ, 0 ≤ u → 0 ≤ u + v → 0 ≤ (u : K) * B + (v : K) * A := fun u v =>
      comb_nonneg hA h.ab u v
    rcases le_total 0 (p * q) with hpq | hpq
    · have f := form2 p q (by tauto)
      have := cast (q * q - 1) (p * p - p * q) (by linarith) (by linarith)
      push_cast at this
      have d : (0 : K) ≤ (p : K) * q := by exact_mod_cast hpq
      have := mul_nonneg d (show 0 ≤ A + zeta by linarith)
      linarith
    · have f := form2 (-p) q (by tauto)
      have := cast (q * q - 1) (p * p + p * q) (by linarith) (by linarith)
      push_cast at this
      have d : (p : K) * q ≤ 0 := by exact_mod_cast hpq
      have := mul_nonneg (neg_nonneg.2 d) (show 0 ≤ A - zeta by linarith)
      linarith
  · exact h.bc.trans (third_min h hA p q r hr)

theorem first_min (h : NiggliNumbers A B C xi eta zeta) (hA : 0 ≤ A) (p q r : ℤ)
    (hpqr : p ≠ 0 ∨ q ≠ 0 ∨ r ≠ 0) : A ≤ qform A B C xi eta zeta p q r := by
  by_cases hqr : q ≠ 0 ∨ r ≠ 0
  · exact h.ab.trans (second_min h hA p q r hqr)
  · push Not at hqr
    obtain ⟨rfl, rfl⟩ := hqr
    have hp : p ≠ 0 := by simpa using hpqr
    have hp1 : (1 : ℤ) ≤ p * p := by have := mul_self_pos.2 hp; omega
    have : (1 : K) ≤ (p : K) * p := by exact_mod_cast hp1
    unfold qform; simp only [Int.cast_zero, mul_zero, zero_mul, add_zero]
    nlinarith

end Spec
