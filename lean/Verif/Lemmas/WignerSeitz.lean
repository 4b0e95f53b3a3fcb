import Verif.Spec.Voronoi
import Verif.Lemmas.NiggliMinima
import Mathlib.Tactic.Linarith
import Mathlib.Algebra.BigOperators.Fin

/-! # For a reduced cell the nearest 26 neighbours bound the Wigner-Seitz cell -/

set_option linter.unusedSectionVars false

namespace Wulfric
open Spec
variable {K : Type*} [Field K] [LinearOrder K] [IsStrictOrderedRing K]

/-- The inequalities of a reduced form that are used. -/
structure WeakReduced (A B C xi eta zeta : K) : Prop where
  A0 : 0 ≤ A
  ab : A ≤ B
  bc : B ≤ C
  xi_le : |xi| ≤ B
  eta_le : |eta| ≤ A
  zeta_le : |zeta| ≤ A

variable {A B C xi eta zeta : K}

/-- One step towards the smallest representative modulo 2, non-negative coefficients. -/
theorem parity_step (h : WeakReduced A B C xi eta zeta) (p q r : ℤ) (hp : 0 ≤ p) (hq : 0 ≤ q)
    (hr : 0 ≤ r) (hm : 2 ≤ p ∨ 2 ≤ q ∨ 2 ≤ r) :
    ∃ p' q' r' : ℤ, p' % 2 = p % 2 ∧ q' % 2 = q % 2 ∧ r' % 2 = r % 2 ∧
      qform A B C xi eta zeta p' q' r' ≤ qform A B C xi eta zeta p q r ∧
      p'.natAbs + q'.natAbs + r'.natAbs < p.natAbs + q.natAbs + r.natAbs := by
  obtain ⟨A0, ab, bc, hxi, heta, hzeta⟩ := h
  rw [abs_le] at hxi heta hzeta
  have B0 : 0 ≤ B := A0.trans ab
  have C0 : 0 ≤ C := B0.trans bc
  have hpK : (0 : K) ≤ p := by exact_mod_cast hp
  have hqK : (0 : K) ≤ q := by exact_mod_cast hq
  have hrK : (0 : K) ≤ r := by exact_mod_cast hr
  by_cases h1 : 1 ≤ p ∧ 1 ≤ q ∧ 1 ≤ r
  · obtain ⟨h1, h2, h3⟩ := h1
    refine ⟨p - 2, q - 2, r - 2, by omega, by omega, by omega, ?_, by omega⟩
    have x0 : (0 : K) ≤ (p : K) - 1 := by
      have : ((1 : ℤ) : K) ≤ p := by exact_mod_cast h1
      push_cast at this; linarith
    have y0 : (0 : K) ≤ (q : K) - 1 := by
      have : ((1 : ℤ) : K) ≤ q := by exact_mod_cast h2
      push_cast at this; linarith
    have z0 : (0 : K) ≤ (r : K) - 1 := by
      have : ((1 : ℤ) : K) ≤ r := by exact_mod_cast h3
      push_cast at this; linarith
    unfold qform
    push_cast
    nlinarith [mul_nonneg (add_nonneg y0 z0) (by linarith [hxi.1] : 0 ≤ xi + B),
      mul_nonneg (add_nonneg x0 z0) (by linarith [heta.1] : 0 ≤ eta + A),
      mul_nonneg (add_nonneg x0 y0) (by linarith [hzeta.1] : 0 ≤ zeta + A),
      mul_nonneg z0 (sub_nonneg.2 bc), mul_nonneg (add_nonneg y0 z0) (sub_nonneg.2 ab)]
  · by_cases hP : q + r ≤ 2 * p - 2 ∧ 2 ≤ p
    · refine ⟨p - 2, q, r, by omega, rfl, rfl, ?_, by omega⟩
      have k : (0 : K) ≤ 2 * p - 2 - (q + r) := by
        have : ((q + r : ℤ) : K) ≤ ((2 * p - 2 : ℤ) : K) := by exact_mod_cast hP.1
        push_cast at this; linarith
      unfold qform
      push_cast
      nlinarith [mul_nonneg hqK (by linarith [hzeta.1] : 0 ≤ zeta + A),
        mul_nonneg hrK (by linarith [heta.1] : 0 ≤ eta + A), mul_nonneg k A0]
    · by_cases hQ : p + r ≤ 2 * q - 2 ∧ 2 ≤ q
      · refine ⟨p, q - 2, r, rfl, by omega, rfl, ?_, by omega⟩
        have k : (0 : K) ≤ 2 * q - 2 - (p + r) := by
          have : ((p + r : ℤ) : K) ≤ ((2 * q - 2 : ℤ) : K) := by exact_mod_cast hQ.1
          push_cast at this; linarith
        unfold qform
        push_cast
        nlinarith [mul_nonneg hpK (by linarith [hzeta.1] : 0 ≤ zeta + B),
          mul_nonneg hrK (by linarith [hxi.1] : 0 ≤ xi + B), mul_nonneg k B0]
      · have hR : p + q ≤ 2 * r - 2 ∧ 2 ≤ r := by omega
        refine ⟨p, q, r - 2, rfl, rfl, by omega, ?_, by omega⟩
        have k : (0 : K) ≤ 2 * r - 2 - (p + q) := by
          have : ((p + q : ℤ) : K) ≤ ((2 * r - 2 : ℤ) : K) := by exact_mod_cast hR.1
          push_cast at this; linarith
        unfold qform
        push_cast
        nlinarith [mul_nonneg hpK (by linarith [heta.1] : 0 ≤ eta + C),
          mul_nonneg hqK (by linarith [hxi.1] : 0 ≤ xi + C), mul_nonneg k C0]

/-- The same without assumptions on signs. -/
theorem parity_step' (h : WeakReduced A B C xi eta zeta) (p q r : ℤ)
    (hm : 2 ≤ |p| ∨ 2 ≤ |q| ∨ 2 ≤ |r|) :
    ∃ p' q' r' : ℤ, p' % 2 = p % 2 ∧ q' % 2 = q % 2 ∧ r' % 2 = r % 2 ∧
      qform A B C xi eta zeta p' q' r' ≤ qform A B C xi eta zeta p q r ∧
      p'.natAbs + q'.natAbs + r'.natAbs < p.natAbs + q.natAbs + r.natAbs := by
  -- signs
  obtain ⟨s, hs, ep⟩ : ∃ s : ℤ, (s = 1 ∨ s = -1) ∧ p = s * |p| := by
    rcases le_total 0 p with h0 | h0
    · exact ⟨1, Or.inl rfl, by rw [abs_of_nonneg h0]; ring⟩
    · exact ⟨-1, Or.inr rfl, by rw [abs_of_nonpos h0]; ring⟩
  obtain ⟨t, ht, eq⟩ : ∃ s : ℤ, (s = 1 ∨ s = -1) ∧ q = s * |q| := by
    rcases le_total 0 q with h0 | h0
    · exact ⟨1, Or.inl rfl, by rw [abs_of_nonneg h0]; ring⟩
    · exact ⟨-1, Or.inr rfl, by rw [abs_of_nonpos h0]; ring⟩
  obtain ⟨u, hu, er⟩ : ∃ s : ℤ, (s = 1 ∨ s = -1) ∧ r = s * |r| := by
    rcases le_total 0 r with h0 | h0
    · exact ⟨1, Or.inl rfl, by rw [abs_of_nonneg h0]; ring⟩
    · exact ⟨-1, Or.inr rfl, by rw [abs_of_nonpos h0]; ring⟩
  have sgn : ∀ a b : ℤ, (a = 1 ∨ a = -1) → (b = 1 ∨ b = -1) → ∀ x : K, |(a : K) * b * x| = |x| := by
    rintro a b (rfl | rfl) (rfl | rfl) x <;> simp
  have h' : WeakReduced A B C ((t : K) * u * xi) ((s : K) * u * eta) ((s : K) * t * zeta) :=
    ⟨h.A0, h.ab, h.bc, by rw [sgn t u ht hu]; exact h.xi_le, by rw [sgn s u hs hu]; exact h.eta_le,
      by rw [sgn s t hs ht]; exact h.zeta_le⟩
  have hq : ∀ a b c : ℤ, qform A B C ((t : K) * u * xi) ((s : K) * u * eta) ((s : K) * t * zeta) a b c =
      qform A B C xi eta zeta (s * a) (t * b) (u * c) := by
    intro a b c
    have hs2 : (s : K) * s = 1 := by rcases hs with rfl | rfl <;> norm_num
    have ht2 : (t : K) * t = 1 := by rcases ht with rfl | rfl <;> norm_num
    have hu2 : (u : K) * u = 1 := by rcases hu with rfl | rfl <;> norm_num
    unfold qform
    push_cast
    linear_combination (-(a : K) * a * A) * hs2 + (-(b : K) * b * B) * ht2 + (-(c : K) * c * C) * hu2
  obtain ⟨a, b, c, h1, h2, h3, h4, h5⟩ := parity_step h' |p| |q| |r| (abs_nonneg _) (abs_nonneg _)
    (abs_nonneg _) hm
  rw [hq, hq, ← ep, ← eq, ← er] at h4
  have par : ∀ s x y : ℤ, (s = 1 ∨ s = -1) → x % 2 = y % 2 → (s * x) % 2 = (s * y) % 2 := by
    rintro s x y (rfl | rfl) hxy <;> omega
  have nab : ∀ s x : ℤ, (s = 1 ∨ s = -1) → (s * x).natAbs = x.natAbs := by
    rintro s x (rfl | rfl) <;> omega
  refine ⟨s * a, t * b, u * c, ?_, ?_, ?_, h4, ?_⟩
  · rw [ep]; rw [par s a |p| hs h1, ← ep]
  · rw [eq]; rw [par t b |q| ht h2, ← eq]
  · rw [er]; rw [par u c |r| hu h3, ← er]
  · rw [nab s a hs, nab t b ht, nab u c hu]
    simpa [Int.natAbs_abs] using h5

/-- Every coset of `2L` has a shortest representative with coefficients in `{-1, 0, 1}`. -/
theorem parity_min (h : WeakReduced A B C xi eta zeta) (p q r : ℤ) :
    ∃ p' q' r' : ℤ, |p'| ≤ 1 ∧ |q'| ≤ 1 ∧ |r'| ≤ 1 ∧
      p' % 2 = p % 2 ∧ q' % 2 = q % 2 ∧ r' % 2 = r % 2 ∧
      qform A B C xi eta zeta p' q' r' ≤ qform A B C xi eta zeta p q r := by
  induction hn : p.natAbs + q.natAbs + r.natAbs using Nat.strong_induction_on generalizing p q r with
  | _ n ih =>
    by_cases hm : 2 ≤ |p| ∨ 2 ≤ |q| ∨ 2 ≤ |r|
    · obtain ⟨a, b, c, h1, h2, h3, h4, h5⟩ := parity_step' h p q r hm
      obtain ⟨x, y, z, k1, k2, k3, k4, k5, k6, k7⟩ := ih _ (by rw [← hn]; exact h5) a b c rfl
      exact ⟨x, y, z, k1, k2, k3, k4.trans h1, k5.trans h2, k6.trans h3, k7.trans h4⟩
    · push Not at hm
      exact ⟨p, q, r, by omega, by omega, by omega, rfl, rfl, rfl, le_rfl⟩

theorem half_bound (p e a : ℤ) (h1 : -1 ≤ e) (h2 : e ≤ 1) (h : p + e = 2 * a) :
    2 * a.natAbs ≤ p.natAbs + 1 ∧ 2 * (p - a).natAbs ≤ p.natAbs + 1 := by
  constructor <;> omega

theorem sum_half {p q r a b c : ℕ} (hm : 2 ≤ p ∨ 2 ≤ q ∨ 2 ≤ r) (h1 : 2 * a ≤ p + 1)
    (h2 : 2 * b ≤ q + 1) (h3 : 2 * c ≤ r + 1) : a + b + c < p + q + r := by
  omega

/-- If a linear functional is bounded by `q(m)` on the 27 small `m`, it is on all `m`. -/
theorem bound_all (h : WeakReduced A B C xi eta zeta) (x y z : K)
    (hb : ∀ p q r : ℤ, |p| ≤ 1 → |q| ≤ 1 → |r| ≤ 1 →
      2 * (p * x + q * y + r * z) ≤ qform A B C xi eta zeta p q r) (p q r : ℤ) :
    2 * (p * x + q * y + r * z) ≤ qform A B C xi eta zeta p q r := by
  induction hn : p.natAbs + q.natAbs + r.natAbs using Nat.strong_induction_on generalizing p q r with
  | _ n ih =>
    by_cases hm : 2 ≤ |p| ∨ 2 ≤ |q| ∨ 2 ≤ |r|
    · obtain ⟨e, f, g, h1, h2, h3, h4, h5, h6, h7⟩ := parity_min h p q r
      rw [abs_le] at h1 h2 h3
      obtain ⟨a, ha⟩ : ∃ a, p + e = 2 * a := ⟨(p + e) / 2, by omega⟩
      obtain ⟨b, hb'⟩ : ∃ a, q + f = 2 * a := ⟨(q + f) / 2, by omega⟩
      obtain ⟨c, hc⟩ : ∃ a, r + g = 2 * a := ⟨(r + g) / 2, by omega⟩
      have hm' : 2 ≤ p.natAbs ∨ 2 ≤ q.natAbs ∨ 2 ≤ r.natAbs := by
        simp only [Int.abs_eq_natAbs] at hm
        exact_mod_cast hm
      have j1 := half_bound p e a h1.1 h1.2 ha
      have j2 := half_bound q f b h2.1 h2.2 hb'
      have j3 := half_bound r g c h3.1 h3.2 hc
      have s1 : a.natAbs + b.natAbs + c.natAbs < n := hn ▸ sum_half hm' j1.1 j2.1 j3.1
      have s2 : (p - a).natAbs + (q - b).natAbs + (r - c).natAbs < n :=
        hn ▸ sum_half hm' j1.2 j2.2 j3.2
      have i1 := ih _ s1 a b c rfl
      have i2 := ih _ s2 (p - a) (q - b) (r - c) rfl
      have e1 : e = 2 * a - p := by omega
      have e2 : f = 2 * b - q := by omega
      have e3 : g = 2 * c - r := by omega
      subst e1 e2 e3
      have par : 2 * qform A B C xi eta zeta a b c + 2 * qform A B C xi eta zeta (p - a) (q - b) (r - c)
        = qform A B C xi eta zeta p q r + qform A B C xi eta zeta (2 * a - p) (2 * b - q) (2 * c - r) := by
        unfold qform; push_cast; ring
      push_cast at i2
      linarith
    · push Not at hm
      exact hb p q r (by omega) (by omega) (by omega)

end Wulfric
