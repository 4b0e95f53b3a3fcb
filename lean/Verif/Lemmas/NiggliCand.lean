import Verif.Lemmas.NiggliMinima
import Mathlib.Tactic.IntervalCases

/-! The lattice vectors that are as short as the vectors of a Niggli-reduced basis. -/

namespace Spec.Reduced

variable {K : Type*} [Field K] [LinearOrder K] [IsStrictOrderedRing K]

/-- Coefficients of the vectors that may be as short as those of the basis, up to the sign. -/
def cand (t : Bool) : List (ℤ × ℤ × ℤ) :=
  if t then [(1, 0, 0), (0, 1, 0), (0, 0, 1), (-1, 0, 1), (0, -1, 1), (-1, 1, 0)]
  else [(1, 0, 0), (0, 1, 0), (0, 0, 1), (1, 0, 1), (0, 1, 1), (1, 1, 1), (1, 1, 0)]

theorem small_of_sq {n : ℤ} (h : n * n ≤ 2) : -1 ≤ n ∧ n ≤ 1 := by
  constructor <;> nlinarith

theorem form1_le {P Q R : ℤ} (h : P * P + Q * Q + R * R - Q * R - P * R - 1 ≤ 0) :
    (-1 ≤ P ∧ P ≤ 1) ∧ (-1 ≤ Q ∧ Q ≤ 1) ∧ (-1 ≤ P - R ∧ P - R ≤ 1) := by
  have h1 := mul_self_nonneg P
  have h2 := mul_self_nonneg Q
  have h3 := mul_self_nonneg (P - R)
  have h4 := mul_self_nonneg (Q - R)
  have e : 2 * (P * P + Q * Q + R * R - Q * R - P * R) =
    P * P + Q * Q + (P - R) * (P - R) + (Q - R) * (Q - R) := by ring
  exact ⟨small_of_sq (by linarith), small_of_sq (by linarith), small_of_sq (by linarith)⟩

theorem form2_le {Q R : ℤ} (h : Q * Q + R * R - Q * R - 1 ≤ 0) :
    (-1 ≤ Q ∧ Q ≤ 1) ∧ (-1 ≤ R ∧ R ≤ 1) := by
  have h1 := mul_self_nonneg Q
  have h2 := mul_self_nonneg R
  have h3 := mul_self_nonneg (Q - R)
  have e : 2 * (Q * Q + R * R - Q * R) = Q * Q + R * R + (Q - R) * (Q - R) := by ring
  exact ⟨small_of_sq (by linarith), small_of_sq (by linarith)⟩

theorem comb_le {A B : K} (hA : 0 < A) (hAB : A ≤ B) {u v : ℤ} (hu : 0 ≤ u)
    (h : (u : K) * B + (v : K) * A ≤ 0) : u + v ≤ 0 := by
  by_contra hc
  have h1 : (0 : K) ≤ u := by exact_mod_cast hu
  have h2 : (1 : K) ≤ (u : K) + v := by
    have : (1 : ℤ) ≤ u + v := by omega
    exact_mod_cast this
  nlinarith [mul_le_mul_of_nonneg_left hAB h1, mul_le_mul_of_nonneg_right h2 hA.le]

theorem ii1 {p q r : ℤ} (hp : 0 ≤ p) (hq : 0 ≤ q) (hr : 0 < r) (h : q * q + r * r + p * p - r * p - q * p - 1 ≤ 0) :
    (p, q, r) ∈ cand false := by
  obtain ⟨⟨g1, g2⟩, ⟨g3, g4⟩, g5, g6⟩ := form1_le h
  have : p ≤ 2 := by omega
  revert h
  interval_cases p <;> interval_cases q <;> interval_cases r <;> decide

theorem ii2 {p q r : ℤ} (hp : 0 ≤ p) (hq : 0 ≤ q) (hr : 0 < r) (h : p * p + r * r + q * q - r * q - p * q - 1 ≤ 0) :
    (p, q, r) ∈ cand false := by
  obtain ⟨⟨g1, g2⟩, ⟨g3, g4⟩, g5, g6⟩ := form1_le h
  have : q ≤ 2 := by omega
  revert h
  interval_cases p <;> interval_cases q <;> interval_cases r <;> decide

theorem ii3 {p q r : ℤ} (hp : 0 ≤ p) (hq : 0 ≤ q) (hr : 0 < r) (h : p * p + q * q + r * r - q * r - p * r - 1 ≤ 0) :
    (p, q, r) ∈ cand false := by
  obtain ⟨⟨g1, g2⟩, ⟨g3, g4⟩, g5, g6⟩ := form1_le h
  have : r ≤ 2 := by omega
  revert h
  interval_cases p <;> interval_cases q <;> interval_cases r <;> decide

theorem ii4 {q r : ℤ} (hq : 0 ≤ q) (hr : 0 < r) (h : q * q + r * r - q * r - 1 ≤ 0) :
    (0, q, r) ∈ cand false := by
  obtain ⟨⟨g1, g2⟩, g3, g4⟩ := form2_le h
  revert h
  interval_cases q <;> interval_cases r <;> decide

theorem ii5 {p r : ℤ} (hp : 0 ≤ p) (hr : 0 < r) (h : p * p + r * r - p * r - 1 ≤ 0) :
    (p, 0, r) ∈ cand false := by
  obtain ⟨⟨g1, g2⟩, g3, g4⟩ := form2_le h
  revert h
  interval_cases p <;> interval_cases r <;> decide

theorem ii6 {p q : ℤ} (hp : 0 ≤ p) (hq : 0 < q) (h : p * p + q * q - p * q - 1 ≤ 0) :
    (p, q, 0) ∈ cand false := by
  obtain ⟨⟨g1, g2⟩, g3, g4⟩ := form2_le h
  revert h
  interval_cases p <;> interval_cases q <;> decide

theorem i1 {p r : ℤ} (hp : p ≤ 0) (hr : 0 < r) (h : -p * -p + r * r - -p * r - 1 ≤ 0) :
    (p, 0, r) ∈ cand true := by
  obtain ⟨⟨g1, g2⟩, g3, g4⟩ := form2_le h
  have : -1 ≤ p := by omega
  revert h
  interval_cases p <;> interval_cases r <;> decide

theorem i2 {q r : ℤ} (hq : q ≤ 0) (hr : 0 < r) (h : -q * -q + r * r - -q * r - 1 ≤ 0) :
    (0, q, r) ∈ cand true := by
  obtain ⟨⟨g1, g2⟩, g3, g4⟩ := form2_le h
  have : -1 ≤ q := by omega
  revert h
  interval_cases q <;> interval_cases r <;> decide

theorem i3 {p q : ℤ} (hp : p ≤ 0) (hq : 0 < q) (h : -p * -p + q * q - -p * q - 1 ≤ 0) :
    (p, q, 0) ∈ cand true := by
  obtain ⟨⟨g1, g2⟩, g3, g4⟩ := form2_le h
  have : -1 ≤ p := by omega
  revert h
  interval_cases p <;> interval_cases q <;> decide

variable {A B C xi eta zeta : K}

/-- The type of the reduced basis. -/
def OfType (t : Bool) (xi eta zeta : K) : Prop :=
  if t then 0 < xi ∧ 0 < eta ∧ 0 < zeta else xi ≤ 0 ∧ eta ≤ 0 ∧ zeta ≤ 0

theorem cand_third_ii (h : NiggliNumbers A B C xi eta zeta) (hA : 0 < A)
    (ht : OfType false xi eta zeta) (p q r : ℤ) (hr : 0 < r)
    (hQ : qform A B C xi eta zeta p q r ≤ C) : (p, q, r) ∈ cand false := by
  have hB : 0 < B := hA.trans_le h.ab
  have hpp := mul_self_nonneg p
  have hqq := mul_self_nonneg q
  have hr1 : 1 ≤ r * r := by nlinarith
  have hrK : (0 : K) ≤ (r : K) * r - 1 := by
    have : ((1 : ℤ) : K) ≤ ((r * r : ℤ) : K) := by exact_mod_cast hr1
    push_cast at this; linarith
  have hC : ((r : K) * r - 1) * B ≤ ((r : K) * r - 1) * C := mul_le_mul_of_nonneg_left h.bc hrK
  have hs : (p : K) * p * A + (q : K) * q * B + ((r : K) * r - 1) * B + (q : K) * r * xi +
      (p : K) * r * eta + (p : K) * q * zeta ≤ 0 := by
    unfold qform at hQ; linarith
  have hxi := abs_le.1 h.xi_le
  have heta := abs_le.1 h.eta_le
  have hzeta := abs_le.1 h.zeta_le
  have hrK0 : (0 : K) < (r : K) := by exact_mod_cast hr
  have cast : ∀ u v : ℤ, 0 ≤ u → (u : K) * B + (v : K) * A ≤ 0 → u + v ≤ 0 := fun u v =>
    comb_le hA h.ab
  have cast0 : ∀ u v : ℤ, 0 ≤ u → 0 ≤ u + v → 0 ≤ (u : K) * B + (v : K) * A := fun u v =>
    comb_nonneg hA.le h.ab u v
  obtain ⟨tx, ty, tz⟩ : xi ≤ 0 ∧ eta ≤ 0 ∧ zeta ≤ 0 := by simpa [OfType] using ht
  rcases le_total 0 q with hq | hq <;> rcases le_total 0 p with hp | hp
  · have hqK : (0 : K) ≤ q := by exact_mod_cast hq
    have hpK : (0 : K) ≤ p := by exact_mod_cast hp
    have hs' := h.sum_nonneg
    have f2 := form2 q r (by omega)
    by_cases m1 : q * r ≤ p * r ∧ q * r ≤ p * q
    · have d1 : (0 : K) ≤ (p : K) * r - q * r := by
        have : ((q * r : ℤ) : K) ≤ ((p * r : ℤ) : K) := by exact_mod_cast m1.1
        push_cast at this; linarith
      have d2 : (0 : K) ≤ (p : K) * q - q * r := by
        have : ((q * r : ℤ) : K) ≤ ((p * q : ℤ) : K) := by exact_mod_cast m1.2
        push_cast at this; linarith
      have k1 := mul_nonneg d1 (show 0 ≤ A + eta by linarith)
      have k2 := mul_nonneg d2 (show 0 ≤ A + zeta by linarith)
      have k3 := mul_nonneg (mul_nonneg hqK hrK0.le) hs'
      have := cast (q * q + r * r - q * r - 1) (p * p + q * r - p * r - p * q) (by linarith)
        (by push_cast; linarith)
      exact ii1 hp hq hr (by linarith)
    · by_cases m2 : p * r ≤ p * q ∧ p * r ≤ q * r
      · have d1 : (0 : K) ≤ (q : K) * r - p * r := by
          have : ((p * r : ℤ) : K) ≤ ((q * r : ℤ) : K) := by exact_mod_cast m2.2
          push_cast at this; linarith
        have d2 : (0 : K) ≤ (p : K) * q - p * r := by
          have : ((p * r : ℤ) : K) ≤ ((p * q : ℤ) : K) := by exact_mod_cast m2.1
          push_cast at this; linarith
        have k1 := mul_nonneg d1 (show 0 ≤ B + xi by linarith)
        have k2 := mul_nonneg d2 (show 0 ≤ A + zeta by linarith)
        have k3 := mul_nonneg (mul_nonneg hpK hrK0.le) hs'
        have := cast (q * q + r * r - q * r - 1) (p * p - p * q) (by linarith)
          (by push_cast; linarith)
        exact ii2 hp hq hr (by linarith)
      · have m3 : p * q ≤ p * r ∧ p * q ≤ q * r := by
          by_contra hcon
          rw [not_and_or] at m1 m2 hcon
          omega
        have d1 : (0 : K) ≤ (q : K) * r - p * q := by
          have : ((p * q : ℤ) : K) ≤ ((q * r : ℤ) : K) := by exact_mod_cast m3.2
          push_cast at this; linarith
        have d2 : (0 : K) ≤ (p : K) * r - p * q := by
          have : ((p * q : ℤ) : K) ≤ ((p * r : ℤ) : K) := by exact_mod_cast m3.1
          push_cast at this; linarith
        have k1 := mul_nonneg d1 (show 0 ≤ B + xi by linarith)
        have k2 := mul_nonneg d2 (show 0 ≤ A + eta by linarith)
        have k3 := mul_nonneg (mul_nonneg hpK hqK) hs'
        have := cast (q * q + r * r - q * r - 1) (p * p - p * r) (by linarith)
          (by push_cast; linarith)
        exact ii3 hp hq hr (by linarith)
  · have hqK : (0 : K) ≤ q := by exact_mod_cast hq
    have hpK : (p : K) ≤ 0 := by exact_mod_cast hp
    have f2 := form2 q r (by omega)
    have e1 := mul_nonneg (mul_nonneg hqK hrK0.le) (show 0 ≤ B + xi by linarith)
    have e2 := mul_nonneg (mul_nonneg (neg_nonneg.2 hpK) hrK0.le) (neg_nonneg.2 ty)
    have e3 := mul_nonneg (mul_nonneg (neg_nonneg.2 hpK) hqK) (neg_nonneg.2 tz)
    have := cast (q * q + r * r - q * r - 1) (p * p) (by linarith) (by push_cast; linarith)
    have hp0 : p = 0 := mul_self_eq_zero.1 (by linarith)
    subst hp0
    exact ii4 hq hr (by linarith)
  · have hqK : (q : K) ≤ 0 := by exact_mod_cast hq
    have hpK : (0 : K) ≤ p := by exact_mod_cast hp
    have f2 := form2 p r (by omega)
    have e1 := mul_nonneg (mul_nonneg hpK hrK0.le) (show 0 ≤ A + eta by linarith)
    have e2 := mul_nonneg (mul_nonneg (neg_nonneg.2 hqK) hrK0.le) (neg_nonneg.2 tx)
    have e3 := mul_nonneg (mul_nonneg hpK (neg_nonneg.2 hqK)) (neg_nonneg.2 tz)
    have := cast (q * q + r * r - 1) (p * p - p * r) (by linarith) (by push_cast; linarith)
    have hq0 : q = 0 := mul_self_eq_zero.1 (by linarith)
    subst hq0
    exact ii5 hp hr (by linarith)
  · have hqK : (q : K) ≤ 0 := by exact_mod_cast hq
    have hpK : (p : K) ≤ 0 := by exact_mod_cast hp
    have e1 := mul_nonneg (mul_nonneg (neg_nonneg.2 hpK) (neg_nonneg.2 hqK)) (show 0 ≤ A + zeta by linarith)
    have e2 := mul_nonneg (mul_nonneg (neg_nonneg.2 hqK) hrK0.le) (neg_nonneg.2 tx)
    have e3 := mul_nonneg (mul_nonneg (neg_nonneg.2 hpK) hrK0.le) (neg_nonneg.2 ty)
    have := cast (q * q + r * r - 1) (p * p - p * q) (by linarith) (by push_cast; linarith)
    have h1 := mul_self_nonneg p
    have h2 := mul_self_nonneg q
    have h3 := mul_self_nonneg (p - q)
    have e : 2 * (p * p + q * q - p * q) = p * p + q * q + (p - q) * (p - q) := by ring
    have hp0 : p = 0 := mul_self_eq_zero.1 (by linarith)
    have hq0 : q = 0 := mul_self_eq_zero.1 (by linarith)
    subst hp0 hq0
    have hr0 : r = 1 := by nlinarith
    subst hr0
    decide

theorem cand_third_i (h : NiggliNumbers A B C xi eta zeta) (hA : 0 < A)
    (ht : OfType true xi eta zeta) (p q r : ℤ) (hr : 0 < r)
    (hQ : qform A B C xi eta zeta p q r ≤ C) : (p, q, r) ∈ cand true := by
  have hB : 0 < B := hA.trans_le h.ab
  have hpp := mul_self_nonneg p
  have hqq := mul_self_nonneg q
  have hr1 : 1 ≤ r * r := by nlinarith
  have hrK : (0 : K) ≤ (r : K) * r - 1 := by
    have : ((1 : ℤ) : K) ≤ ((r * r : ℤ) : K) := by exact_mod_cast hr1
    push_cast at this; linarith
  have hC : ((r : K) * r - 1) * B ≤ ((r : K) * r - 1) * C := mul_le_mul_of_nonneg_left h.bc hrK
  have hs : (p : K) * p * A + (q : K) * q * B + ((r : K) * r - 1) * B + (q : K) * r * xi +
      (p : K) * r * eta + (p : K) * q * zeta ≤ 0 := by
    unfold qform at hQ; linarith
  have hxi := abs_le.1 h.xi_le
  have heta := abs_le.1 h.eta_le
  have hzeta := abs_le.1 h.zeta_le
  have hrK0 : (0 : K) < (r : K) := by exact_mod_cast hr
  have cast : ∀ u v : ℤ, 0 ≤ u → (u : K) * B + (v : K) * A ≤ 0 → u + v ≤ 0 := fun u v =>
    comb_le hA h.ab
  have cast0 : ∀ u v : ℤ, 0 ≤ u → 0 ≤ u + v → 0 ≤ (u : K) * B + (v : K) * A := fun u v =>
    comb_nonneg hA.le h.ab u v
  obtain ⟨tx, ty, tz⟩ : 0 < xi ∧ 0 < eta ∧ 0 < zeta := by simpa [OfType] using ht
  rcases le_total 0 q with hq | hq <;> rcases le_total 0 p with hp | hp
  · have hqK : (0 : K) ≤ q := by exact_mod_cast hq
    have hpK : (0 : K) ≤ p := by exact_mod_cast hp
    have e1 := mul_nonneg (mul_nonneg hqK hrK0.le) tx.le
    have e2 := mul_nonneg (mul_nonneg hpK hrK0.le) ty.le
    have e3 := mul_nonneg (mul_nonneg hpK hqK) tz.le
    have := cast (q * q + r * r - 1) (p * p) (by linarith) (by push_cast; linarith)
    have hp0 : p = 0 := mul_self_eq_zero.1 (by linarith)
    have hq0 : q = 0 := mul_self_eq_zero.1 (by linarith)
    subst hp0 hq0
    have hr0 : r = 1 := by nlinarith
    subst hr0
    decide
  · have hqK : (0 : K) ≤ q := by exact_mod_cast hq
    have hpK : (p : K) ≤ 0 := by exact_mod_cast hp
    have e2 := mul_nonneg (mul_nonneg (neg_nonneg.2 hpK) hrK0.le) (show 0 ≤ A - eta by linarith)
    have e3 := mul_nonneg (mul_nonneg (neg_nonneg.2 hpK) hqK) (show 0 ≤ A - zeta by linarith)
    have f := form1 q r (-p) (by omega)
    have k := cast0 (q * q + r * r - 1) (p * p + p * r + p * q) (by linarith) (by linarith)
    push_cast at k
    have hq0 : q = 0 := by
      by_contra hne
      have : (0 : K) < q := by
        have : 0 < q := by omega
        exact_mod_cast this
      have := mul_pos (mul_pos this hrK0) tx
      linarith
    subst hq0
    simp only [Int.cast_zero, zero_mul, mul_zero, add_zero] at hs e2
    have := cast (r * r - 1) (p * p + p * r) (by linarith) (by push_cast; linarith)
    exact i1 hp hr (by linarith)
  · have hqK : (q : K) ≤ 0 := by exact_mod_cast hq
    have hpK : (0 : K) ≤ p := by exact_mod_cast hp
    have e1 := mul_nonneg (mul_nonneg (neg_nonneg.2 hqK) hrK0.le) (show 0 ≤ B - xi by linarith)
    have e3 := mul_nonneg (mul_nonneg hpK (neg_nonneg.2 hqK)) (show 0 ≤ A - zeta by linarith)
    have f := form1 p r (-q) (by omega)
    have f2 := form2 (-q) r (by omega)
    have k := cast0 (q * q + r * r + q * r - 1) (p * p + p * q) (by linarith) (by linarith)
    push_cast at k
    have hp0 : p = 0 := by
      by_contra hne
      have : (0 : K) < p := by
        have : 0 < p := by omega
        exact_mod_cast this
      have := mul_pos (mul_pos this hrK0) ty
      linarith
    subst hp0
    simp only [Int.cast_zero, zero_mul, mul_zero, add_zero, zero_add] at hs e1
    have := cast (q * q + r * r + q * r - 1) 0 (by linarith) (by push_cast; linarith)
    exact i2 hq hr (by linarith)
  · have hqK : (q : K) ≤ 0 := by exact_mod_cast hq
    have hpK : (p : K) ≤ 0 := by exact_mod_cast hp
    have e1 := mul_nonneg (mul_nonneg (neg_nonneg.2 hqK) hrK0.le) (show 0 ≤ B - xi by linarith)
    have e2 := mul_nonneg (mul_nonneg (neg_nonneg.2 hpK) hrK0.le) (show 0 ≤ A - eta by linarith)
    have e3 := mul_nonneg (mul_nonneg (neg_nonneg.2 hpK) (neg_nonneg.2 hqK)) tz.le
    have f2 := form2 (-q) r (by omega)
    have f := form1 (-p) (-q) r (by omega)
    have k := cast0 (q * q + r * r + q * r - 1) (p * p + p * r) (by linarith) (by linarith)
    push_cast at k
    have hpq : p = 0 ∨ q = 0 := by
      by_contra hne
      rw [not_or] at hne
      have h1 : (0 : K) < -p := by
        have : 0 < -p := by omega
        exact_mod_cast this
      have h2 : (0 : K) < -q := by
        have : 0 < -q := by omega
        exact_mod_cast this
      have := mul_pos (mul_pos h1 h2) tz
      linarith
    have := cast (q * q + r * r + q * r - 1) (p * p + p * r) (by linarith) (by push_cast; linarith)
    rcases hpq with rfl | rfl
    · exact i2 hq hr (by linarith)
    · exact i1 hp hr (by linarith)

theorem cand_third {t : Bool} (h : NiggliNumbers A B C xi eta zeta) (hA : 0 < A)
    (ht : OfType t xi eta zeta) (p q r : ℤ) (hr : 0 < r)
    (hQ : qform A B C xi eta zeta p q r ≤ C) : (p, q, r) ∈ cand t := by
  cases t
  · exact cand_third_ii h hA ht p q r hr hQ
  · exact cand_third_i h hA ht p q r hr hQ

theorem cand_second {t : Bool} (h : NiggliNumbers A B C xi eta zeta) (hA : 0 < A)
    (ht : OfType t xi eta zeta) (p q : ℤ) (hq : 0 < q)
    (hQ : qform A B C xi eta zeta p q 0 ≤ B) : (p, q, 0) ∈ cand t := by
  have hzeta := abs_le.1 h.zeta_le
  have hqK : (0 : K) < q := by exact_mod_cast hq
  have hq1 : 0 ≤ q * q - 1 := by nlinarith
  simp only [qform, Int.cast_zero, mul_zero, zero_mul, add_zero] at hQ
  have cast : ∀ u v : ℤ, 0 ≤ u → (u : K) * B + (v : K) * A ≤ 0 → u + v ≤ 0 := fun u v =>
    comb_le hA h.ab
  cases t
  · obtain ⟨tx, ty, tz⟩ : xi ≤ 0 ∧ eta ≤ 0 ∧ zeta ≤ 0 := by simpa [OfType] using ht
    rcases le_total 0 p with hp | hp
    · have hpK : (0 : K) ≤ p := by exact_mod_cast hp
      have e := mul_nonneg (mul_nonneg hpK hqK.le) (show 0 ≤ A + zeta by linarith)
      have := cast (q * q - 1) (p * p - p * q) hq1 (by push_cast; linarith)
      exact ii6 hp hq (by linarith)
    · have hpK : (p : K) ≤ 0 := by exact_mod_cast hp
      have e := mul_nonneg (mul_nonneg (neg_nonneg.2 hpK) hqK.le) (neg_nonneg.2 tz)
      have := cast (q * q - 1) (p * p) hq1 (by push_cast; linarith)
      have hp0 : p = 0 := mul_self_eq_zero.1 (by nlinarith [mul_self_nonneg p])
      subst hp0
      have hq0 : q = 1 := by nlinarith
      subst hq0
      decide
  · obtain ⟨tx, ty, tz⟩ : 0 < xi ∧ 0 < eta ∧ 0 < zeta := by simpa [OfType] using ht
    rcases le_total 0 p with hp | hp
    · have hpK : (0 : K) ≤ p := by exact_mod_cast hp
      have e := mul_nonneg (mul_nonneg hpK hqK.le) tz.le
      have := cast (q * q - 1) (p * p) hq1 (by push_cast; linarith)
      have hp0 : p = 0 := mul_self_eq_zero.1 (by nlinarith [mul_self_nonneg p])
      subst hp0
      have hq0 : q = 1 := by nlinarith
      subst hq0
      decide
    · have hpK : (p : K) ≤ 0 := by exact_mod_cast hp
      have e := mul_nonneg (mul_nonneg (neg_nonneg.2 hpK) hqK.le) (show 0 ≤ A - zeta by linarith)
      have := cast (q * q - 1) (p * p + p * q) hq1 (by push_cast; linarith)
      exact i3 hp hq (by linarith)

end Spec.Reduced
