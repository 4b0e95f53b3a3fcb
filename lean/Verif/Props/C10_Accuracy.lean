import Verif.Props.C10_Spherical

/-! # C10: how far the vector given by the spherical coordinates is from the vector -/

namespace Wulfric
open Matrix Spec

private theorem unitVec_le {v : Vec ℝ} (h : dot v v ≠ 0) (i : Fin 3) : |unitVec v i| ≤ 1 := by
  have h1 := unitVec_dot h
  unfold dot at h1
  rw [abs_le_one_iff_mul_self_le_one]
  fin_cases i <;> simp only [Fin.zero_eta, Fin.mk_one, Fin.reduceFinMk] <;>
    nlinarith [mul_self_nonneg (unitVec v 0), mul_self_nonneg (unitVec v 1),
      mul_self_nonneg (unitVec v 2)]

private theorem near_axis {v p : Vec ℝ} {s : ℝ} (hs : s = 1 ∨ s = -1) (hv : dot v v ≠ 0)
    (hp : dot p p ≠ 0) (h : allclose3 (unitVec v) (fun i => s * unitVec p i)) (i : Fin 3) :
    |v i - Real.sqrt (dot v v) * (s * unitVec p i)| ≤ Real.sqrt (dot v v) * (2 / 10 ^ 5) := by
  have h0 : Real.sqrt (dot v v) ≠ 0 := by
    intro h; apply hv; rw [← Real.sq_sqrt (gdot_self_nonneg v), h]; norm_num
  have e : v i - Real.sqrt (dot v v) * (s * unitVec p i) =
      Real.sqrt (dot v v) * (unitVec v i - s * unitVec p i) := by
    rw [mul_sub]; congr 1; unfold unitVec; field_simp
  have hl := unitVec_le hp i
  have hi := h i
  have ha : |s * unitVec p i| ≤ 1 := by
    rw [abs_mul]
    rcases hs with rfl | rfl <;> simpa using hl
  rw [e, abs_mul, abs_of_nonneg (Real.sqrt_nonneg _)]
  apply mul_le_mul_of_nonneg_left _ (Real.sqrt_nonneg _)
  simp only at hi
  nlinarith

/-- C10: for every vector, near the polar axis or not, the coordinates are in their ranges and give
the vector back: every component to `2e-5` of the length, and exactly if the direction differs from
both ends of the axis by more than `2e-5` in some component. -/
theorem C10_accuracy (v p q : Vec ℝ) (hv : dot v v ≠ 0) (hp : dot p p ≠ 0) (hq : dot q q ≠ 0)
    (hpq : dot p q = 0) :
    ∃ r θ φ, getSpherical v false p q = (r, θ, φ) ∧
      r = Real.sqrt (dot v v) ∧ 0 ≤ θ ∧ θ ≤ Real.pi ∧ 0 ≤ φ ∧ φ < 2 * Real.pi ∧
      (∀ i, |v i - r * (Real.cos θ * unitVec p i + Real.sin θ *
        (Real.cos φ * unitVec q i + Real.sin φ * cross (unitVec p) (unitVec q) i))| ≤
          r * (2 / 10 ^ 5)) ∧
      ((∃ i, 2 / 10 ^ 5 < |unitVec v i - unitVec p i|) →
        (∃ i, 2 / 10 ^ 5 < |unitVec v i + unitVec p i|) →
        ∀ i, v i = r * (Real.cos θ * unitVec p i + Real.sin θ *
          (Real.cos φ * unitVec q i + Real.sin φ * cross (unitVec p) (unitVec q) i))) := by
  have tol : ∀ i, 1 / 10 ^ 8 + 1 / 10 ^ 5 * |unitVec p i| ≤ 2 / 10 ^ 5 := by
    intro i; have := unitVec_le hp i; nlinarith
  by_cases h1 : allclose3 (unitVec v) (unitVec p)
  · refine ⟨_, 0, 0, ?_, rfl, le_rfl, Real.pi_pos.le, le_rfl, by positivity, ?_, ?_⟩
    · unfold getSpherical
      rw [unit_div v, unit_div p, unit_div q]
      unfold sphericalAngles
      rw [if_pos h1]
      simp only [Bool.false_eq_true, if_false]
      rw [npNorm_eq v]
    · intro i
      have := near_axis (Or.inl rfl) hv hp (s := 1) (by simpa using h1) i
      simpa using this
    · rintro ⟨i, hi⟩
      exact absurd ((h1 i).trans (tol i)) (not_le.2 hi)
  by_cases h2 : allclose3 (unitVec v) (fun i => - unitVec p i)
  · refine ⟨_, Real.pi, Real.pi, ?_, rfl, Real.pi_pos.le, le_rfl, Real.pi_pos.le,
      by linarith [Real.pi_pos], ?_, ?_⟩
    · unfold getSpherical
      rw [unit_div v, unit_div p, unit_div q]
      unfold sphericalAngles
      rw [if_neg h1, if_pos h2]
      simp only [Bool.false_eq_true, if_false]
      rw [npNorm_eq v]
    · intro i
      have := near_axis (Or.inr rfl) hv hp (s := -1) (by simpa using h2) i
      simpa using this
    · rintro - ⟨i, hi⟩
      have := h2 i
      simp only [sub_neg_eq_add, abs_neg] at this
      exact absurd (this.trans (tol i)) (not_le.2 hi)
  · obtain ⟨r, θ, φ, e, hr, a, b, c, d, h⟩ := C10_reconstruct v p q hv hp hq hpq h1 h2
    refine ⟨r, θ, φ, e, hr, a, b, c, d, fun i => ?_, fun _ _ => h⟩
    rw [← h i, sub_self, abs_zero, hr]
    positivity

/-- The default axes, and a vector 0.05 away from the polar axis: exact. -/
example : ∃ r θ φ, getSpherical ![1, 0, 20] false = (r, θ, φ) ∧ 1 = r * (Real.sin θ * Real.cos φ) := by
  obtain ⟨r, θ, φ, e, hr, -, -, -, -, -, h⟩ := C10_accuracy ![1, 0, 20] ![0, 0, 1] ![1, 0, 0]
    (by simp [dot]; norm_num) (by simp [dot]) (by simp [dot]) (by simp [dot])
  refine ⟨r, θ, φ, e, ?_⟩
  have hs : Real.sqrt (dot ![1, 0, 20] ![1, 0, 20]) ≤ 21 :=
    Real.sqrt_le_iff.2 ⟨by norm_num, by simp [dot]; norm_num⟩
  have hs0 : 0 < Real.sqrt (dot ![1, 0, 20] ![1, 0, 20]) := Real.sqrt_pos.2 (by simp [dot]; norm_num)
  have hu : (1 : ℝ) / 21 ≤ unitVec ![1, 0, 20] 0 := by
    unfold unitVec
    exact one_div_le_one_div_of_le hs0 hs
  have hz : unitVec ![0, 0, 1] 0 = 0 := by simp [unitVec]
  have hx : unitVec ![1, 0, 0] 0 = 1 := by simp [unitVec, dot]
  have := h ⟨0, by rw [hz, sub_zero, abs_of_nonneg (by linarith)]; norm_num at hu ⊢; linarith⟩
    ⟨0, by rw [hz, add_zero, abs_of_nonneg (by linarith)]; norm_num at hu ⊢; linarith⟩ 0
  have hc : cross (unitVec ![0, 0, 1]) (unitVec ![1, 0, 0]) 0 = 0 := by
    simp [cross, unitVec]
  rw [hz, hx, hc] at this
  simpa using this

end Wulfric
