import Verif.Lemmas.NiggliClean

/-! The loop with exact comparisons: signs, tracking, orientation, exit conditions. -/

namespace Wulfric
open Matrix Spec

set_option linter.unusedSectionVars false

variable {K : Type*} [Field K] [LinearOrder K] [IsStrictOrderedRing K]

theorem step4Signs_exact {x y z : K} (h : x * y * z ≤ 0) :
    let r := step4Signs 0 x y z
    (r.2.1 : K) * r.2.2 * x = -|x| ∧ (r.1 : K) * r.2.2 * y = -|y| ∧
      (r.1 : K) * r.2.1 * z = -|z| ∧ r.1 * r.2.1 * r.2.2 = 1 := by
  rcases lt_trichotomy x 0 with hx | hx | hx <;> rcases lt_trichotomy y 0 with hy | hy | hy <;>
    rcases lt_trichotomy z 0 with hz | hz | hz
  all_goals first
    | (exfalso
       first
        | exact absurd h (not_le.2 (mul_pos (mul_pos hx hy) hz))
        | exact absurd h (not_le.2 (mul_pos (mul_pos_of_neg_of_neg hx hy) hz))
        | exact absurd h (not_le.2 (mul_pos_of_neg_of_neg (mul_neg_of_neg_of_pos hx hy) hz))
        | exact absurd h (not_le.2 (mul_pos_of_neg_of_neg (mul_neg_of_pos_of_neg hx hy) hz)))
    | (try subst hx
       try subst hy
       try subst hz
       simp [step4Signs, step4Sign, cwt, abs_of_pos, abs_of_neg, not_lt.2 (le_of_lt _), *])


theorem step3Signs_exact {x y z : K} (h : 0 < x * y * z) :
    let i : ℤ := if cwt x .gt 0 0 then 1 else -1
    let j : ℤ := if cwt y .gt 0 0 then 1 else -1
    let k : ℤ := if cwt z .gt 0 0 then 1 else -1
    (j : K) * k * x = |x| ∧ (i : K) * k * y = |y| ∧ (i : K) * j * z = |z| ∧ i * j * k = 1 := by
  rcases lt_trichotomy x 0 with hx | hx | hx <;> rcases lt_trichotomy y 0 with hy | hy | hy <;>
    rcases lt_trichotomy z 0 with hz | hz | hz
  all_goals first
    | (exfalso; subst_vars; simp at h)
    | (exfalso
       first
        | exact absurd h (not_lt.2 (mul_nonpos_of_nonneg_of_nonpos (mul_nonneg hx.le hy.le) hz.le))
        | exact absurd h (not_lt.2 (mul_nonpos_of_nonneg_of_nonpos (mul_nonneg_of_nonpos_of_nonpos hx.le hy.le) hz.le))
        | exact absurd h (not_lt.2 (mul_nonpos_of_nonpos_of_nonneg (mul_nonpos_of_nonpos_of_nonneg hx.le hy.le) hz.le))
        | exact absurd h (not_lt.2 (mul_nonpos_of_nonpos_of_nonneg (mul_nonpos_of_nonneg_of_nonpos hx.le hy.le) hz.le)))
    | simp [cwt, abs_of_pos, abs_of_neg, not_lt.2 (le_of_lt _), *]

/-- Loop invariant for exact comparisons. -/
structure Good (cell : Cell K) (s : NState K) : Prop where
  tr : Tracks cell s
  det : s.T.det = 1

theorem det_diag (i j k : ℤ) : det !![i, 0, 0; 0, j, 0; 0, 0, k] = i * j * k := by
  simp [det_fin_three]

theorem good_step1 (e : K) {cell : Cell K} {s : NState K} (h : Good cell s) :
    Good cell (niggliStep1 e s).2 := by
  refine ⟨tracks_step1 e cell s h.tr, ?_⟩
  unfold niggliStep1; dsimp only; split
  · rw [det_mul, h.det]; simp [det_fin_three]
  · exact h.det

theorem good_step2 (e : K) {cell : Cell K} {s : NState K} (h : Good cell s) :
    Good cell (niggliStep2 e s).2 := by
  refine ⟨tracks_step2 e cell s h.tr, ?_⟩
  unfold niggliStep2; dsimp only; split
  · rw [det_mul, h.det]; simp [det_fin_three]
  · exact h.det

theorem good_step3 {cell : Cell K} {s : NState K} (h : Good cell s) :
    Good cell (niggliStep3 0 s).2 := by
  unfold niggliStep3; dsimp only; split
  · rename_i hc
    simp only [cwt_gt, sub_zero] at hc
    obtain ⟨h1, h2, h3, h4⟩ := step3Signs_exact hc
    refine ⟨?_, by rw [det_mul, h.det, det_diag, h4]; rfl⟩
    have sq : ∀ (p : Prop) [Decidable p], ((if p then (1 : ℤ) else -1 : ℤ) : K) *
        ((if p then (1 : ℤ) else -1 : ℤ) : K) = 1 := by
      intro p _; split <;> simp
    have hi := sq (cwt s.xi .gt 0 0 = true)
    have hj := sq (cwt s.eta .gt 0 0 = true)
    have hk := sq (cwt s.zeta .gt 0 0 = true)
    refine tracks_of _ _ _ _ rfl h.tr _ (fun _ _ => rfl) ?_ ?_ ?_ ?_ ?_ ?_ <;>
      simp only [of_apply, cons_val', cons_val_zero, cons_val_one, cons_val, Int.cast_zero, zero_mul,
        mul_zero, add_zero, zero_add]
    · linear_combination (-s.A) * hi
    · linear_combination (-s.B) * hj
    · linear_combination (-s.C) * hk
    · linear_combination -h1
    · linear_combination -h2
    · linear_combination -h3
  · exact h

theorem pm_sq {i : ℤ} (h : i = 1 ∨ i = -1) : (i : K) * (i : K) = 1 := by
  rcases h with rfl | rfl <;> simp

theorem good_step4 {cell : Cell K} {s : NState K} (h : Good cell s) :
    Good cell (niggliStep4 0 0 s).2 := by
  unfold niggliStep4; dsimp only; split
  · rename_i hc
    simp only [cwt_le, sub_zero, not_lt] at hc
    obtain ⟨h1, h2, h3, h4⟩ := step4Signs_exact hc
    refine ⟨?_, by rw [det_mul, h.det, det_diag, h4]; rfl⟩
    obtain ⟨p1, p2, p3⟩ := step4Signs_pm 0 s.xi s.eta s.zeta
    have hi := pm_sq (K := K) p1
    have hj := pm_sq (K := K) p2
    have hk := pm_sq (K := K) p3
    refine tracks_of _ _ _ _ rfl h.tr _ (fun _ _ => rfl) ?_ ?_ ?_ ?_ ?_ ?_ <;>
      simp only [of_apply, cons_val', cons_val_zero, cons_val_one, cons_val, Int.cast_zero, zero_mul,
        mul_zero, add_zero, zero_add]
    · linear_combination (-s.A) * hi
    · linear_combination (-s.B) * hj
    · linear_combination (-s.C) * hk
    · linear_combination -h1
    · linear_combination -h2
    · linear_combination -h3
  · exact h

end Wulfric
