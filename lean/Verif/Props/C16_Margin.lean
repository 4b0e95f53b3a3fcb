import Verif.Props.C11_Niggli
import Mathlib.NumberTheory.Real.Irrational

/-!
# C16 without commensurability

A cell that meets the conditions with a margin above the tolerances is returned as it is, whatever
its scalar products are.
-/

namespace Wulfric
open Matrix Spec

variable {K : Type*} [Field K] [LinearOrder K] [IsStrictOrderedRing K]

/-- The conditions of a Niggli-reduced cell hold with a margin: no two numbers that are compared
are within `eps` of each other. The doubled scalar products are all above `eps`, and their product
is, or none is positive. -/
structure NiggliMargin (eps A B C xi eta zeta : K) : Prop where
  ab : A + eps < B
  bc : B + eps < C
  type : (eps < xi * eta * zeta ∧ eps < xi ∧ eps < eta ∧ eps < zeta) ∨
    (xi ≤ 0 ∧ eta ≤ 0 ∧ zeta ≤ 0)
  xi_lt : |xi| + eps < B
  eta_lt : |eta| + eps < A
  zeta_lt : |zeta| + eps < A
  sum_pos : eps < xi + eta + zeta + A + B

theorem diag_one : (!![1, 0, 0; 0, 1, 0; 0, 0, 1] : Matrix (Fin 3) (Fin 3) ℤ) = 1 := by
  ext i j; fin_cases i <;> fin_cases j <;> rfl

/-- C16: such a cell is returned unchanged, after one pass, for any two tolerances. -/
theorem C16_margin (cell : Cell K) (eps e4 : K) (h0 : 0 ≤ eps) (h4 : 0 ≤ e4) (m : ℤ) (hm : 0 ≤ m)
    (h : NiggliMargin eps (dot (cell 0) (cell 0)) (dot (cell 1) (cell 1)) (dot (cell 2) (cell 2))
      (2 * dot (cell 1) (cell 2)) (2 * dot (cell 0) (cell 2)) (2 * dot (cell 0) (cell 1))) :
    niggliCore cell eps e4 m = .ok cell := by
  obtain ⟨n, hn⟩ : ∃ n, (m + 1).toNat = n + 1 := ⟨m.toNat, by omega⟩
  have hi : niggliInit cell = ⟨⟨dot (cell 0) (cell 0), dot (cell 1) (cell 1), dot (cell 2) (cell 2),
      2 * dot (cell 1) (cell 2), 2 * dot (cell 0) (cell 2), 2 * dot (cell 0) (cell 1)⟩, 1⟩ := by
    simp [niggliInit, dot, Matrix.mul_apply, Fin.sum_univ_three]
  unfold niggliCore
  rw [hn, niggliLoop, hi]
  generalize dot (cell 0) (cell 0) = A at *
  generalize dot (cell 1) (cell 1) = B at *
  generalize dot (cell 2) (cell 2) = C at *
  generalize 2 * dot (cell 1) (cell 2) = xi at *
  generalize 2 * dot (cell 0) (cell 2) = eta at *
  generalize 2 * dot (cell 0) (cell 1) = zeta at *
  obtain ⟨ab, bc, ty, hx, hy, hz, hs⟩ := h
  have ax := abs_le.1 (le_refl |xi|)
  have ay := abs_le.1 (le_refl |eta|)
  have az := abs_le.1 (le_refl |zeta|)
  set s : NState K := ⟨⟨A, B, C, xi, eta, zeta⟩, 1⟩ with hsd
  have s1 : niggliStep1 eps s = (false, s) := by
    have a : ¬ B < A - eps := by linarith
    have b : A < B - eps := by linarith
    simp [niggliStep1, cwt, hsd, a, b]
  have s2 : niggliStep2 eps s = (false, s) := by
    have a : ¬ C < B - eps := by linarith
    have b : B < C - eps := by linarith
    simp [niggliStep2, cwt, hsd, a, b]
  have s5 : niggliStep5 eps s = (false, s) := by
    have a : ¬ B < |xi| - eps := by linarith
    have b : xi < B - eps := by linarith
    have c : -B < xi - eps := by linarith
    simp [niggliStep5, cwt, hsd, a, b, c]
  have s6 : niggliStep6 eps s = (false, s) := by
    have a : ¬ A < |eta| - eps := by linarith
    have b : eta < A - eps := by linarith
    have c : -A < eta - eps := by linarith
    simp [niggliStep6, cwt, hsd, a, b, c]
  have s7 : niggliStep7 eps s = (false, s) := by
    have a : ¬ A < |zeta| - eps := by linarith
    have b : zeta < A - eps := by linarith
    have c : -A < zeta - eps := by linarith
    simp [niggliStep7, cwt, hsd, a, b, c]
  have s8 : niggliStep8 eps s = (false, s) := by
    have a : ¬ xi + eta + zeta + A + B < 0 - eps := by linarith
    have b : 0 < xi + eta + zeta + A + B - eps := by linarith
    simp only [niggliStep8, cwt, hsd, decide_eq_false a, decide_eq_true b]
    simp
  have s34 : (niggliStep4 eps e4 (niggliStep3 eps s).2).2 = s := by
    rcases ty with ⟨hp, px, py, pz⟩ | ⟨lx, ly, lz⟩
    · have p0 : 0 < xi * eta * zeta - eps := by linarith
      have q1 : 0 < xi - eps := by linarith
      have q2 : 0 < eta - eps := by linarith
      have q3 : 0 < zeta - eps := by linarith
      have e3 : (niggliStep3 eps s).2 = s := by
        simp [niggliStep3, cwt, hsd, p0, q1, q2, q3, abs_of_pos (h0.trans_lt px),
          abs_of_pos (h0.trans_lt py), abs_of_pos (h0.trans_lt pz), diag_one]
      rw [e3]
      simp [niggliStep4, cwt, hsd, p0]
    · have z4 : ∀ x : K, x ≤ 0 → ¬ 0 < x - e4 := fun x hx => by linarith
      have p0 : ¬ 0 < xi * eta * zeta - eps := by
        have := mul_nonpos_of_nonneg_of_nonpos (mul_nonneg_of_nonpos_of_nonpos lx ly) lz
        linarith
      have e3 : (niggliStep3 eps s).2 = s := by
        simp only [niggliStep3, cwt, hsd, decide_eq_false p0]
        simp
      have sg : ∀ (x : K) (me p : PIdx), x ≤ 0 → (step4Sign e4 x me p).1 = 1 := by
        intro x me p hx
        unfold step4Sign
        rw [if_neg (by rw [cwt_gt]; exact z4 x hx)]
        split <;> rfl
      have e4' : step4Signs e4 xi eta zeta = (1, 1, 1) := by
        simp [step4Signs, sg _ _ _ lx, sg _ _ _ ly, sg _ _ _ lz]
      rw [e3]
      simp [niggliStep4, cwt, hsd, p0, e4', abs_of_nonpos lx, abs_of_nonpos ly, abs_of_nonpos lz,
        diag_one]
  have hp : niggliPass eps e4 s = (false, s) := by
    simp only [niggliPass, s1, s2, s34, s5, s6, s7, s8]
    simp
  rw [hp]
  simp [hsd]

/-- C16 for the public function. -/
theorem C16_margin_getNiggli (sp : Cell ℝ → ℝ → Except Err (Cell ℝ)) (cell : Cell ℝ) (e : ℝ)
    (he : 0 ≤ e) (impl : String) (hi : IsWulfric impl) (m : ℤ) (hm : 0 ≤ m) (hd : cell.det ≠ 0)
    (h : NiggliMargin (absTol cell e) (dot (cell 0) (cell 0)) (dot (cell 1) (cell 1))
      (dot (cell 2) (cell 2)) (2 * dot (cell 1) (cell 2)) (2 * dot (cell 0) (cell 2))
      (2 * dot (cell 0) (cell 1))) :
    getNiggli sp cell e impl m = .ok cell := by
  rw [getNiggli_eq_core sp cell e impl hi m hd]
  exact C16_margin cell _ _ (mul_nonneg he (Real.rpow_nonneg (abs_nonneg _) _)) (by norm_num) m hm h

/-- Non-vacuity: a cell with squared lengths `1`, `√2`, `4`, which are not multiples of one
number, meets the conditions with the tolerance `1e-5`. -/
example : ∃ cell : Cell ℝ, NiggliMargin (1 / 10 ^ 5) (dot (cell 0) (cell 0)) (dot (cell 1) (cell 1))
      (dot (cell 2) (cell 2)) (2 * dot (cell 1) (cell 2)) (2 * dot (cell 0) (cell 2))
      (2 * dot (cell 0) (cell 1)) ∧ ¬ ∃ spacing, 0 < spacing ∧ Commensurate spacing cell := by
  have h2 : √(√2) * √(√2) = √2 := Real.mul_self_sqrt (Real.sqrt_nonneg 2)
  have l1 : (14 / 10 : ℝ) < √2 := Real.lt_sqrt_of_sq_lt (by norm_num)
  have l2 : √2 < 15 / 10 := by rw [Real.sqrt_lt' (by norm_num)]; norm_num
  refine ⟨!![1, 0, 0; 0, √(√2), 0; 0, 0, 2], ?_, ?_⟩
  · constructor <;> simp [dot, h2] <;> linarith
  · rintro ⟨q, hq, hc⟩
    obtain ⟨n, hn⟩ := hc 0 0
    obtain ⟨k, hk⟩ := hc 1 1
    simp [dot, h2] at hn hk
    have hn0 : (n : ℝ) ≠ 0 := by rintro h; rw [h] at hn; simp at hn
    refine irrational_sqrt_two ⟨(k : ℚ) / n, ?_⟩
    push_cast
    rw [div_eq_iff hn0, hk]
    linear_combination (k : ℝ) * hn
end Wulfric
