import Verif.Model.Niggli
import Verif.Lemmas.Lattice
import Mathlib.Tactic.FinCases

namespace Wulfric
open Matrix
set_option linter.unusedSectionVars false

variable {K : Type*} [Field K] [LinearOrder K]

/-- The transformation matrices of two states differ by a unimodular integer factor. -/
def UniStep (s s' : NState K) : Prop := ∃ M : Matrix (Fin 3) (Fin 3) ℤ, IsUnit M.det ∧ s'.T = s.T * M

theorem UniStep.refl (s : NState K) : UniStep s s := ⟨1, by simp, by simp⟩

theorem UniStep.trans {s s' s'' : NState K} (h : UniStep s s') (h' : UniStep s' s'') :
    UniStep s s'' := by
  obtain ⟨M, hM, e⟩ := h
  obtain ⟨N, hN, e'⟩ := h'
  exact ⟨M * N, by rw [det_mul]; exact hM.mul hN, by rw [e', e, Matrix.mul_assoc]⟩

theorem isUnit_of_sq {z : ℤ} (h : z = 1 ∨ z = -1) : IsUnit z := by
  rcases h with rfl | rfl <;> simp

theorem uni_step1 (eps : K) (s : NState K) : UniStep s (niggliStep1 eps s).2 := by
  unfold niggliStep1; dsimp only; split
  · exact ⟨_, by simp [det_fin_three], rfl⟩
  · exact UniStep.refl s

theorem uni_step2 (eps : K) (s : NState K) : UniStep s (niggliStep2 eps s).2 := by
  unfold niggliStep2; dsimp only; split
  · exact ⟨_, by simp [det_fin_three], rfl⟩
  · exact UniStep.refl s

theorem isUnit_diag {i j k : ℤ} (hi : i = 1 ∨ i = -1) (hj : j = 1 ∨ j = -1)
    (hk : k = 1 ∨ k = -1) :
    IsUnit (det !![i, 0, 0; 0, j, 0; 0, 0, k]) := by
  rcases hi with rfl | rfl <;> rcases hj with rfl | rfl <;> rcases hk with rfl | rfl <;>
    simp [det_fin_three]

theorem ite_pm (p : Prop) [Decidable p] : (if p then (1 : ℤ) else -1) = 1 ∨ (if p then (1 : ℤ) else -1) = -1 := by
  split <;> simp

theorem uni_step3 (eps : K) (s : NState K) : UniStep s (niggliStep3 eps s).2 := by
  unfold niggliStep3; dsimp only; split
  · exact ⟨_, isUnit_diag (ite_pm _) (ite_pm _) (ite_pm _), rfl⟩
  · exact UniStep.refl s

theorem step4Sign_pm (e4 x : K) (me p : PIdx) :
    (step4Sign e4 x me p).1 = 1 ∨ (step4Sign e4 x me p).1 = -1 := by
  unfold step4Sign; split
  · simp
  · split <;> simp

theorem step4Signs_pm (e4 x y z : K) :
    ((step4Signs e4 x y z).1 = 1 ∨ (step4Signs e4 x y z).1 = -1) ∧
    ((step4Signs e4 x y z).2.1 = 1 ∨ (step4Signs e4 x y z).2.1 = -1) ∧
    ((step4Signs e4 x y z).2.2 = 1 ∨ (step4Signs e4 x y z).2.2 = -1) := by
  unfold step4Signs; dsimp only
  have h1 := step4Sign_pm e4 x .i .none
  have h2 := step4Sign_pm e4 y .j (step4Sign e4 x .i .none).2
  have h3 := step4Sign_pm e4 z .k (step4Sign e4 y .j (step4Sign e4 x .i .none).2).2
  split
  · split <;> simp [h1, h2, h3]
  · exact ⟨h1, h2, h3⟩

theorem uni_step4 (eps e4 : K) (s : NState K) : UniStep s (niggliStep4 eps e4 s).2 := by
  unfold niggliStep4; dsimp only; split
  · obtain ⟨h1, h2, h3⟩ := step4Signs_pm e4 s.xi s.eta s.zeta
    exact ⟨_, isUnit_diag h1 h2 h3, rfl⟩
  · exact UniStep.refl s

theorem uni_step5 (eps : K) (s : NState K) : UniStep s (niggliStep5 eps s).2 := by
  unfold niggliStep5; dsimp only; split
  · exact ⟨_, by simp [det_fin_three], rfl⟩
  · exact UniStep.refl s

theorem uni_step6 (eps : K) (s : NState K) : UniStep s (niggliStep6 eps s).2 := by
  unfold niggliStep6; dsimp only; split
  · exact ⟨_, by simp [det_fin_three], rfl⟩
  · exact UniStep.refl s

theorem uni_step7 (eps : K) (s : NState K) : UniStep s (niggliStep7 eps s).2 := by
  unfold niggliStep7; dsimp only; split
  · exact ⟨_, by simp [det_fin_three], rfl⟩
  · exact UniStep.refl s

theorem uni_step8 (eps : K) (s : NState K) : UniStep s (niggliStep8 eps s).2 := by
  unfold niggliStep8; dsimp only; split
  · exact ⟨_, by simp [det_fin_three], rfl⟩
  · exact UniStep.refl s

theorem uni_pass (eps e4 : K) (s : NState K) : UniStep s (niggliPass eps e4 s).2 := by
  unfold niggliPass; dsimp only
  have h1 := uni_step1 eps s
  have h2 := h1.trans (uni_step2 eps _)
  split
  · exact h2
  have h3 := h2.trans (uni_step3 eps _)
  have h4 := h3.trans (uni_step4 eps e4 _)
  have h5 := h4.trans (uni_step5 eps _)
  split
  · exact h5
  have h6 := h5.trans (uni_step6 eps _)
  split
  · exact h6
  have h7 := h6.trans (uni_step7 eps _)
  split
  · exact h7
  have h8 := h7.trans (uni_step8 eps _)
  split <;> exact h8

theorem uni_loop (eps e4 : K) (fuel : ℕ) (s r : NState K)
    (h : niggliLoop eps e4 fuel s = .ok r) : UniStep s r := by
  induction fuel generalizing s with
  | zero => simp [niggliLoop] at h
  | succ n ih =>
    unfold niggliLoop at h; dsimp only at h
    split at h
    · exact (uni_pass eps e4 s).trans (ih _ h)
    · cases h; exact uni_pass eps e4 s

end Wulfric
