import Verif.Lemmas.Params
import Verif.Props.C37_Orthorhombic

/-!
# C54: the scalar products of a cell agree with its parameters
-/

namespace Wulfric

open Matrix _root_.Spec

/-- C54: `get_scalar_products` returns `b·c`, `a·c`, `a·b`, in this order: with the parameters that
`get_params` returns for the same cell, `bc cos alpha`, `ac cos beta`, `ab cos gamma`. -/
theorem C54_scalar_products {cell : Cell ℝ} {a b c al be ga : ℝ}
    (h : getParams cell = .ok (a, b, c, al, be, ga)) :
    getScalarProducts cell =
      (b * c * Real.cos (al * (Real.pi / 180)), a * c * Real.cos (be * (Real.pi / 180)),
        a * b * Real.cos (ga * (Real.pi / 180))) := by
  obtain ⟨hp, -⟩ := getParams_ok h
  have e : ∀ u v : Vec ℝ, npDot u v = dot u v := fun u v => by
    simp [npDot, dot, Fin.sum_univ_three]
  obtain ⟨-, -, h1⟩ := hp.alpha
  obtain ⟨-, -, h2⟩ := hp.beta
  obtain ⟨-, -, h3⟩ := hp.gamma
  unfold getScalarProducts
  rw [e, e, e, h1, h2, h3, hp.aa, hp.bb, hp.cc, Real.sqrt_sq hp.a_nonneg, Real.sqrt_sq hp.b_nonneg,
    Real.sqrt_sq hp.c_nonneg]

/-- C54: the scalar products and the lengths determine the cell up to an orthogonal transformation
of space, and they do not change under one. -/
theorem C54_invariant (c₁ c₂ : Cell ℝ) (h₂ : c₂.det ≠ 0) :
    (getScalarProducts c₁ = getScalarProducts c₂ ∧ ∀ i, npNorm (c₁ i) = npNorm (c₂ i)) ↔
      ∃ r : Cell ℝ, r * r.transpose = 1 ∧ c₁ = c₂ * r := by
  have e : ∀ u v : Vec ℝ, npDot u v = dot u v := fun u v => by
    simp [npDot, dot, Fin.sum_univ_three]
  have gram : ∀ (m : Cell ℝ) i j, (m * m.transpose) i j = dot (m i) (m j) := by
    intro m i j
    simp [Matrix.mul_apply, dot, Fin.sum_univ_three]
  have comm : ∀ u v : Vec ℝ, dot u v = dot v u := by
    intro u v; simp only [dot]; ring
  constructor
  · rintro ⟨h, hn⟩
    unfold getScalarProducts at h
    simp only [e, Prod.mk.injEq] at h
    obtain ⟨h1, h2, h3⟩ := h
    have hn' : ∀ i, dot (c₁ i) (c₁ i) = dot (c₂ i) (c₂ i) := by
      intro i
      rw [← npNorm_sq, ← npNorm_sq, hn]
    have hg : c₁ * c₁.transpose = c₂ * c₂.transpose := by
      ext i j
      rw [gram, gram]
      fin_cases i <;> fin_cases j
      · exact hn' 0
      · exact h3
      · exact h2
      · exact (comm _ _).trans (h3.trans (comm _ _))
      · exact hn' 1
      · exact h1
      · exact (comm _ _).trans (h2.trans (comm _ _))
      · exact (comm _ _).trans (h1.trans (comm _ _))
      · exact hn' 2
    have hu : IsUnit c₂.det := isUnit_iff_ne_zero.2 h₂
    refine ⟨c₂⁻¹ * c₁, ?_, ?_⟩
    · rw [Matrix.transpose_mul, Matrix.mul_assoc, ← Matrix.mul_assoc c₁, hg,
        ← Matrix.mul_assoc, ← Matrix.mul_assoc, Matrix.nonsing_inv_mul _ hu, Matrix.one_mul,
        ← Matrix.transpose_mul, Matrix.nonsing_inv_mul _ hu, Matrix.transpose_one]
    · rw [← Matrix.mul_assoc, Matrix.mul_nonsing_inv _ hu, Matrix.one_mul]
  · rintro ⟨r, hr, rfl⟩
    have hg : c₂ * r * (c₂ * r).transpose = c₂ * c₂.transpose := by
      rw [Matrix.transpose_mul, Matrix.mul_assoc, ← Matrix.mul_assoc r, hr, Matrix.one_mul]
    have hd : ∀ i j, dot ((c₂ * r) i) ((c₂ * r) j) = dot (c₂ i) (c₂ j) := by
      intro i j
      rw [← gram, ← gram, hg]
    refine ⟨?_, fun i => ?_⟩
    · unfold getScalarProducts
      simp only [e, hd]
    · rw [npNorm, npNorm]
      simp only [e, hd]

/-- The monoclinic cell with `b·c = 6` and the other products 0. -/
example : getScalarProducts (!![1, 0, 0; 0, 2, 0; 0, 3, 4] : Cell ℝ) = (6, 0, 0) := by
  simp [getScalarProducts, npDot, Fin.sum_univ_three]
  norm_num

example : ∃ a b c al be ga, getParams (!![2, 0, 0; 0, 3, 0; 0, 0, 5] : Cell ℝ) =
    .ok (a, b, c, al, be, ga) :=
  ⟨2, 3, 5, 90, 90, 90, getParams_of_spec (hasParams_box (by norm_num) (by norm_num) (by norm_num))
    (eps_lt (by norm_num)) (eps_lt (by norm_num)) (eps_lt (by norm_num))⟩

end Wulfric
