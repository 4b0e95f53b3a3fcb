import Verif.Model.Geometry
import Verif.Spec.Lattice
import Mathlib.Tactic.Linarith
import Mathlib.Tactic.NormNum
import Mathlib.Tactic.FieldSimp
import Mathlib.Tactic.FinCases

/-! # C02, C03, C04: reciprocal cell and transformation matrix -/

namespace Wulfric
open Matrix

/-- Specification of duality: pairwise scalar products of rows. -/
def IsDual (r c : Cell ℝ) : Prop :=
  ∀ i j, Spec.dot (r i) (c j) = if i = j then 2 * Real.pi else 0

theorem two_pi_ne : (2 * Real.pi) ≠ 0 := by positivity

theorem isDual_iff (r c : Cell ℝ) : IsDual r c ↔ r * c.transpose = (2 * Real.pi) • (1 : Cell ℝ) := by
  constructor
  · intro h
    ext i j
    have := h i j
    simp only [Spec.dot] at this
    rw [Matrix.mul_apply, Fin.sum_univ_three]
    simp only [transpose_apply, Matrix.smul_apply, one_apply, smul_eq_mul, mul_ite, mul_one, mul_zero]
    exact this
  · intro h i j
    have := congrFun (congrFun h i) j
    rw [Matrix.mul_apply, Fin.sum_univ_three] at this
    simp only [transpose_apply, Matrix.smul_apply, one_apply, smul_eq_mul, mul_ite, mul_one, mul_zero] at this
    exact this

/-- C02: a singular cell is the only cause of an error. -/
theorem C02_error_iff (cell : Cell ℝ) :
    (∃ e, getReciprocal cell = .error e) ↔ cell.det = 0 := by
  unfold getReciprocal npInv
  by_cases h : cell.det = 0 <;> simp [h]

/-- C02: the returned rows have scalar product `2π` with the row of the same index and
zero with the others, and no other matrix has this property. -/
theorem C02_dual_unique (cell : Cell ℝ) (h : cell.det ≠ 0) :
    ∃ r, getReciprocal cell = .ok r ∧ IsDual r cell ∧ ∀ r', IsDual r' cell → r' = r := by
  have hu : IsUnit cell.det := Ne.isUnit h
  refine ⟨(2 * Real.pi) • (cell⁻¹).transpose, ?_, ?_, ?_⟩
  · unfold getReciprocal npInv; simp [h]
  · rw [isDual_iff, Matrix.smul_mul, ← transpose_mul, mul_nonsing_inv _ hu, transpose_one]
  · intro r' hr'
    rw [isDual_iff] at hr'
    have hut : IsUnit cell.transpose.det := by rwa [det_transpose]
    have := congrArg (fun m => m * (cell.transpose)⁻¹) hr'
    simp only [Matrix.mul_assoc, mul_nonsing_inv _ hut, Matrix.mul_one, Matrix.smul_mul,
      Matrix.one_mul] at this
    rw [this, transpose_nonsing_inv]

example : (!![1, 1, 0; 0, 1, 0; 0, 0, 1] : Cell ℝ).det ≠ 0 := by simp [det_fin_three]

theorem recip_ok {cell r : Cell ℝ} (h : getReciprocal cell = .ok r) :
    cell.det ≠ 0 ∧ r = (2 * Real.pi) • (cell⁻¹).transpose := by
  unfold getReciprocal npInv at h
  by_cases hd : cell.det = 0
  · simp [hd] at h
  · simp [hd] at h; exact ⟨hd, h.symm⟩

/-- C03: reciprocal of the reciprocal is the original cell. -/
theorem C03_involution (cell : Cell ℝ) (h : cell.det ≠ 0) :
    ∃ r, getReciprocal cell = .ok r ∧ r.det ≠ 0 ∧ getReciprocal r = .ok cell := by
  obtain ⟨r, hr, hdual, -⟩ := C02_dual_unique cell h
  obtain ⟨-, e⟩ := recip_ok hr
  have hrd : r.det ≠ 0 := by
    intro h0
    rw [isDual_iff] at hdual
    have := congrArg Matrix.det hdual
    rw [det_mul, h0, zero_mul, det_smul] at this
    simp only [det_one, mul_one, Fintype.card_fin] at this
    exact pow_ne_zero 3 two_pi_ne this.symm
  obtain ⟨r2, hr2, -, huniq⟩ := C02_dual_unique r hrd
  refine ⟨r, hr, hrd, ?_⟩
  rw [hr2]
  congr 1
  symm
  apply huniq
  intro i j
  have := hdual j i
  simp only [Spec.dot] at *
  rw [show cell i 0 * r j 0 + cell i 1 * r j 1 + cell i 2 * r j 2 =
    r j 0 * cell i 0 + r j 1 * cell i 1 + r j 2 * cell i 2 by ring, this]
  by_cases hij : i = j
  · simp [hij]
  · simp [hij, Ne.symm hij]

/-- C03: the volumes multiply to `(2π)^3`; handedness is kept. -/
theorem C03_volume (cell r : Cell ℝ) (h : getReciprocal cell = .ok r) :
    r.det * cell.det = (2 * Real.pi) ^ 3 ∧
    ∃ v w, getVolume (.one cell) = .ok v ∧ getVolume (.one r) = .ok w ∧ w * v = (2 * Real.pi) ^ 3 := by
  obtain ⟨hd, e⟩ := recip_ok h
  have h1 : r.det * cell.det = (2 * Real.pi) ^ 3 := by
    rw [e, det_smul, det_transpose]
    have : (cell⁻¹).det * cell.det = 1 := by
      rw [← det_mul, nonsing_inv_mul _ (Ne.isUnit hd), det_one]
    rw [mul_assoc, this]; simp
  refine ⟨h1, |cell.det|, |r.det|, rfl, rfl, ?_⟩
  rw [← abs_mul, h1, abs_of_pos (by positivity)]

/-- C03: under a change of basis `M` the reciprocal cell changes by the inverse
transpose. -/
theorem C03_change_of_basis (M cell r : Cell ℝ) (hM : M.det ≠ 0)
    (h : getReciprocal cell = .ok r) :
    getReciprocal (M * cell) = .ok ((M⁻¹).transpose * r) := by
  obtain ⟨hd, e⟩ := recip_ok h
  have hMd : (M * cell).det ≠ 0 := by rw [det_mul]; exact mul_ne_zero hM hd
  unfold getReciprocal npInv
  simp only [hMd, if_false]
  rw [e, Matrix.mul_inv_rev, transpose_mul, Matrix.mul_smul]

/-- C04: `transformed = M.T @ original` and `M` is the only such matrix. -/
theorem C04_recovers (original transformed : Cell ℝ) (h : original.det ≠ 0) :
    ∃ M, getTransformationMatrix original transformed = .ok M ∧
      transformed = M.transpose * original ∧
      ∀ M' : Cell ℝ, transformed = M'.transpose * original → M' = M := by
  have hu : IsUnit original.det := Ne.isUnit h
  refine ⟨(original⁻¹).transpose * transformed.transpose, ?_, ?_, ?_⟩
  · unfold getTransformationMatrix npInv; simp [h]
  · rw [transpose_mul, transpose_transpose, transpose_transpose, Matrix.mul_assoc,
      nonsing_inv_mul _ hu, Matrix.mul_one]
  · intro M' hM'
    rw [hM', transpose_mul, transpose_transpose, ← Matrix.mul_assoc, ← transpose_mul,
      mul_nonsing_inv _ hu, transpose_one, Matrix.one_mul]

theorem trans_ok {o t M : Cell ℝ} (h : getTransformationMatrix o t = .ok M) :
    o.det ≠ 0 ∧ M = (o⁻¹).transpose * t.transpose := by
  unfold getTransformationMatrix npInv at h
  by_cases hd : o.det = 0
  · simp [hd] at h
  · simp [hd] at h; exact ⟨hd, h.symm⟩

/-- C04: composition and identity. -/
theorem C04_compose (a b c : Cell ℝ) (M N : Cell ℝ)
    (h1 : getTransformationMatrix a b = .ok M) (h2 : getTransformationMatrix b c = .ok N) :
    getTransformationMatrix a c = .ok (M * N) := by
  obtain ⟨ha, rfl⟩ := trans_ok h1
  obtain ⟨hb, rfl⟩ := trans_ok h2
  have hu : IsUnit b.det := Ne.isUnit hb
  unfold getTransformationMatrix npInv
  simp only [ha, if_false]
  congr 1
  have hbt : b.transpose * (b⁻¹).transpose = 1 := by
    rw [← transpose_mul, nonsing_inv_mul _ hu, transpose_one]
  rw [Matrix.mul_assoc, ← Matrix.mul_assoc b.transpose, hbt, Matrix.one_mul]

theorem C04_identity (a : Cell ℝ) (h : a.det ≠ 0) :
    getTransformationMatrix a a = .ok 1 := by
  unfold getTransformationMatrix npInv
  simp only [h, if_false]
  rw [← transpose_mul, mul_nonsing_inv _ (Ne.isUnit h), transpose_one]

/-- C04: a singular original raises. -/
theorem C04_error_iff (a b : Cell ℝ) :
    (∃ e, getTransformationMatrix a b = .error e) ↔ a.det = 0 := by
  unfold getTransformationMatrix npInv
  by_cases h : a.det = 0 <;> simp [h]

/-- Non-vacuity of `C04_compose`. -/
example : ∃ M N, getTransformationMatrix (!![1, 1, 0; 0, 1, 0; 0, 0, 1] : Cell ℝ)
      (!![2, 0, 0; 0, 1, 0; 0, 0, 1]) = .ok M ∧
    getTransformationMatrix (!![2, 0, 0; 0, 1, 0; 0, 0, 1] : Cell ℝ) (!![1, 0, 5; 0, 1, 0; 0, 0, 1])
      = .ok N := by
  unfold getTransformationMatrix npInv
  simp [det_fin_three]

end Wulfric
