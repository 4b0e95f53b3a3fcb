import Verif.Lemmas.Lattice
import Mathlib.Tactic.FinCases
import Mathlib.Algebra.Order.Field.Basic
import Mathlib.Algebra.Order.Ring.Abs
import Mathlib.Data.Int.Order.Units

/-! # Two bases of one lattice -/

namespace Spec
open Matrix
variable {K : Type*} [Field K]

theorem row_mem_lattice (c : Matrix (Fin 3) (Fin 3) K) (i : Fin 3) : c i ∈ latticePoints c := by
  refine ⟨Pi.single i 1, ?_⟩
  ext j; fin_cases i <;> simp [Pi.single_apply]

/-- A cell whose vectors are in the lattice of `c` is an integer combination of `c`. -/
theorem exists_int_matrix {c d : Matrix (Fin 3) (Fin 3) K}
    (h : latticePoints d ⊆ latticePoints c) :
    ∃ M : Matrix (Fin 3) (Fin 3) ℤ, d = M.map (Int.cast : ℤ → K) * c := by
  choose n hn using fun i => h (row_mem_lattice d i)
  refine ⟨Matrix.of fun i j => n i j, ?_⟩
  ext i j; rw [hn i]; simp [Matrix.mul_apply]

/-- Two bases of one lattice are related by a unimodular integer matrix. -/
theorem SameLattice.unimodular [CharZero K] {c d : Matrix (Fin 3) (Fin 3) K}
    (h : SameLattice c d) (hc : c.det ≠ 0) :
    ∃ M : Matrix (Fin 3) (Fin 3) ℤ, (M.det = 1 ∨ M.det = -1) ∧
      d = M.map (Int.cast : ℤ → K) * c := by
  obtain ⟨M, hM⟩ := exists_int_matrix (c := c) (d := d) (by rw [show latticePoints c = latticePoints d from h])
  obtain ⟨N, hN⟩ := exists_int_matrix (c := d) (d := c) (by rw [show latticePoints c = latticePoints d from h])
  refine ⟨M, ?_, hM⟩
  have e1 := congrArg det hM
  have e2 := congrArg det hN
  rw [det_mul, det_map_intCast] at e1 e2
  have : (N.det : K) * (M.det : K) = 1 := by
    rw [e1] at e2
    have : c.det * ((N.det : K) * (M.det : K)) = c.det * 1 := by
      rw [mul_one]; nth_rewrite 2 [e2]; ring
    exact mul_left_cancel₀ hc this
  have h1 : N.det * M.det = 1 := by exact_mod_cast this
  exact Int.isUnit_iff.1 (IsUnit.of_mul_eq_one N.det (by rw [mul_comm]; exact h1))

/-- The absolute value of the determinant belongs to the lattice. -/
theorem SameLattice.abs_det [LinearOrder K] [IsStrictOrderedRing K]
    {c d : Matrix (Fin 3) (Fin 3) K} (h : SameLattice c d) : |d.det| = |c.det| := by
  by_cases hc : c.det = 0
  · obtain ⟨M, hM⟩ := exists_int_matrix (c := c) (d := d) (by rw [show latticePoints c = latticePoints d from h])
    rw [hM, det_mul, hc, mul_zero]
  · obtain ⟨M, hM, e⟩ := h.unimodular hc
    rw [e, det_mul, det_map_intCast, abs_mul]
    rcases hM with h1 | h1 <;> simp [h1]

end Spec
