import Verif.Spec.Lattice
import Mathlib.Analysis.SpecialFunctions.Trigonometric.Basic

/-!
# Specification vocabulary: equivalent wave vectors, time-reversal-invariant momenta
-/

namespace Spec

open Matrix

/-- The rotation or reflection `R` of space carries the lattice of `r` into itself. -/
def IsSymmetry (r R : Matrix (Fin 3) (Fin 3) ℝ) : Prop :=
  R * R.transpose = 1 ∧ SameLattice (r * R) r

/-- A symmetry of the lattice of `r` and a translation of it carry `k` into `k'`. -/
def EquivalentVectors (r : Matrix (Fin 3) (Fin 3) ℝ) (k k' : Fin 3 → ℝ) : Prop :=
  ∃ R, IsSymmetry r R ∧ k ᵥ* R - k' ∈ latticePoints r

/-- `k` and `-k` differ by a vector of the (reciprocal) lattice of `r`. -/
def TimeInvariant (r : Matrix (Fin 3) (Fin 3) ℝ) (k : Fin 3 → ℝ) : Prop :=
  k - -k ∈ latticePoints r

end Spec
