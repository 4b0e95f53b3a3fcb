import Verif.Spec.Crystal
import Mathlib.Data.Set.Card

/-!
# Specification vocabulary: the number of atoms per cell
-/

namespace Spec

variable {α : Type}

/-- The number of atoms with the label `l` per cell of the lattice of `c`: atoms of the crystal `A`
that differ by a vector of the lattice are counted once. -/
noncomputable def perCell (c : Matrix (Fin 3) (Fin 3) ℝ) (A : Set (α × (Fin 3 → ℝ))) (l : α) : ℕ :=
  Set.ncard {q : Set (Fin 3 → ℝ) | ∃ x, (l, x) ∈ A ∧ q = {y | y - x ∈ latticePoints c}}

end Spec
