import Verif.Spec.Lepage

/-! # Specification vocabulary: symmetry and pseudosymmetry of a lattice, whatever its basis -/

namespace Spec

/-- No pseudosymmetry within `d` degrees: a vector `x` of the lattice and a vector `y` of the
reciprocal lattice with the scalar product `4 pi` (or its negative) are either along one line, which
is then a twofold axis, or at an angle of at least `d` degrees. No basis is involved. -/
def LatticeNoPseudo (cell : Matrix (Fin 3) (Fin 3) ℝ) (d : ℝ) : Prop :=
  ∀ x ∈ latticePoints cell, ∀ y : Fin 3 → ℝ,
    (∀ z ∈ latticePoints cell, ∃ n : ℤ, dot y z = 2 * Real.pi * n) → |dot x y| = 4 * Real.pi →
      SameLine x y ∨ AngleAtLeast d x y

/-- Every twofold axis of the lattice is along one of the given directions. -/
def AxesAlong (cell : Matrix (Fin 3) (Fin 3) ℝ) (ds : List (Fin 3 → ℝ)) : Prop :=
  ∀ x ∈ latticePoints cell, TwofoldAxis cell x → ∃ d ∈ ds, SameLine x d

end Spec
