import Verif.Spec.Lattice
import Mathlib.Analysis.SpecialFunctions.Trigonometric.Basic

/-! # Specification vocabulary: lengths and angles -/

namespace Spec

/-- `t` degrees is the angle between `u` and `v`: between 0 and 180, with
`u·v = |u||v| cos t`. -/
def AngleDeg (u v : Fin 3 → ℝ) (t : ℝ) : Prop :=
  0 ≤ t ∧ t ≤ 180 ∧
    dot u v = Real.sqrt (dot u u) * Real.sqrt (dot v v) * Real.cos (t * (Real.pi / 180))

/-- The cell has lengths `a, b, c` and angles `alpha` (between the second and the third
vector), `beta` (first, third), `gamma` (first, second), in degrees. -/
structure HasParams (cell : Matrix (Fin 3) (Fin 3) ℝ) (a b c alpha beta gamma : ℝ) : Prop where
  a_nonneg : 0 ≤ a
  b_nonneg : 0 ≤ b
  c_nonneg : 0 ≤ c
  aa : dot (cell 0) (cell 0) = a ^ 2
  bb : dot (cell 1) (cell 1) = b ^ 2
  cc : dot (cell 2) (cell 2) = c ^ 2
  alpha : AngleDeg (cell 1) (cell 2) alpha
  beta : AngleDeg (cell 0) (cell 2) beta
  gamma : AngleDeg (cell 0) (cell 1) gamma

/-- Vector product. -/
def cross (u v : Fin 3 → ℝ) : Fin 3 → ℝ :=
  ![u 1 * v 2 - u 2 * v 1, u 2 * v 0 - u 0 * v 2, u 0 * v 1 - u 1 * v 0]

end Spec
