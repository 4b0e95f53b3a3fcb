import Mathlib.Data.Real.Basic
import Mathlib.Data.Fin.Basic
import Mathlib.Data.Matrix.Mul

/-! # Specification: what a figure shows -/

namespace Spec

/-- The twelve edges of the parallelepiped with a corner at `o` and the edge vectors `a 0`, `a 1`,
`a 2`: for each direction, one edge from each of the four corners of the opposite face. -/
def boxEdges (o : Fin 3 → ℝ) (a : Matrix (Fin 3) (Fin 3) ℝ) :
    List ((Fin 3 → ℝ) × (Fin 3 → ℝ)) :=
  [0, 1, 2].flatMap fun i : Fin 3 => [0, 1].flatMap fun s : ℝ => [0, 1].map fun t : ℝ =>
    (fun j => o j + s * a (i + 1) j + t * a (i + 2) j,
     fun j => o j + s * a (i + 1) j + t * a (i + 2) j + a i j)

/-- Every point is inside of the box with the given corners. -/
def Inside (lo hi : Fin 3 → ℝ) (P : List (Fin 3 → ℝ)) : Prop :=
  ∀ p ∈ P, ∀ j, lo j ≤ p j ∧ p j ≤ hi j

/-- Every side of the box touches one of the points. -/
def Touching (lo hi : Fin 3 → ℝ) (P : List (Fin 3 → ℝ)) : Prop :=
  ∀ j, (∃ p ∈ P, p j = lo j) ∧ (∃ p ∈ P, p j = hi j)

end Spec
