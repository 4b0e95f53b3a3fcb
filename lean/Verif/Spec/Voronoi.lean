import Verif.Spec.Lattice

/-! # Specification: Dirichlet (Wigner-Seitz) region -/

namespace Spec
variable {K : Type*} [Field K] [LinearOrder K]

/-- Points at least as close to the origin as to every point of the set `P`. -/
def region (P : Set (Fin 3 → K)) : Set (Fin 3 → K) :=
  {x | ∀ p ∈ P, dot x x ≤ dot (fun i => x i - p i) (fun i => x i - p i)}

/-- The Wigner-Seitz cell of the lattice of `cell`. -/
def wignerSeitz (cell : Matrix (Fin 3) (Fin 3) K) : Set (Fin 3 → K) := region (latticePoints cell)

end Spec
