import Verif.Spec.Geometry

/-! # Specification vocabulary: the first Brillouin zone -/

namespace Spec

/-- `k` lies in the first Brillouin zone of the lattice with the basis `r`: no point of the
lattice is closer to `k` than the origin. -/
def InZone (r : Matrix (Fin 3) (Fin 3) ℝ) (k : Fin 3 → ℝ) : Prop :=
  ∀ g ∈ latticePoints r, dot k k ≤ dot (k - g) (k - g)

/-- `k` lies on the boundary of the zone: it is also as close to some other point of the
lattice. -/
def OnZoneBoundary (r : Matrix (Fin 3) (Fin 3) ℝ) (k : Fin 3 → ℝ) : Prop :=
  InZone r k ∧ ∃ g ∈ latticePoints r, g ≠ 0 ∧ dot k k = dot (k - g) (k - g)

end Spec
