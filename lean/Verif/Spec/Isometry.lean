import Verif.Spec.Lattice

/-!
# Specification: the same lattice up to a rotation or reflection of space
-/

namespace Spec

open Matrix

variable {K : Type*} [Field K]

/-- The lattice of `d` is the lattice of `c` after a rotation or reflection of space. -/
def Isometric (c d : Matrix (Fin 3) (Fin 3) K) : Prop :=
  ∃ R : Matrix (Fin 3) (Fin 3) K, R * R.transpose = 1 ∧ SameLattice (c * R) d

/-- Two bases have the same scalar products. -/
def SameMetric (c d : Matrix (Fin 3) (Fin 3) K) : Prop :=
  ∀ i j, dot (c i) (c j) = dot (d i) (d j)

end Spec
