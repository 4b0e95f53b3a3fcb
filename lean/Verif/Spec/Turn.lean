import Verif.Model.Spglib
import Verif.Spec.Crystal

/-!
# Specification: spglib and a turned crystal

What the documentation of spglib says about a rigid rotation of the input. The standardised cells and
positions do not depend on the orientation of the input; `std_rotation_matrix` takes the input
orientation to the standard one (in rows: `std_lattice = L @ R.T` for the cell `L` in the orientation of
the input), so it becomes `R @ Q` for the input `cell @ Q`.
-/

namespace Spec

open Wulfric

/-- spglib finds the same standardised crystal for `cell` and `cell @ Q`. -/
structure SameStandard (lib : SpglibLib) (Q cell : Cell ℝ) : Prop where
  dataset : ∀ p t s a, lib.symDataset (cell * Q) p t s a =
    (lib.symDataset cell p t s a).map fun d => { d with stdRotation := d.stdRotation * Q }
  primitive : ∀ p t s a, lib.findPrimitive (cell * Q) p t s a = lib.findPrimitive cell p t s a

/-- What the documentation of spglib says about the result for an exact crystal: the rotation matrix
is orthogonal, the standardised cell and the primitive cell, turned back by it, describe the given
crystal up to the choice of the origin, and the standardised cell has the centring of the space
group. -/
def Documented (lib : SpglibLib) (symprec angtol : ℝ) (cell : Cell ℝ) (ps : List (Vec ℝ))
    (ts : List ℤ) : Prop :=
  ∀ d pc pp pt, lib.symDataset cell ps ts symprec angtol = some d →
    lib.findPrimitive cell ps ts symprec angtol = some (pc, pp, pt) →
    d.stdRotation * d.stdRotation.transpose = 1 ∧
    Standardised (crystal cell ps ts) (family d.number ++ centring d.number)
      (d.stdLattice * d.stdRotation) d.stdPositions d.stdTypes (pc * d.stdRotation) pp pt

end Spec
