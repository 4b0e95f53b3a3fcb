import Mathlib.Data.Matrix.Mul
import Mathlib.LinearAlgebra.Matrix.Notation
import Mathlib.Data.Rat.Floor

/-!
# Symmetry of a crystal within a tolerance

Nothing here refers to the code.
-/

namespace Spec

/-- The relative positions differ by a lattice vector, up to `δ` in each coordinate. -/
def SamePlace (δ : ℚ) (p q : Fin 3 → ℚ) : Prop := ∀ k, ∃ n : ℤ, |p k - q k - n| ≤ δ

/-- `p ↦ s * p + t` moves each atom to an atom of the same name (`s = 1`: a translation, `s = -1`: an
inversion). -/
def IsMotion (δ : ℚ) (s : ℤ) (t : Fin 3 → ℚ) (atoms : List (String × (Fin 3 → ℚ))) : Prop :=
  ∀ a ∈ atoms, ∃ b ∈ atoms, b.1 = a.1 ∧ SamePlace δ (fun k => s * a.2 k + t k) b.2

/-- The translations of the centring of a conventional cell, modulo lattice vectors. -/
def centringVectors : Char → List (Fin 3 → ℚ)
  | 'P' => [![0, 0, 0]]
  | 'I' => [![0, 0, 0], ![1 / 2, 1 / 2, 1 / 2]]
  | 'F' => [![0, 0, 0], ![0, 1 / 2, 1 / 2], ![1 / 2, 0, 1 / 2], ![1 / 2, 1 / 2, 0]]
  | 'C' => [![0, 0, 0], ![1 / 2, 1 / 2, 0]]
  | 'A' => [![0, 0, 0], ![0, 1 / 2, 1 / 2]]
  | 'R' => [![0, 0, 0], ![2 / 3, 1 / 3, 1 / 3], ![1 / 3, 2 / 3, 2 / 3]]
  | _ => []

/-- Scalar product of two rows. -/
def rowDot (cell : Matrix (Fin 3) (Fin 3) ℚ) (i j : Fin 3) : ℚ := ∑ k, cell i k * cell j k

/-- The lattice vectors `i` and `j` are as long as each other, the squares up to a share `ε`. -/
def SameLength (ε : ℚ) (cell : Matrix (Fin 3) (Fin 3) ℚ) (i j : Fin 3) : Prop :=
  |rowDot cell i i - rowDot cell j j| ≤ ε * rowDot cell i i

/-- The cosine of the angle between the lattice vectors is at most `ε`. -/
def RightAngle (ε : ℚ) (cell : Matrix (Fin 3) (Fin 3) ℚ) (i j : Fin 3) : Prop :=
  rowDot cell i j ^ 2 ≤ ε ^ 2 * (rowDot cell i i * rowDot cell j j)

/-- The shape of the conventional cell of a crystal family. -/
def FamilyShape (ε : ℚ) (cell : Matrix (Fin 3) (Fin 3) ℚ) : Char → Prop
  | 'c' => SameLength ε cell 0 1 ∧ SameLength ε cell 0 2 ∧ RightAngle ε cell 0 1 ∧
      RightAngle ε cell 0 2 ∧ RightAngle ε cell 1 2
  | 't' => SameLength ε cell 0 1 ∧ RightAngle ε cell 0 1 ∧ RightAngle ε cell 0 2 ∧
      RightAngle ε cell 1 2
  | 'o' => RightAngle ε cell 0 1 ∧ RightAngle ε cell 0 2 ∧ RightAngle ε cell 1 2
  | 'h' => SameLength ε cell 0 1 ∧ |2 * rowDot cell 0 1 + rowDot cell 0 0| ≤ ε * rowDot cell 0 0 ∧
      RightAngle ε cell 0 2 ∧ RightAngle ε cell 1 2
  | 'm' => RightAngle ε cell 0 1 ∧ RightAngle ε cell 1 2
  | 'a' => True
  | _ => False

/-- Three vectors of one length with one angle between any two of them. -/
def RhombohedralShape (ε : ℚ) (cell : Matrix (Fin 3) (Fin 3) ℚ) : Prop :=
  SameLength ε cell 0 1 ∧ SameLength ε cell 0 2 ∧
    |rowDot cell 0 1 - rowDot cell 0 2| ≤ ε * rowDot cell 0 0 ∧
    |rowDot cell 0 1 - rowDot cell 1 2| ≤ ε * rowDot cell 0 0

end Spec
