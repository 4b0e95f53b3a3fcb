import Verif.Spec.Geometry
import Mathlib.Analysis.SpecialFunctions.Trigonometric.Basic

/-! # Specification vocabulary: Bravais lattice types and twofold axes -/

namespace Spec

/-- The names of the 14 Bravais lattice types (Setyawan and Curtarolo 2010, table 1). -/
def bravaisTypes : List String :=
  ["CUB", "FCC", "BCC", "TET", "BCT", "ORC", "ORCF", "ORCI", "ORCC", "HEX", "RHL", "MCL", "MCLC",
    "TRI"]

/-- The vector `x` turned by 180 degrees about the direction `d`. -/
noncomputable def halfTurn (d x : Fin 3 → ℝ) : Fin 3 → ℝ :=
  fun i => 2 * (dot x d / dot d d) * d i - x i

/-- The lattice of the cell is symmetric under the half turn about the direction `d`. -/
def TwofoldAxis (cell : Matrix (Fin 3) (Fin 3) ℝ) (d : Fin 3 → ℝ) : Prop :=
  d ≠ 0 ∧ ∀ x ∈ latticePoints cell, halfTurn d x ∈ latticePoints cell

/-- The quotient `x / y` of two lengths is away from `sqrt r`: `|(x/y) - r (y/x)|` is at least
`1 / n`. -/
def Away (n r x y : ℝ) : Prop := x * y ≤ n * |x ^ 2 - r * y ^ 2|

/-- The primitive cell of the face-centred lattice of a conventional cell `e`. -/
noncomputable def faceCentred (e : Matrix (Fin 3) (Fin 3) ℝ) : Matrix (Fin 3) (Fin 3) ℝ :=
  fun i => ![(1 / 2 : ℝ) • (e 1 + e 2), (1 / 2 : ℝ) • (e 0 + e 2), (1 / 2 : ℝ) • (e 0 + e 1)] i

/-- The primitive cell of the body-centred lattice of a conventional cell `e`. -/
noncomputable def bodyCentred (e : Matrix (Fin 3) (Fin 3) ℝ) : Matrix (Fin 3) (Fin 3) ℝ :=
  fun i => ![(1 / 2 : ℝ) • (e 1 + e 2 - e 0), (1 / 2 : ℝ) • (e 0 + e 2 - e 1),
    (1 / 2 : ℝ) • (e 0 + e 1 - e 2)] i

/-- The primitive cell of the base-centred lattice (with a point in the middle of the face of the
first two vectors) of a conventional cell `e`. -/
noncomputable def baseCentred (e : Matrix (Fin 3) (Fin 3) ℝ) : Matrix (Fin 3) (Fin 3) ℝ :=
  fun i => ![(1 / 2 : ℝ) • (e 0 - e 1), (1 / 2 : ℝ) • (e 0 + e 1), e 2] i

/-- All quotients of the lengths are at most `n`. -/
def Within (n : ℝ) (l : List ℝ) : Prop := ∀ x ∈ l, ∀ y ∈ l, 0 < x ∧ x ≤ n * y

/-- The lattice vector with the given indices. -/
def latticeVec (cell : Matrix (Fin 3) (Fin 3) ℝ) (n : Fin 3 → ℤ) : Fin 3 → ℝ :=
  fun j => ∑ i, (n i : ℝ) * cell i j

/-- Two vectors are along the same line. -/
def SameLine (x y : Fin 3 → ℝ) : Prop := dot x y ^ 2 = dot x x * dot y y

/-- The angle between the lines along two vectors is at least `d` degrees. -/
def AngleAtLeast (d : ℝ) (x y : Fin 3 → ℝ) : Prop :=
  dot x y ^ 2 ≤ Real.cos (d * (Real.pi / 180)) ^ 2 * (dot x x * dot y y)

/-- No pseudosymmetry: for indices in -2..2 with the product 2, the row of the lattice and the row
of the reciprocal lattice are either along the same line or at an angle of at least `d` degrees. -/
def NoPseudosymmetry (cell : Matrix (Fin 3) (Fin 3) ℝ) (d : ℝ) : Prop :=
  ∀ r : Matrix (Fin 3) (Fin 3) ℝ, (∀ i j, dot (r i) (cell j) = if i = j then 2 * Real.pi else 0) →
    ∀ u h : Fin 3 → ℤ, (∀ i, |u i| ≤ 2) → (∀ i, |h i| ≤ 2) → |∑ i, u i * h i| = 2 →
      SameLine (latticeVec cell u) (latticeVec r h) ∨
        AngleAtLeast d (latticeVec cell u) (latticeVec r h)

/-- The lattice vector `b` is not a multiple of a shorter one. -/
def Indivisible (cell : Matrix (Fin 3) (Fin 3) ℝ) (b : Fin 3 → ℝ) : Prop :=
  ∀ (k : ℤ), ∀ x ∈ latticePoints cell, b = (k : ℝ) • x → |k| = 1

/-- The direction of `b` is the only twofold axis (among those with indices in -2..2). -/
def OnlyAxis (cell : Matrix (Fin 3) (Fin 3) ℝ) (b : Fin 3 → ℝ) : Prop :=
  TwofoldAxis cell b ∧ ∀ u : Fin 3 → ℤ, (∀ i, |u i| ≤ 2) → TwofoldAxis cell (latticeVec cell u) →
    SameLine (latticeVec cell u) b

/-- The lattice consists of multiples of `b` and of vectors perpendicular to `b`: the conventional
monoclinic cell is primitive. -/
def PrimitiveAlong (cell : Matrix (Fin 3) (Fin 3) ℝ) (b : Fin 3 → ℝ) : Prop :=
  ∀ x ∈ latticePoints cell, ∃ m : ℤ, dot (x - (m : ℝ) • b) b = 0

end Spec
