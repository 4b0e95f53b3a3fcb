import Verif.Spec.Zone
import Mathlib.LinearAlgebra.Matrix.Determinant.Basic

/-!
# Specification vocabulary: where a point lies in the Brillouin zone

A named point is described by reciprocal lattice vectors, without any formula. A vector is given by
its three indices in the basis of the reciprocal primitive cell.
-/

namespace Spec

/-- The vector of the lattice with the given indices. -/
def gvec (r : Matrix (Fin 3) (Fin 3) ℝ) (n : ℤ × ℤ × ℤ) : Fin 3 → ℝ :=
  fun j => n.1 * r 0 j + n.2.1 * r 1 j + n.2.2 * r 2 j

/-- `v` is as far from the vector as from the origin. -/
def Equidistant (r : Matrix (Fin 3) (Fin 3) ℝ) (n : ℤ × ℤ × ℤ) (v : Fin 3 → ℝ) : Prop :=
  dot v v = dot (v - gvec r n) (v - gvec r n)

/-- The place of a point. -/
inductive Where
  /-- The origin. -/
  | origin
  /-- Half of the vector, the centre of a face. -/
  | half (g : ℤ × ℤ × ℤ)
  /-- The centre of the circle through the origin and two vectors. -/
  | edge (g h : ℤ × ℤ × ℤ)
  /-- The centre of the sphere through the origin and three vectors, a corner. -/
  | vertex (g h k : ℤ × ℤ × ℤ)
  /-- The middle of two corners. -/
  | between (g h k g' h' k' : ℤ × ℤ × ℤ)

/-- `v` is at the place. -/
def Where.At (r : Matrix (Fin 3) (Fin 3) ℝ) : Where → (Fin 3 → ℝ) → Prop
  | .origin, v => v = 0
  | .half g, v => v = (1 / 2 : ℝ) • gvec r g
  | .edge g h, v => Equidistant r g v ∧ Equidistant r h v ∧
      (Matrix.of ![v, gvec r g, gvec r h]).det = 0
  | .vertex g h k, v => Equidistant r g v ∧ Equidistant r h v ∧ Equidistant r k v
  | .between g h k g' h' k', v => ∃ x y, (Equidistant r g x ∧ Equidistant r h x ∧
      Equidistant r k x) ∧ (Equidistant r g' y ∧ Equidistant r h' y ∧ Equidistant r k' y) ∧
      v = (1 / 2 : ℝ) • (x + y)

/-- The points of `cP1` and `cP2`. -/
def atCP : List (String × Option Where) := [
  ("GAMMA", some .origin),
  ("R", some (.half (1, 1, 1))),
  ("M", some (.half (1, 1, 0))),
  ("X", some (.half (0, 1, 0))),
  ("X1", some (.half (1, 0, 0)))]

/-- The points of `cF1` and `cF2`. -/
def atCF : List (String × Option Where) := [
  ("GAMMA", some .origin),
  ("X", some (.half (1, 0, 1))),
  ("L", some (.half (1, 1, 1))),
  ("W", some (.vertex (1, 1, 1) (0, 0, 1) (1, 0, 1))),
  ("W2", some (.vertex (1, 1, 1) (1, 0, 0) (1, 0, 1))),
  ("K", some (.edge (1, 1, 1) (0, 0, 1))),
  ("U", some (.edge (1, 1, 1) (1, 0, 1)))]

/-- The points of `cI1`. -/
def atCI : List (String × Option Where) := [
  ("GAMMA", some .origin),
  ("H", some (.half (1, -1, 1))),
  ("P", some (.vertex (1, 0, 0) (0, 1, 0) (0, 0, 1))),
  ("N", some (.half (0, 0, 1)))]

/-- The points of `tP1`. -/
def atTP : List (String × Option Where) := [
  ("GAMMA", some .origin),
  ("Z", some (.half (0, 0, 1))),
  ("M", some (.half (1, 1, 0))),
  ("A", some (.half (1, 1, 1))),
  ("R", some (.half (0, 1, 1))),
  ("X", some (.half (0, 1, 0)))]

/-- The points of `tI1`. -/
def atTI1 : List (String × Option Where) := [
  ("GAMMA", some .origin),
  ("M", some (.half (-1, 1, 1))),
  ("X", some (.half (0, 0, 1))),
  ("P", some (.vertex (0, 0, 1) (1, 0, 0) (0, 1, 0))),
  ("Z", some (.edge (1, 0, 0) (0, 1, -1))),
  ("Z0", some (.edge (0, 1, 0) (-1, 1, 1))),
  ("N", some (.half (0, 1, 0)))]

/-- The points of `tI2`. -/
def atTI2 : List (String × Option Where) := [
  ("GAMMA", some .origin),
  ("M", some (.half (1, 1, -1))),
  ("X", some (.half (0, 0, 1))),
  ("P", some (.vertex (1, 0, 0) (0, 1, 0) (0, 0, 1))),
  ("N", some (.half (0, 1, 0))),
  ("S0", some (.edge (0, 1, 0) (-1, 0, 1))),
  ("S", some (.edge (0, 1, 0) (1, 1, -1))),
  ("R", some (.vertex (0, 1, 0) (-1, 0, 1) (0, 0, 1))),
  ("G", some (.vertex (1, 0, 0) (0, 1, 0) (1, 1, -1)))]

/-- The points of `oP1`. -/
def atOP : List (String × Option Where) := [
  ("GAMMA", some .origin),
  ("X", some (.half (1, 0, 0))),
  ("Z", some (.half (0, 0, 1))),
  ("U", some (.half (1, 0, 1))),
  ("Y", some (.half (0, 1, 0))),
  ("S", some (.half (1, 1, 0))),
  ("T", some (.half (0, 1, 1))),
  ("R", some (.half (1, 1, 1)))]

/-- The points of `oF1`. -/
def atOF1 : List (String × Option Where) := [
  ("GAMMA", some .origin),
  ("T", some (.half (2, 1, 1))),
  ("Z", some (.half (1, 1, 0))),
  ("Y", some (.half (1, 0, 1))),
  ("SIGMA0", some (.edge (1, 1, 1) (-1, 0, 0))),
  ("U0", some (.edge (1, 1, 1) (2, 1, 1))),
  ("A0", some (.vertex (1, 1, 0) (1, 1, 1) (0, 1, 0))),
  ("C0", some (.vertex (1, 0, 1) (1, 1, 1) (0, 0, 1))),
  ("L", some (.half (1, 1, 1)))]

/-- The points of `oF2`. -/
def atOF2 : List (String × Option Where) := [
  ("GAMMA", some .origin),
  ("T", some (.half (0, 1, 1))),
  ("Z", some (.half (1, 1, 2))),
  ("Y", some (.half (1, 0, 1))),
  ("LAMBDA0", some (.edge (1, 1, 1) (0, 0, -1))),
  ("Q0", some (.edge (1, 1, 1) (1, 1, 2))),
  ("G0", some (.vertex (0, 1, 1) (1, 1, 1) (0, 1, 0))),
  ("H0", some (.vertex (1, 0, 1) (1, 1, 1) (1, 0, 0))),
  ("L", some (.half (1, 1, 1)))]

/-- The points of `oF3`. -/
def atOF3 : List (String × Option Where) := [
  ("GAMMA", some .origin),
  ("T", some (.half (0, 1, 1))),
  ("Z", some (.half (1, 1, 0))),
  ("Y", some (.half (1, 0, 1))),
  ("A0", some (.vertex (1, 1, 0) (1, 1, 1) (0, 1, 0))),
  ("C0", some (.vertex (1, 1, 1) (0, 0, 1) (1, 0, 1))),
  ("B0", some (.vertex (1, 1, 0) (1, 1, 1) (1, 0, 0))),
  ("D0", some (.vertex (1, 1, 1) (0, 0, 1) (0, 1, 1))),
  ("G0", some (.vertex (1, 1, 1) (0, 1, 0) (0, 1, 1))),
  ("H0", some (.vertex (1, 1, 1) (1, 0, 0) (1, 0, 1))),
  ("L", some (.half (1, 1, 1)))]

/-- The points of `oI1`. -/
def atOI1 : List (String × Option Where) := [
  ("GAMMA", some .origin),
  ("X", some (.half (1, 1, -1))),
  ("S", some (.half (1, 0, 0))),
  ("R", some (.half (0, 1, 0))),
  ("T", some (.half (0, 0, 1))),
  ("W", some (.vertex (1, 0, 0) (0, 1, 0) (0, 0, 1))),
  ("SIGMA0", some (.edge (0, 1, 0) (-1, 0, 1))),
  ("F2", some (.edge (0, 1, 0) (1, 1, -1))),
  ("Y0", some (.edge (0, -1, 1) (1, 0, 0))),
  ("U0", some (.edge (1, 0, 0) (1, 1, -1))),
  ("L0", some (.vertex (0, 1, 0) (-1, 0, 1) (0, 0, 1))),
  ("M0", some (.vertex (0, -1, 1) (1, 0, 0) (0, 0, 1))),
  ("J0", some (.vertex (1, 0, 0) (0, 1, 0) (1, 1, -1)))]

/-- The points of `oI2`. -/
def atOI2 : List (String × Option Where) := [
  ("GAMMA", some .origin),
  ("X", some (.half (-1, 1, 1))),
  ("S", some (.half (1, 0, 0))),
  ("R", some (.half (0, 1, 0))),
  ("T", some (.half (0, 0, 1))),
  ("W", some (.vertex (0, 1, 0) (0, 0, 1) (1, 0, 0))),
  ("Y0", some (.edge (1, -1, 0) (0, 0, 1))),
  ("U2", some (.edge (0, 0, 1) (-1, 1, 1))),
  ("LAMBDA0", some (.edge (1, 0, -1) (0, 1, 0))),
  ("G2", some (.edge (0, 1, 0) (-1, 1, 1))),
  ("K", some (.vertex (1, -1, 0) (0, 0, 1) (1, 0, 0))),
  ("K2", some (.vertex (1, 0, -1) (0, 1, 0) (1, 0, 0))),
  ("K4", some (.vertex (0, 1, 0) (0, 0, 1) (-1, 1, 1)))]

/-- The points of `oI3`. -/
def atOI3 : List (String × Option Where) := [
  ("GAMMA", some .origin),
  ("X", some (.half (1, -1, 1))),
  ("S", some (.half (1, 0, 0))),
  ("R", some (.half (0, 1, 0))),
  ("T", some (.half (0, 0, 1))),
  ("W", some (.vertex (1, 0, 0) (0, 0, 1) (0, 1, 0))),
  ("SIGMA0", some (.edge (0, 0, 1) (-1, 1, 0))),
  ("F0", some (.edge (0, 0, 1) (1, -1, 1))),
  ("LAMBDA0", some (.edge (0, 1, -1) (1, 0, 0))),
  ("G0", some (.edge (1, 0, 0) (1, -1, 1))),
  ("V0", some (.vertex (0, 1, -1) (1, 0, 0) (0, 1, 0))),
  ("H0", some (.vertex (0, 0, 1) (-1, 1, 0) (0, 1, 0))),
  ("H2", some (.vertex (1, 0, 0) (0, 0, 1) (1, -1, 1)))]

/-- The points of `oC1`. -/
def atOC1 : List (String × Option Where) := [
  ("GAMMA", some .origin),
  ("Y", some (.half (-1, 1, 0))),
  ("T", some (.half (-1, 1, 1))),
  ("Z", some (.half (0, 0, 1))),
  ("S", some (.half (0, 1, 0))),
  ("R", some (.half (0, 1, 1))),
  ("SIGMA0", some (.edge (1, 0, 0) (0, 1, 0))),
  ("C0", some (.edge (0, 1, 0) (-1, 1, 0))),
  ("A0", some (.vertex (0, 0, 1) (1, 0, 0) (0, 1, 0))),
  ("E0", some (.vertex (0, 0, 1) (0, 1, 0) (-1, 1, 0)))]

/-- The points of `oC2`. -/
def atOC2 : List (String × Option Where) := [
  ("GAMMA", some .origin),
  ("Y", some (.half (1, 1, 0))),
  ("T", some (.half (1, 1, 1))),
  ("T2", some (.half (1, 1, -1))),
  ("Z", some (.half (0, 0, 1))),
  ("Z2", some (.half (0, 0, -1))),
  ("S", some (.half (0, 1, 0))),
  ("R", some (.half (0, 1, 1))),
  ("R2", some (.half (0, 1, -1))),
  ("DELTA0", some (.edge (0, 1, 0) (-1, 0, 0))),
  ("F0", some (.edge (0, 1, 0) (1, 1, 0))),
  ("B0", some (.vertex (0, 0, 1) (0, 1, 0) (-1, 0, 0))),
  ("B2", some (.vertex (0, 0, -1) (0, 1, 0) (-1, 0, 0))),
  ("G0", some (.vertex (0, 0, 1) (0, 1, 0) (1, 1, 0))),
  ("G2", some (.vertex (0, 0, -1) (0, 1, 0) (1, 1, 0)))]

/-- The points of `oA1`. -/
def atOA1 : List (String × Option Where) := [
  ("GAMMA", some .origin),
  ("Y", some (.half (-1, 1, 0))),
  ("T", some (.half (-1, 1, 1))),
  ("Z", some (.half (0, 0, 1))),
  ("S", some (.half (0, 1, 0))),
  ("R", some (.half (0, 1, 1))),
  ("SIGMA0", some (.edge (1, 0, 0) (0, 1, 0))),
  ("C0", some (.edge (0, 1, 0) (-1, 1, 0))),
  ("A0", some (.vertex (0, 0, 1) (1, 0, 0) (0, 1, 0))),
  ("E0", some (.vertex (0, 0, 1) (0, 1, 0) (-1, 1, 0)))]

/-- The points of `oA2`. -/
def atOA2 : List (String × Option Where) := [
  ("GAMMA", some .origin),
  ("Y", some (.half (1, 1, 0))),
  ("T", some (.half (1, 1, 1))),
  ("T2", some (.half (1, 1, -1))),
  ("Z", some (.half (0, 0, 1))),
  ("Z2", some (.half (0, 0, -1))),
  ("S", some (.half (0, 1, 0))),
  ("R", some (.half (0, 1, 1))),
  ("R2", some (.half (0, 1, -1))),
  ("DELTA0", some (.edge (0, 1, 0) (-1, 0, 0))),
  ("F0", some (.edge (0, 1, 0) (1, 1, 0))),
  ("B0", some (.vertex (0, 0, 1) (0, 1, 0) (-1, 0, 0))),
  ("B2", some (.vertex (0, 0, -1) (0, 1, 0) (-1, 0, 0))),
  ("G0", some (.vertex (0, 0, 1) (0, 1, 0) (1, 1, 0))),
  ("G2", some (.vertex (0, 0, -1) (0, 1, 0) (1, 1, 0)))]

/-- The points of `hP1` and `hP2`. -/
def atHP : List (String × Option Where) := [
  ("GAMMA", some .origin),
  ("A", some (.half (0, 0, 1))),
  ("K", some (.edge (1, 0, 0) (0, 1, 0))),
  ("H", some (.vertex (0, 0, 1) (1, 0, 0) (0, 1, 0))),
  ("H2", some (.vertex (0, 0, -1) (1, 0, 0) (0, 1, 0))),
  ("M", some (.half (1, 0, 0))),
  ("L", some (.half (1, 0, 1)))]

/-- The points of `hR1`. -/
def atHR1 : List (String × Option Where) := [
  ("GAMMA", some .origin),
  ("T", some (.half (1, 1, 1))),
  ("L", some (.half (1, 0, 0))),
  ("L2", some (.half (0, -1, 0))),
  ("L4", some (.half (0, 0, -1))),
  ("F", some (.half (1, 0, 1))),
  ("F2", some (.half (1, 1, 0))),
  ("S0", some (.edge (1, 0, 0) (0, -1, 0))),
  ("S2", some (.edge (1, 0, 0) (1, 0, 1))),
  ("S4", some (.edge (1, 0, 0) (0, 0, -1))),
  ("S6", some (.edge (1, 0, 0) (1, 1, 0))),
  ("H0", some (.vertex (1, 0, 0) (0, -1, 0) (1, 0, 1))),
  ("H2", some (.vertex (1, 0, 0) (1, 0, 1) (1, 1, 1))),
  ("H4", some (.vertex (1, 0, 0) (1, 1, 0) (1, 1, 1))),
  ("H6", some (.vertex (1, 0, 0) (0, 0, -1) (1, 1, 0))),
  ("M0", some (.edge (0, -1, 0) (1, 0, 1))),
  ("M2", some (.edge (1, 0, 1) (1, 1, 1))),
  ("M4", some (.edge (1, 0, 0) (1, 1, 1))),
  ("M6", some (.edge (1, 1, 0) (1, 1, 1))),
  ("M8", some (.edge (0, 0, -1) (1, 1, 0)))]

/-- The points of `hR2`. -/
def atHR2 : List (String × Option Where) := [
  ("GAMMA", some .origin),
  ("T", some (.half (1, -1, 1))),
  ("P0", some (.vertex (0, -1, 0) (1, -1, 0) (0, -1, 1))),
  ("P2", some (.vertex (1, 0, 0) (0, 1, 0) (0, 0, 1))),
  ("R0", some (.vertex (1, 0, 0) (1, 0, -1) (1, -1, 0))),
  ("M", some (.between (0, -1, 1) (1, -1, 0) (0, -1, 0) (0, -1, 1) (1, -1, 0) (0, 0, 1))),
  ("M2", some (.between (1, -1, 0) (1, 0, -1) (0, -1, 0) (1, -1, 0) (1, 0, -1) (1, 0, 0))),
  ("L", some (.half (1, 0, 0))),
  ("F", some (.half (1, -1, 0)))]

/-- The points of `mP1`. -/
def atMP : List (String × Option Where) := [
  ("GAMMA", some .origin),
  ("Z", some (.half (0, 1, 0))),
  ("B", some (.half (0, 0, 1))),
  ("B2", some (.half (0, 0, -1))),
  ("Y", some (.half (1, 0, 0))),
  ("Y2", some (.half (-1, 0, 0))),
  ("C", some (.half (1, 1, 0))),
  ("C2", some (.half (-1, 1, 0))),
  ("D", some (.half (0, 1, 1))),
  ("D2", some (.half (0, 1, -1))),
  ("A", some (.half (-1, 0, 1))),
  ("E", some (.half (-1, 1, 1))),
  ("H", some (.edge (0, 0, 1) (-1, 0, 1))),
  ("H2", some (.edge (-1, 0, 0) (-1, 0, 1))),
  ("H4", some (.edge (0, 0, -1) (-1, 0, 0))),
  ("M", some (.vertex (0, 0, 1) (0, 1, 0) (-1, 0, 1))),
  ("M2", some (.vertex (0, 1, 0) (-1, 0, 0) (-1, 0, 1))),
  ("M4", some (.vertex (0, 0, -1) (0, 1, 0) (-1, 0, 0)))]

/-- The points of `mC1`. -/
def atMC1 : List (String × Option Where) := [
  ("GAMMA", some .origin),
  ("Y2", some (.half (-1, 1, 0))),
  ("Y4", some (.half (1, -1, 0))),
  ("A", some (.half (0, 0, 1))),
  ("M2", some (.half (-1, 1, 1))),
  ("V", some (.half (1, 0, 0))),
  ("V2", some (.half (0, 1, 0))),
  ("L2", some (.half (0, 1, 1))),
  ("C", some (.edge (1, 0, 0) (0, 1, 0))),
  ("C2", some (.edge (0, 1, 0) (-1, 1, 0))),
  ("C4", some (.edge (1, 0, 0) (1, -1, 0))),
  ("D", some (.vertex (0, 1, 0) (0, 1, 1) (-1, 1, 1))),
  ("D2", some (.vertex (0, 0, 1) (1, 0, 0) (0, 1, 1))),
  ("E", some (.edge (-1, 1, 0) (-1, 1, 1))),
  ("E2", some (.edge (0, 0, 1) (-1, 1, 1))),
  ("E4", some (.edge (0, 0, 1) (1, -1, 0)))]

/-- The points of `mC2`. -/
def atMC2 : List (String × Option Where) := [
  ("GAMMA", some .origin),
  ("Y", some (.half (1, 1, 0))),
  ("A", some (.half (0, 0, 1))),
  ("M", some (.half (1, 1, 1))),
  ("V2", some (.half (0, 1, 0))),
  ("L2", some (.half (0, 1, 1))),
  ("F", some (.vertex (0, 1, 0) (-1, 0, 0) (0, 1, 1))),
  ("F2", some (.vertex (0, 0, 1) (0, 1, 1) (1, 1, 0))),
  ("F4", some (.vertex (0, 0, 1) (1, 0, 0) (1, 1, 0))),
  ("H", some (.vertex (0, 0, 1) (0, 1, 1) (-1, 0, 1))),
  ("H2", some (.vertex (0, 1, 0) (0, 1, 1) (1, 1, 0))),
  ("H4", some (.vertex (0, 0, 1) (1, 0, 0) (0, -1, 0))),
  ("G", some (.between (-1, 0, 0) (0, 1, 0) (-1, 0, 1) (-1, 0, 0) (0, 1, 0) (0, 0, -1))),
  ("G2", some (.between (0, 1, 0) (1, 1, 0) (0, 0, -1) (0, 1, 0) (1, 1, 0) (0, 1, 1))),
  ("G4", some (.between (0, -1, 0) (1, 0, 0) (0, -1, -1) (0, -1, 0) (1, 0, 0) (0, 0, 1))),
  ("G6", some (.between (1, 0, 0) (1, 1, 0) (0, 0, 1) (1, 0, 0) (1, 1, 0) (1, 0, -1)))]

/-- The points of `mC3`. -/
def atMC3 : List (String × Option Where) := [
  ("GAMMA", some .origin),
  ("Y", some (.half (1, 1, 0))),
  ("A", some (.half (0, 0, 1))),
  ("M2", some (.half (-1, 1, 1))),
  ("V", some (.half (1, 0, 0))),
  ("V2", some (.half (0, 1, 0))),
  ("L2", some (.half (0, 1, 1))),
  ("I", some (.vertex (0, 1, 0) (0, 1, 1) (-1, 1, 1))),
  ("I2", some (.vertex (1, 0, 0) (0, 0, 1) (0, 1, 1))),
  ("K", some (.vertex (0, 1, 0) (-1, 0, 0) (-1, 1, 1))),
  ("K2", some (.vertex (0, 1, 1) (-1, 0, 1) (-1, 1, 1))),
  ("K4", some (.vertex (1, 0, 0) (0, 1, 1) (1, 1, 0))),
  ("H", some (.vertex (0, 0, 1) (0, 1, 1) (-1, 0, 1))),
  ("H2", some (.vertex (0, 1, 0) (0, 1, 1) (1, 1, 0))),
  ("H4", some (.vertex (1, 0, 0) (0, -1, 0) (0, 0, 1))),
  ("N", some (.between (-1, 0, 0) (0, 1, 0) (-1, 1, 1) (-1, 0, 0) (0, 1, 0) (0, 0, -1))),
  ("N2", some (.between (0, 1, 0) (1, 1, 0) (0, 1, 1) (0, 1, 0) (1, 1, 0) (1, 0, -1))),
  ("N4", some (.between (0, -1, 0) (1, 0, 0) (0, 0, 1) (0, -1, 0) (1, 0, 0) (1, -1, -1))),
  ("N6", some (.between (1, 0, 0) (1, 1, 0) (0, 1, 1) (1, 0, 0) (1, 1, 0) (1, 0, -1)))]

/-- The points of `aP2`. -/
def atAP2 : List (String × Option Where) := [
  ("GAMMA", some .origin),
  ("Z", none),
  ("Y", some (.half (0, 1, 0))),
  ("X", some (.half (1, 0, 0))),
  ("V", some (.half (1, 1, 0))),
  ("U", some (.half (1, 0, 1))),
  ("T", some (.half (0, 1, 1))),
  ("R", some (.half (1, 1, 1)))]

/-- The points of `aP3`. -/
def atAP3 : List (String × Option Where) := [
  ("GAMMA", some .origin),
  ("Z", some (.half (0, 0, 1))),
  ("Y", some (.half (0, 1, 0))),
  ("Y2", some (.half (0, -1, 0))),
  ("X", some (.half (1, 0, 0))),
  ("V2", some (.half (1, -1, 0))),
  ("U2", some (.half (-1, 0, 1))),
  ("T2", some (.half (0, -1, 1))),
  ("R2", some (.half (-1, -1, 1)))]

/-- The points of `CUB`. -/
def atCUB : List (String × Option Where) := [
  ("GAMMA", some .origin),
  ("M", some (.half (1, 1, 0))),
  ("R", some (.half (1, 1, 1))),
  ("X", some (.half (0, 1, 0)))]

/-- The points of `FCC`. -/
def atFCC : List (String × Option Where) := [
  ("GAMMA", some .origin),
  ("K", some (.edge (1, 1, 1) (0, 0, 1))),
  ("L", some (.half (1, 1, 1))),
  ("U", some (.edge (1, 1, 1) (1, 0, 1))),
  ("W", some (.vertex (1, 1, 1) (0, 0, 1) (1, 0, 1))),
  ("X", some (.half (1, 0, 1)))]

/-- The points of `BCC`. -/
def atBCC : List (String × Option Where) := [
  ("GAMMA", some .origin),
  ("H", some (.half (1, -1, 1))),
  ("P", some (.vertex (1, 0, 0) (0, 1, 0) (0, 0, 1))),
  ("N", some (.half (0, 0, 1)))]

/-- The points of `TET`. -/
def atTET : List (String × Option Where) := [
  ("GAMMA", some .origin),
  ("A", some (.half (1, 1, 1))),
  ("M", some (.half (1, 1, 0))),
  ("R", some (.half (0, 1, 1))),
  ("X", some (.half (0, 1, 0))),
  ("Z", some (.half (0, 0, 1)))]

/-- The points of `BCT1`. -/
def atBCT1 : List (String × Option Where) := [
  ("GAMMA", some .origin),
  ("M", some (.half (-1, 1, 1))),
  ("N", some (.half (0, 1, 0))),
  ("P", some (.vertex (0, 0, 1) (1, 0, 0) (0, 1, 0))),
  ("X", some (.half (0, 0, 1))),
  ("Z", some (.edge (1, 0, 0) (0, 1, -1))),
  ("Z1", some (.edge (0, 1, 0) (-1, 1, 1)))]

/-- The points of `BCT2`. -/
def atBCT2 : List (String × Option Where) := [
  ("GAMMA", some .origin),
  ("N", some (.half (0, 1, 0))),
  ("P", some (.vertex (1, 0, 0) (0, 1, 0) (0, 0, 1))),
  ("SIGMA", some (.edge (0, 1, 0) (-1, 0, 1))),
  ("SIGMA1", some (.edge (0, 1, 0) (1, 1, -1))),
  ("X", some (.half (0, 0, 1))),
  ("Y", some (.vertex (0, 1, 0) (-1, 0, 1) (0, 0, 1))),
  ("Y1", some (.vertex (1, 0, 0) (0, 1, 0) (1, 1, -1))),
  ("Z", some (.half (1, 1, -1)))]

/-- The points of `ORC`. -/
def atORC : List (String × Option Where) := [
  ("GAMMA", some .origin),
  ("R", some (.half (1, 1, 1))),
  ("S", some (.half (1, 1, 0))),
  ("T", some (.half (0, 1, 1))),
  ("U", some (.half (1, 0, 1))),
  ("X", some (.half (1, 0, 0))),
  ("Y", some (.half (0, 1, 0))),
  ("Z", some (.half (0, 0, 1)))]

/-- The points of `ORCF1` and `ORCF3`. -/
def atORCF1 : List (String × Option Where) := [
  ("GAMMA", some .origin),
  ("A", some (.vertex (1, 1, 0) (1, 1, 1) (0, 1, 0))),
  ("A1", some (.vertex (1, 0, 1) (1, 1, 1) (0, 0, 1))),
  ("L", some (.half (1, 1, 1))),
  ("T", some (.half (2, 1, 1))),
  ("X", some (.edge (1, 1, 1) (-1, 0, 0))),
  ("X1", some (.edge (1, 1, 1) (2, 1, 1))),
  ("Y", some (.half (1, 0, 1))),
  ("Z", some (.half (1, 1, 0)))]

/-- The points of `ORCF2`. -/
def atORCF2 : List (String × Option Where) := [
  ("GAMMA", some .origin),
  ("C", some (.vertex (1, 1, 1) (0, 0, 1) (1, 0, 1))),
  ("C1", some (.vertex (1, 1, 0) (1, 1, 1) (0, 1, 0))),
  ("D", some (.vertex (1, 1, 1) (0, 0, 1) (0, 1, 1))),
  ("D1", some (.vertex (1, 1, 0) (1, 1, 1) (1, 0, 0))),
  ("L", some (.half (1, 1, 1))),
  ("H", some (.vertex (1, 1, 1) (1, 0, 0) (1, 0, 1))),
  ("H1", some (.vertex (1, 1, 1) (0, 1, 0) (0, 1, 1))),
  ("X", some (.half (0, 1, 1))),
  ("Y", some (.half (1, 0, 1))),
  ("Z", some (.half (1, 1, 0)))]

/-- The points of `ORCI`. -/
def atORCI : List (String × Option Where) := [
  ("GAMMA", some .origin),
  ("L", some (.vertex (0, 1, 0) (-1, 0, 1) (0, 0, 1))),
  ("L1", some (.vertex (0, -1, 1) (1, 0, 0) (0, 0, 1))),
  ("L2", some (.vertex (1, 0, 0) (0, 1, 0) (1, 1, -1))),
  ("R", some (.half (0, 1, 0))),
  ("S", some (.half (1, 0, 0))),
  ("T", some (.half (0, 0, 1))),
  ("W", some (.vertex (1, 0, 0) (0, 1, 0) (0, 0, 1))),
  ("X", some (.edge (0, 1, 0) (-1, 0, 1))),
  ("X1", some (.edge (0, 1, 0) (1, 1, -1))),
  ("Y", some (.edge (0, -1, 1) (1, 0, 0))),
  ("Y1", some (.edge (1, 0, 0) (1, 1, -1))),
  ("Z", some (.half (1, 1, -1)))]

/-- The points of `ORCC`. -/
def atORCC : List (String × Option Where) := [
  ("GAMMA", some .origin),
  ("A", some (.vertex (0, 0, 1) (1, 0, 0) (0, 1, 0))),
  ("A1", some (.vertex (0, 0, 1) (0, 1, 0) (-1, 1, 0))),
  ("R", some (.half (0, 1, 1))),
  ("S", some (.half (0, 1, 0))),
  ("T", some (.half (-1, 1, 1))),
  ("X", some (.edge (1, 0, 0) (0, 1, 0))),
  ("X1", some (.edge (0, 1, 0) (-1, 1, 0))),
  ("Y", some (.half (-1, 1, 0))),
  ("Z", some (.half (0, 0, 1)))]

/-- The points of `HEX`. -/
def atHEX : List (String × Option Where) := [
  ("GAMMA", some .origin),
  ("A", some (.half (0, 0, 1))),
  ("H", some (.vertex (0, 0, 1) (1, 0, 0) (0, 1, 0))),
  ("K", some (.edge (1, 0, 0) (0, 1, 0))),
  ("L", some (.half (1, 0, 1))),
  ("M", some (.half (1, 0, 0)))]

/-- The points of `RHL1`. -/
def atRHL1 : List (String × Option Where) := [
  ("GAMMA", some .origin),
  ("B", some (.vertex (1, 0, 0) (1, 1, 0) (1, 1, 1))),
  ("B1", some (.vertex (1, 0, 0) (0, 0, -1) (1, 1, 0))),
  ("F", some (.half (1, 1, 0))),
  ("L", some (.half (1, 0, 0))),
  ("L1", some (.half (0, 0, -1))),
  ("P", some (.edge (1, 0, 0) (1, 1, 1))),
  ("P1", some (.edge (1, 1, 0) (1, 1, 1))),
  ("P2", some (.edge (0, 0, -1) (1, 1, 0))),
  ("Q", some (.edge (1, 0, 0) (1, 1, 0))),
  ("X", some (.edge (1, 0, 0) (0, 0, -1))),
  ("Z", some (.half (1, 1, 1)))]

/-- The points of `RHL2`. -/
def atRHL2 : List (String × Option Where) := [
  ("GAMMA", some .origin),
  ("F", some (.half (1, -1, 0))),
  ("L", some (.half (1, 0, 0))),
  ("P", some (.between (0, -1, 1) (1, -1, 0) (0, -1, 0) (0, -1, 1) (1, -1, 0) (0, 0, 1))),
  ("P1", some (.between (1, -1, 0) (1, 0, -1) (0, -1, 0) (1, -1, 0) (1, 0, -1) (1, 0, 0))),
  ("Q", some (.vertex (1, 0, 0) (0, 1, 0) (0, 0, 1))),
  ("Q1", some (.vertex (1, 0, 0) (1, 0, -1) (1, -1, 0))),
  ("Z", some (.half (1, -1, 1)))]

/-- The points of `MCL`. -/
def atMCL : List (String × Option Where) := [
  ("GAMMA", some .origin),
  ("A", some (.half (1, 1, 0))),
  ("C", some (.half (0, 1, 1))),
  ("D", some (.half (1, 0, 1))),
  ("D1", some (.half (1, 0, -1))),
  ("E", some (.half (1, 1, 1))),
  ("H", some (.edge (0, 0, 1) (0, 1, 1))),
  ("H1", some (.edge (0, 1, 0) (0, 1, 1))),
  ("H2", some (.edge (0, 0, -1) (0, 1, 0))),
  ("M", some (.vertex (0, 0, 1) (0, 1, 1) (1, 0, 0))),
  ("M1", some (.vertex (0, 1, 0) (0, 1, 1) (1, 0, 0))),
  ("M2", some (.vertex (0, 0, -1) (0, 1, 0) (1, 0, 0))),
  ("X", some (.half (0, 1, 0))),
  ("Y", some (.half (0, 0, 1))),
  ("Y1", some (.half (0, 0, -1))),
  ("Z", some (.half (1, 0, 0)))]

/-- The points of `MCLC1` and `MCLC2`. -/
def atMCLC1 : List (String × Option Where) := [
  ("GAMMA", some .origin),
  ("N", some (.half (1, 0, 0))),
  ("N1", some (.half (0, -1, 0))),
  ("F", some (.edge (1, 1, 0) (1, 1, 1))),
  ("F1", some (.edge (0, 0, 1) (1, 1, 1))),
  ("F2", some (.edge (0, 0, 1) (-1, -1, 0))),
  ("F3", none),
  ("I", some (.vertex (1, 0, 0) (1, 0, 1) (1, 1, 1))),
  ("I1", some (.vertex (0, 0, 1) (0, -1, 0) (1, 0, 1))),
  ("L", some (.half (1, 1, 1))),
  ("M", some (.half (1, 0, 1))),
  ("X", some (.edge (1, 0, 0) (0, -1, 0))),
  ("X1", some (.edge (1, 0, 0) (1, 1, 0))),
  ("X2", some (.edge (0, -1, 0) (-1, -1, 0))),
  ("Y", some (.half (1, 1, 0))),
  ("Y1", some (.half (-1, -1, 0))),
  ("Z", some (.half (0, 0, 1)))]

/-- The points of `MCLC3` and `MCLC4`. -/
def atMCLC3 : List (String × Option Where) := [
  ("GAMMA", some .origin),
  ("F", some (.vertex (1, 0, 0) (0, 1, 0) (1, 0, 1))),
  ("F1", some (.vertex (0, 0, 1) (1, 0, 1) (1, -1, 0))),
  ("F2", some (.vertex (0, 0, 1) (0, -1, 0) (1, -1, 0))),
  ("H", some (.vertex (0, 0, 1) (1, 0, 1) (0, 1, 1))),
  ("H1", some (.vertex (1, 0, 0) (1, 0, 1) (1, -1, 0))),
  ("H2", some (.vertex (0, 0, 1) (0, -1, 0) (-1, 0, 0))),
  ("I", some (.half (1, -1, 1))),
  ("M", some (.half (1, 0, 1))),
  ("N", some (.half (1, 0, 0))),
  ("N1", some (.half (0, -1, 0))),
  ("X", some (.half (1, -1, 0))),
  ("Y", some (.between (0, 1, 0) (1, 0, 0) (0, 0, -1) (0, 1, 0) (1, 0, 0) (0, 1, 1))),
  ("Y1", some (.between (1, -1, 0) (1, 0, 0) (0, 0, -1) (1, -1, 0) (1, 0, 0) (1, 0, 1))),
  ("Y2", some (.between (-1, 0, 0) (0, -1, 0) (-1, 0, -1) (-1, 0, 0) (0, -1, 0) (0, 0, 1))),
  ("Y3", some (.between (0, -1, 0) (1, -1, 0) (0, -1, -1) (0, -1, 0) (1, -1, 0) (0, 0, 1))),
  ("Z", some (.half (0, 0, 1)))]

/-- The points of `MCLC5`. -/
def atMCLC5 : List (String × Option Where) := [
  ("GAMMA", some .origin),
  ("F", some (.vertex (1, 0, 0) (0, 1, 0) (1, 1, 1))),
  ("F1", some (.vertex (1, 0, 1) (0, 1, 1) (1, 1, 1))),
  ("F2", some (.vertex (0, -1, 0) (1, 0, 1) (1, -1, 0))),
  ("H", some (.vertex (0, 0, 1) (1, 0, 1) (0, 1, 1))),
  ("H1", some (.vertex (1, 0, 0) (1, 0, 1) (1, -1, 0))),
  ("H2", some (.vertex (0, -1, 0) (-1, 0, 0) (0, 0, 1))),
  ("I", some (.vertex (1, 0, 0) (1, 0, 1) (1, 1, 1))),
  ("I1", some (.vertex (0, -1, 0) (0, 0, 1) (1, 0, 1))),
  ("L", some (.half (1, 1, 1))),
  ("M", some (.half (1, 0, 1))),
  ("N", some (.half (1, 0, 0))),
  ("N1", some (.half (0, -1, 0))),
  ("X", some (.half (1, -1, 0))),
  ("Y", some (.between (0, 1, 0) (1, 0, 0) (0, 0, -1) (0, 1, 0) (1, 0, 0) (1, 1, 1))),
  ("Y1", some (.between (1, -1, 0) (1, 0, 0) (0, -1, -1) (1, -1, 0) (1, 0, 0) (1, 0, 1))),
  ("Y2", some (.between (-1, 0, 0) (0, -1, 0) (-1, -1, -1) (-1, 0, 0) (0, -1, 0) (0, 0, 1))),
  ("Y3", some (.between (0, -1, 0) (1, -1, 0) (0, -1, -1) (0, -1, 0) (1, -1, 0) (1, 0, 1))),
  ("Z", some (.half (0, 0, 1)))]

/-- The points of `TRI1a` and `TRI2a`. -/
def atTRIa : List (String × Option Where) := [
  ("GAMMA", some .origin),
  ("L", some (.half (1, 1, 0))),
  ("M", some (.half (0, 1, 1))),
  ("N", some (.half (1, 0, 1))),
  ("R", some (.half (1, 1, 1))),
  ("X", some (.half (1, 0, 0))),
  ("Y", some (.half (0, 1, 0))),
  ("Z", some (.half (0, 0, 1)))]

/-- The points of `TRI1b` and `TRI2b`. -/
def atTRIb : List (String × Option Where) := [
  ("GAMMA", some .origin),
  ("L", some (.half (1, -1, 0))),
  ("M", some (.half (0, 0, 1))),
  ("N", some (.half (-1, -1, 1))),
  ("R", some (.half (0, -1, 1))),
  ("X", some (.half (0, -1, 0))),
  ("Y", some (.half (1, 0, 0))),
  ("Z", some (.half (-1, 0, 1)))]

/-- The points of every extended Bravais symbol of the HPKOT convention. -/
def hpkotPlaces : List (String × List (String × Option Where)) := [
  ("cP1", atCP), ("cP2", atCP), ("cF1", atCF), ("cF2", atCF), ("cI1", atCI), ("tP1", atTP),
  ("tI1", atTI1), ("tI2", atTI2), ("oP1", atOP), ("oF1", atOF1), ("oF2", atOF2),
  ("oF3", atOF3), ("oI1", atOI1), ("oI2", atOI2), ("oI3", atOI3), ("oC1", atOC1),
  ("oC2", atOC2), ("oA1", atOA1), ("oA2", atOA2), ("hP1", atHP), ("hP2", atHP),
  ("hR1", atHR1), ("hR2", atHR2), ("mP1", atMP), ("mC1", atMC1), ("mC2", atMC2),
  ("mC3", atMC3), ("aP2", atAP2), ("aP3", atAP3)]

/-- The points of every variation of the SC convention. -/
def scPlaces : List (String × List (String × Option Where)) := [
  ("CUB", atCUB), ("FCC", atFCC), ("BCC", atBCC), ("TET", atTET), ("BCT1", atBCT1),
  ("BCT2", atBCT2), ("ORC", atORC), ("ORCF1", atORCF1), ("ORCF3", atORCF1),
  ("ORCF2", atORCF2), ("ORCI", atORCI), ("ORCC", atORCC), ("HEX", atHEX), ("RHL1", atRHL1),
  ("RHL2", atRHL2), ("MCL", atMCL), ("MCLC1", atMCLC1), ("MCLC2", atMCLC1),
  ("MCLC3", atMCLC3), ("MCLC4", atMCLC3), ("MCLC5", atMCLC5), ("TRI1a", atTRIa),
  ("TRI2a", atTRIa), ("TRI1b", atTRIb), ("TRI2b", atTRIb)]

end Spec
