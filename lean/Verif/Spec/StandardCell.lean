import Verif.Spec.Geometry

/-! # Specification vocabulary: shapes of conventional cells -/

namespace Spec

/-- Every vector of a basis is at least twice as long as its overlap with the others. -/
def PairReduced (r : Matrix (Fin 3) (Fin 3) ℝ) : Prop :=
  ∀ i j, i ≠ j → 2 * |dot (r i) (r j)| ≤ dot (r i) (r i)

/-- The conventional cells of crystallography (the standard settings of spglib): the shape that
belongs to the lattice `bl`. Monoclinic: unique axis `b` and the two other vectors as short as
possible. Face-centred orthorhombic: `b` is not shorter than the other two allow. Triclinic: any cell. -/
inductive StandardCell : String → Matrix (Fin 3) (Fin 3) ℝ → Prop
  | cubic {bl cell a} : bl ∈ ["cP", "cF", "cI"] → HasParams cell a a a 90 90 90 →
      StandardCell bl cell
  | tetragonal {bl cell a c} : bl ∈ ["tP", "tI"] → HasParams cell a a c 90 90 90 →
      StandardCell bl cell
  | orthorhombic {bl cell a b c} : bl ∈ ["oP", "oI", "oC", "oA"] →
      HasParams cell a b c 90 90 90 → StandardCell bl cell
  | faceCentred {cell a b c} : HasParams cell a b c 90 90 90 →
      1 / b ^ 2 ≤ 1 / a ^ 2 + 1 / c ^ 2 → StandardCell "oF" cell
  | hexagonal {bl cell a c} : bl ∈ ["hP", "hR"] → HasParams cell a a c 90 90 120 →
      StandardCell bl cell
  | monoclinic {cell a b c be} : HasParams cell a b c 90 be 90 → 90 ≤ be →
      -(a * Real.cos (be * (Real.pi / 180))) ≤ c → -(c * Real.cos (be * (Real.pi / 180))) ≤ a →
      StandardCell "mP" cell
  | monoclinicC {cell a b c be} : HasParams cell a b c 90 be 90 → 90 ≤ be →
      -(a * Real.cos (be * (Real.pi / 180))) ≤ c →
      -(2 * c * Real.cos (be * (Real.pi / 180))) ≤ a → StandardCell "mC" cell
  | triclinic {cell} : StandardCell "aP" cell

/-- The conventional cells of Setyawan and Curtarolo: the shape and, where the tables of points
need it, the order of the parameters. Monoclinic: unique axis `a`, `alpha` not obtuse and the two
other vectors as short as possible. Triclinic: any cell. -/
inductive ScCell : String → Matrix (Fin 3) (Fin 3) ℝ → Prop
  | cubic {bl cell a} : bl ∈ ["cP", "cF", "cI"] → HasParams cell a a a 90 90 90 → ScCell bl cell
  | tetragonal {bl cell a c} : bl ∈ ["tP", "tI"] → HasParams cell a a c 90 90 90 → ScCell bl cell
  | orthorhombic {bl cell a b c} : bl ∈ ["oP", "oF"] → HasParams cell a b c 90 90 90 →
      ScCell bl cell
  | bodyCentred {cell a b c} : HasParams cell a b c 90 90 90 → a ≤ c → b ≤ c → ScCell "oI" cell
  | baseCentred {bl cell a b c} : bl ∈ ["oC", "oA"] → HasParams cell a b c 90 90 90 → a ≤ b →
      ScCell bl cell
  | hexagonal {cell a c} : HasParams cell a a c 90 90 120 → ScCell "hP" cell
  | rhombohedral {cell a al} : HasParams cell a a a al al al → ScCell "hR" cell
  | monoclinic {cell a b c al} : HasParams cell a b c al 90 90 → al ≤ 90 →
      b * Real.cos (al * (Real.pi / 180)) ≤ c → c * Real.cos (al * (Real.pi / 180)) ≤ b →
      ScCell "mP" cell
  | monoclinicC {cell a b c al} : HasParams cell a b c al 90 90 → al ≤ 90 →
      b * Real.cos (al * (Real.pi / 180)) ≤ c → 2 * c * Real.cos (al * (Real.pi / 180)) ≤ b →
      ScCell "mC" cell
  | triclinic {cell} : ScCell "aP" cell

/-- The variations that stand for an equality are decided with a tolerance. The condition that
the conventional cell `conv`, with the reciprocal `r` of the primitive cell, is not on the wrong
side of the equality. -/
def TieMet (v : String) (conv r : Matrix (Fin 3) (Fin 3) ℝ) : Prop :=
  ∀ a b c al be ga x y z p q kg, HasParams conv a b c al be ga → HasParams r x y z p q kg →
    (v = "ORCF3" → 1 / b ^ 2 + 1 / c ^ 2 ≤ 1 / a ^ 2) ∧
    (v = "MCLC4" → b * Real.cos (al * (Real.pi / 180)) / c +
      b ^ 2 * Real.sin (al * (Real.pi / 180)) ^ 2 / a ^ 2 ≤ 1) ∧
    (v = "MCLC2" ∨ v = "TRI2a" → 90 ≤ kg) ∧ (v = "TRI2b" → kg ≤ 90)

end Spec
