import Mathlib.Analysis.SpecialFunctions.Trigonometric.Basic

/-! # Specification vocabulary: lattices inside of the domain of their symbol -/

namespace Spec

/-- The lattice `bl`, whose conventional HPKOT cell has these lengths and this angle and the
reciprocal angles `ra, rb, rg`, is not on the border of two extended symbols. -/
structure HpkotInside (bl : String) (a b c be ra rb rg : ℝ) : Prop where
  tI : bl = "tI" → a ≠ c
  oF : bl = "oF" → 1 / a ^ 2 ≠ 1 / b ^ 2 + 1 / c ^ 2 ∧ 1 / c ^ 2 ≠ 1 / a ^ 2 + 1 / b ^ 2
  /-- One of the lengths is larger than the two others. -/
  oI : bl = "oI" → (a < c ∧ b < c) ∨ (b < a ∧ c < a) ∨ (a < b ∧ c < b)
  oC : bl = "oC" → a ≠ b
  oA : bl = "oA" → b ≠ c
  hR : bl = "hR" → 3 * a ^ 2 ≠ 2 * c ^ 2
  mC : bl = "mC" → b < a * Real.sin (be * (Real.pi / 180)) ∨
    (b ≠ a * Real.sin (be * (Real.pi / 180)) ∧ -a * Real.cos (be * (Real.pi / 180)) / c +
        a ^ 2 * Real.sin (be * (Real.pi / 180)) ^ 2 / b ^ 2 ≠ 1)
  aP : bl = "aP" → ra ≠ 90 ∧ rb ≠ 90 ∧ rg ≠ 90

/-- The same for the convention of Setyawan and Curtarolo, where equalities are decided with the
tolerances `t` for lengths and `u` for angles; `kp` is the reciprocal angle of the primitive cell,
`kg` that of the conventional one. -/
structure ScInside (bl : String) (t u a b c al kp kg : ℝ) : Prop where
  oF : bl = "oF" → |1 / a ^ 2 - 1 / b ^ 2 - 1 / c ^ 2| ≠ t
  mC : bl = "mC" → |kp - 90| ≠ u ∧ |b * Real.cos (al * (Real.pi / 180)) / c +
    b ^ 2 * Real.sin (al * (Real.pi / 180)) ^ 2 / a ^ 2 - 1| ≠ t
  aP : bl = "aP" → |kg - 90| ≠ u

end Spec
