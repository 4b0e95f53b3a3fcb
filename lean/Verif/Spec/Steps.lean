import Mathlib.Analysis.SpecialFunctions.Trigonometric.Basic

/-! # Specification vocabulary: neighbours on a path -/

namespace Spec

/-- Two neighbours on the path are the same point. -/
def ZeroStep (path : List (List String)) (point : String → Option (Fin 3 → ℝ)) : Prop :=
  ∃ sub ∈ path, ∃ i k k' v, sub[i]? = some k ∧ sub[i + 1]? = some k' ∧ point k = some v ∧
    point k' = some v

/-- The lattice `bl`, whose conventional HPKOT cell has these lengths and this angle, lies on the border of
two extended symbols; or the symbol `s` is "aP2". -/
def HpkotBorder (a b c be : ℝ) (bl s : String) : Prop :=
  (bl = "tI" ∧ a = c) ∨
  (bl = "oI" ∧ ((a = c ∧ b ≤ c) ∨ (b = c ∧ a ≤ c) ∨ (a = b ∧ c ≤ b))) ∨
  (bl = "oC" ∧ a = b) ∨ (bl = "oA" ∧ b = c) ∨
  (bl = "oF" ∧ (1 / a ^ 2 = 1 / b ^ 2 + 1 / c ^ 2 ∨ 1 / c ^ 2 = 1 / a ^ 2 + 1 / b ^ 2 ∨
    1 / b ^ 2 = 1 / a ^ 2 + 1 / c ^ 2)) ∨
  (bl = "hR" ∧ 3 * a ^ 2 = 2 * c ^ 2) ∨
  (bl = "mC" ∧ b = a * Real.sin (be * (Real.pi / 180))) ∨ s = "aP2"

/-- The same for the convention of Setyawan and Curtarolo: the lengths and the angle of the
conventional cell at which two named points of the variation `s` of the lattice `bl` merge. -/
def ScBorder (a b c al : ℝ) (bl s : String) : Prop :=
  (bl = "oI" ∧ (a = c ∨ b = c)) ∨ ((bl = "oC" ∨ bl = "oA") ∧ a = b) ∨
  (bl = "mP" ∧ (al = 90 ∨ b * Real.cos (al * (Real.pi / 180)) = c ∨
    c * Real.cos (al * (Real.pi / 180)) = b)) ∨
  (bl = "mC" ∧ (al = 90 ∨
    ((s = "MCLC1" ∨ s = "MCLC2") ∧ b = 2 * c * Real.cos (al * (Real.pi / 180))) ∨
    (s = "MCLC2" ∧ b * Real.cos (al * (Real.pi / 180)) / c +
      b ^ 2 * Real.sin (al * (Real.pi / 180)) ^ 2 / a ^ 2 = 1)))

end Spec
