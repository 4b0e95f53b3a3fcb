import Mathlib.Data.Rat.Floor
import Mathlib.Data.String.Basic

/-! # Specification for POSCAR files -/

namespace Spec

/-- `x` can be written with `d` decimals. -/
def Representable (d : ℕ) (x : ℚ) : Prop := ∃ z : ℤ, x * 10 ^ d = z

/-- `y` is what remains of `x` when it is written with `d` decimals: a number with `d` decimals
that is nearest to `x`. -/
def NearestDecimal (d : ℕ) (x y : ℚ) : Prop := Representable d y ∧ |y - x| ≤ 1 / 2 / 10 ^ d

/-- A name that survives being written between spaces: not empty, no white space. -/
def OneWord (isSpace : Char → Bool) (s : String) : Prop :=
  s ≠ "" ∧ ∀ c ∈ s.toList, isSpace c = false

end Spec
