import Mathlib.Analysis.SpecialFunctions.Pow.Real

/-! # Specification: colours -/

namespace Spec

/-- The character is a hexadecimal digit with the value `n`. -/
def HexDigit (c : Char) (n : ℕ) : Prop :=
  "0123456789abcdef".toList[n]? = some c ∨ "0123456789ABCDEF".toList[n]? = some c

/-- The text is the colour `#rrggbb` with the given red, green and blue. -/
def HexColour (text : List Char) (r g b : ℕ) : Prop :=
  ∃ r₁ r₀ g₁ g₀ b₁ b₀ : Char, ∃ m₁ m₀ n₁ n₀ k₁ k₀ : ℕ,
    text = ['#', r₁, r₀, g₁, g₀, b₁, b₀] ∧ HexDigit r₁ m₁ ∧ HexDigit r₀ m₀ ∧ HexDigit g₁ n₁ ∧
      HexDigit g₀ n₀ ∧ HexDigit b₁ k₁ ∧ HexDigit b₀ k₀ ∧
      r = 16 * m₁ + m₀ ∧ g = 16 * n₁ + n₀ ∧ b = 16 * k₁ + k₀

/-- Relative luminance of a colour: the weights of the primaries of sRGB, with the exponent 2.2. -/
noncomputable def luminance (r g b : ℕ) : ℝ :=
  0.2126 * ((r : ℝ) / 255) ^ (2.2 : ℝ) + 0.7152 * ((g : ℝ) / 255) ^ (2.2 : ℝ) +
    0.0722 * ((b : ℝ) / 255) ^ (2.2 : ℝ)

end Spec
