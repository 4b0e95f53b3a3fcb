import Verif.Spec.Conventional
import Mathlib.Analysis.Real.Sqrt

/-!
# Specification vocabulary: extended Bravais lattice symbols and variations

The definitions of the two papers: Hinuma et al. (2017), tables 69-92 and section 3, and
Setyawan and Curtarolo (2010), appendix A. Angles are in degrees.
-/

namespace Spec

/-- The space groups of `hP1`. -/
def hP1Groups : List ℤ := [143, 144, 145, 146, 147, 148, 149, 151, 153, 157, 159, 160, 161, 162, 163]

/-- `HpkotSymbol bl n a b c beta ra rb rg s`: the lattice `bl` of a crystal with the space group
`n`, the lengths `a, b, c` and the angle `beta` of its conventional cell, and the reciprocal
angles `ra, rb, rg`, has the extended symbol `s`. -/
inductive HpkotSymbol (bl : String) (n : ℤ) (a b c beta ra rb rg : ℝ) : String → Prop
  | cP1 : bl = "cP" → 195 ≤ n → n ≤ 206 → HpkotSymbol bl n a b c beta ra rb rg "cP1"
  | cP2 : bl = "cP" → 207 ≤ n → n ≤ 230 → HpkotSymbol bl n a b c beta ra rb rg "cP2"
  | cF1 : bl = "cF" → 195 ≤ n → n ≤ 206 → HpkotSymbol bl n a b c beta ra rb rg "cF1"
  | cF2 : bl = "cF" → 207 ≤ n → n ≤ 230 → HpkotSymbol bl n a b c beta ra rb rg "cF2"
  | cI1 : bl = "cI" → HpkotSymbol bl n a b c beta ra rb rg "cI1"
  | tP1 : bl = "tP" → HpkotSymbol bl n a b c beta ra rb rg "tP1"
  | tI1 : bl = "tI" → c ≤ a → HpkotSymbol bl n a b c beta ra rb rg "tI1"
  | tI2 : bl = "tI" → a < c → HpkotSymbol bl n a b c beta ra rb rg "tI2"
  | oP1 : bl = "oP" → HpkotSymbol bl n a b c beta ra rb rg "oP1"
  | oF1 : bl = "oF" → 1 / b ^ 2 + 1 / c ^ 2 < 1 / a ^ 2 → HpkotSymbol bl n a b c beta ra rb rg "oF1"
  | oF2 : bl = "oF" → 1 / a ^ 2 + 1 / b ^ 2 < 1 / c ^ 2 → HpkotSymbol bl n a b c beta ra rb rg "oF2"
  | oF3 : bl = "oF" → 1 / a ^ 2 ≤ 1 / b ^ 2 + 1 / c ^ 2 → 1 / c ^ 2 ≤ 1 / a ^ 2 + 1 / b ^ 2 →
      HpkotSymbol bl n a b c beta ra rb rg "oF3"
  | oI1 : bl = "oI" → a ≤ c → b ≤ c → HpkotSymbol bl n a b c beta ra rb rg "oI1"
  | oI2 : bl = "oI" → b ≤ a → c < a → HpkotSymbol bl n a b c beta ra rb rg "oI2"
  | oI3 : bl = "oI" → a < b → c < b → HpkotSymbol bl n a b c beta ra rb rg "oI3"
  | oC1 : bl = "oC" → a ≤ b → HpkotSymbol bl n a b c beta ra rb rg "oC1"
  | oC2 : bl = "oC" → b < a → HpkotSymbol bl n a b c beta ra rb rg "oC2"
  | oA1 : bl = "oA" → b ≤ c → HpkotSymbol bl n a b c beta ra rb rg "oA1"
  | oA2 : bl = "oA" → c < b → HpkotSymbol bl n a b c beta ra rb rg "oA2"
  | hP1 : bl = "hP" → n ∈ hP1Groups → HpkotSymbol bl n a b c beta ra rb rg "hP1"
  | hP2 : bl = "hP" → n ∉ hP1Groups → HpkotSymbol bl n a b c beta ra rb rg "hP2"
  | hR1 : bl = "hR" → 3 * a ^ 2 ≤ 2 * c ^ 2 → HpkotSymbol bl n a b c beta ra rb rg "hR1"
  | hR2 : bl = "hR" → 2 * c ^ 2 < 3 * a ^ 2 → HpkotSymbol bl n a b c beta ra rb rg "hR2"
  | mP1 : bl = "mP" → HpkotSymbol bl n a b c beta ra rb rg "mP1"
  | mC1 : bl = "mC" → b ≤ a * Real.sin (beta * (Real.pi / 180)) →
      HpkotSymbol bl n a b c beta ra rb rg "mC1"
  | mC2 : bl = "mC" → a * Real.sin (beta * (Real.pi / 180)) < b →
      -a * Real.cos (beta * (Real.pi / 180)) / c +
        a ^ 2 * Real.sin (beta * (Real.pi / 180)) ^ 2 / b ^ 2 ≤ 1 →
      HpkotSymbol bl n a b c beta ra rb rg "mC2"
  | mC3 : bl = "mC" → a * Real.sin (beta * (Real.pi / 180)) < b →
      1 < -a * Real.cos (beta * (Real.pi / 180)) / c +
        a ^ 2 * Real.sin (beta * (Real.pi / 180)) ^ 2 / b ^ 2 →
      HpkotSymbol bl n a b c beta ra rb rg "mC3"
  | aP2 : bl = "aP" → 90 ≤ ra → 90 ≤ rb → 90 ≤ rg → HpkotSymbol bl n a b c beta ra rb rg "aP2"
  | aP3 : bl = "aP" → ra < 90 → rb < 90 → rg < 90 → HpkotSymbol bl n a b c beta ra rb rg "aP3"

/-- `ScVariation bl t s a b c alpha kp ka kb kg v`: the lattice `bl` whose conventional cell has
the lengths `a, b, c` and the angle `alpha`, with the reciprocal angle `kp` of the primitive
cell and the reciprocal angles `ka, kb, kg` of the conventional one, has the variation `v`, when
lengths are compared with the tolerance `t` and angles with the tolerance `s`. -/
inductive ScVariation (bl : String) (t s a b c alpha kp ka kb kg : ℝ) : String → Prop
  | cub : bl = "cP" → ScVariation bl t s a b c alpha kp ka kb kg "CUB"
  | fcc : bl = "cF" → ScVariation bl t s a b c alpha kp ka kb kg "FCC"
  | bcc : bl = "cI" → ScVariation bl t s a b c alpha kp ka kb kg "BCC"
  | tet : bl = "tP" → ScVariation bl t s a b c alpha kp ka kb kg "TET"
  | bct1 : bl = "tI" → c < a → ScVariation bl t s a b c alpha kp ka kb kg "BCT1"
  | bct2 : bl = "tI" → a < c → ScVariation bl t s a b c alpha kp ka kb kg "BCT2"
  | orc : bl = "oP" → ScVariation bl t s a b c alpha kp ka kb kg "ORC"
  | orcf1 : bl = "oF" → a < b - t → b < c - t → t < 1 / a ^ 2 - 1 / b ^ 2 - 1 / c ^ 2 →
      ScVariation bl t s a b c alpha kp ka kb kg "ORCF1"
  | orcf2 : bl = "oF" → a < b - t → b < c - t → 1 / a ^ 2 - 1 / b ^ 2 - 1 / c ^ 2 < -t →
      ScVariation bl t s a b c alpha kp ka kb kg "ORCF2"
  | orcf3 : bl = "oF" → a < b - t → b < c - t → |1 / a ^ 2 - 1 / b ^ 2 - 1 / c ^ 2| ≤ t →
      ScVariation bl t s a b c alpha kp ka kb kg "ORCF3"
  | orci : bl = "oI" → ScVariation bl t s a b c alpha kp ka kb kg "ORCI"
  | orcc : bl = "oC" ∨ bl = "oA" → ScVariation bl t s a b c alpha kp ka kb kg "ORCC"
  | hex : bl = "hP" → ScVariation bl t s a b c alpha kp ka kb kg "HEX"
  | rhl1 : bl = "hR" → alpha < 90 - s → ScVariation bl t s a b c alpha kp ka kb kg "RHL1"
  | rhl2 : bl = "hR" → 90 + s < alpha → ScVariation bl t s a b c alpha kp ka kb kg "RHL2"
  | mcl : bl = "mP" → ScVariation bl t s a b c alpha kp ka kb kg "MCL"
  | mclc1 : bl = "mC" → 90 + s < kp → ScVariation bl t s a b c alpha kp ka kb kg "MCLC1"
  | mclc2 : bl = "mC" → |kp - 90| ≤ s → ScVariation bl t s a b c alpha kp ka kb kg "MCLC2"
  | mclc3 : bl = "mC" → kp < 90 - s →
      b * Real.cos (alpha * (Real.pi / 180)) / c +
        b ^ 2 * Real.sin (alpha * (Real.pi / 180)) ^ 2 / a ^ 2 < 1 - t →
      ScVariation bl t s a b c alpha kp ka kb kg "MCLC3"
  | mclc4 : bl = "mC" → kp < 90 - s →
      |b * Real.cos (alpha * (Real.pi / 180)) / c +
        b ^ 2 * Real.sin (alpha * (Real.pi / 180)) ^ 2 / a ^ 2 - 1| ≤ t →
      ScVariation bl t s a b c alpha kp ka kb kg "MCLC4"
  | mclc5 : bl = "mC" → kp < 90 - s →
      1 + t < b * Real.cos (alpha * (Real.pi / 180)) / c +
        b ^ 2 * Real.sin (alpha * (Real.pi / 180)) ^ 2 / a ^ 2 →
      ScVariation bl t s a b c alpha kp ka kb kg "MCLC5"
  | tri1a : bl = "aP" → 90 + s < ka → 90 + s < kb → 90 + s < kg → kg ≤ ka → kg ≤ kb →
      ScVariation bl t s a b c alpha kp ka kb kg "TRI1a"
  | tri1b : bl = "aP" → ka < 90 - s → kb < 90 - s → kg < 90 - s → ka ≤ kg → kb ≤ kg →
      ScVariation bl t s a b c alpha kp ka kb kg "TRI1b"
  | tri2a : bl = "aP" → 90 + s < ka → 90 + s < kb → |kg - 90| ≤ s →
      ScVariation bl t s a b c alpha kp ka kb kg "TRI2a"
  | tri2b : bl = "aP" → ka < 90 - s → kb < 90 - s → |kg - 90| ≤ s →
      ScVariation bl t s a b c alpha kp ka kb kg "TRI2b"

end Spec
