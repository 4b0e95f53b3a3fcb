import Verif.Spec.Lattice
import Mathlib.LinearAlgebra.Matrix.Notation

/-!
# Specification vocabulary: space groups and centred lattices

From the International Tables for Crystallography, volume A.
-/

namespace Spec

/-- Crystal family of the space group number `n` (1 to 230). -/
def family (n : ℤ) : String :=
  if n ≤ 2 then "a" else if n ≤ 15 then "m" else if n ≤ 74 then "o"
  else if n ≤ 142 then "t" else if n ≤ 194 then "h" else "c"

/-- Hermann-Mauguin symbols start with this letter. -/
def centring (n : ℤ) : String :=
  if n ∈ [5, 8, 9, 12, 15, 20, 21, 35, 36, 37, 63, 64, 65, 66, 67, 68] then "C"
  else if n ∈ [38, 39, 40, 41] then "A"
  else if n ∈ [22, 42, 43, 69, 70, 196, 202, 203, 209, 210, 216, 219, 225, 226, 227, 228] then "F"
  else if n ∈ [146, 148, 155, 160, 161, 166, 167] then "R"
  else if n ∈ [23, 24, 44, 45, 46, 71, 72, 73, 74, 79, 80, 82, 87, 88, 97, 98, 107, 108, 109, 110,
    119, 120, 121, 122, 139, 140, 141, 142, 197, 199, 204, 206, 211, 214, 217, 220, 229, 230]
    then "I"
  else "P"

/-- The point group of the space group contains the inversion: one of
-1, 2/m, mmm, 4/m, 4/mmm, -3, -3m, 6/m, 6/mmm, m-3, m-3m. -/
def centrosymmetric (n : ℤ) : Bool :=
  n = 2 || (10 ≤ n && n ≤ 15) || (47 ≤ n && n ≤ 74) || (83 ≤ n && n ≤ 88) ||
  (123 ≤ n && n ≤ 142) || (147 ≤ n && n ≤ 148) || (162 ≤ n && n ≤ 167) ||
  (175 ≤ n && n ≤ 176) || (191 ≤ n && n ≤ 194) || (200 ≤ n && n ≤ 206) || (221 ≤ n && n ≤ 230)

variable (K : Type*) [Field K]

/-- Centring translations (in the basis of the conventional cell) for every letter; `R` is
the obverse setting on hexagonal axes. -/
def translations : Char → List (Fin 3 → K)
  | 'P' => [![0, 0, 0]]
  | 'A' => [![0, 0, 0], ![0, 1 / 2, 1 / 2]]
  | 'C' => [![0, 0, 0], ![1 / 2, 1 / 2, 0]]
  | 'I' => [![0, 0, 0], ![1 / 2, 1 / 2, 1 / 2]]
  | 'F' => [![0, 0, 0], ![0, 1 / 2, 1 / 2], ![1 / 2, 0, 1 / 2], ![1 / 2, 1 / 2, 0]]
  | 'R' => [![0, 0, 0], ![2 / 3, 1 / 3, 1 / 3], ![1 / 3, 2 / 3, 2 / 3]]
  | _ => []

variable {K}

/-- The centred lattice: lattice of the cell shifted by every translation. -/
def centredLattice (ts : List (Fin 3 → K)) (cell : Matrix (Fin 3) (Fin 3) K) :
    Set (Fin 3 → K) :=
  {v | ∃ n : Fin 3 → ℤ, ∃ t ∈ ts, v = fun j => ∑ i, ((n i : K) + t i) * cell i j}

/-- The centring letter of a Bravais lattice symbol in the HPKOT convention: the second
letter of the symbol. -/
def hpkotLetter (symbol : String) : Char := symbol.toList.getD 1 '?'

/-- In the SC convention A-centred lattices are described by C-centred cells, and
rhombohedral ones by primitive rhombohedral cells. -/
def scLetter (symbol : String) : Char :=
  if symbol = "oA" then 'C' else if symbol = "hR" then 'P' else hpkotLetter symbol

end Spec
