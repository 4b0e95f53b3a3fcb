import Verif.Model.Kpoints
import Verif.Model.Poscar
import Mathlib.Algebra.Order.Floor.Ring
import Mathlib.Algebra.Order.Archimedean.Real.Basic

/-!
# `Kpoints.hs_table`

Model of `src/wulfric/_kpoints_class.py` L550-596. A text is its list of characters. A coordinate is
a real number (python rounds to a float first; a negative zero does not exist here).
-/

namespace Wulfric

/-- Rounding of a non-negative number to the nearest integer, halves to even. For the format of
`src/wulfric/_kpoints_class.py` L588-594. -/
noncomputable def roundReal (x : ℝ) : ℕ :=
  let f := ⌊x⌋.toNat
  let r := x - f
  if r < 1 / 2 then f
  else if 1 / 2 < r then f + 1
  else if f % 2 = 0 then f else f + 1

/-- `m / 10 ** d` written with `d` decimals; no point for `d = 0`. For the format of
`src/wulfric/_kpoints_class.py` L588-594. -/
def decimalText (m d : ℕ) : List Char :=
  let frac := Nat.toDigits 10 (m % 10 ^ d)
  Nat.toDigits 10 (m / 10 ^ d) ++
    (if d = 0 then [] else '.' :: (List.replicate (d - frac.length) '0' ++ frac))

/-- `f"{x: {d + 3}.{d}f}"`, for example `src/wulfric/_kpoints_class.py` L588: a space in the place of
a plus sign, aligned to the right. -/
noncomputable def spacedNumber (d : ℕ) (x : ℝ) : List Char :=
  let s := (if x < 0 then '-' else ' ') :: decimalText (roundReal (|x| * 10 ^ d)) d
  List.replicate (d + 3 - s.length) ' ' ++ s

/-- `f"{s:<{width}}"`. As in `src/wulfric/_kpoints_class.py` L577, L595. -/
def padRight (width : ℕ) (s : List Char) : List Char :=
  s ++ List.replicate (width - s.length) ' '

/-- `f"{s:>{width}}"`. As in `src/wulfric/_kpoints_class.py` L578-583. -/
def padLeft (width : ℕ) (s : List Char) : List Char :=
  List.replicate (width - s.length) ' ' ++ s

/-- The first line: `src/wulfric/_kpoints_class.py` L576-584; `w` is `d + 3`. -/
def tableHeader (nd w : ℕ) : List Char :=
  padRight nd ['N', 'a', 'm', 'e'] ++ [' ', ' '] ++
    padLeft w ['r', 'e', 'l', '_', 'b', '1'] ++ [' '] ++
    padLeft w ['r', 'e', 'l', '_', 'b', '2'] ++ [' '] ++
    padLeft w ['r', 'e', 'l', '_', 'b', '3'] ++ [' ', ' '] ++
    padLeft w ['k', '_', 'x'] ++ [' '] ++ padLeft w ['k', '_', 'y'] ++ [' '] ++
    padLeft w ['k', '_', 'z']

/-- One line for a point: `src/wulfric/_kpoints_class.py` L586-595. A negative number of decimals is
not a format. -/
noncomputable def tableRow (k : Kpoints) (nd : ℕ) (decimals : ℤ) (name : String) :
    Except Err (List Char) := do
  let relative ← k.hsCoordinates.getItem name
  if decimals < 0 then throw .valueError
  let d := decimals.toNat
  let absolute := vecMat relative k.rcell
  return padRight nd name.toList ++ [' ', ' '] ++
    spacedNumber d (relative 0) ++ [' '] ++ spacedNumber d (relative 1) ++ [' '] ++
    spacedNumber d (relative 2) ++ [' ', ' '] ++
    spacedNumber d (absolute 0) ++ [' '] ++ spacedNumber d (absolute 1) ++ [' '] ++
    spacedNumber d (absolute 2)

/-- `hs_table`: `src/wulfric/_kpoints_class.py` L573-596. `max` of an empty list and a negative
width are errors. (Precisions beyond the largest C integer, refused by python, are not.) -/
noncomputable def Kpoints.hsTable (k : Kpoints) (decimals : ℤ) : Except Err (List Char) := do
  if k.hsNames = [] then throw .valueError
  let nd := (k.hsNames.map fun m => m.toList.length).foldl max 0
  if decimals + 3 < 0 then throw .valueError
  let rows ← k.hsNames.mapM (tableRow k nd decimals)
  return ['\n'].intercalate (tableHeader nd (decimals + 3).toNat :: rows)

end Wulfric
