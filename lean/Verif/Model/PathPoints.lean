import Verif.Model.Points
import Verif.Model.Paths
import Verif.Model.SpaceGroups

/-!
# Recommended path and points

Model of `get_path_and_points` of `src/wulfric/kpoints/_path_and_points.py`.
-/

namespace Wulfric

/-- The points in the basis of the primitive reciprocal cell, and the path, by convention
(`convention` in lower case): `src/wulfric/kpoints/_path_and_points.py` L278-302. -/
noncomputable def pathAndRawPoints (lower : String → String)
    (getData : Cell ℝ → Atoms ℝ → Except Err SpglibData)
    (niggli : Cell ℝ → Except Err (Cell ℝ)) (cell : Cell ℝ) (atoms : Atoms ℝ)
    (data : SpglibData) (conv : Cell ℝ) (convention : String) :
    Except Err (String × PyDict String (Vec ℝ)) :=
  let latticeType := data.crystalFamily ++ data.centringType
  if convention = "sc" then do
    let variation ← scGetVariation lower getData niggli cell atoms (some data)
    let points ← scGetPoints conv latticeType variation
    match variation with
    | none => .error .keyError
    | some v => do
      let kpath ← scDefaultKPaths.getItem v
      return (kpath, points)
  else if convention = "hpkot" then do
    let symbol ← hpkotGetExtendedBlSymbol lower getData niggli cell atoms (some data)
    let points ← hpkotGetPoints conv latticeType symbol
    let kpath ← hpkotDefaultKPaths.getItem symbol
    return (kpath, points)
  else .error .conventionNotSupported

/-- The change of coordinates of one point: `src/wulfric/kpoints/_path_and_points.py`
L307-314. -/
noncomputable def pointCoordinates (cell primitiveRcell : Cell ℝ) (relative : Bool) (v : Vec ℝ) :
    Except Err (Vec ℝ) :=
  if relative then do
    let r ← getReciprocal cell
    let i ← npInv r
    return vecMat (vecMat v primitiveRcell) i
  else return vecMat v primitiveRcell

/-- The loop over the points: `src/wulfric/kpoints/_path_and_points.py` L306-314. -/
noncomputable def allCoordinates (cell primitiveRcell : Cell ℝ) (relative : Bool) :
    PyDict String (Vec ℝ) → Except Err (PyDict String (Vec ℝ))
  | [] => .ok []
  | (name, v) :: rest => do
    let w ← pointCoordinates cell primitiveRcell relative v
    let others ← allCoordinates cell primitiveRcell relative rest
    return (name, w) :: others

/-- `f"{name}_P"` for every name but "GAMMA": `src/wulfric/kpoints/_path_and_points.py`
L322-325. -/
def primeName (name : String) : String := if name ≠ "GAMMA" then name ++ "_P" else name

/-- The loop that adds the negated points: `src/wulfric/kpoints/_path_and_points.py`
L328-332. -/
def addNegated : List (String × Vec ℝ) → PyDict String (Vec ℝ) → PyDict String (Vec ℝ)
  | [], d => d
  | (name, v) :: rest, d =>
    addNegated rest (if name ≠ "GAMMA" then d.setItem (name ++ "_P") (-v) else d)

/-- The extension of the path without inversion and time reversal:
`src/wulfric/kpoints/_path_and_points.py` L316-332. -/
def extendPath (inversion withTimeReversal : Bool) (kpath : String)
    (points : PyDict String (Vec ℝ)) : Except Err (String × PyDict String (Vec ℝ)) :=
  if !inversion && !withTimeReversal then do
    let extra ← getPathAsList kpath
    let extra := extra.map fun sub => sub.map primeName
    return (kpath ++ "|" ++ getPathAsString extra, addNegated points points)
  else return (kpath, points)

/-- `get_path_and_points`: `src/wulfric/kpoints/_path_and_points.py` L254-334. -/
noncomputable def getPathAndPoints (lower : String → String)
    (getData : Cell ℝ → Atoms ℝ → Except Err SpglibData)
    (niggli : Cell ℝ → Except Err (Cell ℝ)) (cell : Cell ℝ) (atoms : Atoms ℝ)
    (given : Option SpglibData) (convention : String) (withTimeReversal relative : Bool) :
    Except Err (String × PyDict String (Vec ℝ)) := do
  let data ← resolveData lower getData cell atoms given
  let (conv, _) ← getConventional lower getData niggli cell atoms convention (some data)
  let (prim, _) ← getPrimitive lower getData niggli cell atoms convention (some data)
  let (kpath, raw) ←
    pathAndRawPoints lower getData niggli cell atoms data conv (lower convention)
  let rprim ← getReciprocal prim
  let points ← allCoordinates cell rprim relative raw
  let inversion ← inversionSymmetry.getItem data.spaceGroupNumber
  extendPath inversion withTimeReversal kpath points

end Wulfric
