import Verif.Model.Python
import Verif.Model.Geometry
import Mathlib.Algebra.Order.Floor.Ring

/-!
# Model of `src/wulfric/crystal/_basic_manipulation.py`

The `atoms` dictionary is a record of its four meaningful keys, `none` for a missing key.
Rows of `atoms["positions"]` are numpy arrays unless said otherwise.
-/

namespace Wulfric

/-- The `atoms` dictionary (keys "names", "species", "positions", "spglib_types"). The keys are read
in `src/wulfric/crystal/_basic_manipulation.py` L89-95 and in
`src/wulfric/crystal/_crystal_validation.py` L129-203. -/
structure Atoms (K : Type*) where
  names : Option (List String) := none
  species : Option (List String) := none
  positions : Option (List (Vec K)) := none
  spglibTypes : Option (List ℤ) := none

variable {K : Type*} [Field K] [LinearOrder K]

/-- `atoms["positions"]`. As in `src/wulfric/crystal/_basic_manipulation.py` L89, L131, L175. -/
def Atoms.getPositions (atoms : Atoms K) : Except Err (List (Vec K)) :=
  match atoms.positions with
  | some p => .ok p
  | none => .error .keyError

/-- `np.minimum` of two arrays of three. As in `src/wulfric/crystal/_basic_manipulation.py` L89,
L133. -/
def npMinimum (u v : Vec K) : Vec K := fun j => min (u j) (v j)

/-- `np.maximum` of two arrays of three. As in `src/wulfric/crystal/_basic_manipulation.py` L90. -/
def npMaximum (u v : Vec K) : Vec K := fun j => max (u j) (v j)

/-- `v @ M` for a row vector. As in `src/wulfric/crystal/_basic_manipulation.py` L87. -/
def vecMat (v : Vec K) (m : Cell K) : Vec K := fun j => v 0 * m 0 j + v 1 * m 1 j + v 2 * m 2 j

/-- `gravity_point @ np.linalg.inv(cell)`, `src/wulfric/crystal/_basic_manipulation.py` L82-87. -/
noncomputable def gravityRelative (gp : Vec K) (cell : Option (Cell K)) (gpIsRelative : Bool) :
    Except Err (Vec K) :=
  if gpIsRelative then .ok gp
  else match cell with
    | none => .error .valueError
    | some c => if c.det = 0 then .error .linAlgError else .ok (vecMat gp c⁻¹)

/-- The shift by the middle of the bounding box,
`src/wulfric/crystal/_basic_manipulation.py` L89-95.  `np.min` of an empty array raises
`ValueError`. -/
def shiftPositions (gp : Vec K) : List (Vec K) → Except Err (List (Vec K))
  | [] => .error .valueError
  | p :: ps =>
    let minCoord := ps.foldl npMinimum p
    let maxCoord := ps.foldl npMaximum p
    let shift : Vec K := fun j => (maxCoord j + minCoord j) / 2
    .ok ((p :: ps).map fun q j => q j - shift j + gp j)

/-- `shift_atoms`: `src/wulfric/crystal/_basic_manipulation.py` L82-95. -/
noncomputable def shiftAtoms (atoms : Atoms K) (gp : Vec K) (cell : Option (Cell K)) (gpIsRelative : Bool) :
    Except Err (Atoms K) := do
  let g ← gravityRelative gp cell gpIsRelative
  let ps ← atoms.getPositions
  let ps' ← shiftPositions g ps
  return { atoms with positions := some ps' }

/-- `cure_negative`: `src/wulfric/crystal/_basic_manipulation.py` L131-137. `arrayRows`
tells whether the rows are numpy arrays; for a single atom given by a python list
`min_values < 0` raises `TypeError` (with more atoms `np.minimum` has made an array). -/
def cureNegative (atoms : Atoms K) (arrayRows : Bool) : Except Err (Atoms K) := do
  let ps ← atoms.getPositions
  match ps with
  | [] => .error .indexError
  | p :: rest =>
    if rest = [] ∧ arrayRows = false then .error .typeError else
    let minValues := rest.foldl npMinimum p
    let shift : Vec K := fun j => if minValues j < 0 then -minValues j else 0
    return { atoms with positions := some (ps.map fun q j => q j + shift j) }

/-- `int(x)`: rounding towards zero. As in `src/wulfric/crystal/_basic_manipulation.py` L180. -/
def pyInt [FloorRing K] (x : K) : ℤ := if 0 ≤ x then ⌊x⌋ else ⌈x⌉

/-- The new value of one coordinate: `src/wulfric/crystal/_basic_manipulation.py` L177-186. -/
def wrapComponent [FloorRing K] (x : K) : K :=
  let y := x - (pyInt x : K)
  if y < 0 then y + 1 else y

/-- `positions[i][j] = f(positions[i][j])` in place. As in
`src/wulfric/crystal/_basic_manipulation.py` L175-186. -/
def updateComponent (f : K → K) (ps : List (Vec K)) (i : ℕ) (j : Fin 3) : List (Vec K) :=
  ps.modify i fun v => Function.update v j (f (v j))

/-- `ensure_000`: the two loops of `src/wulfric/crystal/_basic_manipulation.py` L175-186. -/
def ensure000 [FloorRing K] (atoms : Atoms K) : Except Err (Atoms K) := do
  let ps ← atoms.getPositions
  return { atoms with
    positions := some ((List.range ps.length).foldl (fun acc i =>
      (List.finRange 3).foldl (fun acc j => updateComponent wrapComponent acc i j) acc) ps) }

/-- `get_vector`: `src/wulfric/crystal/_basic_manipulation.py` L240-247. -/
def getVector (cell : Cell K) (atoms : Atoms K) (atom1 atom2 : ℤ) (R : Fin 3 → ℤ)
    (returnRelative : Bool) : Except Err (Vec K) := do
  let ps ← atoms.getPositions
  let p2 ← pyGet ps atom2
  let p1 ← pyGet ps atom1
  let rel : Vec K := fun j => (R j : K) + p2 j - p1 j
  if returnRelative then return rel
  else return vecMat rel cell

/-- `get_distance`: `src/wulfric/crystal/_basic_manipulation.py` L308-319
(`np.linalg.norm` is the Euclidean norm, over the reals). -/
noncomputable def getDistance (cell : Cell ℝ) (atoms : Atoms ℝ) (atom1 atom2 : ℤ)
    (R : Fin 3 → ℤ) : Except Err ℝ := do
  let v ← getVector cell atoms atom1 atom2 R false
  return Real.sqrt (v 0 * v 0 + v 1 * v 1 + v 2 * v 2)

end Wulfric
