import Verif.Model.PathPoints

/-!
# The class `Kpoints`

Model of `src/wulfric/_kpoints_class.py`. An object is the record of its attributes; a method
that changes the object returns the object afterwards together with the outcome, so that what an
exception leaves behind is visible. `hs_names` is a python list (the constructor keeps the
caller's list, see `addShared`); names and labels are strings, `n` is an integer. `hs_table` is in
`Table.lean`. Not modelled: `copy` (a deep copy is the same value).
-/

namespace Wulfric

/-- The attributes of an object: `src/wulfric/_kpoints_class.py` L91, L113-124. -/
structure Kpoints where
  rcell : Cell ℝ
  hsCoordinates : PyDict String (Vec ℝ)
  hsLabels : PyDict String String
  hsNames : List String
  n : ℤ
  path : List (List String)

/-- What can be assigned to `path`: a string or a list of lists of names. Other python objects
are not modelled. `src/wulfric/_kpoints_class.py` L313-319. -/
inductive PathArg
  | string (s : String)
  | list (l : List (List String))

/-- `dict(pairs)`: later pairs win. As in `src/wulfric/_kpoints_class.py` L113-116. -/
def pyDict {V : Type} (l : List (String × V)) : PyDict String V :=
  l.foldl (fun d p => d.setItem p.1 p.2) []

/-- The conversion of the new path to a list: `src/wulfric/_kpoints_class.py` L313-325. -/
def pathOfArg : PathArg → Except Err (List (List String))
  | .string s => getPathAsList s
  | .list l => if l.all fun sub => decide (2 ≤ sub.length) then .ok l else .error .valueError

/-- The check of the new path: `src/wulfric/_kpoints_class.py` L327-341. The error message
prints the coordinates of every name in `hs_names`; if one has none this is a `KeyError`. -/
def checkPath (names : List String) (coordinates : PyDict String (Vec ℝ))
    (path : List (List String)) : Except Err Unit :=
  if path.all fun sub => sub.all fun p => decide (p ∈ names) then .ok ()
  else if names.all fun m => (coordinates.get? m).isSome then .error .valueError
  else .error .keyError

/-- The setter of `path`: `src/wulfric/_kpoints_class.py` L311-342. -/
def Kpoints.setPath (k : Kpoints) (arg : PathArg) : Kpoints × Except Err Unit :=
  match pathOfArg arg with
  | .error e => (k, .error e)
  | .ok p =>
    match checkPath k.hsNames k.hsCoordinates p with
    | .error e => (k, .error e)
    | .ok () => ({ k with path := p }, .ok ())

/-- The labels used if none are given: `src/wulfric/_kpoints_class.py` L96-104. -/
def initLabels (count : ℕ) (names : Option (List String)) :
    Option (List String) → Except Err (List String)
  | none =>
    match names with
    | none => .ok ((List.range count).map fun i : ℕ => "K$_" ++ Nat.repr (i + 1) ++ "$")
    | some names => .ok names
  | some labels => if labels.length ≠ count then .error .valueError else .ok labels

/-- The names used if none are given: `src/wulfric/_kpoints_class.py` L106-111. -/
def initNames (count : ℕ) : Option (List String) → Except Err (List String)
  | none => .ok ((List.range count).map fun i : ℕ => "K" ++ Nat.repr (i + 1))
  | some names => if names.length ≠ count then .error .valueError else .ok names

/-- The constructor: `src/wulfric/_kpoints_class.py` L88-124. -/
def Kpoints.init (rcell : Cell ℝ) (coordinates : List (Vec ℝ)) (names labels : Option (List String))
    (path : Option PathArg) (n : ℤ) : Except Err Kpoints := do
  let labels ← initLabels coordinates.length names labels
  let names ← initNames coordinates.length names
  let k : Kpoints :=
    { rcell := rcell, hsCoordinates := pyDict (names.zip coordinates),
      hsLabels := pyDict (names.zip labels), hsNames := names, n := n, path := [] }
  let (k, outcome) := k.setPath (path.getD (.string (pyJoin "-" names)))
  outcome
  return k

/-- `from_crystal`: `src/wulfric/_kpoints_class.py` L126-240. -/
noncomputable def Kpoints.fromCrystal (lower : String → String)
    (getData : Cell ℝ → Atoms ℝ → Except Err SpglibData)
    (niggli : Cell ℝ → Except Err (Cell ℝ)) (cell : Cell ℝ) (atoms : Atoms ℝ)
    (convention : String) (withTimeReversal : Bool) (n : ℤ) (given : Option SpglibData) :
    Except Err Kpoints := do
  let (path, points) ← getPathAndPoints lower getData niggli cell atoms given convention
    withTimeReversal true
  let labels ← points.keys.mapM fun name => hsPlotNames.getItem name
  let rcell ← getReciprocal cell
  Kpoints.init rcell (points.map Prod.snd) (some points.keys) (some labels)
    (some (.string path)) n

/-- `add_hs_point`: `src/wulfric/_kpoints_class.py` L245-274. -/
noncomputable def Kpoints.add (k : Kpoints) (name : String) (coordinate : Vec ℝ)
    (label : Option String) (relative : Bool) : Kpoints × Except Err Unit :=
  let label := label.getD name
  if name ∈ k.hsNames then (k, .error .valueError)
  else
    match (if relative then .ok coordinate
      else (npInv k.rcell).map fun i => vecMat coordinate i : Except Err (Vec ℝ)) with
    | .error e => (k, .error e)
    | .ok c =>
      ({ k with hsNames := k.hsNames ++ [name], hsCoordinates := k.hsCoordinates.setItem name c,
                hsLabels := k.hsLabels.setItem name label }, .ok ())

/-- `remove_hs_point`: `src/wulfric/_kpoints_class.py` L276-289. The path stays. -/
def Kpoints.remove (k : Kpoints) (name : String) : Kpoints × Except Err Unit :=
  if name ∈ k.hsNames then
    let k := { k with hsNames := k.hsNames.erase name }
    match k.hsCoordinates.delItem name with
    | .error e => (k, .error e)
    | .ok c =>
      let k := { k with hsCoordinates := c }
      match k.hsLabels.delItem name with
      | .error e => (k, .error e)
      | .ok l => ({ k with hsLabels := l }, .ok ())
  else (k, .ok ())

/-- The setter of `n`: `src/wulfric/_kpoints_class.py` L369-375. `none` is an object that is
not an integer. -/
def Kpoints.setN (k : Kpoints) : Option ℤ → Kpoints × Except Err Unit
  | none => (k, .error .valueError)
  | some n => ({ k with n := n }, .ok ())

/-- What `add_hs_point` of one object does to another one created from the same list of names:
the constructor keeps the list itself (`src/wulfric/_kpoints_class.py` L117), and L272 appends
to it. -/
noncomputable def Kpoints.addShared (k other : Kpoints) (name : String) (coordinate : Vec ℝ)
    (label : Option String) (relative : Bool) : Kpoints × Kpoints × Except Err Unit :=
  let (k', r) := k.add name coordinate label relative
  (k', { other with hsNames := k'.hsNames }, r)

/-- `path_string`: `src/wulfric/_kpoints_class.py` L344-354. -/
def Kpoints.pathString (k : Kpoints) : String := getPathAsString k.path

/-- The loop over one sub-path of `labels`, without its first point:
`src/wulfric/_kpoints_class.py` L402-403. -/
def labelsRest (labels : PyDict String String) : List String → List String →
    Except Err (List String)
  | [], acc => .ok acc
  | name :: rest, acc => do
    let l ← labels.getItem name
    labelsRest labels rest (acc ++ [l])

/-- `acc[-1] += s`. As in `src/wulfric/_kpoints_class.py` L399. -/
def appendToLast (acc : List String) (s : String) : Except Err (List String) :=
  match acc.getLast? with
  | none => .error .indexError
  | some x => .ok (acc.dropLast ++ [x ++ s])

/-- The first point of a sub-path: `src/wulfric/_kpoints_class.py` L398-401. -/
def labelsFirst (labels : PyDict String String) (first : Bool) (name : String)
    (acc : List String) : Except Err (List String) := do
  let l ← labels.getItem name
  if first then return acc ++ [l] else appendToLast acc ("|" ++ l)

/-- The loop of `labels`: `src/wulfric/_kpoints_class.py` L396-405; `first` is `s_i == 0`. -/
def labelsLoop (labels : PyDict String String) : Bool → List (List String) → List String →
    Except Err (List String)
  | _, [], acc => .ok acc
  | _, [] :: _, _ => .error .indexError
  | first, (name :: rest) :: subs, acc => do
    let acc ← labelsFirst labels first name acc
    let acc ← labelsRest labels rest acc
    labelsLoop labels false subs acc

/-- `labels`: `src/wulfric/_kpoints_class.py` L380-405. -/
def Kpoints.labels (k : Kpoints) : Except Err (List String) := labelsLoop k.hsLabels true k.path []

/-- `np.eye(3)` or the reciprocal cell: `src/wulfric/_kpoints_class.py` L424-427, L463-466,
L504-507. -/
noncomputable def Kpoints.basis (k : Kpoints) (relative : Bool) : Cell ℝ :=
  if relative then 1 else k.rcell

/-- The loop of `ticks` over one sub-path: `src/wulfric/_kpoints_class.py` L433-440. -/
noncomputable def ticksRest (coordinates : PyDict String (Vec ℝ)) (cell : Cell ℝ) :
    List String → List ℝ → Except Err (List ℝ)
  | a :: b :: rest, acc => do
    let pb ← coordinates.getItem b
    let pa ← coordinates.getItem a
    match acc.getLast? with
    | none => .error .indexError
    | some t =>
      ticksRest coordinates cell (b :: rest) (acc ++ [npNorm (vecMat pb cell - vecMat pa cell) + t])
  | _, acc => .ok acc

/-- The loop of `ticks`: `src/wulfric/_kpoints_class.py` L429-440. -/
noncomputable def ticksLoop (coordinates : PyDict String (Vec ℝ)) (cell : Cell ℝ) :
    Bool → List (List String) → List ℝ → Except Err (List ℝ)
  | _, [], acc => .ok acc
  | first, sub :: subs, acc => do
    let acc ← ticksRest coordinates cell sub (if first then acc ++ [0] else acc)
    ticksLoop coordinates cell false subs acc

/-- `ticks`: `src/wulfric/_kpoints_class.py` L407-442. -/
noncomputable def Kpoints.ticks (k : Kpoints) (relative : Bool) : Except Err (List ℝ) :=
  ticksLoop k.hsCoordinates (k.basis relative) true k.path []

/-- `np.linspace(a, b, num)` for vectors. As in `src/wulfric/_kpoints_class.py` L473-477, L515-519.
-/
noncomputable def linspace (a b : Vec ℝ) (num : ℤ) : Except Err (List (Vec ℝ)) :=
  if num < 0 then .error .valueError
  else .ok ((List.range num.toNat).map fun i : ℕ =>
    if 1 < num ∧ (i : ℤ) = num - 1 then b
    else if 1 < num then a + ((i : ℝ) / ((num : ℝ) - 1)) • (b - a)
    else a + (i : ℝ) • (b - a))

/-- The loop of `points` over one sub-path: `src/wulfric/_kpoints_class.py` L470-481. -/
noncomputable def pointsRest (coordinates : PyDict String (Vec ℝ)) (cell : Cell ℝ) (n : ℤ) :
    List String → Option (List (Vec ℝ)) → Except Err (Option (List (Vec ℝ)))
  | a :: b :: rest, acc => do
    let pa ← coordinates.getItem a
    let pb ← coordinates.getItem b
    let new ← linspace (vecMat pa cell) (vecMat pb cell) (n + 2)
    pointsRest coordinates cell n (b :: rest)
      (some (match acc with
        | none => new
        | some l => l ++ new))
  | _, acc => .ok acc

/-- The loop of `points`: `src/wulfric/_kpoints_class.py` L468-481. -/
noncomputable def pointsLoop (coordinates : PyDict String (Vec ℝ)) (cell : Cell ℝ) (n : ℤ) :
    List (List String) → Option (List (Vec ℝ)) → Except Err (Option (List (Vec ℝ)))
  | [], acc => .ok acc
  | sub :: subs, acc => do
    let acc ← pointsRest coordinates cell n sub acc
    pointsLoop coordinates cell n subs acc

/-- `points`: `src/wulfric/_kpoints_class.py` L447-482 (`None` for an empty path). -/
noncomputable def Kpoints.points (k : Kpoints) (relative : Bool) :
    Except Err (Option (List (Vec ℝ))) :=
  pointsLoop k.hsCoordinates (k.basis relative) k.n k.path none

/-- `delta += flat_points[-1]` and the concatenation, or the first segment:
`src/wulfric/_kpoints_class.py` L523-527. -/
noncomputable def flatAppend (first : Bool) (acc : Option (List ℝ)) (delta : List ℝ) :
    Except Err (Option (List ℝ)) :=
  if first then .ok (some delta)
  else
    match acc with
    | none => .error .typeError
    | some l =>
      match l.getLast? with
      | none => .error .indexError
      | some t => .ok (some (l ++ delta.map fun d => d + t))

/-- The loop of `flat_points` over one sub-path: `src/wulfric/_kpoints_class.py` L511-527;
`first` is `s_i == 0 and i == 0`. -/
noncomputable def flatRest (coordinates : PyDict String (Vec ℝ)) (cell : Cell ℝ) (n : ℤ) :
    Bool → List String → Option (List ℝ) → Except Err (Option (List ℝ))
  | first, a :: b :: rest, acc => do
    let pa ← coordinates.getItem a
    let pb ← coordinates.getItem b
    let new ← linspace (vecMat pa cell) (vecMat pb cell) (n + 2)
    let acc ← flatAppend first acc (new.map fun p => npNorm (p - vecMat pa cell))
    flatRest coordinates cell n false (b :: rest) acc
  | _, _, acc => .ok acc

/-- The loop of `flat_points`: `src/wulfric/_kpoints_class.py` L509-527. -/
noncomputable def flatLoop (coordinates : PyDict String (Vec ℝ)) (cell : Cell ℝ) (n : ℤ) :
    Bool → List (List String) → Option (List ℝ) → Except Err (Option (List ℝ))
  | _, [], acc => .ok acc
  | first, sub :: subs, acc => do
    let acc ← flatRest coordinates cell n first sub acc
    flatLoop coordinates cell n false subs acc

/-- `flat_points`: `src/wulfric/_kpoints_class.py` L486-528. -/
noncomputable def Kpoints.flatPoints (k : Kpoints) (relative : Bool) :
    Except Err (Option (List ℝ)) :=
  flatLoop k.hsCoordinates (k.basis relative) k.n true k.path none

end Wulfric
