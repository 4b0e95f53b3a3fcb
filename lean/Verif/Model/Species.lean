import Verif.Model.Atoms
import Verif.Model.Validation
import Mathlib.Data.List.Infix
import Mathlib.Data.List.Sort
import Mathlib.Data.String.Basic

/-!
# Model of `src/wulfric/crystal/_atoms.py` and of the types and validation in
`src/wulfric/_spglib_interface.py`

`lower` is `str.lower`; it is a parameter (python lowers all of Unicode).  Warnings are not
modelled.
-/

namespace Wulfric

variable {K : Type} [Field K] [LinearOrder K]

/-- The typed record as the dictionary which `validate_atoms` sees. Absent keys are left
out; positions have shape `(N, 3)` by construction (as a numpy
array). As passed to `validate_atoms` in `src/wulfric/_spglib_interface.py` L67. -/
def Atoms.toDict (atoms : Atoms K) : PyDict String PyVal :=
  (match atoms.names with
    | some l => [("names", PyVal.seq (l.map .str))]
    | none => []) ++
  ((match atoms.species with
    | some l => [("species", PyVal.seq (l.map .str))]
    | none => []) ++
  ((match atoms.positions with
    | some l => [("positions", PyVal.ndarray [l.length, 3]
        (l.map fun _ => .ndarray [3] [.scalar, .scalar, .scalar]))]
    | none => []) ++
  (match atoms.spglibTypes with
    | some l => [("spglib_types", PyVal.seq (l.map .int))]
    | none => [])))

/-- `s in t` for strings: `s` is a contiguous part of `t`. As in `src/wulfric/crystal/_atoms.py`
L97. -/
def pyIn (s t : String) : Bool := decide (s.toList <:+: t.toList)

/-- The loop of `get_atom_species`: `src/wulfric/crystal/_atoms.py` L95-104. -/
def speciesLoop (lower : String → String) (name : String) : List String → String → String
  | [], found => found
  | trial :: rest, found =>
    if pyIn (lower trial) (lower name) then
      if trial.length = 2 then trial else speciesLoop lower name rest trial
    else speciesLoop lower name rest found

/-- `get_atom_species`: `src/wulfric/crystal/_atoms.py` L95-117. -/
def getAtomSpecies (lower : String → String) (name : String) (raiseOnFail : Bool) :
    Except Err String :=
  let found := speciesLoop lower name atomSpecies "X"
  if found = "X" ∧ raiseOnFail then .error .failedToDeduceAtomSpecies else .ok found

/-- `get_atoms_species`: `src/wulfric/crystal/_atoms.py` L174-179. -/
def getAtomsSpecies (lower : String → String) (atoms : Atoms K) (raiseOnFail : Bool) :
    Except Err (List String) := do
  let _ ← validateAtoms atoms.toDict ["names"] true
  (atoms.names.getD []).mapM fun name => getAtomSpecies lower name raiseOnFail

/-- The counter `name -> [next index, total]`: `src/wulfric/crystal/_atoms.py` L258-263. -/
def nameCounter (names : List String) : PyDict String (ℕ × ℕ) :=
  names.foldl (fun counter name =>
    match counter.get? name with
    | none => counter.setItem name (1, 1)
    | some (a, b) => counter.setItem name (a, b + 1)) []

/-- The renaming loop: `src/wulfric/crystal/_atoms.py` L265-270 (entry `i` is read before it
is changed and never again, so the loop may run over the elements). -/
def renameLoop : PyDict String (ℕ × ℕ) → List String → Except Err (List String)
  | _, [] => .ok []
  | counter, name :: rest =>
    match counter.get? name with
    | none => .error .keyError
    | some (a, b) =>
      if b > 1 then do
        let rest' ← renameLoop (counter.setItem name (a + 1, b)) rest
        return (name ++ Nat.repr a) :: rest'
      else do
        let rest' ← renameLoop counter rest
        return name :: rest'

/-- `get_unique_names`: `src/wulfric/crystal/_atoms.py` L239-272.  Returns the names and what
`atoms["names"]` is afterwards (the strategy "repeated-only" changes the caller's list). -/
def getUniqueNames (lower : String → String) (atoms : Atoms K) (strategy : String) :
    Except Err (List String × List String) := do
  let _ ← validateAtoms atoms.toDict ["names"] true
  let strategy := lower strategy
  if strategy ≠ "all" ∧ strategy ≠ "repeated-only" then .error .valueError else
  let names := atoms.names.getD []
  if names.length = names.dedup.length then return (names, names)
  else if strategy = "all" then
    return (names.zipIdx.map fun (name, i) => name ++ Nat.repr (i + 1), names)
  else do
    let new ← renameLoop (nameCounter names) names
    return (new, new)

/-- Identifiers of the atoms: `src/wulfric/_spglib_interface.py` L363-380. -/
def identifiers (lower : String → String) (atoms : Atoms K) : Except Err (List String) :=
  match atoms.species, atoms.names with
  | none, some names =>
    .ok (names.map fun name =>
      let s := speciesLoop lower name atomSpecies "X"
      if s = "X" then name else s)
  | some species, _ => .ok species
  | none, none => .error .valueError

/-- `get_spglib_types`: `src/wulfric/_spglib_interface.py` L358-387. -/
def getSpglibTypes (lower : String → String) (atoms : Atoms K) : Except Err (List ℤ) := do
  let _ ← validateAtoms atoms.toDict [] true
  match atoms.spglibTypes with
  | some types => return types
  | none => do
    let ids ← identifiers lower atoms
    let sorted := ids.dedup.insertionSort (· ≤ ·)
    return ids.map fun name => (sorted.idxOf name : ℤ) + 1

/-- The part of `SpglibData` that `validate_spglib_data` reads. `src/wulfric/_spglib_interface.py`
L83-91, L293-303. -/
structure OriginalData (K : Type) where
  cell : Cell K
  positions : List (Vec K)
  types : List ℤ

/-- One comparison of `np.allclose(a, b)` with the default `rtol = 1e-5`, `atol = 1e-8`. As in
`src/wulfric/_spglib_interface.py` L293, L298. -/
def npClose (a b : K) : Bool := decide (|a - b| ≤ 1 / 10 ^ 8 + 1 / 10 ^ 5 * |b|)

/-- `np.allclose` of two 3x3 matrices. `src/wulfric/_spglib_interface.py` L293. -/
def cellClose (c d : Cell K) : Bool := decide (∀ i j, npClose (c i j) (d i j) = true)

/-- `np.allclose` of two vectors. `src/wulfric/_spglib_interface.py` L298. -/
def vecClose (u v : Vec K) : Bool := decide (∀ j, npClose (u j) (v j) = true)

/-- `np.allclose` of an `(N, 3)` and an `(M, 3)` array, with numpy's broadcasting (one row
against many); other shapes raise `ValueError`. `src/wulfric/_spglib_interface.py` L298. -/
def positionsClose (ps qs : List (Vec K)) : Except Err Bool :=
  if ps.length = qs.length then .ok ((ps.zip qs).all fun (p, q) => vecClose p q)
  else match ps, qs with
    | [p], qs => .ok (qs.all fun q => vecClose p q)
    | ps, [q] => .ok (ps.all fun p => vecClose p q)
    | _, _ => .error .valueError

/-- `validate_spglib_data`: `src/wulfric/_spglib_interface.py` L293-306. -/
def validateSpglibData (lower : String → String) (cell : Cell K) (atoms : Atoms K)
    (data : OriginalData K) : Except Err Unit := do
  if cellClose cell data.cell then pure () else .error .valueError
  let ps ← atoms.getPositions
  if (← positionsClose ps data.positions) then pure () else .error .valueError
  let types ← getSpglibTypes lower atoms
  if types = data.types then pure () else .error .valueError

/-- What `SpglibData.__init__` stores about its input:
`src/wulfric/_spglib_interface.py` L67-91. -/
def originalData (lower : String → String) (cell : Cell K) (atoms : Atoms K) :
    Except Err (OriginalData K) := do
  let _ ← validateAtoms atoms.toDict ["positions"] true
  let ps ← atoms.getPositions
  let types ← getSpglibTypes lower atoms
  return { cell := cell, positions := ps, types := types }

end Wulfric
