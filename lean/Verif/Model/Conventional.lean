import Verif.Model.Species
import Verif.Model.Geometry
import Verif.Model.Conventions
import Verif.Model.Unique

/-!
# Model of `src/wulfric/crystal/_conventional.py` and `get_primitive`

Real numbers. spglib is external: its results are the fields of `SpglibData`, and
`get_niggli(cell)` (whose default implementation is spglib's) is a parameter.
-/

namespace Wulfric

open Matrix

/-- `SpglibData`: `src/wulfric/_spglib_interface.py` L59-151. -/
structure SpglibData where
  /-- `original_cell`, `original_positions`, `original_types` -/
  original : OriginalData ℝ
  spaceGroupNumber : ℤ
  crystalFamily : String
  centringType : String
  conventionalCell : Cell ℝ
  conventionalPositions : List (Vec ℝ)
  conventionalTypes : List ℤ
  primitiveCell : Cell ℝ
  primitivePositions : List (Vec ℝ)
  primitiveTypes : List ℤ
  symprec : ℝ
  angleTolerance : ℝ

/-- `matrix.T @ cell` for an integer matrix. As in `src/wulfric/crystal/_conventional.py` L81, L130,
L207, L249, L311, L326, L342, L414, L466, L546 and `src/wulfric/crystal/_primitive.py` L267. -/
def applyT (m : Matrix (Fin 3) (Fin 3) ℤ) (cell : Cell ℝ) : Cell ℝ :=
  m.transpose.map (Int.cast : ℤ → ℝ) * cell

/-- The chain of four cases for the reciprocal angles; it is written twice in
`src/wulfric/crystal/_conventional.py`: L88-128 (HPKOT, step 3) and L373-413 (SC, step 1). -/
noncomputable def signMatrix (ra rb rg : ℝ) : Except Err (Matrix (Fin 3) (Fin 3) ℤ) :=
  if (ra < 90 ∧ rb < 90 ∧ rg < 90) ∨ (90 ≤ ra ∧ 90 ≤ rb ∧ 90 ≤ rg) then .ok 1
  else if (90 < ra ∧ 90 < rb ∧ rg < 90) ∨ (ra ≤ 90 ∧ rb ≤ 90 ∧ 90 ≤ rg) then
    .ok !![-1, 0, 0; 0, -1, 0; 0, 0, 1]
  else if (90 < ra ∧ rb < 90 ∧ 90 < rg) ∨ (ra ≤ 90 ∧ 90 ≤ rb ∧ rg ≤ 90) then
    .ok !![-1, 0, 0; 0, 1, 0; 0, 0, -1]
  else if (ra < 90 ∧ 90 < rb ∧ 90 < rg) ∨ (90 ≤ ra ∧ rb ≤ 90 ∧ rg ≤ 90) then
    .ok !![1, 0, 0; 0, -1, 0; 0, 0, -1]
  else .error .potentialBug

/-- Step 2 of the HPKOT convention for `aP`: `src/wulfric/crystal/_conventional.py` L58-79. -/
noncomputable def dotMatrix (bc ac ab : ℝ) : Except Err (Matrix (Fin 3) (Fin 3) ℤ) :=
  if bc ≤ ac ∧ bc ≤ ab then .ok !![0, 0, 1; 1, 0, 0; 0, 1, 0]
  else if ac ≤ bc ∧ ac ≤ ab then .ok !![0, 1, 0; 0, 0, 1; 1, 0, 0]
  else if ab ≤ ac ∧ ab ≤ bc then .ok 1
  else .error .potentialBug

/-- `_hpkot_get_conventional_a`: `src/wulfric/crystal/_conventional.py` L34-130. -/
noncomputable def hpkotConventionalA (niggli : Cell ℝ → Except Err (Cell ℝ)) (cell : Cell ℝ) :
    Except Err (Cell ℝ) := do
  let rCell ← getReciprocal cell
  let r1 ← niggli rCell
  let c1 ← getReciprocal r1
  let m2 ← dotMatrix |npDot (r1 1) (r1 2)| |npDot (r1 0) (r1 2)| |npDot (r1 0) (r1 1)|
  let c2 := applyT m2 c1
  let r2 ← getReciprocal c2
  let (_, _, _, ra, rb, rg) ← getParams r2
  let m3 ← signMatrix ra rb rg
  return applyT m3 c2

/-- `_sc_get_conventional_oPFI`: `src/wulfric/crystal/_conventional.py` L133-207. -/
noncomputable def scConventionalOPFI (cell : Cell ℝ) : Except Err (Cell ℝ) := do
  let (a, b, c, _, _, _) ← getParams cell
  if a < b ∧ b < c then return applyT 1 cell
  else if a < c ∧ c < b then return applyT !![-1, 0, 0; 0, 0, -1; 0, -1, 0] cell
  else if b < a ∧ a < c then return applyT !![0, -1, 0; -1, 0, 0; 0, 0, -1] cell
  else if b < c ∧ c < a then return applyT !![0, 0, 1; 1, 0, 0; 0, 1, 0] cell
  else if c < a ∧ a < b then return applyT !![0, 1, 0; 0, 0, 1; 1, 0, 0] cell
  else if c < b ∧ b < a then return applyT !![0, 0, -1; 0, -1, 0; -1, 0, 0] cell
  else .error .potentialBug

/-- `_sc_get_conventional_oC`: `src/wulfric/crystal/_conventional.py` L210-249. -/
noncomputable def scConventionalOC (cell : Cell ℝ) : Except Err (Cell ℝ) := do
  let (a, b, _, _, _, _) ← getParams cell
  if a < b then return applyT 1 cell
  else if b < a then return applyT !![0, -1, 0; 1, 0, 0; 0, 0, 1] cell
  else .error .potentialBug

/-- Step 1 of `_sc_get_conventional_m`: `src/wulfric/crystal/_conventional.py` L278-310. -/
noncomputable def monoclinicStep1 (al be ga : ℝ) (centring : String) (tol : ℝ) :
    Except Err (Matrix (Fin 3) (Fin 3) ℤ) :=
  if cwt be .eq 90 tol && cwt ga .eq 90 tol then .ok 1
  else if cwt al .eq 90 tol && cwt be .eq 90 tol then
    if centring = "C" then .error .potentialBug else .ok !![0, 1, 0; 0, 0, 1; 1, 0, 0]
  else if cwt al .eq 90 tol && cwt ga .eq 90 tol then .ok !![0, -1, 0; 1, 0, 0; 0, 0, 1]
  else .error .potentialBug

/-- `_sc_get_conventional_m`: `src/wulfric/crystal/_conventional.py` L252-342. -/
noncomputable def scConventionalM (cell : Cell ℝ) (centring : String) (tol : ℝ) :
    Except Err (Cell ℝ) := do
  let (_, _, _, al, be, ga) ← getParams cell
  let m1 ← monoclinicStep1 al be ga centring tol
  let c1 := applyT m1 cell
  let (_, b, c, _, _, _) ← getParams c1
  let c2 := if b ≤ c ∨ centring = "C" then applyT 1 c1
    else applyT !![-1, 0, 0; 0, 0, 1; 0, 1, 0] c1
  let (_, _, _, al2, _, _) ← getParams c2
  if cwt al2 .le 90 tol then return applyT 1 c2
  else return applyT !![-1, 0, 0; 0, -1, 0; 0, 0, 1] c2

/-- Step 2 of `_sc_get_conventional_a`: `src/wulfric/crystal/_conventional.py` L420-464. -/
noncomputable def extremeMatrix (ra rb rg tol : ℝ) : Except Err (Matrix (Fin 3) (Fin 3) ℤ) :=
  let lo := min ra (min rb rg)
  let hi := max ra (max rb rg)
  if (rg = lo ∧ cwt rg .ge 90 tol) ∨ (rg = hi ∧ cwt rg .le 90 tol) then .ok 1
  else if (rb = lo ∧ cwt rb .ge 90 tol) ∨ (rb = hi ∧ cwt rb .le 90 tol) then
    .ok !![0, 1, 0; 0, 0, 1; 1, 0, 0]
  else if (ra = lo ∧ cwt ra .ge 90 tol) ∨ (ra = hi ∧ cwt ra .le 90 tol) then
    .ok !![0, 0, 1; 1, 0, 0; 0, 1, 0]
  else .error .potentialBug

/-- `_sc_get_conventional_a`: `src/wulfric/crystal/_conventional.py` L345-466. -/
noncomputable def scConventionalA (cell : Cell ℝ) (tol : ℝ) : Except Err (Cell ℝ) := do
  let r ← getReciprocal cell
  let (_, _, _, ra, rb, rg) ← getParams r
  let m1 ← signMatrix ra rb rg
  let r1 := applyT m1 r
  let (_, _, _, ra1, rb1, rg1) ← getParams r1
  let m2 ← extremeMatrix ra1 rb1 rg1 tol
  let c1 ← getReciprocal r1
  return applyT m2 c1

/-- `_sc_get_conventional_hR`: `src/wulfric/crystal/_conventional.py` L469-546. -/
noncomputable def scConventionalHR (cell : Cell ℝ) (angTol distTol : ℝ) :
    Except Err (Cell ℝ) := do
  let (a, b, c, al, be, ga) ← getParams cell
  if cwt a .ne b distTol || cwt a .ne c distTol || cwt b .ne c distTol then .error .potentialBug
  else if cwt al .eq be angTol && cwt al .eq ga angTol then return applyT 1 cell
  else if cwt (180 - al) .eq be angTol && cwt be .eq ga angTol then
    return applyT !![1, 0, 0; 0, -1, 0; 0, 0, -1] cell
  else if cwt al .eq (180 - be) angTol && cwt be .eq ga angTol then
    return applyT !![-1, 0, 0; 0, 1, 0; 0, 0, -1] cell
  else if cwt al .eq be angTol && cwt be .eq (180 - ga) angTol then
    return applyT !![-1, 0, 0; 0, -1, 0; 0, 0, 1] cell
  else .error .potentialBug

/-- `_sc_get_conventional_no_hR`: `src/wulfric/crystal/_conventional.py` L549-615. -/
noncomputable def scConventionalNoHR (cell : Cell ℝ) (family centring : String) (tol : ℝ) :
    Except Err (Cell ℝ) :=
  if family = "c" ∨ family = "t" ∨ (family = "h" ∧ centring = "P") then .ok cell
  else if family = "o" then
    if centring = "P" ∨ centring = "F" ∨ centring = "I" then scConventionalOPFI cell
    else if centring = "C" then scConventionalOC cell
    else if centring = "A" then scConventionalOC (applyT !![0, 0, 1; 1, 0, 0; 0, 1, 0] cell)
    else .error .potentialBug
  else if family = "m" then scConventionalM cell centring tol
  else if family = "a" then scConventionalA cell tol
  else .error .potentialBug

/-- `positions @ old_cell @ np.linalg.inv(new_cell)`. As in `src/wulfric/crystal/_conventional.py`
L740-742, L765-767, L786-788 and `src/wulfric/crystal/_primitive.py` L270. -/
noncomputable def rebase (positions : List (Vec ℝ)) (old new : Cell ℝ) :
    Except Err (List (Vec ℝ)) := do
  let inv ← npInv new
  return positions.map fun p => vecMat (vecMat p old) inv

/-- `spglib_data.angle_tolerance if spglib_data.angle_tolerance != -1 else 1e-4`.
`src/wulfric/crystal/_conventional.py` L756-758, L778-780. -/
noncomputable def angleTol (data : SpglibData) : ℝ :=
  if data.angleTolerance = -1 then 1 / 10 ^ 4 else data.angleTolerance

/-- Cell, positions and types of the conventional cell:
`src/wulfric/crystal/_conventional.py` L729-796. -/
noncomputable def conventionalParts (niggli : Cell ℝ → Except Err (Cell ℝ)) (convention : String)
    (data : SpglibData) : Except Err (Cell ℝ × List (Vec ℝ) × List ℤ) :=
  if convention = "spglib" ∨ convention = "hpkot" then
    if convention = "hpkot" ∧ data.crystalFamily = "a" then do
      let conv ← hpkotConventionalA niggli data.conventionalCell
      let ps ← rebase data.conventionalPositions data.conventionalCell conv
      return (conv, ps, data.conventionalTypes)
    else .ok (data.conventionalCell, data.conventionalPositions, data.conventionalTypes)
  else if convention = "sc" then
    if data.crystalFamily = "h" ∧ data.centringType = "R" then do
      let conv ← scConventionalHR data.primitiveCell (angleTol data) data.symprec
      let ps ← rebase data.primitivePositions data.primitiveCell conv
      return (conv, ps, data.primitiveTypes)
    else do
      let conv ← scConventionalNoHR data.conventionalCell data.crystalFamily data.centringType
        (angleTol data)
      let ps ← rebase data.conventionalPositions data.conventionalCell conv
      return (conv, ps, data.conventionalTypes)
  else .error .conventionNotSupported

/-- `{type: index for index, type in enumerate(types)}` (the last index stays):
`src/wulfric/crystal/_conventional.py` L802-804. -/
def lastIndex (types : List ℤ) : PyDict ℤ ℕ :=
  types.zipIdx.foldl (fun d p => d.setItem p.1 p.2) []

/-- The loop of `src/wulfric/crystal/_primitive.py` L291-294 (the first index stays). -/
def firstIndex (types : List ℤ) : PyDict ℤ ℕ :=
  types.zipIdx.foldl (fun d p => if (d.get? p.1).isSome then d else d.setItem p.1 p.2) []

/-- `[atoms[key][types_mapping[t]] for t in types]`. `src/wulfric/crystal/_conventional.py` L808-811
and `src/wulfric/crystal/_primitive.py` L298-301. -/
def pick {α : Type} (values : List α) (mapping : PyDict ℤ ℕ) (types : List ℤ) :
    Except Err (List α) :=
  types.mapM fun t => do
    let i ← mapping.getItem t
    pyGet values i

/-- A key of the new dictionary if the old one has it. `src/wulfric/crystal/_conventional.py`
L806-811 and `src/wulfric/crystal/_primitive.py` L296-301. -/
def pickKey {α : Type} (values : Option (List α)) (mapping : PyDict ℤ ℕ) (types : List ℤ) :
    Except Err (Option (List α)) :=
  match values with
  | none => .ok none
  | some l => (pick l mapping types).map some

/-- The new dictionary of atoms: `src/wulfric/crystal/_conventional.py` L798-815 and
`src/wulfric/crystal/_primitive.py` L287-305. Other keys than the four of `Atoms` are not
modelled (they are handled as "names"). -/
def newAtoms (atoms : Atoms ℝ) (mapping : PyDict ℤ ℕ) (positions : List (Vec ℝ))
    (types : List ℤ) : Except Err (Atoms ℝ) := do
  let names ← pickKey atoms.names mapping types
  let species ← pickKey atoms.species mapping types
  let spglibTypes ← pickKey atoms.spglibTypes mapping types
  return { names := names, species := species, positions := some positions,
           spglibTypes := some (spglibTypes.getD types) }

/-- Validation of the arguments: `src/wulfric/crystal/_conventional.py` L714-727 and
`src/wulfric/crystal/_primitive.py` L231-244. `getData` is `get_spglib_data`. The check that
the given object is an instance of `SpglibData` is not modelled. -/
noncomputable def resolveData (lower : String → String)
    (getData : Cell ℝ → Atoms ℝ → Except Err SpglibData) (cell : Cell ℝ) (atoms : Atoms ℝ)
    (given : Option SpglibData) : Except Err SpglibData := do
  let _ ← validateAtoms atoms.toDict ["positions"] true
  match given with
  | none => getData cell atoms
  | some data => do
    validateSpglibData lower cell atoms data.original
    return data

/-- `get_conventional`: `src/wulfric/crystal/_conventional.py` L714-817. -/
noncomputable def getConventional (lower : String → String)
    (getData : Cell ℝ → Atoms ℝ → Except Err SpglibData)
    (niggli : Cell ℝ → Except Err (Cell ℝ)) (cell : Cell ℝ) (atoms : Atoms ℝ)
    (convention : String) (given : Option SpglibData) : Except Err (Cell ℝ × Atoms ℝ) := do
  let data ← resolveData lower getData cell atoms given
  let (conv, ps, ts) ← conventionalParts niggli (lower convention) data
  let atoms' ← newAtoms atoms (lastIndex data.original.types) ps ts
  return (conv, atoms')

/-- The choice of the table: `src/wulfric/crystal/_primitive.py` L259-264 (the convention is
one of the two). -/
noncomputable def primitiveMatrix (convention symbol : String) : Except Err (Cell ℝ) :=
  if convention = "hpkot" then (hpkotConventionalToPrimitive ℝ).getItem symbol
  else (scConventionalToPrimitive ℝ).getItem symbol

/-- Cell, positions and types of the primitive cell:
`src/wulfric/crystal/_primitive.py` L246-285. `types` given by `conv_atoms["spglib_types"]`
are those of `get_conventional`, called with the same data. -/
noncomputable def primitiveParts (lower : String → String)
    (getData : Cell ℝ → Atoms ℝ → Except Err SpglibData)
    (niggli : Cell ℝ → Except Err (Cell ℝ)) (cell : Cell ℝ) (atoms : Atoms ℝ)
    (convention : String) (data : SpglibData) : Except Err (Cell ℝ × List (Vec ℝ) × List ℤ) :=
  if convention = "spglib" then
    .ok (data.primitiveCell, data.primitivePositions, data.primitiveTypes)
  else if convention = "hpkot" ∨ convention = "sc" then do
    let symbol := data.crystalFamily ++ data.centringType
    let (conv, convAtoms) ← getConventional lower getData niggli cell atoms convention (some data)
    let matrix ← primitiveMatrix convention symbol
    let prim := matrix.transpose * conv
    let ps ← convAtoms.getPositions
    let inv ← npInv prim
    let positions := ps.map fun p => vecMat (vecMat p conv) inv
    let (ps', ts') ← getUnique positions (convAtoms.spglibTypes.getD [])
      |conv.det / prim.det| data.symprec
    return (prim, ps', ts')
  else .error .conventionNotSupported

/-- `get_primitive`: `src/wulfric/crystal/_primitive.py` L231-307. -/
noncomputable def getPrimitive (lower : String → String)
    (getData : Cell ℝ → Atoms ℝ → Except Err SpglibData)
    (niggli : Cell ℝ → Except Err (Cell ℝ)) (cell : Cell ℝ) (atoms : Atoms ℝ)
    (convention : String) (given : Option SpglibData) : Except Err (Cell ℝ × Atoms ℝ) := do
  let data ← resolveData lower getData cell atoms given
  let (prim, ps, ts) ← primitiveParts lower getData niggli cell atoms (lower convention) data
  let atoms' ← newAtoms atoms (firstIndex data.original.types) ps ts
  return (prim, atoms')

end Wulfric
