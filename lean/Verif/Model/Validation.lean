import Verif.Model.Python
import Verif.Model.AtomTables

/-!
# Model of `src/wulfric/crystal/_crystal_validation.py`

`PyVal` keeps of a python value what `len`, iteration, `isinstance` and
`np.array(_).shape` can see.
-/

namespace Wulfric

/-- Python values as seen by the validation. `src/wulfric/crystal/_crystal_validation.py` L86-203.
-/
inductive PyVal where
  | int (n : ℤ)
  | bool (b : Bool)
  | str (s : String)
  /-- any other object without length: `float`, `None`, numpy numbers (a `np.int64` is not
  an `int`), ... -/
  | scalar
  /-- `list` or `tuple` -/
  | seq (items : List PyVal)
  /-- `numpy.ndarray`: its shape and what iteration over it gives -/
  | ndarray (shape : List ℕ) (items : List PyVal)

/-- `len(x)`, `none` for `TypeError`. `src/wulfric/crystal/_crystal_validation.py` L89. -/
def pyLen : PyVal → Option ℕ
  | .str s => some s.length
  | .seq xs => some xs.length
  | .ndarray (n :: _) _ => some n
  | _ => none

/-- What `for element in x` gives (only used on values with a length).
`src/wulfric/crystal/_crystal_validation.py` L153, L165, L186. -/
def pyIter : PyVal → List PyVal
  | .str s => s.toList.map fun c => .str (String.singleton c)
  | .seq xs => xs
  | .ndarray _ xs => xs
  | _ => []

mutual
/-- `np.array(x).shape`; `none` when numpy refuses a ragged sequence with `ValueError`
(numpy ≥ 1.24; the limit on the number of dimensions is ignored).
`src/wulfric/crystal/_crystal_validation.py` L131. -/
def npShape : PyVal → Option (List ℕ)
  | .seq xs => npShapes xs
  | .ndarray s _ => some s
  | .int _ => some []
  | .bool _ => some []
  | .str _ => some []
  | .scalar => some []
/-- Shape of the array of a sequence of values, which have to have equal shapes.
`src/wulfric/crystal/_crystal_validation.py` L131. -/
def npShapes : List PyVal → Option (List ℕ)
  | [] => some [0]
  | [x] => (npShape x).map (1 :: ·)
  | x :: y :: xs =>
    match npShape x, npShapes (y :: xs) with
    | some s, some (n :: t) => if s = t then some ((n + 1) :: s) else none
    | _, _ => none
end

/-- `isinstance(x, str)`. `src/wulfric/crystal/_crystal_validation.py` L154, L166. -/
def PyVal.isStr : PyVal → Bool
  | .str _ => true
  | _ => false

/-- `isinstance(x, int)` (a `bool` is an `int`) and its value.
`src/wulfric/crystal/_crystal_validation.py` L187, L196. -/
def PyVal.asInt : PyVal → Option ℤ
  | .int n => some n
  | .bool b => some (if b then 1 else 0)
  | _ => none

/-- The idiom `if raise_errors: raise ... else: return False`.
`src/wulfric/crystal/_crystal_validation.py` L91-98, L102-113, L118-124, L133-140, L143-149,
L155-161, L167-173, L176-182, L188-194, L197-203. -/
def failCheck (raiseErrors : Bool) (e : Err) : Except Err Bool :=
  if raiseErrors then .error e else .ok false

/-- L85-98: collect the lengths, then continue. `src/wulfric/crystal/_crystal_validation.py` L85-98.
-/
def withLengths (raiseErrors : Bool) :
    PyDict String PyVal → (List ℕ → Except Err Bool) → Except Err Bool
  | [], k => k []
  | (_, v) :: d, k =>
    match pyLen v with
    | none => failCheck raiseErrors .typeError
    | some n => withLengths raiseErrors d fun ns => k (n :: ns)

/-- L115-124: required keys. `src/wulfric/crystal/_crystal_validation.py` L115-124. -/
def checkRequired (raiseErrors : Bool) (atoms : PyDict String PyVal) (k : Except Err Bool) :
    List String → Except Err Bool
  | [] => k
  | key :: keys =>
    if key ∈ atoms.keys then checkRequired raiseErrors atoms k keys
    else failCheck raiseErrors .valueError

/-- L128-149: positions. `src/wulfric/crystal/_crystal_validation.py` L128-149. -/
def checkPositions (raiseErrors : Bool) (atoms : PyDict String PyVal) (k : Except Err Bool) :
    Except Err Bool :=
  match atoms.get? "positions" with
  | none => k
  | some v =>
    match npShape v with
    | none => failCheck raiseErrors .valueError
    | some shape =>
      if shape.length ≠ 2 ∨ shape[1]? ≠ some 3 then failCheck raiseErrors .valueError else k

/-- One loop over the elements of a value: L153-161, L165-182, L186-203.
`src/wulfric/crystal/_crystal_validation.py` L153-161, L165-182, L186-203. -/
def checkElements (raiseErrors : Bool) (good : PyVal → Bool) (k : Except Err Bool) :
    List PyVal → Except Err Bool
  | [] => k
  | x :: xs => if good x then checkElements raiseErrors good k xs else failCheck raiseErrors .valueError

/-- L151-161. `src/wulfric/crystal/_crystal_validation.py` L151-161. -/
def checkNames (raiseErrors : Bool) (atoms : PyDict String PyVal) (k : Except Err Bool) :
    Except Err Bool :=
  match atoms.get? "names" with
  | none => k
  | some v => checkElements raiseErrors PyVal.isStr k (pyIter v)

/-- Conditions of L166 and L175. `src/wulfric/crystal/_crystal_validation.py` L166, L175. -/
def goodSpecies : PyVal → Bool
  | .str s => !(s != "X" && !(atomSpecies.contains s))
  | _ => false

/-- L163-182. `src/wulfric/crystal/_crystal_validation.py` L163-182. -/
def checkSpecies (raiseErrors : Bool) (atoms : PyDict String PyVal) (k : Except Err Bool) :
    Except Err Bool :=
  match atoms.get? "species" with
  | none => k
  | some v => checkElements raiseErrors goodSpecies k (pyIter v)

/-- Conditions of L187 and L196. `src/wulfric/crystal/_crystal_validation.py` L187, L196. -/
def goodType (x : PyVal) : Bool :=
  match x.asInt with
  | some n => !(n < 1)
  | none => false

/-- L184-203. `src/wulfric/crystal/_crystal_validation.py` L184-203. -/
def checkTypes (raiseErrors : Bool) (atoms : PyDict String PyVal) (k : Except Err Bool) :
    Except Err Bool :=
  match atoms.get? "spglib_types" with
  | none => k
  | some v => checkElements raiseErrors goodType k (pyIter v)

/-- `validate_atoms(atoms, required_keys, raise_errors)`:
`src/wulfric/crystal/_crystal_validation.py` L82-205 (`required_keys=None` is `[]`). -/
def validateAtoms (atoms : PyDict String PyVal) (requiredKeys : List String)
    (raiseErrors : Bool) : Except Err Bool :=
  withLengths raiseErrors atoms fun lengths =>
    if lengths.dedup.length ≠ 0 ∧ lengths.dedup.length ≠ 1 then failCheck raiseErrors .valueError
    else
      checkRequired raiseErrors atoms
        (checkPositions raiseErrors atoms
          (checkNames raiseErrors atoms
            (checkSpecies raiseErrors atoms
              (checkTypes raiseErrors atoms (.ok true))))) requiredKeys

end Wulfric
