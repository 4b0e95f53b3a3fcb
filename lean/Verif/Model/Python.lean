import Verif.Model.Basic

/-!
# Python containers used by the model

A `dict` is an association list in insertion order; a `list` is a `List`.
-/

namespace Wulfric

/-- A python `dict`: pairs in insertion order (python ≥ 3.7 keeps that order). For example `atoms`
in `src/wulfric/crystal/_atoms.py` L97-120 and the coordinates of `src/wulfric/_kpoints_class.py`
L113-116. -/
abbrev PyDict (κ V : Type*) := List (κ × V)

namespace PyDict
variable {κ V : Type*} [DecidableEq κ]

/-- `d[k]` without the exception. As in `src/wulfric/_syntactic_sugar.py` L58-62. -/
def get? : PyDict κ V → κ → Option V
  | [], _ => none
  | (a, v) :: d, k => if a = k then some v else get? d k

/-- `d[k]` (`dict.__getitem__`). As in `src/wulfric/_syntactic_sugar.py` L60 and
`src/wulfric/_kpoints_class.py` L399-403. -/
def getItem (d : PyDict κ V) (k : κ) : Except Err V :=
  match d.get? k with
  | some v => .ok v
  | none => .error .keyError

/-- `d[k] = v` (`dict.__setitem__`): an existing key keeps its place, a new one goes last. As in
`src/wulfric/_syntactic_sugar.py` L64. -/
def setItem : PyDict κ V → κ → V → PyDict κ V
  | [], k, v => [(k, v)]
  | (a, w) :: d, k, v => if a = k then (a, v) :: d else (a, w) :: setItem d k v

/-- Removal of the first (only) entry with the key. For `src/wulfric/_syntactic_sugar.py` L65. -/
def erase : PyDict κ V → κ → PyDict κ V
  | [], _ => []
  | (a, w) :: d, k => if a = k then d else (a, w) :: erase d k

/-- `del d[k]` (`dict.__delitem__`). As in `src/wulfric/_syntactic_sugar.py` L65. -/
def delItem (d : PyDict κ V) (k : κ) : Except Err (PyDict κ V) :=
  match d.get? k with
  | some _ => .ok (d.erase k)
  | none => .error .keyError

/-- `list(d)`. As in `src/wulfric/_kpoints_class.py` L229. -/
def keys (d : PyDict κ V) : List κ := d.map Prod.fst

end PyDict

/-- `l[i]` for a python list and an integer index (negative ones count from the end). As in
`src/wulfric/_kpoints_class.py` L399, L439 and `src/wulfric/io/_vasp.py` L96-143. -/
def pyGet {α : Type*} (l : List α) (i : ℤ) : Except Err α :=
  let k := if i < 0 then i + l.length else i
  if 0 ≤ k then
    match l[k.toNat]? with
    | some x => .ok x
    | none => .error .indexError
  else .error .indexError

end Wulfric
