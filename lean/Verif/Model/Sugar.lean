import Verif.Model.Python

/-!
# Model of `src/wulfric/_syntactic_sugar.py`

`reserved` says which names python finds by ordinary attribute lookup (methods of `dict`
and of `object`), for which `__getattr__` is never called.  The key table lives on a heap,
so that "a new dictionary" can be stated; values are opaque (they are shared by reference).
-/

namespace Wulfric
namespace Sugar
variable {V : Type*}

/-- What an attribute read returns: a stored value or a method of the class.
`src/wulfric/_syntactic_sugar.py` L58-62. -/
inductive Attr (V : Type*) where
  | value (v : V)
  | method (name : String)
  deriving DecidableEq, Repr

/-- `obj.key`: ordinary lookup first, then `SyntacticSugar.__getattr__`,
`src/wulfric/_syntactic_sugar.py` L58-62. -/
def getAttr (reserved : String → Bool) (d : PyDict String V) (key : String) :
    Except Err (Attr V) :=
  if reserved key then .ok (.method key)
  else
    match d.getItem key with
    | .ok v => .ok (.value v)
    | .error _ => .error .attributeError

/-- `obj.key = v`: `__setattr__ = dict.__setitem__`, `src/wulfric/_syntactic_sugar.py` L64. -/
def setAttr (d : PyDict String V) (key : String) (v : V) : PyDict String V := d.setItem key v

/-- `del obj.key`: `__delattr__ = dict.__delitem__`, `src/wulfric/_syntactic_sugar.py` L65. -/
def delAttr (d : PyDict String V) (key : String) : Except Err (PyDict String V) := d.delItem key

/-- Statements a user may write. For the class of `src/wulfric/_syntactic_sugar.py` L58-65. -/
inductive Op (V : Type*) where
  | setItem (k : String) (v : V)
  | setAttr (k : String) (v : V)
  | delItem (k : String)
  | delAttr (k : String)

/-- Effect of one statement; a statement that raises leaves the object unchanged. For the class of
`src/wulfric/_syntactic_sugar.py` L58-65. -/
def step (d : PyDict String V) : Op V → PyDict String V × Option Err
  | .setItem k v => (d.setItem k v, none)
  | .setAttr k v => (setAttr d k v, none)
  | .delItem k => match d.delItem k with
    | .ok d' => (d', none)
    | .error e => (d, some e)
  | .delAttr k => match delAttr d k with
    | .ok d' => (d', none)
    | .error e => (d, some e)

/-- A history of statements, with the exception each of them raised. For the class of
`src/wulfric/_syntactic_sugar.py` L58-65. -/
def run (d : PyDict String V) : List (Op V) → PyDict String V × List (Option Err)
  | [] => (d, [])
  | op :: ops =>
    let (d', e) := step d op
    let (d'', es) := run d' ops
    (d'', e :: es)

/-- A python object as far as `isinstance(_, dict)` and its contents are concerned.
`src/wulfric/_syntactic_sugar.py` L120, L178. -/
inductive Obj (V : Type*) where
  /-- a plain `dict` -/
  | dict (d : PyDict String V)
  /-- a `SyntacticSugar` (a subclass of `dict`) -/
  | candy (d : PyDict String V)
  | other

/-- Contents of a dictionary-like object. `src/wulfric/_syntactic_sugar.py` L120-130, L178-188. -/
def Obj.entries : Obj V → Option (PyDict String V)
  | .dict d => some d
  | .candy d => some d
  | .other => none

/-- The loop `for key in dictionary: new[key] = dictionary[key]`:
`src/wulfric/_syntactic_sugar.py` L127-128 and L185-186. -/
def copyLoop (src : PyDict String V) : PyDict String V :=
  src.keys.foldl (fun acc k =>
    match src.get? k with
    | some v => acc.setItem k v
    | none => acc) []

/-- Objects by address. For `src/wulfric/_syntactic_sugar.py` L120-130, L178-188. -/
abbrev Heap (V : Type*) := List (Obj V)

/-- `add_sugar(dictionary)`: `src/wulfric/_syntactic_sugar.py` L120-130. Returns the new
heap and the address of the result. -/
def addSugar (h : Heap V) (a : ℕ) : Except Err (Heap V × ℕ) :=
  match (h[a]?.getD .other).entries with
  | none => .error .valueError
  | some d => .ok (h ++ [.candy (copyLoop d)], h.length)

/-- `remove_sugar(candy)`: `src/wulfric/_syntactic_sugar.py` L178-188. -/
def removeSugar (h : Heap V) (a : ℕ) : Except Err (Heap V × ℕ) :=
  match (h[a]?.getD .other).entries with
  | none => .error .valueError
  | some d => .ok (h ++ [.dict (copyLoop d)], h.length)

end Sugar
end Wulfric
