import Verif.Model.Validation

/-! # Specification of a valid `atoms` dictionary -/

namespace Wulfric.Spec

/-- The value is a rectangular array-like of the given shape. -/
inductive HasShape : PyVal → List ℕ → Prop
  | int (n : ℤ) : HasShape (.int n) []
  | bool (b : Bool) : HasShape (.bool b) []
  | str (s : String) : HasShape (.str s) []
  | scalar : HasShape .scalar []
  | array (shape : List ℕ) (items : List PyVal) : HasShape (.ndarray shape items) shape
  | nil : HasShape (.seq []) [0]
  | seq (items : List PyVal) (s : List ℕ) : items ≠ [] → (∀ x ∈ items, HasShape x s) →
      HasShape (.seq items) (items.length :: s)

/-- An element of the list is a string. -/
def IsStr (x : PyVal) : Prop := ∃ s, x = .str s

/-- An element of the list is "X" or the symbol of an element. -/
def IsSpecies (x : PyVal) : Prop := ∃ s, x = .str s ∧ (s = "X" ∨ s ∈ atomSpecies)

/-- An element of the list is a positive python integer (or `True`). -/
def IsType (x : PyVal) : Prop := (∃ n : ℤ, x = .int n ∧ 1 ≤ n) ∨ x = .bool true

/-- What the documentation of `validate_atoms` asks for. -/
structure ValidAtoms (atoms : PyDict String PyVal) (requiredKeys : List String) : Prop where
  /-- every value has a length, the same for all keys -/
  lengths : ∃ n, ∀ k v, (k, v) ∈ atoms → pyLen v = some n
  required : ∀ k ∈ requiredKeys, ∃ v, (k, v) ∈ atoms
  positions : ∀ v, ("positions", v) ∈ atoms → ∃ n, HasShape v [n, 3]
  names : ∀ v, ("names", v) ∈ atoms → ∀ x ∈ pyIter v, IsStr x
  species : ∀ v, ("species", v) ∈ atoms → ∀ x ∈ pyIter v, IsSpecies x
  types : ∀ v, ("spglib_types", v) ∈ atoms → ∀ x ∈ pyIter v, IsType x

end Wulfric.Spec
