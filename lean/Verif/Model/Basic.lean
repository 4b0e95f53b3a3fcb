import Mathlib.LinearAlgebra.Matrix.NonsingularInverse
import Mathlib.Algebra.Order.Field.Basic
import Mathlib.Data.Matrix.Mul

/-!
# Shared vocabulary of the model

`Err` lists the exceptions raised by the modelled functions; a python function that
may raise is modelled by a function into `Except Err _`.
-/

namespace Wulfric

/-- Exceptions that the modelled code raises (builtins and
`src/wulfric/_exceptions.py` L50-98).  Messages are not modelled. -/
inductive Err where
  | valueError
  | typeError
  | keyError
  | attributeError
  | indexError
  | runtimeError
  | importError
  /-- `wulfric.exceptions.NiggliReductionFailed` -/
  | niggliReductionFailed
  /-- `wulfric.exceptions.ConventionNotSupported` -/
  | conventionNotSupported
  /-- `wulfric.exceptions.FailedToDeduceAtomSpecies` -/
  | failedToDeduceAtomSpecies
  /-- `wulfric.exceptions.PotentialBugError` -/
  | potentialBug
  /-- reading a local variable before assignment -/
  | unboundLocal
  /-- `numpy.linalg.LinAlgError` (singular matrix) -/
  | linAlgError
  | zeroDivision
  /-- `wulfric.exceptions` / other named errors that carry no further meaning here -/
  | assertion
  deriving DecidableEq, Repr

/-- A cell: 3x3 matrix, rows are the lattice vectors (`cell` everywhere in wulfric). For example
`src/wulfric/cell/_basic_manipulation.py` L75. -/
abbrev Cell (K : Type*) := Matrix (Fin 3) (Fin 3) K

/-- A vector with three components. For example the arguments of `get_angle`,
`src/wulfric/geometry/_geometry.py` L170-179. -/
abbrev Vec (K : Type*) := Fin 3 → K

end Wulfric
