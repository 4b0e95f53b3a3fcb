import Mathlib.Analysis.SpecialFunctions.Pow.Real
import Mathlib.LinearAlgebra.Matrix.Notation

/-! # Specification of the steps of a k-path, without the loops of the class -/

namespace Spec

/-- One step of a path, between two neighbouring names; `jump` tells that it is the first one
after a bar. -/
structure Step where
  start : String
  stop : String
  jump : Bool

/-- The steps of one sub-path. -/
def subSteps (jump : Bool) : List String → List Step
  | a :: b :: rest => ⟨a, b, jump⟩ :: subSteps false (b :: rest)
  | _ => []

/-- The steps of the sub-paths after the first one. -/
def laterSteps (p : List (List String)) : List Step := p.flatMap (subSteps true)

/-- All steps of a path, in order. -/
def steps : List (List String) → List Step
  | [] => []
  | sub :: subs => subSteps false sub ++ laterSteps subs

/-- Euclidean length. -/
noncomputable def len (v : Fin 3 → ℝ) : ℝ := Real.sqrt (v 0 ^ 2 + v 1 ^ 2 + v 2 ^ 2)

/-- The point at the fraction `t` of the way. -/
noncomputable def between (a b : Fin 3 → ℝ) (t : ℝ) : Fin 3 → ℝ := (1 - t) • a + t • b

/-- The length of a step whose ends are given by `pos`. -/
noncomputable def stepLen (pos : String → Fin 3 → ℝ) (s : Step) : ℝ := len (pos s.stop - pos s.start)

/-- The distance walked before the step number `j`. -/
noncomputable def walked (pos : String → Fin 3 → ℝ) (p : List (List String)) (j : ℕ) : ℝ :=
  (((steps p).take j).map (stepLen pos)).sum

end Spec
