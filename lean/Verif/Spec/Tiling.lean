import Verif.Spec.Lattice
import Mathlib.Topology.Constructions
import Mathlib.Topology.Instances.Real.Lemmas

/-! # Specification: a body that fills space by the translations of a lattice -/

namespace Spec

/-- The copies of `W` shifted by the points of `L` cover space, and the inner parts of two different
copies do not meet. -/
structure Tiles (W L : Set (Fin 3 → ℝ)) : Prop where
  /-- every point of space is in one of the copies -/
  covers : ∀ x : Fin 3 → ℝ, ∃ p ∈ L, x - p ∈ W
  /-- no point is inside of two copies, or inside of one and in another -/
  apart : ∀ p ∈ L, ∀ q ∈ L, p ≠ q → ∀ x : Fin 3 → ℝ, x - p ∈ interior W → x - q ∉ W

end Spec
