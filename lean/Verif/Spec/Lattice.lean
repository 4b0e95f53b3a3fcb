import Mathlib.LinearAlgebra.Matrix.NonsingularInverse
import Mathlib.Algebra.BigOperators.Fin

/-!
# Specification vocabulary: lattices, scalar products, reduced cells

Nothing here refers to the model.  A cell is a 3x3 matrix whose rows are the lattice
vectors.
-/

namespace Spec

open Matrix

variable {K : Type*}

/-- The lattice generated by the rows of `cell`: all integer combinations. -/
def latticePoints [Field K] (cell : Matrix (Fin 3) (Fin 3) K) : Set (Fin 3 → K) :=
  {v | ∃ n : Fin 3 → ℤ, v = fun j => ∑ i, (n i : K) * cell i j}

/-- Two cells generate the same lattice. -/
def SameLattice [Field K] (c d : Matrix (Fin 3) (Fin 3) K) : Prop :=
  latticePoints c = latticePoints d

/-- Scalar product of two vectors with three components. -/
def dot [Field K] (u v : Fin 3 → K) : K := u 0 * v 0 + u 1 * v 1 + u 2 * v 2

/-- Conditions on the scalar products `A = a·a, B = b·b, C = c·c, xi = 2 b·c,
eta = 2 a·c, zeta = 2 a·b` of a Niggli-reduced cell (International Tables A, 9.2.2;
Křivý & Gruber 1976), with exact comparisons. -/
structure NiggliNumbers [Field K] [LinearOrder K] (A B C xi eta zeta : K) : Prop where
  ab : A ≤ B
  bc : B ≤ C
  ab_tie : A = B → |xi| ≤ |eta|
  bc_tie : B = C → |eta| ≤ |zeta|
  /-- type I (all acute) or type II (all obtuse or right) -/
  type : (0 < xi ∧ 0 < eta ∧ 0 < zeta) ∨ (xi ≤ 0 ∧ eta ≤ 0 ∧ zeta ≤ 0)
  xi_le : |xi| ≤ B
  eta_le : |eta| ≤ A
  zeta_le : |zeta| ≤ A
  sum_nonneg : 0 ≤ xi + eta + zeta + A + B
  xi_eq : xi = B → zeta ≤ 2 * eta
  eta_eq : eta = A → zeta ≤ 2 * xi
  zeta_eq : zeta = A → eta ≤ 2 * xi
  xi_eq_neg : xi = -B → zeta = 0
  eta_eq_neg : eta = -A → zeta = 0
  zeta_eq_neg : zeta = -A → eta = 0
  sum_tie : xi + eta + zeta + A + B = 0 → 2 * (A + eta) + zeta ≤ 0

/-- A cell is Niggli-reduced (exact comparisons). -/
def IsNiggli [Field K] [LinearOrder K] (c : Matrix (Fin 3) (Fin 3) K) : Prop :=
  NiggliNumbers (dot (c 0) (c 0)) (dot (c 1) (c 1)) (dot (c 2) (c 2))
    (2 * dot (c 1) (c 2)) (2 * dot (c 0) (c 2)) (2 * dot (c 0) (c 1))

/-- All six numbers `a·a, b·b, c·c, 2b·c, 2a·c, 2a·b` are integer multiples of `s`. -/
def Commensurate [Field K] (s : K) (c : Matrix (Fin 3) (Fin 3) K) : Prop :=
  ∀ i j, ∃ n : ℤ, (if i = j then dot (c i) (c j) else 2 * dot (c i) (c j)) = n * s

end Spec
