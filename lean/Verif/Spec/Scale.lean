import Verif.Model.Spglib
import Verif.Model.Conventional

/-!
# Specification: another unit of length
-/

namespace Spec

open Wulfric

/-- Whenever both calls return, the second result is the first one changed by `f`. -/
def BothReturn {α β : Type*} (f : α → β) (x : Except Err α) (y : Except Err β) : Prop :=
  ∀ a b, x = .ok a → y = .ok b → b = f a

/-- spglib finds the same symmetry for `cell` (first tolerance) and for `s * cell` (second
tolerance): the standardised lattices are `s` times larger, all the rest is the same. -/
structure SameSymmetry (lib : SpglibLib) (s symprec₁ symprec₂ angtol : ℝ) (cell : Cell ℝ) :
    Prop where
  dataset : ∀ p t, lib.symDataset (s • cell) p t symprec₂ angtol =
    (lib.symDataset cell p t symprec₁ angtol).map fun d => { d with stdLattice := s • d.stdLattice }
  primitive : ∀ p t, lib.findPrimitive (s • cell) p t symprec₂ angtol =
    (lib.findPrimitive cell p t symprec₁ angtol).map fun q => (s • q.1, q.2)

/-- The Niggli reduction of the reciprocal of `c` does not depend on the unit. -/
def NiggliAt (s : ℝ) (niggli : Cell ℝ → Except Err (Cell ℝ)) (c : Cell ℝ) : Prop :=
  ∀ r, getReciprocal c = .ok r → BothReturn (fun x => s⁻¹ • x) (niggli r) (niggli (s⁻¹ • r))

/-- The test of the variation of a face-centred orthorhombic lattice is clear in both units. -/
def ClearOrcf (s tol a b c : ℝ) : Prop :=
  0 ≤ tol ∧ tol < |1 / a ^ 2 - 1 / b ^ 2 - 1 / c ^ 2| ∧
    tol < |1 / a ^ 2 - 1 / b ^ 2 - 1 / c ^ 2| / s ^ 2

/-- The condition on a crystal for the convention SC. -/
def ScClear (s : ℝ) (d : SpglibData) (conv : Cell ℝ) : Prop :=
  d.crystalFamily ++ d.centringType = "oF" →
    ∀ p, getParams conv = .ok p → ClearOrcf s d.symprec p.1 p.2.1 p.2.2.1

/-- The condition on the data for a convention: none for HPKOT; for SC the tolerance is the same
number and the face-centred orthorhombic test is clear. -/
def ConventionClear (lower : String → String) (niggli : Cell ℝ → Except Err (Cell ℝ)) (s sp : ℝ)
    (cell : Cell ℝ) (atoms : Atoms ℝ) (G : Cell ℝ → Atoms ℝ → Except Err SpglibData)
    (convention : String) (d : SpglibData) : Prop :=
  lower convention = "sc" → d.symprec = sp ∧
    ∀ p, getConventional lower G niggli cell atoms "SC" (some d) = .ok p → ScClear s d p.1

/-- Two names that are the same, or both among those that only the test of the perpendicular
vectors tells apart. -/
def AlmostSame (r r' : String) : Prop :=
  r = r' ∨ (r ∈ ["MCL", "MCLC", "TRI"] ∧ r' ∈ ["MCL", "MCLC", "TRI"])

end Spec
