import Verif.Model.Spglib
import Verif.Model.Kpoints

/-!
# Specification: two descriptions of one crystal

Another choice of the lattice vectors, a supercell, another order of the atoms or another origin
describe the same crystal.
-/

namespace Spec

open Wulfric

/-- Whenever both calls return, the results are related by `r`. -/
def BothSuch {α β : Type*} (r : α → β → Prop) (x : Except Err α) (y : Except Err β) : Prop :=
  ∀ a b, x = .ok a → y = .ok b → r a b

/-- spglib standardises the two crystals to the same lattice: the same space group, the same
standardised and primitive lattices and the same rotation. The atoms inside need not be the same
(spglib may choose another origin, or another order). -/
structure SameFrame (lib : SpglibLib) (symprec angtol : ℝ)
    (cell₁ : Cell ℝ) (ps₁ : List (Vec ℝ)) (ts₁ : List ℤ)
    (cell₂ : Cell ℝ) (ps₂ : List (Vec ℝ)) (ts₂ : List ℤ) : Prop where
  dataset : ∀ d₁ d₂, lib.symDataset cell₁ ps₁ ts₁ symprec angtol = some d₁ →
    lib.symDataset cell₂ ps₂ ts₂ symprec angtol = some d₂ →
    d₂.number = d₁.number ∧ d₂.stdLattice = d₁.stdLattice ∧ d₂.stdRotation = d₁.stdRotation
  primitive : ∀ q₁ q₂, lib.findPrimitive cell₁ ps₁ ts₁ symprec angtol = some q₁ →
    lib.findPrimitive cell₂ ps₂ ts₂ symprec angtol = some q₂ → q₂.1 = q₁.1

/-- spglib gives the same answers for the two crystals, atoms included. -/
structure SameReply (lib : SpglibLib) (symprec angtol : ℝ)
    (cell₁ : Cell ℝ) (ps₁ : List (Vec ℝ)) (ts₁ : List ℤ)
    (cell₂ : Cell ℝ) (ps₂ : List (Vec ℝ)) (ts₂ : List ℤ) : Prop where
  dataset : lib.symDataset cell₂ ps₂ ts₂ symprec angtol =
    lib.symDataset cell₁ ps₁ ts₁ symprec angtol
  primitive : lib.findPrimitive cell₂ ps₂ ts₂ symprec angtol =
    lib.findPrimitive cell₁ ps₁ ts₁ symprec angtol

/-- A key of the two dictionaries of atoms tells the same about every type of atoms: it is in both
or in none, and atoms of one type have one value. -/
def SameMeaning {α : Type*} (v₁ : Option (List α)) (ts₁ : List ℤ) (v₂ : Option (List α))
    (ts₂ : List ℤ) : Prop :=
  (v₁ = none ↔ v₂ = none) ∧ ∀ l₁ l₂, v₁ = some l₁ → v₂ = some l₂ →
    ∀ (i j : ℕ) (t : ℤ) (x y : α), ts₁[i]? = some t → ts₂[j]? = some t →
      l₁[i]? = some x → l₂[j]? = some y → x = y

/-- The two dictionaries of points have the same names in the same order, and their relative
coordinates stand for the same vectors of the reciprocal space. -/
def SameVectors (rcell₁ rcell₂ : Cell ℝ) (p₁ p₂ : PyDict String (Vec ℝ)) : Prop :=
  List.Forall₂ (fun x y => y.1 = x.1 ∧ Matrix.vecMul y.2 rcell₂ = Matrix.vecMul x.2 rcell₁) p₁ p₂

end Spec
