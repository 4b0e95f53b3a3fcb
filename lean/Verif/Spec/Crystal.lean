import Verif.Spec.Centring
import Verif.Spec.Conventional

/-!
# Specification vocabulary: the infinite crystal

A crystal is the set of all its atoms: pairs of a label (type, species or name) and a Cartesian
position.
-/

namespace Spec

variable {α : Type}

/-- All atoms of the periodic structure with the cell `c`, relative positions `ps` and labels `ls`. -/
def crystal (c : Matrix (Fin 3) (Fin 3) ℝ) (ps : List (Fin 3 → ℝ)) (ls : List α) :
    Set (α × (Fin 3 → ℝ)) :=
  {a | ∃ (i : ℕ) (p : Fin 3 → ℝ) (n : Fin 3 → ℤ), ls[i]? = some a.1 ∧ ps[i]? = some p ∧
    a.2 = cartesian c fun j => p j + n j}

/-- The crystal moved by the vector `v` (a change of the origin). -/
def moved (v : Fin 3 → ℝ) (A : Set (α × (Fin 3 → ℝ))) : Set (α × (Fin 3 → ℝ)) :=
  {a | (a.1, a.2 - v) ∈ A}

/-- The translation by `v` takes the crystal to itself. -/
def Symmetry (v : Fin 3 → ℝ) (A : Set (α × (Fin 3 → ℝ))) : Prop := moved v A = A

/-- What the cells of a standardised crystal (conventional `cc, cp, ct` and primitive `pc, pp, pt`)
have to do with the given crystal `A`: both are this crystal, up to the choice of the origin, and
the centring translations of the lattice `bl` are symmetries of it. -/
structure Standardised (A : Set (ℤ × (Fin 3 → ℝ))) (bl : String)
    (cc : Matrix (Fin 3) (Fin 3) ℝ) (cp : List (Fin 3 → ℝ)) (ct : List ℤ)
    (pc : Matrix (Fin 3) (Fin 3) ℝ) (pp : List (Fin 3 → ℝ)) (pt : List ℤ) : Prop where
  conventional : ∃ v, crystal cc cp ct = moved v A
  primitive : ∃ v, crystal pc pp pt = moved v A
  centred : ∀ t ∈ translations ℝ (hpkotLetter bl), Symmetry (cartesian cc t) (crystal cc cp ct)

/-- Two atoms of the crystal that differ by no more than `δ` in each of the coordinates relative to
`c` are the same atom. -/
def Sparse (δ : ℝ) (c : Matrix (Fin 3) (Fin 3) ℝ) (A : Set (α × (Fin 3 → ℝ))) : Prop :=
  ∀ a ∈ A, ∀ b ∈ A, ∀ e : Fin 3 → ℝ, (∀ j, |e j| ≤ δ) → a.2 - b.2 = cartesian c e → a = b

/-- Every atom of `A` is an atom of `B` with the same label up to `δ` in the coordinates relative to
`c`. -/
def NearBy (δ : ℝ) (c : Matrix (Fin 3) (Fin 3) ℝ) (A B : Set (α × (Fin 3 → ℝ))) : Prop :=
  ∀ a ∈ A, ∃ b ∈ B, a.1 = b.1 ∧ ∃ e : Fin 3 → ℝ, (∀ j, |e j| ≤ δ) ∧ a.2 - b.2 = cartesian c e

end Spec
