import Verif.Spec.Geometry
import Mathlib.Data.List.Forall2

/-! # Specification vocabulary: cells of one crystal -/

namespace Spec
open Matrix

/-- `d` is an integer combination of the vectors of `c` with determinant `+1`: the same
lattice, the same volume and the same handedness. -/
def ProperBasis (c d : Matrix (Fin 3) (Fin 3) ℝ) : Prop :=
  ∃ M : Matrix (Fin 3) (Fin 3) ℤ, M.det = 1 ∧ d = M.map (Int.cast : ℤ → ℝ) * c

/-- Cartesian position of a point with relative coordinates `p`. -/
def cartesian (c : Matrix (Fin 3) (Fin 3) ℝ) (p : Fin 3 → ℝ) : Fin 3 → ℝ :=
  fun j => p 0 * c 0 j + p 1 * c 1 j + p 2 * c 2 j

/-- Two lists of relative positions, each with its cell, are the same points of space in the
same order. -/
def SamePoints (c : Matrix (Fin 3) (Fin 3) ℝ) (ps : List (Fin 3 → ℝ))
    (d : Matrix (Fin 3) (Fin 3) ℝ) (qs : List (Fin 3 → ℝ)) : Prop :=
  List.Forall₂ (fun p q => cartesian c p = cartesian d q) ps qs

/-- All three angles acute, or none of them. -/
def OneKind (al be ga : ℝ) : Prop :=
  (al < 90 ∧ be < 90 ∧ ga < 90) ∨ (90 ≤ al ∧ 90 ≤ be ∧ 90 ≤ ga)

/-- `i` is the last index of `t` in the list. -/
def LastIndex (l : List ℤ) (t : ℤ) (i : ℕ) : Prop := l[i]? = some t ∧ ∀ j, i < j → l[j]? ≠ some t

/-- `i` is the first index of `t` in the list. -/
def FirstIndex (l : List ℤ) (t : ℤ) (i : ℕ) : Prop := l[i]? = some t ∧ ∀ j, j < i → l[j]? ≠ some t

/-- The new values of one key: absent if it was absent, otherwise the `k`-th value is that of
the original atom `pick t`, `t` the type of the `k`-th new atom. -/
def Inherited {α : Type} (pick : ℤ → ℕ → Prop) (old : Option (List α)) (types : List ℤ)
    (new : Option (List α)) : Prop :=
  (old = none → new = none) ∧
  ∀ l, old = some l → ∃ l', new = some l' ∧
    List.Forall₂ (fun t x => ∃ i, pick t i ∧ l[i]? = some x) types l'

end Spec
