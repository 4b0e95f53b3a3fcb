import Verif.Spec.Crystal

/-!
# Specification vocabulary: lists of atoms without repetitions
-/

namespace Spec

/-- No two entries of the list of relative positions are the same place of the periodic structure. -/
def DistinctSites (ps : List (Fin 3 → ℝ)) : Prop :=
  ∀ (i j : ℕ) (p q : Fin 3 → ℝ), ps[i]? = some p → ps[j]? = some q →
    (∃ n : Fin 3 → ℤ, ∀ k, p k - q k = n k) → i = j

end Spec
