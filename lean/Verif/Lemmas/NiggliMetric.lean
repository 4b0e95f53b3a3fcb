import Verif.Lemmas.NiggliUnimodular
import Verif.Lemmas.Numerical
import Mathlib.Tactic.LinearCombination
import Mathlib.Tactic.NormNum

namespace Wulfric
open Matrix Spec
set_option linter.unusedSectionVars false

variable {K : Type*} [Field K] [LinearOrder K] [IsStrictOrderedRing K]

/-- The basis described by the current transformation matrix. -/
def cur (cell : Cell K) (T : Matrix (Fin 3) (Fin 3) ℤ) : Cell K :=
  (T.transpose.map (Int.cast : ℤ → K)) * cell

/-- The six numbers of the loop are the scalar products of the current basis. -/
structure Tracks (cell : Cell K) (s : NState K) : Prop where
  A : s.A = dot (cur cell s.T 0) (cur cell s.T 0)
  B : s.B = dot (cur cell s.T 1) (cur cell s.T 1)
  C : s.C = dot (cur cell s.T 2) (cur cell s.T 2)
  xi : s.xi = 2 * dot (cur cell s.T 1) (cur cell s.T 2)
  eta : s.eta = 2 * dot (cur cell s.T 0) (cur cell s.T 2)
  zeta : s.zeta = 2 * dot (cur cell s.T 0) (cur cell s.T 1)

theorem cur_mul (cell : Cell K) (T M : Matrix (Fin 3) (Fin 3) ℤ) (i j : Fin 3) :
    cur cell (T * M) i j =
      (M 0 i : K) * cur cell T 0 j + (M 1 i : K) * cur cell T 1 j + (M 2 i : K) * cur cell T 2 j := by
  have : (T * M).transpose.map (Int.cast : ℤ → K) =
      M.transpose.map (Int.cast : ℤ → K) * T.transpose.map (Int.cast : ℤ → K) := by
    rw [transpose_mul]
    exact Matrix.map_mul (f := Int.castRingHom K)
  unfold cur
  rw [this, Matrix.mul_assoc, Matrix.mul_apply, Fin.sum_univ_three]
  simp

theorem tracks_init (cell : Cell K) : Tracks cell (niggliInit cell) := by
  have h : cur cell (niggliInit cell).T = cell := by simp [cur, niggliInit]
  constructor <;> rw [h] <;>
    simp [niggliInit, dot, Matrix.mul_apply, Fin.sum_univ_three]

/-- General tracking lemma: explicit scalar products after a change of basis. -/
theorem tracks_of (cell : Cell K) (s s' : NState K) (M : Matrix (Fin 3) (Fin 3) ℤ)
    (hT : s'.T = s.T * M) (h : Tracks cell s)
    (g : Fin 3 → Fin 3 → K)
    (hg : ∀ i j, g i j =
      (M 0 i : K) * (M 0 j) * s.A + (M 1 i : K) * (M 1 j) * s.B + (M 2 i : K) * (M 2 j) * s.C +
      ((M 1 i : K) * (M 2 j) + (M 2 i : K) * (M 1 j)) * (s.xi / 2) +
      ((M 0 i : K) * (M 2 j) + (M 2 i : K) * (M 0 j)) * (s.eta / 2) +
      ((M 0 i : K) * (M 1 j) + (M 1 i : K) * (M 0 j)) * (s.zeta / 2))
    (hA : s'.A = g 0 0) (hB : s'.B = g 1 1) (hC : s'.C = g 2 2)
    (hx : s'.xi = 2 * g 1 2) (he : s'.eta = 2 * g 0 2) (hz : s'.zeta = 2 * g 0 1) :
    Tracks cell s' := by
  have key : ∀ i j, g i j = dot (cur cell s'.T i) (cur cell s'.T j) := by
    intro i j
    rw [hg i j, h.A, h.B, h.C, h.xi, h.eta, h.zeta, hT]
    simp only [dot, cur_mul]
    field_simp
    ring
  constructor
  · rw [hA, key]
  · rw [hB, key]
  · rw [hC, key]
  · rw [hx, key]
  · rw [he, key]
  · rw [hz, key]

/-- Tracking for the steps whose matrix entries are known. -/
macro "track_step" : tactic => `(tactic|
  (refine tracks_of _ _ _ _ rfl (by assumption) _ (fun _ _ => rfl) ?_ ?_ ?_ ?_ ?_ ?_ <;>
    simp <;> try ring))

theorem tracks_step1 (eps : K) (cell : Cell K) (s : NState K) (h : Tracks cell s) :
    Tracks cell (niggliStep1 eps s).2 := by
  unfold niggliStep1; dsimp only; split
  · track_step
  · exact h

theorem tracks_step2 (eps : K) (cell : Cell K) (s : NState K) (h : Tracks cell s) :
    Tracks cell (niggliStep2 eps s).2 := by
  unfold niggliStep2; dsimp only; split
  · track_step
  · exact h

theorem tracks_step8 (eps : K) (cell : Cell K) (s : NState K) (h : Tracks cell s) :
    Tracks cell (niggliStep8 eps s).2 := by
  unfold niggliStep8; dsimp only; split
  · track_step
  · exact h

theorem npSign_sq {x : K} (h : x ≠ 0) : (npSign x : K) * (npSign x : K) = 1 := by
  unfold npSign
  rcases lt_trichotomy x 0 with h' | h' | h'
  · have : ¬ (0 < x) := not_lt.2 h'.le
    simp [this, h']
  · exact absurd h' h
  · simp [h']

theorem mul_npSign (x : K) : x * (npSign x : K) = |x| := by
  unfold npSign
  rcases lt_trichotomy x 0 with h' | h' | h'
  · have : ¬ (0 < x) := not_lt.2 h'.le
    simp [this, h', abs_of_neg]
  · simp [h']
  · simp [h', abs_of_pos]

theorem tracks_step5 (eps : K) (cell : Cell K) (s : NState K) (h : Tracks cell s)
    (hx : (niggliStep5 eps s).1 = true → s.xi ≠ 0) :
    Tracks cell (niggliStep5 eps s).2 := by
  unfold niggliStep5 at hx ⊢; dsimp only at hx ⊢; split
  · rename_i hc
    rw [if_pos hc] at hx
    have hs := npSign_sq (hx rfl)
    refine tracks_of _ _ _ _ rfl h _ (fun _ _ => rfl) ?_ ?_ ?_ ?_ ?_ ?_ <;> simp
    · linear_combination (-s.B) * hs
    · ring
    · ring
    · ring
  · exact h

theorem tracks_step6 (eps : K) (cell : Cell K) (s : NState K) (h : Tracks cell s)
    (hx : (niggliStep6 eps s).1 = true → s.eta ≠ 0) :
    Tracks cell (niggliStep6 eps s).2 := by
  unfold niggliStep6 at hx ⊢; dsimp only at hx ⊢; split
  · rename_i hc
    rw [if_pos hc] at hx
    have hs := npSign_sq (hx rfl)
    refine tracks_of _ _ _ _ rfl h _ (fun _ _ => rfl) ?_ ?_ ?_ ?_ ?_ ?_ <;> simp
    · linear_combination (-s.A) * hs
    · ring
    · ring
    · ring
  · exact h

theorem tracks_step7 (eps : K) (cell : Cell K) (s : NState K) (h : Tracks cell s)
    (hx : (niggliStep7 eps s).1 = true → s.zeta ≠ 0) :
    Tracks cell (niggliStep7 eps s).2 := by
  unfold niggliStep7 at hx ⊢; dsimp only at hx ⊢; split
  · rename_i hc
    rw [if_pos hc] at hx
    have hs := npSign_sq (hx rfl)
    refine tracks_of _ _ _ _ rfl h _ (fun _ _ => rfl) ?_ ?_ ?_ ?_ ?_ ?_ <;> simp
    · linear_combination (-s.A) * hs
    · ring
    · ring
    · ring
  · exact h

end Wulfric
