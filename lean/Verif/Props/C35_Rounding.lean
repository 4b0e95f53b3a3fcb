import Verif.Props.C35_Unique
import Mathlib.Tactic.Linarith
import Mathlib.Tactic.NormNum

/-! # C35: how the coordinates and the repetition are rounded -/

namespace Wulfric

variable {K : Type*} [Field K] [LinearOrder K] [IsStrictOrderedRing K] [FloorRing K]

/-- C35: the number of repetitions is rounded to the closest integer and a tie goes to the even one;
there is one such integer. -/
theorem C35_rint (x : K) (n : ℤ) :
    npRint x = n ↔ |x - n| ≤ 1 / 2 ∧ (|x - n| = 1 / 2 → Even n) := by
  have main : |x - npRint x| ≤ 1 / 2 ∧ (|x - npRint x| = 1 / 2 → Even (npRint x)) := by
    have h0 := Int.floor_le x
    have h1 := Int.lt_floor_add_one x
    unfold npRint
    simp only
    split_ifs with a b c
    · rw [abs_of_nonneg (by linarith)]
      exact ⟨a.le, fun h => absurd h a.ne⟩
    · push_cast
      rw [abs_of_nonpos (by linarith)]
      exact ⟨by linarith, fun h => by linarith⟩
    · rw [abs_of_nonneg (by linarith)]
      exact ⟨by linarith, fun _ => Int.even_iff.2 c⟩
    · push_cast
      rw [abs_of_nonpos (by linarith)]
      refine ⟨by linarith, fun _ => ?_⟩
      rw [Int.even_iff]
      omega
  refine ⟨fun h => h ▸ main, fun ⟨h, he⟩ => ?_⟩
  obtain ⟨g, ge⟩ := main
  generalize npRint x = m at g ge
  have h' := abs_le.1 h
  have g' := abs_le.1 g
  have l1 : ((m - n : ℤ) : K) ≤ (1 : ℤ) := by push_cast; linarith
  have l2 : ((-1 : ℤ) : K) ≤ ((m - n : ℤ) : K) := by push_cast; linarith
  have l1 := Int.cast_le.1 l1
  have l2 := Int.cast_le.1 l2
  rcases (by omega : m = n ∨ m = n + 1 ∨ m = n - 1) with e | e | e
  · exact e
  · subst e
    push_cast at g' ge
    have hx : x - n = 1 / 2 := by linarith
    have e1 := he (by rw [hx, abs_of_pos (by norm_num)])
    have e2 := ge (by rw [show x - ((n : K) + 1) = -(1 / 2) by linarith, abs_neg,
      abs_of_pos (by norm_num)])
    rw [Int.even_iff] at e1 e2
    omega
  · subst e
    push_cast at g' ge
    have hx : x - n = -(1 / 2) := by linarith
    have e1 := he (by rw [hx, abs_neg, abs_of_pos (by norm_num)])
    have e2 := ge (by rw [show x - ((n : K) - 1) = 1 / 2 by linarith, abs_of_pos (by norm_num)])
    rw [Int.even_iff] at e1 e2
    omega

/-- C35: a coordinate is rounded to the closest multiple of `1e-8`, a tie to the even one. -/
theorem C35_round (x : K) : ∃ n : ℤ, npRound8 x = n / 10 ^ 8 ∧ |x * 10 ^ 8 - n| ≤ 1 / 2 ∧
    (|x * 10 ^ 8 - n| = 1 / 2 → Even n) :=
  ⟨_, rfl, (C35_rint (x * 10 ^ 8) _).1 rfl⟩

/-- Two ties: 2.5 repetitions are 2, and 3.5 are 4. -/
example : npRint (5 / 2 : ℚ) = 2 ∧ npRint (7 / 2 : ℚ) = 4 := by
  rw [C35_rint, C35_rint]
  norm_num [abs_of_pos, abs_of_neg]
  decide

end Wulfric
