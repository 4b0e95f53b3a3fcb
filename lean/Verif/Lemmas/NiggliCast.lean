import Verif.Model.Niggli
import Verif.Lemmas.Numerical
import Mathlib.Data.Rat.Cast.Order
import Mathlib.Tactic.NormNum

/-! The loop commutes with the embedding of `ℚ` into an ordered field, so that concrete
runs can be evaluated by the kernel over `ℚ`. -/

namespace Wulfric
open Matrix

set_option linter.unusedSectionVars false
set_option linter.unusedSimpArgs false

variable {K : Type*} [Field K] [LinearOrder K] [IsStrictOrderedRing K]

/-- Cast of a state. -/
def NState.cast (s : NState ℚ) : NState K where
  A := (s.A : K)
  B := (s.B : K)
  C := (s.C : K)
  xi := (s.xi : K)
  eta := (s.eta : K)
  zeta := (s.zeta : K)
  T := s.T

theorem cwt_cast (x y e : ℚ) (c : Cond) : cwt (x : K) c (y : K) (e : K) = cwt x c y e := by
  have h1 : ((x : K) < (y : K) - (e : K)) ↔ x < y - e := by exact_mod_cast Iff.rfl
  have h2 : ((y : K) < (x : K) - (e : K)) ↔ y < x - e := by exact_mod_cast Iff.rfl
  cases c <;> simp only [cwt, h1, h2]

theorem npSign_cast (x : ℚ) : npSign (x : K) = npSign x := by
  unfold npSign; simp

theorem step1_cast (e : ℚ) (s : NState ℚ) : niggliStep1 (e : K) s.cast =
    ((niggliStep1 e s).1, (niggliStep1 e s).2.cast) := by
  unfold niggliStep1; simp only [NState.cast, ← Rat.cast_abs, cwt_cast]
  split <;> rfl

theorem step2_cast (e : ℚ) (s : NState ℚ) : niggliStep2 (e : K) s.cast =
    ((niggliStep2 e s).1, (niggliStep2 e s).2.cast) := by
  unfold niggliStep2; simp only [NState.cast, ← Rat.cast_abs, cwt_cast]
  split <;> rfl

theorem step3_cast (e : ℚ) (s : NState ℚ) : niggliStep3 (e : K) s.cast =
    ((niggliStep3 e s).1, (niggliStep3 e s).2.cast) := by
  have h0 : (0 : K) = ((0 : ℚ) : K) := by simp
  unfold niggliStep3
  simp only [NState.cast, h0, ← Rat.cast_abs, ← Rat.cast_mul, cwt_cast]
  split <;> rfl

theorem cwt_cast0 (x e : ℚ) (c : Cond) : cwt (x : K) c 0 (e : K) = cwt x c 0 e := by
  have := cwt_cast (K := K) x 0 e c
  simpa using this

theorem step4Signs_cast (e4 x y z : ℚ) :
    step4Signs (e4 : K) (x : K) (y : K) (z : K) = step4Signs e4 x y z := by
  unfold step4Signs step4Sign
  simp only [cwt_cast0]

theorem step4_cast (e e4 : ℚ) (s : NState ℚ) : niggliStep4 (e : K) (e4 : K) s.cast =
    ((niggliStep4 e e4 s).1, (niggliStep4 e e4 s).2.cast) := by
  unfold niggliStep4
  simp only [NState.cast, ← Rat.cast_abs, ← Rat.cast_mul, ← Rat.cast_neg, cwt_cast0,
    step4Signs_cast]
  split <;> rfl

theorem two_cast : (2 : K) = ((2 : ℚ) : K) := by norm_num
theorem zero_cast : (0 : K) = ((0 : ℚ) : K) := by norm_num
theorem int_cast (n : ℤ) : (n : K) = ((n : ℚ) : K) := by norm_cast

theorem step5_cast (e : ℚ) (s : NState ℚ) : niggliStep5 (e : K) s.cast =
    ((niggliStep5 e s).1, (niggliStep5 e s).2.cast) := by
  unfold niggliStep5
  simp only [NState.cast, two_cast (K := K), zero_cast (K := K), npSign_cast, int_cast (K := K),
    ← Rat.cast_abs, ← Rat.cast_mul, ← Rat.cast_neg, ← Rat.cast_add, ← Rat.cast_sub, cwt_cast]
  split <;> rfl

theorem step6_cast (e : ℚ) (s : NState ℚ) : niggliStep6 (e : K) s.cast =
    ((niggliStep6 e s).1, (niggliStep6 e s).2.cast) := by
  unfold niggliStep6
  simp only [NState.cast, two_cast (K := K), zero_cast (K := K), npSign_cast, int_cast (K := K),
    ← Rat.cast_abs, ← Rat.cast_mul, ← Rat.cast_neg, ← Rat.cast_add, ← Rat.cast_sub, cwt_cast]
  split <;> rfl

theorem step7_cast (e : ℚ) (s : NState ℚ) : niggliStep7 (e : K) s.cast =
    ((niggliStep7 e s).1, (niggliStep7 e s).2.cast) := by
  unfold niggliStep7
  simp only [NState.cast, two_cast (K := K), zero_cast (K := K), npSign_cast, int_cast (K := K),
    ← Rat.cast_abs, ← Rat.cast_mul, ← Rat.cast_neg, ← Rat.cast_add, ← Rat.cast_sub, cwt_cast]
  split <;> rfl

theorem step8_cast (e : ℚ) (s : NState ℚ) : niggliStep8 (e : K) s.cast =
    ((niggliStep8 e s).1, (niggliStep8 e s).2.cast) := by
  unfold niggliStep8
  simp only [NState.cast, two_cast (K := K), zero_cast (K := K), npSign_cast, int_cast (K := K),
    ← Rat.cast_abs, ← Rat.cast_mul, ← Rat.cast_neg, ← Rat.cast_add, ← Rat.cast_sub, cwt_cast]
  split <;> rfl

theorem pass_cast (e e4 : ℚ) (s : NState ℚ) : niggliPass (e : K) (e4 : K) s.cast =
    ((niggliPass e e4 s).1, (niggliPass e e4 s).2.cast) := by
  unfold niggliPass
  simp only [step1_cast, step2_cast, step3_cast, step4_cast, step5_cast, step6_cast, step7_cast,
    step8_cast]
  split
  · rfl
  split
  · rfl
  split
  · rfl
  split
  · rfl
  split <;> rfl

theorem loop_cast (e e4 : ℚ) (n : ℕ) : ∀ s : NState ℚ, niggliLoop (e : K) (e4 : K) n s.cast =
    (niggliLoop e e4 n s).map NState.cast := by
  induction n with
  | zero => intro s; rfl
  | succ n ih =>
    intro s
    unfold niggliLoop
    simp only [pass_cast]
    split
    · exact ih _
    · rfl

theorem init_cast (cell : Cell ℚ) :
    niggliInit (cell.map (fun x : ℚ => (x : K))) = (niggliInit cell).cast := by
  unfold niggliInit NState.cast
  simp [Matrix.mul_apply, Fin.sum_univ_three]

/-- Concrete runs over `ℚ` are runs over every ordered field. -/
theorem core_cast (cell : Cell ℚ) (e e4 : ℚ) (m : ℤ) :
    niggliCore (cell.map (fun x : ℚ => (x : K))) (e : K) (e4 : K) m =
      (niggliCore cell e e4 m).map (fun c => c.map (fun x : ℚ => (x : K))) := by
  unfold niggliCore
  rw [init_cast, loop_cast]
  cases niggliLoop e e4 (m + 1).toNat (niggliInit cell) with
  | error x => rfl
  | ok s =>
    simp only [Except.map]
    congr 1
    ext i j
    simp [Matrix.mul_apply, NState.cast]

end Wulfric
