import Verif.Model.Niggli
import Mathlib.Tactic.Ring
import Mathlib.Tactic.Positivity

/-!
# The Niggli loop without tolerance in another unit of length
-/

namespace Wulfric

open Matrix

variable {K : Type*} [Field K] [LinearOrder K] [IsStrictOrderedRing K]

/-- The state with all six numbers multiplied by `t`. -/
def NState.scale (t : K) (s : NState K) : NState K :=
  { A := t * s.A, B := t * s.B, C := t * s.C, xi := t * s.xi, eta := t * s.eta,
    zeta := t * s.zeta, T := s.T }

theorem cwt_scale {t : K} (ht : 0 < t) (x : K) (op : Cond) (y : K) :
    cwt (t * x) op (t * y) 0 = cwt x op y 0 := by
  cases op <;>
    simp [cwt, mul_lt_mul_iff_right₀ ht, mul_le_mul_iff_right₀ ht, ht.ne', ← mul_sub, abs_mul, ht]

theorem cwt_scale0 {t : K} (ht : 0 < t) (x : K) (op : Cond) :
    cwt (t * x) op 0 0 = cwt x op 0 0 := by
  have := cwt_scale ht x op 0
  rwa [mul_zero] at this

theorem npSign_scale {t : K} (ht : 0 < t) (x : K) : npSign (t * x) = npSign x := by
  have hneg : t * x < 0 ↔ x < 0 := by
    constructor
    · intro h; by_contra k; exact absurd h (not_lt.2 (mul_nonneg ht.le (not_lt.1 k)))
    · exact fun h => mul_neg_of_pos_of_neg ht h
  unfold npSign
  simp only [mul_pos_iff_of_pos_left ht, hneg]

variable {t : K}

theorem abs_scale (ht : 0 < t) (x : K) : |t * x| = t * |x| := by rw [abs_mul, abs_of_pos ht]

theorem step1_scale (ht : 0 < t) (s : NState K) : niggliStep1 0 (s.scale t) =
    ((niggliStep1 0 s).1, (niggliStep1 0 s).2.scale t) := by
  unfold niggliStep1
  simp only [NState.scale, abs_scale ht, cwt_scale ht]
  split_ifs <;> rfl

theorem step2_scale (ht : 0 < t) (s : NState K) : niggliStep2 0 (s.scale t) =
    ((niggliStep2 0 s).1, (niggliStep2 0 s).2.scale t) := by
  unfold niggliStep2
  simp only [NState.scale, abs_scale ht, cwt_scale ht]
  split_ifs <;> rfl

theorem prod_scale (ht : 0 < t) (a b c : K) (op : Cond) :
    cwt (t * a * (t * b) * (t * c)) op 0 0 = cwt (a * b * c) op 0 0 := by
  rw [show t * a * (t * b) * (t * c) = t ^ 3 * (a * b * c) by ring]
  exact cwt_scale0 (by positivity) _ _

theorem step3_scale (ht : 0 < t) (s : NState K) : niggliStep3 0 (s.scale t) =
    ((niggliStep3 0 s).1, (niggliStep3 0 s).2.scale t) := by
  unfold niggliStep3
  simp only [NState.scale, abs_scale ht, cwt_scale0 ht, prod_scale ht]
  split_ifs <;> rfl

theorem step4_scale (ht : 0 < t) (s : NState K) : niggliStep4 0 0 (s.scale t) =
    ((niggliStep4 0 0 s).1, (niggliStep4 0 0 s).2.scale t) := by
  have e : step4Signs 0 (t * s.xi) (t * s.eta) (t * s.zeta) = step4Signs 0 s.xi s.eta s.zeta := by
    unfold step4Signs step4Sign
    simp only [cwt_scale0 ht]
  unfold niggliStep4
  simp only [NState.scale, abs_scale ht, prod_scale ht, e]
  split_ifs
  · simp only [mul_neg]
  · rfl

theorem step5_scale (ht : 0 < t) (s : NState K) : niggliStep5 0 (s.scale t) =
    ((niggliStep5 0 s).1, (niggliStep5 0 s).2.scale t) := by
  unfold niggliStep5
  simp only [NState.scale, abs_scale ht, ← mul_neg, mul_left_comm 2 t, cwt_scale ht, cwt_scale0 ht,
    npSign_scale ht, mul_assoc t, ← mul_sub, ← mul_add]
  split_ifs <;> rfl

theorem step6_scale (ht : 0 < t) (s : NState K) : niggliStep6 0 (s.scale t) =
    ((niggliStep6 0 s).1, (niggliStep6 0 s).2.scale t) := by
  unfold niggliStep6
  simp only [NState.scale, abs_scale ht, ← mul_neg, mul_left_comm 2 t, cwt_scale ht, cwt_scale0 ht,
    npSign_scale ht, mul_assoc t, ← mul_sub, ← mul_add]
  split_ifs <;> rfl

theorem step7_scale (ht : 0 < t) (s : NState K) : niggliStep7 0 (s.scale t) =
    ((niggliStep7 0 s).1, (niggliStep7 0 s).2.scale t) := by
  unfold niggliStep7
  simp only [NState.scale, abs_scale ht, ← mul_neg, mul_left_comm 2 t, cwt_scale ht, cwt_scale0 ht,
    npSign_scale ht, mul_assoc t, ← mul_sub, ← mul_add]
  split_ifs <;> rfl

theorem step8_scale (ht : 0 < t) (s : NState K) : niggliStep8 0 (s.scale t) =
    ((niggliStep8 0 s).1, (niggliStep8 0 s).2.scale t) := by
  unfold niggliStep8
  simp only [NState.scale, mul_left_comm 2 t, ← mul_add, cwt_scale0 ht]
  split_ifs <;> rfl

theorem pass_scale (ht : 0 < t) (s : NState K) : niggliPass 0 0 (s.scale t) =
    ((niggliPass 0 0 s).1, (niggliPass 0 0 s).2.scale t) := by
  unfold niggliPass
  simp only [step1_scale ht, step2_scale ht, step3_scale ht, step4_scale ht, step5_scale ht,
    step6_scale ht, step7_scale ht, step8_scale ht]
  split
  · rfl
  split
  · rfl
  split
  · rfl
  split
  · rfl
  split_ifs <;> rfl

theorem loop_scale (ht : 0 < t) (n : ℕ) : ∀ s : NState K, niggliLoop 0 0 n (s.scale t) =
    (niggliLoop 0 0 n s).map (NState.scale t) := by
  induction n with
  | zero => intro s; rfl
  | succ n ih =>
    intro s
    unfold niggliLoop
    simp only [pass_scale ht]
    split
    · exact ih _
    · rfl

theorem init_scale (x : K) (cell : Cell K) :
    niggliInit (x • cell) = (niggliInit cell).scale (x ^ 2) := by
  unfold niggliInit NState.scale
  simp only [transpose_smul, Matrix.smul_mul, Matrix.mul_smul, smul_smul, Matrix.smul_apply,
    smul_eq_mul]
  congr 2 <;> ring

/-- The loop without tolerance commutes with a change of the unit of length. -/
theorem core_scale {x : K} (hx : x ≠ 0) (cell : Cell K) (m : ℤ) :
    niggliCore (x • cell) 0 0 m = (niggliCore cell 0 0 m).map (fun r => x • r) := by
  unfold niggliCore
  rw [init_scale, loop_scale (by positivity)]
  cases niggliLoop 0 0 (m + 1).toNat (niggliInit cell) with
  | error e => rfl
  | ok s => simp only [Except.map, NState.scale, Matrix.mul_smul]

end Wulfric
