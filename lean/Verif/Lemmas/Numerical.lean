import Verif.Model.Numerical
import Mathlib.Tactic.Linarith

namespace Wulfric

variable {K : Type*} [Field K] [LinearOrder K]

@[simp] theorem cwt_lt (x y e : K) : cwt x .lt y e = true ↔ x < y - e := by simp [cwt]
@[simp] theorem cwt_gt (x y e : K) : cwt x .gt y e = true ↔ y < x - e := by simp [cwt]
@[simp] theorem cwt_le (x y e : K) : cwt x .le y e = true ↔ ¬ (y < x - e) := by simp [cwt]
@[simp] theorem cwt_ge (x y e : K) : cwt x .ge y e = true ↔ ¬ (x < y - e) := by simp [cwt]
@[simp] theorem cwt_eq (x y e : K) :
    cwt x .eq y e = true ↔ ¬ (x < y - e) ∧ ¬ (y < x - e) := by simp [cwt]
@[simp] theorem cwt_ne (x y e : K) :
    cwt x .ne y e = true ↔ x < y - e ∨ y < x - e := by simp [cwt]

end Wulfric
