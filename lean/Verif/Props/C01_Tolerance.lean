import Verif.Lemmas.Numerical
import Mathlib.Tactic.NormNum

/-!
# C01: `compare_with_tolerance` is a coherent order

The specification is a plain statement about the three numbers: `x` is below `y` by
more than `eps`, above by more than `eps`, or within `eps`.
-/

namespace Wulfric

set_option linter.unusedSectionVars false

variable {K : Type*} [Field K] [LinearOrder K] [IsStrictOrderedRing K]

/-- Specification: the meaning of each condition string, in terms of `|x - y|`, `x - y`
and `eps` only (independent of the model). -/
def TolSpec (x y eps : K) : String → Prop
  | "<" => eps < y - x
  | ">" => eps < x - y
  | "<=" => x - y ≤ eps
  | ">=" => y - x ≤ eps
  | "==" => |x - y| ≤ eps
  | "!=" => eps < |x - y|
  | _ => False

/-- The six documented strings. -/
def condStrings : List String := ["<", ">", "<=", ">=", "==", "!="]

/-- C01 (meaning): for each of the six strings the function returns `True` iff the
documented inequality holds. -/
theorem C01_meaning (x y eps rtol atol : K) (s : String) (hs : s ∈ condStrings) :
    ∃ b, compareWithTolerance x s y (some eps) rtol atol = .ok b ∧
      (b = true ↔ TolSpec x y eps s) := by
  simp only [condStrings, List.mem_cons, List.not_mem_nil, or_false] at hs
  rcases hs with rfl | rfl | rfl | rfl | rfl | rfl
  · exact ⟨_, rfl, (cwt_lt _ _ _).trans (by simp only [TolSpec]; constructor <;> intro h <;> linarith)⟩
  · exact ⟨_, rfl, (cwt_gt _ _ _).trans (by simp only [TolSpec]; constructor <;> intro h <;> linarith)⟩
  · exact ⟨_, rfl, (cwt_le _ _ _).trans (by
      simp only [TolSpec, not_lt]; constructor <;> intro h <;> linarith)⟩
  · exact ⟨_, rfl, (cwt_ge _ _ _).trans (by
      simp only [TolSpec, not_lt]; constructor <;> intro h <;> linarith)⟩
  · refine ⟨_, rfl, (cwt_eq _ _ _).trans ?_⟩
    simp only [TolSpec, not_lt, abs_le]
    constructor <;> rintro ⟨h1, h2⟩ <;> constructor <;> linarith
  · refine ⟨_, rfl, (cwt_ne _ _ _).trans ?_⟩
    simp only [TolSpec, lt_abs]
    constructor <;> rintro (h | h)
    · right; linarith
    · left; linarith
    · right; linarith
    · left; linarith

/-- C01 (default tolerance): without `eps` the result is that for
`eps = atol + rtol*|y|`. -/
theorem C01_default (x y rtol atol : K) (s : String) :
    compareWithTolerance x s y none rtol atol =
      compareWithTolerance x s y (some (atol + rtol * |y|)) rtol atol := rfl

/-- C01 (rejection): any other string raises `ValueError`, and only those do. -/
theorem C01_reject (x y rtol atol : K) (eps : Option K) (s : String) :
    compareWithTolerance x s y eps rtol atol = .error .valueError ↔ s ∉ condStrings := by
  unfold compareWithTolerance Cond.ofString condStrings
  by_cases h1 : s = "<" <;> by_cases h2 : s = ">" <;> by_cases h3 : s = "<=" <;>
    by_cases h4 : s = ">=" <;> by_cases h5 : s = "==" <;> by_cases h6 : s = "!=" <;>
    simp_all

/-- Result of the comparison as a proposition ("the call returns `True`"). -/
def Holds (x : K) (s : String) (y eps : K) : Prop :=
  compareWithTolerance x s y (some eps) = .ok true

/-- C01 (trichotomy): for `eps ≥ 0` exactly one of `<`, `==`, `>` holds. -/
theorem C01_trichotomy (x y eps : K) (h : 0 ≤ eps) :
    (Holds x "<" y eps ∧ ¬ Holds x "==" y eps ∧ ¬ Holds x ">" y eps) ∨
    (¬ Holds x "<" y eps ∧ Holds x "==" y eps ∧ ¬ Holds x ">" y eps) ∨
    (¬ Holds x "<" y eps ∧ ¬ Holds x "==" y eps ∧ Holds x ">" y eps) := by
  simp only [Holds, compareWithTolerance, Cond.ofString, cwt]
  by_cases h1 : x < y - eps <;> by_cases h2 : y < x - eps <;> simp [h1, h2]
  linarith

/-- C01 (complements). -/
theorem C01_complement (x y eps : K) :
    (Holds x "<=" y eps ↔ ¬ Holds x ">" y eps) ∧
    (Holds x ">=" y eps ↔ ¬ Holds x "<" y eps) ∧
    (Holds x "!=" y eps ↔ ¬ Holds x "==" y eps) := by
  simp only [Holds, compareWithTolerance, Cond.ofString, cwt]
  by_cases h1 : x < y - eps <;> by_cases h2 : y < x - eps <;> simp [h1, h2]

/-- C01 (exchange of the arguments). -/
theorem C01_swap (x y eps : K) :
    (Holds x "<" y eps ↔ Holds y ">" x eps) ∧
    (Holds x "<=" y eps ↔ Holds y ">=" x eps) ∧
    (Holds x "==" y eps ↔ Holds y "==" x eps) ∧
    (Holds x "!=" y eps ↔ Holds y "!=" x eps) := by
  simp only [Holds, compareWithTolerance, Cond.ofString, cwt]
  by_cases h1 : x < y - eps <;> by_cases h2 : y < x - eps <;> simp [h1, h2]

/-- C01 (transitivity of the strict relations, monotonicity in the tolerance). -/
theorem C01_trans (x y z eps : K) (h : 0 ≤ eps)
    (h1 : Holds x "<" y eps) (h2 : Holds y "<" z eps) : Holds x "<" z eps := by
  simp only [Holds, compareWithTolerance, Cond.ofString, cwt] at *
  simp at *; linarith

theorem C01_mono (x y e1 e2 : K) (h : e1 ≤ e2) :
    (Holds x "==" y e1 → Holds x "==" y e2) ∧ (Holds x "<" y e2 → Holds x "<" y e1) := by
  simp only [Holds, compareWithTolerance, Cond.ofString, cwt]
  simp only [if_true]
  refine ⟨?_, ?_⟩ <;> simp <;> intros <;> (try constructor) <;> linarith

/-- The tolerant equality is *not* transitive (so the order is only an interval order);
concrete witness. -/
theorem C01_eq_not_transitive :
    ∃ x y z eps : ℚ, Holds x "==" y eps ∧ Holds y "==" z eps ∧ ¬ Holds x "==" z eps :=
  ⟨0, 1, 2, 1, by simp [Holds, compareWithTolerance, Cond.ofString, cwt],
    by simp [Holds, compareWithTolerance, Cond.ofString, cwt]; norm_num,
    by simp [Holds, compareWithTolerance, Cond.ofString, cwt]⟩

/-- Non-vacuity: the hypotheses of `C01_trans`. -/
example : (0 : ℚ) ≤ 1 / 10 ∧ Holds (1 : ℚ) "<" 2 (1 / 10) ∧ Holds (2 : ℚ) "<" 3 (1 / 10) := by
  refine ⟨by norm_num, ?_, ?_⟩ <;> simp [Holds, compareWithTolerance, Cond.ofString, cwt] <;>
    norm_num

end Wulfric
