import Verif.Model.Basic
import Mathlib.Algebra.Order.Group.Abs

/-!
# Model of `src/wulfric/_numerical.py`
-/

namespace Wulfric

/-- The six accepted values of the argument `condition`
(`src/wulfric/_numerical.py` L95-106). -/
inductive Cond where
  | lt | gt | le | ge | eq | ne
  deriving DecidableEq, Repr

/-- String comparison chain `if condition == "<": ...` of
`src/wulfric/_numerical.py` L95-106; `none` is the fall-through of L108. -/
def Cond.ofString (s : String) : Option Cond :=
  if s = "<" then some .lt
  else if s = ">" then some .gt
  else if s = "<=" then some .le
  else if s = ">=" then some .ge
  else if s = "==" then some .eq
  else if s = "!=" then some .ne
  else none

variable {K : Type*} [Field K] [LinearOrder K]

/-- Body of `compare_with_tolerance` once `eps` is known and `condition` is one of the
six strings: `src/wulfric/_numerical.py` L95-106. -/
def cwt (x : K) (c : Cond) (y eps : K) : Bool :=
  match c with
  | .lt => decide (x < y - eps)
  | .gt => decide (y < x - eps)
  | .le => !decide (y < x - eps)
  | .ge => !decide (x < y - eps)
  | .eq => !(decide (x < y - eps) || decide (y < x - eps))
  | .ne => decide (x < y - eps) || decide (y < x - eps)

/-- `eps = atol + rtol * abs(y)`: `src/wulfric/_numerical.py` L92-93. -/
def defaultEps (y rtol atol : K) : K := atol + rtol * |y|

/-- `compare_with_tolerance(x, condition, y, eps=None, rtol, atol)`:
`src/wulfric/_numerical.py` L26-110. -/
def compareWithTolerance (x : K) (condition : String) (y : K)
    (eps : Option K) (rtol : K := 1 / 10 ^ 5) (atol : K := 1 / 10 ^ 8) :
    Except Err Bool :=
  let e := match eps with
    | none => defaultEps y rtol atol
    | some e => e
  match Cond.ofString condition with
  | some c => .ok (cwt x c y e)
  | none => .error .valueError

end Wulfric
