import Verif.Model.Numerical
import Mathlib.Data.Matrix.Reflection
import Mathlib.LinearAlgebra.Matrix.Notation
import Mathlib.Analysis.SpecialFunctions.Pow.Real

/-!
# Model of `src/wulfric/cell/_niggli.py`

The eight steps and the main loop over any linearly ordered field `K` (exact
arithmetic); the wrapper `getNiggli` (which takes a cube root) over `ℝ`.
-/

namespace Wulfric

open Matrix

variable {K : Type*} [Field K] [LinearOrder K]

/-- The six numbers `params` of `get_niggli`
(`src/wulfric/cell/_niggli.py` L376-383): `A, B, C, xi, eta, zeta`. -/
structure NParams (K : Type*) where
  A : K
  B : K
  C : K
  xi : K
  eta : K
  zeta : K

/-- Loop state of `get_niggli`: `params` and `trans_matrix`
(`src/wulfric/cell/_niggli.py` L376-385). -/
structure NState (K : Type*) extends NParams K where
  T : Matrix (Fin 3) (Fin 3) ℤ

/-- `np.sign`. As in `src/wulfric/cell/_niggli.py` L171-179, L199-208, L228-237. -/
def npSign (x : K) : ℤ := if 0 < x then 1 else if x < 0 then -1 else 0

/-- `_niggli_step_1`: `src/wulfric/cell/_niggli.py` L35-52. -/
def niggliStep1 (eps : K) (s : NState K) : Bool × NState K :=
  let condition := cwt s.A .gt s.B eps ||
    (cwt s.A .eq s.B eps && cwt |s.xi| .gt |s.eta| eps)
  if condition then
    (true, { A := s.B, B := s.A, C := s.C, xi := s.eta, eta := s.xi, zeta := s.zeta,
             T := s.T * !![0, -1, 0; -1, 0, 0; 0, 0, -1] })
  else (false, s)

/-- `_niggli_step_2`: `src/wulfric/cell/_niggli.py` L55-72. -/
def niggliStep2 (eps : K) (s : NState K) : Bool × NState K :=
  let condition := cwt s.B .gt s.C eps ||
    (cwt s.B .eq s.C eps && cwt |s.eta| .gt |s.zeta| eps)
  if condition then
    (true, { A := s.A, B := s.C, C := s.B, xi := s.xi, eta := s.zeta, zeta := s.eta,
             T := s.T * !![-1, 0, 0; 0, 0, -1; 0, -1, 0] })
  else (false, s)

/-- `_niggli_step_3`: `src/wulfric/cell/_niggli.py` L75-104. -/
def niggliStep3 (eps : K) (s : NState K) : Bool × NState K :=
  let condition := cwt (s.xi * s.eta * s.zeta) .gt 0 eps
  if condition then
    let i : ℤ := if cwt s.xi .gt 0 eps then 1 else -1
    let j : ℤ := if cwt s.eta .gt 0 eps then 1 else -1
    let k : ℤ := if cwt s.zeta .gt 0 eps then 1 else -1
    (true, { A := s.A, B := s.B, C := s.C, xi := |s.xi|, eta := |s.eta|, zeta := |s.zeta|,
             T := s.T * !![i, 0, 0; 0, j, 0; 0, 0, k] })
  else (false, s)

/-- The variable `p` of `_niggli_step_4` (`None`, `"i"`, `"j"`, `"k"`):
`src/wulfric/cell/_niggli.py` L112-130. -/
inductive PIdx where
  | none | i | j | k
  deriving DecidableEq, Repr

/-- One of the blocks "Step 2/3/4" of `_niggli_step_4`
(`src/wulfric/cell/_niggli.py` L115-130): new sign and new `p`.
The comparisons use the *default* tolerance of `compare_with_tolerance` at `y = 0`,
passed here as `e4`. -/
def step4Sign (e4 x : K) (me p : PIdx) : ℤ × PIdx :=
  if cwt x .gt 0 e4 then (-1, p)
  else if !cwt x .lt 0 e4 then (1, me)
  else (1, p)

/-- Signs `i, j, k` of `_niggli_step_4`: `src/wulfric/cell/_niggli.py` L110-139. -/
def step4Signs (e4 xi eta zeta : K) : ℤ × ℤ × ℤ :=
  let r1 := step4Sign e4 xi .i .none
  let r2 := step4Sign e4 eta .j r1.2
  let r3 := step4Sign e4 zeta .k r2.2
  let i := r1.1
  let j := r2.1
  let k := r3.1
  let p := r3.2
  if i * j * k < 0 ∧ p ≠ .none then
    match p with
    | .i => (-1, j, k)
    | .j => (i, -1, k)
    | .k => (i, j, -1)
    | .none => (i, j, k)
  else (i, j, k)

/-- `_niggli_step_4`: `src/wulfric/cell/_niggli.py` L107-152. `e4` is the default
tolerance used by the sign tests of L115-129 (in the code `1e-8`). -/
def niggliStep4 (eps e4 : K) (s : NState K) : Bool × NState K :=
  let condition := cwt (s.xi * s.eta * s.zeta) .le 0 eps
  if condition then
    let r := step4Signs e4 s.xi s.eta s.zeta
    (true, { A := s.A, B := s.B, C := s.C, xi := -|s.xi|, eta := -|s.eta|, zeta := -|s.zeta|,
             T := s.T * !![r.1, 0, 0; 0, r.2.1, 0; 0, 0, r.2.2] })
  else (false, s)

/-- `_niggli_step_5`: `src/wulfric/cell/_niggli.py` L155-181. -/
def niggliStep5 (eps : K) (s : NState K) : Bool × NState K :=
  let condition := cwt |s.xi| .gt s.B eps ||
    (cwt s.xi .eq s.B eps && cwt (2 * s.eta) .lt s.zeta eps) ||
    (cwt s.xi .eq (-s.B) eps && cwt s.zeta .lt 0 eps)
  if condition then
    let g := npSign s.xi
    (true, { A := s.A, B := s.B, C := s.B + s.C - s.xi * g, xi := s.xi - 2 * s.B * g,
             eta := s.eta - s.zeta * g, zeta := s.zeta,
             T := s.T * !![1, 0, 0; 0, 1, -g; 0, 0, 1] })
  else (false, s)

/-- `_niggli_step_6`: `src/wulfric/cell/_niggli.py` L184-210. -/
def niggliStep6 (eps : K) (s : NState K) : Bool × NState K :=
  let condition := cwt |s.eta| .gt s.A eps ||
    (cwt s.eta .eq s.A eps && cwt (2 * s.xi) .lt s.zeta eps) ||
    (cwt s.eta .eq (-s.A) eps && cwt s.zeta .lt 0 eps)
  if condition then
    let g := npSign s.eta
    (true, { A := s.A, B := s.B, C := s.A + s.C - s.eta * g, xi := s.xi - s.zeta * g,
             eta := s.eta - 2 * s.A * g, zeta := s.zeta,
             T := s.T * !![1, 0, -g; 0, 1, 0; 0, 0, 1] })
  else (false, s)

/-- `_niggli_step_7`: `src/wulfric/cell/_niggli.py` L213-239. -/
def niggliStep7 (eps : K) (s : NState K) : Bool × NState K :=
  let condition := cwt |s.zeta| .gt s.A eps ||
    (cwt s.zeta .eq s.A eps && cwt (2 * s.xi) .lt s.eta eps) ||
    (cwt s.zeta .eq (-s.A) eps && cwt s.eta .lt 0 eps)
  if condition then
    let g := npSign s.zeta
    (true, { A := s.A, B := s.A + s.B - s.zeta * g, C := s.C, xi := s.xi - s.eta * g,
             eta := s.eta, zeta := s.zeta - 2 * s.A * g,
             T := s.T * !![1, -g, 0; 0, 1, 0; 0, 0, 1] })
  else (false, s)

/-- `_niggli_step_8`: `src/wulfric/cell/_niggli.py` L242-261. -/
def niggliStep8 (eps : K) (s : NState K) : Bool × NState K :=
  let condition := cwt (s.xi + s.eta + s.zeta + s.A + s.B) .lt 0 eps ||
    (cwt (s.xi + s.eta + s.zeta + s.A + s.B) .eq 0 eps &&
      cwt (2 * (s.A + s.eta) + s.zeta) .gt 0 eps)
  if condition then
    (true, { A := s.A, B := s.B, C := s.A + s.B + s.C + s.xi + s.eta + s.zeta,
             xi := 2 * s.B + s.xi + s.zeta, eta := 2 * s.A + s.eta + s.zeta, zeta := s.zeta,
             T := s.T * !![1, 0, 1; 0, 1, 1; 0, 0, 1] })
  else (false, s)

/-- One pass of the `while True` loop of `get_niggli`
(`src/wulfric/cell/_niggli.py` L394-429). The boolean is `true` if the pass ended with
`continue` and `false` if it ended with `break`. -/
def niggliPass (eps e4 : K) (s : NState K) : Bool × NState K :=
  -- 1 (no `continue` after it)
  let s1 := (niggliStep1 eps s).2
  -- 2
  let r2 := niggliStep2 eps s1
  if r2.1 then (true, r2.2) else
  -- 3, 4 (no `continue` after them)
  let s3 := (niggliStep3 eps r2.2).2
  let s4 := (niggliStep4 eps e4 s3).2
  -- 5
  let r5 := niggliStep5 eps s4
  if r5.1 then (true, r5.2) else
  -- 6
  let r6 := niggliStep6 eps r5.2
  if r6.1 then (true, r6.2) else
  -- 7
  let r7 := niggliStep7 eps r6.2
  if r7.1 then (true, r7.2) else
  -- 8
  let r8 := niggliStep8 eps r7.2
  if r8.1 then (true, r8.2) else
  (false, r8.2)

/-- The `while True` loop of `get_niggli` (`src/wulfric/cell/_niggli.py` L387-429).
`fuel` is `max_iterations + 1 - iter_count`: the test
`if iter_count > max_iterations: raise` succeeds iff it is zero. -/
def niggliLoop (eps e4 : K) : ℕ → NState K → Except Err (NState K)
  | 0, _ => .error .niggliReductionFailed
  | fuel + 1, s =>
    let r := niggliPass eps e4 s
    if r.1 then niggliLoop eps e4 fuel r.2 else .ok r.2

/-- Initial state of the loop: `src/wulfric/cell/_niggli.py` L374-385
(`metric_tensor = cell @ cell.T`). -/
def niggliInit (cell : Cell K) : NState K :=
  let G := cell * cell.transpose
  { A := G 0 0, B := G 1 1, C := G 2 2, xi := 2 * G 1 2, eta := 2 * G 0 2, zeta := 2 * G 0 1,
    T := 1 }

/-- `get_niggli(..., implementation="wulfric")` after the volume check, for a given
absolute tolerance `eps`: `src/wulfric/cell/_niggli.py` L373-431. The returned value is
`trans_matrix.T @ cell`. -/
def niggliCore (cell : Cell K) (eps e4 : K) (maxIterations : ℤ) : Except Err (Cell K) :=
  match niggliLoop eps e4 (maxIterations + 1).toNat (niggliInit cell) with
  | .error e => .error e
  | .ok s => .ok ((s.T.transpose.map (Int.cast : ℤ → K)) * cell)

/-- ASCII lower-casing, `str.lower`. Only ASCII letters are mapped (python also lowers
other unicode letters; none of them lowers to one of the supported names). As in
`src/wulfric/cell/_niggli.py` L353. -/
def lowerStr (s : String) : String := s.toLower

/-- `get_niggli(cell, eps_relative, implementation, max_iterations)`:
`src/wulfric/cell/_niggli.py` L264-431. The result of the external
`spglib.niggli_reduce` is the parameter `spglib`. -/
noncomputable def getNiggli (spglib : Cell ℝ → ℝ → Except Err (Cell ℝ))
    (cell : Cell ℝ) (epsRelative : ℝ) (implementation : String) (maxIterations : ℤ) :
    Except Err (Cell ℝ) :=
  let impl := lowerStr implementation
  if impl = "spglib" then spglib cell epsRelative
  else if impl ≠ "wulfric" then .error .valueError
  else
    let volume := |cell.det|
    if volume = 0 then .error .valueError
    else
      let eps := epsRelative * volume ^ ((1 : ℝ) / 3)
      niggliCore cell eps (defaultEps 0 (1 / 10 ^ 5) (1 / 10 ^ 8)) maxIterations

end Wulfric
