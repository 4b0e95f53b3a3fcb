import Verif.Model.Atoms
import Mathlib.Algebra.Ring.Parity

/-!
# Model of `_get_unique`, `src/wulfric/crystal/_primitive.py` L33-132

Exact arithmetic. The boolean masks `available_atoms` and `unique_atoms` are modelled by the
(increasing) lists of the indices where they are true. `np.linalg.norm(d) <= tol` is stated
without the square root.
-/

namespace Wulfric

variable {K : Type*} [Field K] [LinearOrder K] [FloorRing K]

/-- `np.rint`, and python's `round(x, 0)`: to the closest integer, ties to the even one.
`src/wulfric/crystal/_primitive.py` L66. -/
def npRint (x : K) : ℤ :=
  let f := ⌊x⌋
  let d := x - (f : K)
  if d < 1 / 2 then f
  else if 1 / 2 < d then f + 1
  else if f % 2 = 0 then f else f + 1

/-- `np.round(x, decimals=8)`, L72. `src/wulfric/crystal/_primitive.py` L72. -/
def npRound8 (x : K) : K := (npRint (x * 10 ^ 8) : K) / 10 ^ 8

/-- `x % 1`, L75 and L78. `src/wulfric/crystal/_primitive.py` L75, L78. -/
def pyMod1 (x : K) : K := x - (⌊x⌋ : K)

/-- L72-78 for one atom. `src/wulfric/crystal/_primitive.py` L72-78. -/
def reducePosition (v : Vec K) : Vec K := fun j => pyMod1 (pyMod1 (npRound8 (v j)))

/-- One entry of `same_atoms`, L81-89: `norm(p - q) <= tol`
(`np.isclose(norm, 0, atol=tol)` is `abs(norm - 0) <= tol + rtol * abs(0)`).
`src/wulfric/crystal/_primitive.py` L81-89. -/
def sameAtom (tol : K) (p q : Vec K) : Bool :=
  decide (0 ≤ tol) && decide ((p 0 - q 0) ^ 2 + (p 1 - q 1) ^ 2 + (p 2 - q 2) ^ 2 ≤ tol ^ 2)

/-- One entry of `n_equiv`, L92. `src/wulfric/crystal/_primitive.py` L92. -/
def nEquiv (tol : K) (ps : List (Vec K)) (p : Vec K) : ℕ := ps.countP (sameAtom tol p)

/-- The loop of L110-130 over the available indices; `fuel` bounds the number of turns
(at least one index becomes unavailable in each). `src/wulfric/crystal/_primitive.py` L110-130. -/
def uniqueLoopFuel (same : ℕ → ℕ → Bool) : ℕ → List ℕ → List ℕ
  | 0, _ => []
  | _ + 1, [] => []
  | fuel + 1, i :: rest => i :: uniqueLoopFuel same fuel (rest.filter fun j => !same i j)

/-- The loop with as many turns as there are atoms (never exhausted, see
`uniqueLoop_cons`). `src/wulfric/crystal/_primitive.py` L110-130. -/
def uniqueLoop (same : ℕ → ℕ → Bool) (l : List ℕ) : List ℕ := uniqueLoopFuel same l.length l

/-- `array[mask]`, the mask given by the indices. `src/wulfric/crystal/_primitive.py` L132. -/
def maskSelect {α : Type*} (l : List α) (kept : List ℕ) : List α :=
  (l.zipIdx.filter fun p => decide (p.2 ∈ kept)).map Prod.fst

/-- `_get_unique`: `src/wulfric/crystal/_primitive.py` L65-132 (`prim_cell` is used for the
error message only). With no atoms `available_atoms[0]` raises `IndexError`; a mask of the
wrong length raises `IndexError` too. -/
def getUnique (positions : List (Vec K)) (types : List ℤ) (repetition : K) (tol : K) :
    Except Err (List (Vec K) × List ℤ) :=
  let r := npRint repetition
  let ps := positions.map reducePosition
  if ps.all fun p => decide ((nEquiv tol ps p : ℤ) = r) then
    if ps.length = 0 then .error .indexError
    else
      let same := fun i j => sameAtom tol (ps.getD i 0) (ps.getD j 0)
      let kept := uniqueLoop same (List.range ps.length)
      if types.length = ps.length then .ok (maskSelect ps kept, maskSelect types kept)
      else .error .indexError
  else .error .valueError

end Wulfric
