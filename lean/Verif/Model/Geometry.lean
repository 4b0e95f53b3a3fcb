import Verif.Model.Numerical
import Mathlib.Analysis.SpecialFunctions.Trigonometric.Inverse
import Mathlib.LinearAlgebra.Matrix.Notation

/-!
# Model of `src/wulfric/geometry/_geometry.py` and `src/wulfric/cell/_basic_manipulation.py`

Real numbers; `np.linalg.norm`, `np.dot`, `np.linalg.det`, `np.linalg.inv`, `np.arccos`,
`math.cos/sin/sqrt` are their mathematical counterparts.
-/

namespace Wulfric

open Matrix

/-- `np.dot` of two vectors with three components. As in `src/wulfric/geometry/_geometry.py` L179,
L423, L425, L429. -/
def npDot (u v : Vec ℝ) : ℝ := ∑ i, u i * v i

/-- `np.linalg.norm`. As in `src/wulfric/geometry/_geometry.py` L171-172, L413-416, L426. -/
noncomputable def npNorm (v : Vec ℝ) : ℝ := Real.sqrt (npDot v v)

/-- `np.clip(x, -1.0, 1.0)`. As in `src/wulfric/geometry/_geometry.py` L179, L423, L429 and
`src/wulfric/_lepage.py` L391. -/
noncomputable def clip1 (x : ℝ) : ℝ := min (max x (-1)) 1

/-- `TORADIANS`: `src/wulfric/constants/_numerical.py` L31. -/
noncomputable def toRadians : ℝ := Real.pi / 180

/-- `TODEGREES`: `src/wulfric/constants/_numerical.py` L28. -/
noncomputable def toDegrees : ℝ := 180 / Real.pi

/-- `np.finfo(float).eps`. As in `src/wulfric/geometry/_geometry.py` L173. -/
noncomputable def machineEps : ℝ := 1 / 2 ^ 52

/-- `math.sqrt` (raises `ValueError` for a negative argument). As in
`src/wulfric/geometry/_geometry.py` L115 and `src/wulfric/cell/_basic_manipulation.py` L174. -/
noncomputable def mathSqrt (x : ℝ) : Except Err ℝ :=
  if x < 0 then .error .valueError else .ok (Real.sqrt x)

/-- The expression under the square root: `src/wulfric/geometry/_geometry.py` L108-114 and
`src/wulfric/cell/_basic_manipulation.py` L175-179 (angles in radians). -/
noncomputable def sqRoot (alpha beta gamma : ℝ) : ℝ :=
  1 + 2 * Real.cos alpha * Real.cos beta * Real.cos gamma - Real.cos alpha ^ 2
    - Real.cos beta ^ 2 - Real.cos gamma ^ 2

/-- Arguments of `get_volume(*args)` by their number
(`src/wulfric/geometry/_geometry.py` L99-120). -/
inductive VolArgs where
  | one (cell : Cell ℝ)
  | three (v1 v2 v3 : Vec ℝ)
  | six (a b c alpha beta gamma : ℝ)
  /-- any other number of arguments -/
  | other

/-- `get_volume`: `src/wulfric/geometry/_geometry.py` L31-122. -/
noncomputable def getVolume : VolArgs → Except Err ℝ
  | .one cell => .ok |cell.det|
  | .three v1 v2 v3 => .ok |(Matrix.of ![v1, v2, v3]).det|
  | .six a b c alpha beta gamma =>
    match mathSqrt (sqRoot (alpha * toRadians) (beta * toRadians) (gamma * toRadians)) with
    | .error e => .error e
    | .ok s => .ok (a * b * c * s)
  | .other => .error .valueError

/-- `get_angle(v1, v2, radians)`: `src/wulfric/geometry/_geometry.py` L125-183. -/
noncomputable def getAngle (v1 v2 : Vec ℝ) (radians : Bool := false) : Except Err ℝ :=
  if |npNorm v1| ≤ machineEps ∨ |npNorm v2| ≤ machineEps then .error .valueError
  else
    let u1 : Vec ℝ := fun i => v1 i / npNorm v1
    let u2 : Vec ℝ := fun i => v2 i / npNorm v2
    let alpha := Real.arccos (clip1 (npDot u1 u2))
    if radians then .ok alpha else .ok (alpha * toDegrees)

/-- The boolean `result` of `parallelepiped_check`:
`src/wulfric/geometry/_geometry.py` L267-289. -/
noncomputable def parallelepipedResult (a b c alpha beta gamma lt at' : ℝ) : Bool :=
  cwt a .gt 0 lt && cwt b .gt 0 lt && cwt c .gt 0 lt &&
  cwt alpha .lt 180 at' && cwt beta .lt 180 at' && cwt gamma .lt 180 at' &&
  cwt alpha .gt 0 at' && cwt beta .gt 0 at' && cwt gamma .gt 0 at' &&
  cwt gamma .lt (alpha + beta) at' && cwt (alpha + beta) .lt (360 - gamma) at' &&
  cwt beta .lt (alpha + gamma) at' && cwt (alpha + gamma) .lt (360 - beta) at' &&
  cwt alpha .lt (beta + gamma) at' && cwt (beta + gamma) .lt (360 - alpha) at'

/-- `parallelepiped_check`: `src/wulfric/geometry/_geometry.py` L186-340 (the error
message is not modelled). -/
noncomputable def parallelepipedCheck (a b c alpha beta gamma : ℝ) (raiseError : Bool := false)
    (lengthTolerance : ℝ := 1 / 10 ^ 8) (angleTolerance : ℝ := 1 / 10 ^ 4) : Except Err Bool :=
  let result := parallelepipedResult a b c alpha beta gamma lengthTolerance angleTolerance
  if !result && raiseError then .error .valueError else .ok result

/-- `from_params`: `src/wulfric/cell/_basic_manipulation.py` L78-184. -/
noncomputable def fromParams (a b c alpha beta gamma : ℝ) : Except Err (Cell ℝ) :=
  match parallelepipedCheck a b c alpha beta gamma true with
  | .error e => .error e
  | .ok _ =>
    let al := alpha * toRadians
    let be := beta * toRadians
    let ga := gamma * toRadians
    if Real.sin ga = 0 then .error .zeroDivision else
    match mathSqrt (sqRoot al be ga) with
    | .error e => .error e
    | .ok s => .ok !![a, 0, 0;
        b * Real.cos ga, b * Real.sin ga, 0;
        c * Real.cos be, c / Real.sin ga * (Real.cos al - Real.cos be * Real.cos ga),
          c / Real.sin ga * s]

/-- `get_params`: `src/wulfric/cell/_basic_manipulation.py` L187-236; the result is
`(a, b, c, alpha, beta, gamma)`. -/
noncomputable def getParams (cell : Cell ℝ) : Except Err (ℝ × ℝ × ℝ × ℝ × ℝ × ℝ) := do
  let alpha ← getAngle (cell 1) (cell 2)
  let beta ← getAngle (cell 0) (cell 2)
  let gamma ← getAngle (cell 0) (cell 1)
  return (npNorm (cell 0), npNorm (cell 1), npNorm (cell 2), alpha, beta, gamma)

/-- `get_scalar_products`: `src/wulfric/cell/_basic_manipulation.py` L239-272. -/
def getScalarProducts (cell : Cell ℝ) : ℝ × ℝ × ℝ :=
  (npDot (cell 1) (cell 2), npDot (cell 0) (cell 2), npDot (cell 0) (cell 1))

/-- `np.linalg.inv`: `LinAlgError` for a singular matrix. As in
`src/wulfric/cell/_basic_manipulation.py` L75, L296. -/
noncomputable def npInv (m : Cell ℝ) : Except Err (Cell ℝ) :=
  if m.det = 0 then .error .linAlgError else .ok m⁻¹

/-- `get_reciprocal`: `src/wulfric/cell/_basic_manipulation.py` L39-75. -/
noncomputable def getReciprocal (cell : Cell ℝ) : Except Err (Cell ℝ) :=
  match npInv cell with
  | .error e => .error e
  | .ok inv => .ok ((2 * Real.pi) • inv.transpose)

/-- `get_transformation_matrix`: `src/wulfric/cell/_basic_manipulation.py` L275-296. -/
noncomputable def getTransformationMatrix (original transformed : Cell ℝ) :
    Except Err (Cell ℝ) :=
  match npInv original with
  | .error e => .error e
  | .ok inv => .ok (inv.transpose * transformed.transpose)

/-- `np.allclose(x, y)` for vectors with three components
(`rtol = 1e-5`, `atol = 1e-8`): `|x - y| <= atol + rtol * |y|` for every component. As in
`src/wulfric/geometry/_geometry.py` L418, L420. -/
def allclose3 (x y : Vec ℝ) : Prop :=
  ∀ i, |x i - y i| ≤ 1 / 10 ^ 8 + 1 / 10 ^ 5 * |y i|

/-- `v / np.linalg.norm(v)`. As in `src/wulfric/geometry/_geometry.py` L176-177, L413-416, L426. -/
noncomputable def npNormalize (v : Vec ℝ) : Vec ℝ := fun i => v i / npNorm v

open Classical in
/-- The two angles in radians for normalised vectors:
`src/wulfric/geometry/_geometry.py` L418-434. -/
noncomputable def sphericalAngles (v ep er : Vec ℝ) : ℝ × ℝ :=
  if allclose3 v ep then (0, 0)
  else if allclose3 v (fun i => -ep i) then (Real.pi, Real.pi)
  else
    let polar := Real.arccos (clip1 (npDot v ep))
    let u := npNormalize (fun i => v i - ep i * npDot v ep)
    let az := Real.arccos (clip1 (npDot u er))
    let az := if 0 ≤ (Matrix.of ![ep, er, u]).det then az else 2 * Real.pi - az
    (polar, az)

/-- `get_spherical`: `src/wulfric/geometry/_geometry.py` L343-439; the result is
`(r, polar, azimuthal)`. Division by a zero norm (NaN in numpy) is not modelled: the
theorems require non-zero norms. -/
noncomputable def getSpherical (vector : Vec ℝ) (inDegrees : Bool := true)
    (polarAxis : Vec ℝ := ![0, 0, 1]) (radialLineZero : Vec ℝ := ![1, 0, 0]) : ℝ × ℝ × ℝ :=
  let pa := sphericalAngles (npNormalize vector) (npNormalize polarAxis)
    (npNormalize radialLineZero)
  let r := npNorm vector
  if inDegrees then (r, pa.1 * toDegrees, pa.2 * toDegrees) else (r, pa.1, pa.2)

end Wulfric
