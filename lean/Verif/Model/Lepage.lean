import Verif.Model.Conventional
import Mathlib.Analysis.SpecialFunctions.Trigonometric.Arctan
import Mathlib.LinearAlgebra.CrossProduct

/-!
# The Le Page algorithm

Model of `src/wulfric/_lepage.py`. Real numbers; determinants of integer matrices are exact.
`angles[:-1, :-1]` keeps the entries of the matrix, so the matrix is a function of two indices;
its size is the number of axes, which is cut at the same time. The warnings are not modelled.
-/

namespace Wulfric

/-- One entry of the list `axes`: indices, direction, deviation in degrees
(`src/wulfric/_lepage.py` L361; the third component of the python list is never read). -/
structure LAxis where
  U : Fin 3 → ℤ
  dir : Vec ℝ
  delta : ℝ

/-- `(np.indices((k, k, k)) - (k - 1) / 2)...reshape(k ** 3, 3)`, for the range `-r..r`:
`src/wulfric/_lepage.py` L229 (`r = 1`) and L349 (`r = 2`). -/
def millerIndices (r : ℕ) : List (Fin 3 → ℤ) :=
  let range := (List.range (2 * r + 1)).map fun i : ℕ => (i : ℤ) - r
  range.flatMap fun x => range.flatMap fun y => range.map fun z => ![x, y, z]

/-- `U @ h` for integer vectors. As in `src/wulfric/_lepage.py` L353. -/
def intDot (u h : Fin 3 → ℤ) : ℤ := u 0 * h 0 + u 1 * h 1 + u 2 * h 2

/-- `U @ cell` for an integer vector. As in `src/wulfric/_lepage.py` L139, L233, L236, L354. -/
noncomputable def intMat (u : Fin 3 → ℤ) (cell : Cell ℝ) : Vec ℝ := vecMat (fun i => (u i : ℝ)) cell

/-- The deviation of the two axes in degrees: `src/wulfric/_lepage.py` L356-359. -/
noncomputable def lepageDelta (t tau : Vec ℝ) : ℝ :=
  Real.arctan (npNorm (crossProduct t tau) / |npDot t tau|) * toDegrees

/-- The list of potential axes: `src/wulfric/_lepage.py` L348-361. -/
noncomputable def potentialAxes (cell rcell : Cell ℝ) (limit : ℝ) : List LAxis :=
  (millerIndices 2).flatMap fun u => (millerIndices 2).filterMap fun h =>
    if |intDot u h| = 2 then
      let t := intMat u cell
      let delta := lepageDelta t (intMat h rcell)
      if delta < limit then some ⟨u, npNormalize t, delta⟩ else none
    else none

/-- `axes.sort(key=lambda x: x[-1])` (a stable sort): `src/wulfric/_lepage.py` L364. -/
noncomputable def sortAxes (l : List LAxis) : List LAxis :=
  l.mergeSort fun a b => decide (a.delta ≤ b.delta)

/-- The condition of `src/wulfric/_lepage.py` L369-374. -/
def sameAxis (u v : Fin 3 → ℤ) : Bool :=
  decide (u = v) || decide (u = -v) || decide (u = 2 • v) || decide (2 • u = v)

/-- `set(U) == {0, 2}`, then `U / 2`: `src/wulfric/_lepage.py` L380-381. -/
def halveAxis (u : Fin 3 → ℤ) : Fin 3 → ℤ :=
  if (∀ i, u i = 0 ∨ u i = 2) ∧ (∃ i, u i = 0) ∧ (∃ i, u i = 2) then fun i => u i / 2 else u

/-- The loops that drop twins: `src/wulfric/_lepage.py` L365-383. -/
def dropTwins : List LAxis → List LAxis
  | [] => []
  | a :: rest =>
    if rest.any fun b => sameAxis a.U b.U then dropTwins rest
    else { a with U := halveAxis a.U } :: dropTwins rest

/-- One entry of the matrix of angles for two directions: `src/wulfric/_lepage.py` L390-393. -/
noncomputable def axisAngle (u v : Vec ℝ) : ℝ := Real.arccos |clip1 (npDot u v)| * toDegrees

/-- `angles + angles.T`, of which the part `i <= j` has been filled:
`src/wulfric/_lepage.py` L386-394. Indices outside the list are never read. -/
noncomputable def angleMatrix (axes : List LAxis) (i j : ℕ) : ℝ :=
  let d := fun k : ℕ => (axes.map LAxis.dir).getD k 0
  if i < j then axisAngle (d i) (d j)
  else if j < i then axisAngle (d j) (d i)
  else axisAngle (d i) (d i) + axisAngle (d i) (d i)

/-- `np.sort`. As in `src/wulfric/_lepage.py` L59, L65, L98, L128, L134, L168, L193. -/
noncomputable def sortReals (l : List ℝ) : List ℝ := l.mergeSort fun a b => decide (a ≤ b)

/-- `(np.abs(np.sort(xs) - ys) < tolerance).all()` for arrays of equal length. As in
`src/wulfric/_lepage.py` L64-66, L133-135. -/
noncomputable def closeSorted (xs ys : List ℝ) (tol : ℝ) : Bool :=
  (List.zipWith (fun x y => decide (|x - y| < tol)) (sortReals xs) ys).all id

/-- `angles[:m, :m].flatten()`. As in `src/wulfric/_lepage.py` L58-59, L96-98, L125-128, L166-168,
L190-193. -/
def flattenAngles (angles : ℕ → ℕ → ℝ) (m : ℕ) : List ℝ :=
  (List.range m).flatMap fun i => (List.range m).map fun j => angles i j

/-- `(np.abs(np.sort(sub_angles.flatten()) - np.sort(target.flatten())) < tolerance).all()`. As in
`src/wulfric/_lepage.py` L58-61, L97-100, L127-130, L167-170, L192-195. -/
noncomputable def matchesTarget (angles : ℕ → ℕ → ℝ) (target : List (List ℝ)) (tol : ℝ) : Bool :=
  closeSorted (flattenAngles angles target.length) (sortReals target.flatten) tol

/-- The row `i` of `angles[:m, :m]`. As in `src/wulfric/_lepage.py` L65, L134. -/
def angleRow (angles : ℕ → ℕ → ℝ) (m i : ℕ) : List ℝ := (List.range m).map fun j => angles i j

/-- `np.abs(np.linalg.det(rows))` for a list of integer rows (`LinAlgError` unless square). As in
`src/wulfric/_lepage.py` L68, L143, L197, L254. -/
def absDet : List (Fin 3 → ℤ) → Except Err ℤ
  | [a, b, c] => .ok |(Matrix.of ![a, b, c]).det|
  | _ => .error .linAlgError

/-- `target_angles` of `_check_cub`: `src/wulfric/_lepage.py` L37-49. -/
noncomputable def cubTarget : List (List ℝ) :=
  List.replicate 3 [0, 45, 45, 45, 45, 90, 90, 90, 90] ++
    List.replicate 6 [0, 45, 45, 60, 60, 60, 60, 90, 90]

/-- The name for the determinant in `_check_cub`: `src/wulfric/_lepage.py` L69-74. -/
def cubName (det : ℤ) : Except Err String :=
  if det = 1 then .ok "CUB" else if det = 4 then .ok "FCC" else if det = 2 then .ok "BCC"
  else .error .unboundLocal

/-- `_check_cub`: `src/wulfric/_lepage.py` L36-77. The result `none` is `(None, True)`. -/
noncomputable def checkCub (angles : ℕ → ℕ → ℝ) (axes : List LAxis) (tol : ℝ) :
    Except Err (Option String) :=
  if 9 ≤ axes.length then
    if matchesTarget angles cubTarget tol then do
      let xyz := ((axes.take 9).zipIdx.filter fun p =>
        closeSorted (angleRow angles 9 p.2) [0, 45, 45, 45, 45, 90, 90, 90, 90] tol).map
          fun p => p.1.U
      let det ← absDet xyz
      let r ← cubName det
      return some r
    else .ok none
  else .ok none

/-- `target_angles` of `_check_hex`: `src/wulfric/_lepage.py` L84-94. -/
noncomputable def hexTarget : List (List ℝ) :=
  [0, 90, 90, 90, 90, 90, 90] :: List.replicate 6 [0, 30, 30, 60, 60, 90, 90]

/-- `_check_hex`: `src/wulfric/_lepage.py` L83-103. -/
noncomputable def checkHex (angles : ℕ → ℕ → ℝ) (axes : List LAxis) (tol : ℝ) : Option String :=
  if 7 ≤ axes.length ∧ matchesTarget angles hexTarget tol then some "HEX" else none

/-- `target_angles` of `_check_tet`: `src/wulfric/_lepage.py` L110-118. -/
noncomputable def tetTarget : List (List ℝ) := [0, 90, 90, 90, 90] :: List.replicate 4 [0, 45, 45, 90, 90]

/-- The name for the determinant in `_check_tet`: `src/wulfric/_lepage.py` L144-147. -/
def tetName (det : ℤ) : Except Err String :=
  if det = 1 then .ok "TET" else if det = 2 then .ok "BCT" else .error .unboundLocal

/-- `xyz = [xy[0], xy[1], z]`: `src/wulfric/_lepage.py` L141. -/
def tetRows (xy z : List (Fin 3 → ℤ)) : Except Err (List (Fin 3 → ℤ)) :=
  match xy, z.getLast? with
  | x :: y :: _, some z => .ok [x, y, z]
  | _ :: _ :: _, none => .error .unboundLocal
  | _, _ => .error .indexError

/-- `_check_tet`: `src/wulfric/_lepage.py` L109-150. -/
noncomputable def checkTet (angles : ℕ → ℕ → ℝ) (axes : List LAxis) (tol : ℝ) (cell : Cell ℝ) :
    Except Err (Option String) :=
  if 5 ≤ axes.length then
    if matchesTarget angles tetTarget tol then do
      let good := fun p : LAxis × ℕ => closeSorted (angleRow angles 5 p.2) [0, 90, 90, 90, 90] tol
      let z := ((axes.take 5).zipIdx.filter good).map fun p => p.1.U
      let xy := ((axes.take 5).zipIdx.filter fun p => !good p).map fun p => p.1.U
      let xy := xy.mergeSort fun u v => decide (npNorm (intMat u cell) ≤ npNorm (intMat v cell))
      let rows ← tetRows xy z
      let det ← absDet rows
      let r ← tetName det
      return some r
    else .ok none
  else .ok none

/-- `target_angles` of `_check_rhl`: `src/wulfric/_lepage.py` L157-163. -/
noncomputable def rhlTarget : List (List ℝ) := List.replicate 3 [0, 60, 60]

/-- `_check_rhl`: `src/wulfric/_lepage.py` L156-173. -/
noncomputable def checkRhl (angles : ℕ → ℕ → ℝ) (axes : List LAxis) (tol : ℝ) : Option String :=
  if 3 ≤ axes.length ∧ matchesTarget angles rhlTarget tol then some "RHL" else none

/-- `target_angles` of `_check_orc`: `src/wulfric/_lepage.py` L180-186. -/
noncomputable def orcTarget : List (List ℝ) := List.replicate 3 [0, 90, 90]

/-- The name for the determinant and `v = C @ [1, 1, 1]` in `_check_orc`:
`src/wulfric/_lepage.py` L198-217. -/
def orcName (det : ℤ) (v : Fin 3 → ℤ) : Except Err String :=
  if det = 1 then .ok "ORC"
  else if det = 4 then .ok "ORCF"
  else if det = 2 then
    if 1 < Int.gcd (v 0) (v 1) ∧ 1 < Int.gcd (v 0) (v 2) ∧ 1 < Int.gcd (v 1) (v 2) then
      .ok "ORCI"
    else .ok "ORCC"
  else .error .unboundLocal

/-- The sum of the rows of the list, `C @ [1, 1, 1]` for `C = np.array(rows).T`.
`src/wulfric/_lepage.py` L196, L203. -/
def sumRows (rows : List (Fin 3 → ℤ)) : Fin 3 → ℤ := rows.foldl (· + ·) 0

/-- `_check_orc`: `src/wulfric/_lepage.py` L179-220. -/
noncomputable def checkOrc (angles : ℕ → ℕ → ℝ) (axes : List LAxis) (tol : ℝ) :
    Except Err (Option String) :=
  if 3 ≤ axes.length then
    if matchesTarget angles orcTarget tol then do
      let rows := (axes.take 3).map LAxis.U
      let det ← absDet rows
      let r ← orcName det (sumRows rows)
      return some r
    else .ok none
  else .ok none

/-- `perp_axes` of `_get_perpendicular_shortest`: `src/wulfric/_lepage.py` L227-236. -/
noncomputable def perpAxes (v : Fin 3 → ℤ) (cell : Cell ℝ) (tol : ℝ) : List (Fin 3 → ℤ) :=
  ((millerIndices 1).filter fun u =>
      decide (u ≠ 0) && decide (|npDot (intMat u cell) (intMat v cell)| < tol)).mergeSort
    fun u w => decide (npNorm (intMat u cell) ≤ npNorm (intMat w cell))

/-- `_check_mcl`: `src/wulfric/_lepage.py` L226-239 (`_get_perpendicular_shortest`) and
L242-260. Fewer than three perpendicular vectors are the caught `IndexError`. -/
noncomputable def checkMcl (axes : List LAxis) (tol : ℝ) (cell : Cell ℝ) : Option String :=
  match axes with
  | [] => none
  | b :: _ =>
    match perpAxes b.U cell tol with
    | a :: _ :: c :: _ =>
      let det := |(Matrix.of ![a, b.U, c]).det|
      if det = 1 then some "MCL" else if det = 2 then some "MCLC" else none
    | _ => none

/-- The chain of checks for the current axes: `src/wulfric/_lepage.py` L410-437. -/
noncomputable def classifyAxes (cell : Cell ℝ) (tol : ℝ) (angles : ℕ → ℕ → ℝ)
    (axes : List LAxis) : Except Err String := do
  match (← checkCub angles axes tol) with
  | some r => return r
  | none =>
  match checkHex angles axes tol with
  | some r => return r
  | none =>
  match (← checkTet angles axes tol cell) with
  | some r => return r
  | none =>
  match checkRhl angles axes tol with
  | some r => return r
  | none =>
  match (← checkOrc angles axes tol) with
  | some r => return r
  | none =>
  match checkMcl axes tol cell with
  | some r => return r
  | none => return "TRI"

/-- `max(axes, key=lambda x: x[-1])[-1]`, or 0 without axes: `src/wulfric/_lepage.py`
L403-406. -/
noncomputable def worstDelta : List LAxis → ℝ
  | [] => 0
  | a :: rest => rest.foldl (fun m b => max m b.delta) a.delta

/-- The removal of the worst axes, on the reversed list: `src/wulfric/_lepage.py` L441-445. -/
noncomputable def removeWorstRev : List LAxis → List LAxis
  | a :: b :: rest => if a.delta = b.delta then removeWorstRev (b :: rest) else b :: rest
  | _ => []

/-- The removal of the worst axes: `src/wulfric/_lepage.py` L439-445. -/
noncomputable def removeWorst (axes : List LAxis) : List LAxis :=
  (removeWorstRev axes.reverse).reverse

/-- The main loop: `src/wulfric/_lepage.py` L397-448, with the list of all the results. `none`: it
has not ended after that many passes. -/
noncomputable def lepageLoop (classify : List LAxis → Except Err String) (tol : ℝ) :
    ℕ → List LAxis → Option (Except Err (List String))
  | 0, _ => none
  | fuel + 1, axes =>
    match classify axes with
    | .error e => some (.error e)
    | .ok r =>
      if tol < worstDelta axes then
        (lepageLoop classify tol fuel (removeWorst axes)).map fun o => o.map fun l => r :: l
      else some (.ok [r])

/-- The axes of the first pass: `src/wulfric/_lepage.py` L346-394. -/
noncomputable def lepageAxes (cell : Cell ℝ) (limit : ℝ) : Except Err (List LAxis) := do
  let rcell ← getReciprocal cell
  return dropTwins (sortAxes (potentialAxes cell rcell limit))

/-- The cell used: `src/wulfric/_lepage.py` L334-344. `niggli` is `get_niggli`. -/
noncomputable def lepageCell (niggli : Cell ℝ → Except Err (Cell ℝ)) (cell : Cell ℝ)
    (noNiggli : Bool) : Except Err (Cell ℝ) :=
  if noNiggli then .ok cell
  else
    match niggli cell with
    | .error .niggliReductionFailed => .ok cell
    | r => r

/-- `lepage(..., give_all_results=True)`: `src/wulfric/_lepage.py` L266-453, with at most `fuel`
passes of the main loop. Without `give_all_results` the last element is returned. -/
noncomputable def lepage (niggli : Cell ℝ → Except Err (Cell ℝ)) (fuel : ℕ) (cell : Cell ℝ)
    (angleTolerance : ℝ) (noNiggli : Bool) (limit : ℝ) : Option (Except Err (List String)) :=
  let tol := |angleTolerance|
  match lepageCell niggli cell noNiggli with
  | .error e => some (.error e)
  | .ok cell =>
    match lepageAxes cell limit with
    | .error e => some (.error e)
    | .ok axes => lepageLoop (classifyAxes cell tol (angleMatrix axes)) tol fuel axes

end Wulfric
