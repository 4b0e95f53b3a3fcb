import Verif.Model.Basic
import Mathlib.Data.List.Sort
import Mathlib.Data.List.Dedup

/-!
# Model of `src/wulfric/cell/_voronoi.py`

Arrays are lists; `scipy.spatial.Voronoi` is a parameter (its `ridge_vertices`,
`ridge_points` and `vertices`).  The iteration order of a python `set` is a parameter too.
-/

namespace Wulfric

variable {K : Type*} [Field K]

/-- `np.arange(lo, hi)` for integers. `src/wulfric/cell/_voronoi.py` L76-78. -/
def arange (lo hi : ℤ) : List ℤ := (List.range (hi - lo).toNat).map fun k : ℕ => lo + (k : ℤ)

/-- The three ranges `lp1, lp2, lp3`: `src/wulfric/cell/_voronoi.py` L76-78. -/
def lpRange (r : ℕ) : List ℤ := arange (-(r : ℤ)) ((r : ℤ) + 1)

/-- `np.array(np.meshgrid(lp1, lp2, lp3, indexing="ij")).transpose((1, 2, 3, 0))`:
`src/wulfric/cell/_voronoi.py` L80-82. Element `[i][j][k]` is `(lp1[i], lp2[j], lp3[k])`. -/
def meshPoints (range : Fin 3 → ℕ) : List (List (List (Fin 3 → ℤ))) :=
  (lpRange (range 0)).map fun x =>
    (lpRange (range 1)).map fun y =>
      (lpRange (range 2)).map fun z => ![x, y, z]

/-- `v @ cell` for a row vector of integers. `src/wulfric/cell/_voronoi.py` L85. -/
def rowTimes (v : Fin 3 → ℤ) (cell : Cell K) : Vec K := fun j => ∑ i, (v i : K) * cell i j

/-- Returned array of `get_lattice_points`: shape `(N, 3)` or `(N1, N2, N3, 3)`.
`src/wulfric/cell/_voronoi.py` L84-90. -/
inductive LatticePointsResult (K : Type*) where
  | flat (points : List (Vec K))
  | nested (points : List (List (List (Vec K))))

/-- L84-85: `if not relative: lattice_points = lattice_points @ cell`.
`src/wulfric/cell/_voronoi.py` L72-85. -/
def latticePointsNested (cell : Cell K) (range : Fin 3 → ℕ) (relative : Bool) :
    List (List (List (Vec K))) :=
  (meshPoints range).map fun plane => plane.map fun row => row.map fun v =>
    if relative then fun j => (v j : K) else rowTimes v cell

/-- `get_lattice_points(cell, range, relative, flat)`:
`src/wulfric/cell/_voronoi.py` L72-90 (`np.reshape` is row-major). -/
def getLatticePoints (cell : Cell K) (range : Fin 3 → ℕ := fun _ => 1) (relative : Bool := false)
    (flat : Bool := true) : LatticePointsResult K :=
  let pts := latticePointsNested cell range relative
  if flat then .flat pts.flatten.flatten else .nested pts

/-- The centre index for `n`: `src/wulfric/cell/_voronoi.py` L114. -/
def index000 (n : ℕ) : ℕ := ((2 * n + 1) ^ 3 - 1) / 2

/-- The pairs `(rv[j - 1], rv[j])` for `j` in `range(0, len(rv))`, where `rv[-1]` is the
last element: `src/wulfric/cell/_voronoi.py` L128-133. -/
def ridgeSides (rv : List ℤ) : List (ℤ × ℤ) :=
  (List.range rv.length).map fun j =>
    ((if j = 0 then rv.getLast?.getD 0 else rv.getD (j - 1) 0), rv.getD j 0)

/-- L129-133: add a pair to the set unless it is there in one of the two directions.
`src/wulfric/cell/_voronoi.py` L129-133. -/
def addEdge (acc : List (ℤ × ℤ)) (e : ℤ × ℤ) : List (ℤ × ℤ) :=
  if e ∉ acc ∧ (e.2, e.1) ∉ acc then acc ++ [e] else acc

/-- Output of the external Voronoi routine. `src/wulfric/cell/_voronoi.py` L120, L126. -/
structure VoronoiData (V : Type*) where
  ridgeVertices : List (List ℤ)
  ridgePoints : List (ℤ × ℤ)
  vertices : List V

/-- L126-133: the set `edges_index` (as a duplicate-free list in order of insertion).
`src/wulfric/cell/_voronoi.py` L121-133. -/
def edgesIndex {V : Type*} (centre : ℤ) (vor : VoronoiData V) : List (ℤ × ℤ) :=
  (vor.ridgeVertices.zip vor.ridgePoints).foldl (fun acc r =>
    if -1 ∉ r.1 ∧ (r.2.1 = centre ∨ r.2.2 = centre) then (ridgeSides r.1).foldl addEdge acc
    else acc) []

/-- `np.unique` of a list of integers. `src/wulfric/cell/_voronoi.py` L135. -/
def npUnique (l : List ℤ) : List ℤ := (l.dedup).insertionSort (· ≤ ·)

/-- Fancy indexing `vertices[ids]`; negative or too large indices: numpy wraps negative
ones, here an index is required to be a valid non-negative one (`none` otherwise). `src/wulfric/cell/_voronoi.py` L143. -/
def takeAll {V : Type*} (vertices : List V) (ids : List ℤ) : Option (List V) :=
  ids.mapM fun i => if 0 ≤ i then vertices[i.toNat]? else none

/-- `_get_voronoi_cell`: `src/wulfric/cell/_voronoi.py` L126-143.
`order` is the (unspecified) order of `list(edges_index)` for a set.  For an empty set
`np.unique` gives a float array, which numpy refuses as an index (`IndexError`). -/
def voronoiCell {V : Type*} (order : List (ℤ × ℤ) → List (ℤ × ℤ)) (centre : ℤ)
    (vor : VoronoiData V) : Except Err (List V × List (ℕ × ℕ)) :=
  let ei := order (edgesIndex centre vor)
  if ei = [] then .error .indexError else
  let vi := npUnique (ei.flatMap fun e => [e.1, e.2])
  let edges := ei.map fun e => (vi.idxOf e.1, vi.idxOf e.2)
  match takeAll vor.vertices vi with
  | none => .error .indexError
  | some vs => .ok (vs, edges)

end Wulfric
