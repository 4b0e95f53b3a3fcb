import Verif.Model.Kpoints
import Verif.Model.Voronoi
import Verif.Model.Species
import Verif.Model.Poscar
import Mathlib.Analysis.SpecialFunctions.Pow.Real

/-!
# Model of `src/wulfric/_plotly_engine.py`

A figure is the list of its traces in the order of drawing; the engine keeps the figure and the
range of the coordinates of every subplot. A method that can raise returns the engine afterwards
together with the outcome, because what was drawn before the exception stays in the figure.

Not modelled: plotly itself (a trace is recorded as given; the subplot `(row, col)` exists), sizes
and fonts, the hover text. The random name of a legend group (`choices`, e.g. L263-264) is a
parameter: `Style.group` is the name in use. Decimal constants are exact.
-/

namespace Wulfric

/-- A colour argument: one string or a list of strings. The argument `colors` of
`src/wulfric/_plotly_engine.py` L231-283 and L947-1101. -/
inductive ColorArg where
  | one (color : String)
  | many (colors : List String)

/-- `type` and `mode` of a trace. `src/wulfric/_plotly_engine.py` L270-271, L407-408, L419,
L440-441, L1084-1085. -/
inductive TraceKind where
  | markers
  | lines
  | cone
  | text
  | markersText
  deriving DecidableEq

/-- The arguments common to all plotting methods: subplot `(row, col)`, colour, entry of the
legend, group of the legend. For example `src/wulfric/_plotly_engine.py` L268-283. -/
structure Style where
  place : ℤ × ℤ := (1, 1)
  color : ColorArg := .one "#000000"
  label : Option String := none
  group : String

/-- A trace given to `fig.add_traces`. `src/wulfric/_plotly_engine.py` L268-283, L404-436, L438-455,
L1082-1101. -/
structure Trace where
  place : ℤ × ℤ
  kind : TraceKind
  group : String
  /-- `name` of the trace -/
  label : Option String
  /-- `showlegend` -/
  inLegend : Bool
  points : List (Vec ℝ)
  /-- `u, v, w` of a cone -/
  direction : Vec ℝ := 0
  text : List String := []
  color : ColorArg
  textColor : ColorArg := .many []

/-- The keys common to the traces of the plotting methods: subplot, group, entry of the legend
(shown if there is a label), points and colour: e.g. `src/wulfric/_plotly_engine.py` L268-280. -/
def Style.trace (s : Style) (kind : TraceKind) (points : List (Vec ℝ)) : Trace where
  place := s.place
  kind := kind
  group := s.group
  label := s.label
  inLegend := s.label.isSome
  points := points
  color := s.color

/-- `PlotlyEngine`: `src/wulfric/_plotly_engine.py` L88-109. The three dictionaries `x_range`,
`y_range`, `z_range` always have the same keys (L112-123): here one dictionary of lower and upper
corners. -/
structure Engine where
  traces : List Trace := []
  ranges : PyDict (ℤ × ℤ) (Vec ℝ × Vec ℝ) := []

/-- `fig.add_traces`. `src/wulfric/_plotly_engine.py` L268, L334, L404, L438, L748, L851, L1082. -/
def Engine.add (e : Engine) (t : Trace) : Engine := { e with traces := e.traces ++ [t] }

/-- `_update_range`: `src/wulfric/_plotly_engine.py` L112-123. -/
noncomputable def Engine.updateRange (e : Engine) (place : ℤ × ℤ) (lo hi : Vec ℝ) : Engine :=
  match e.ranges.get? place with
  | none => { e with ranges := e.ranges.setItem place (lo, hi) }
  | some (l, h) =>
    { e with ranges := e.ranges.setItem place (npMinimum l lo, npMaximum h hi) }

/-- `x.min(), y.min(), z.min()` of a non-empty array of points. As in
`src/wulfric/_plotly_engine.py` L286-295, L470-479. -/
noncomputable def lowCorner : List (Vec ℝ) → Vec ℝ
  | [] => 0
  | p :: ps => ps.foldl npMinimum p

/-- `x.max(), y.max(), z.max()` of a non-empty array of points. As in
`src/wulfric/_plotly_engine.py` L286-295, L470-479. -/
noncomputable def highCorner : List (Vec ℝ) → Vec ℝ
  | [] => 0
  | p :: ps => ps.foldl npMaximum p

/-- `_update_range` with the smallest and the largest coordinates of the points. As in
`src/wulfric/_plotly_engine.py` L286-295, L352-361, L470-479, L768-777, L873-882, L1104-1113. -/
noncomputable def Engine.cover (e : Engine) (place : ℤ × ℤ) (ps : List (Vec ℝ)) : Engine :=
  e.updateRange place (lowCorner ps) (highCorner ps)

/-- The axes given to plotly for one subplot; `aspect` is `none` if the range of z is a single
value (numpy then divides by zero). `src/wulfric/_plotly_engine.py` L132-144. -/
structure Axes where
  lo : Vec ℝ
  hi : Vec ℝ
  aspect : Option (ℝ × ℝ × ℝ)

/-- The limits and the aspect ratio of one subplot: `src/wulfric/_plotly_engine.py` L128-141. -/
noncomputable def axesOf (r : Vec ℝ × Vec ℝ) : Axes :=
  let lo : Vec ℝ := fun j => 105 / 100 * r.1 j
  let hi : Vec ℝ := fun j => 105 / 100 * r.2 j
  { lo := lo, hi := hi,
    aspect := if hi 2 - lo 2 = 0 then none
      else some (|(hi 0 - lo 0) / (hi 2 - lo 2)|, |(hi 1 - lo 1) / (hi 2 - lo 2)|, 1) }

/-- `_update_fig_aspect_range`: `src/wulfric/_plotly_engine.py` L126-144. -/
noncomputable def Engine.axes (e : Engine) : PyDict (ℤ × ℤ) Axes :=
  e.ranges.map fun r => (r.1, axesOf r.2)

/-- `list(_LEGEND_SETTINGS)`: `src/wulfric/_plotly_engine.py` L43-48. -/
def legendPositions : List String := ["top", "bottom", "left", "right"]

/-- `show` and `save`, up to the final call of plotly: `src/wulfric/_plotly_engine.py` L165-181,
L216-229. The figure and the axes handed over to plotly. -/
noncomputable def Engine.finish (lower : String → String) (e : Engine) (legendPosition : String) :
    Except Err (List Trace × PyDict (ℤ × ℤ) Axes) :=
  if lower legendPosition ∈ legendPositions then .ok (e.traces, e.axes) else .error .valueError

/-- `plot_points`: `src/wulfric/_plotly_engine.py` L263-295. An empty list of points has no first
column. -/
noncomputable def Engine.plotPoints (e : Engine) (s : Style) (points : List (Vec ℝ)) :
    Engine × Except Err Unit :=
  if points = [] then (e, .error .indexError)
  else
    ((e.add (s.trace .markers points)).cover s.place points, .ok ())

/-- `plot_line`: `src/wulfric/_plotly_engine.py` L329-361. -/
noncomputable def Engine.plotLine (e : Engine) (s : Style) (start stop : Vec ℝ) : Engine :=
  (e.add (s.trace .lines [start, stop])).cover s.place [start, stop]

/-- The position of the label of a vector: `src/wulfric/_plotly_engine.py` L444-446. -/
noncomputable def labelPosition (start stop : Vec ℝ) : Vec ℝ :=
  fun j => 12 / 10 * (stop j - start j) + start j

/-- `plot_vector`: `src/wulfric/_plotly_engine.py` L399-479. -/
noncomputable def Engine.plotVector (e : Engine) (s : Style) (start stop : Vec ℝ)
    (vectorLabel : Option String) : Engine :=
  let plain : Style := { s with label := none }
  let e := e.add (s.trace .lines [start, stop])
  let e := e.add { plain.trace .cone [stop] with
    direction := fun j => 4 / 10 * (stop j - start j) }
  let e := match vectorLabel with
    | none => e
    | some t =>
      (e.add { plain.trace .text [labelPosition start stop] with
        text := [t], textColor := s.color }).cover s.place [labelPosition start stop]
  e.cover s.place [start, stop]

/-- The lattice vectors with their labels: `src/wulfric/_plotly_engine.py` L529-539 and L626-636.
The vectors have no entry in the legend. -/
noncomputable def Engine.plotVectors (e : Engine) (s : Style) (cell : Cell ℝ) (shift : Vec ℝ)
    (vectorLabel : String) : Engine :=
  [0, 1, 2].foldl (fun (e : Engine) (i : Fin 3) =>
    e.plotVector { s with label := none } shift (shift + cell i)
      (some (vectorLabel ++ Nat.repr (i.val + 1)))) e

/-- The loop over the borders of the cell: `src/wulfric/_plotly_engine.py` L541-579. -/
noncomputable def Engine.plotBorders (s : Style) (cell : Cell ℝ) (shift : Vec ℝ) :
    Option String → List (Fin 3) → Engine → Engine
  | _, [], e => e
  | label, i :: rest, e =>
    let j := i + 1
    let k := i + 2
    let e := e.plotLine { s with label := label } shift (shift + cell i)
    let e := e.plotLine { s with label := none } (shift + cell i) (shift + cell i + cell j)
    let e := e.plotLine { s with label := none } (shift + cell i) (shift + cell i + cell k)
    let e := e.plotLine { s with label := none } (shift + cell i + cell j)
      (shift + cell i + cell j + cell k)
    Engine.plotBorders s cell shift none rest e

/-- `plot_cell`: `src/wulfric/_plotly_engine.py` L523-579. -/
noncomputable def Engine.plotCell (e : Engine) (s : Style) (cell : Cell ℝ) (shift : Vec ℝ)
    (plotVectors : Bool) (vectorLabel : String) : Engine :=
  let e := if plotVectors then e.plotVectors s cell shift vectorLabel else e
  Engine.plotBorders s cell shift s.label [0, 1, 2] e

/-- What the plotting methods need from outside: `str.lower`, the order of a python set, and
`scipy.spatial.Voronoi` (which may raise, or be missing). `src/wulfric/_plotly_engine.py` L581-702
and `src/wulfric/cell/_voronoi.py` L116-134. -/
structure PlotLib where
  lower : String → String
  order : List (ℤ × ℤ) → List (ℤ × ℤ)
  voronoi : List (Vec ℝ) → Except Err (VoronoiData (Vec ℝ))

/-- `get_wigner_seitz_cell`: `src/wulfric/cell/_voronoi.py` L113-143, L168. -/
noncomputable def getWignerSeitzCell (lib : PlotLib) (cell : Cell ℝ) :
    Except Err (List (Vec ℝ) × List (ℕ × ℕ)) :=
  match getLatticePoints cell (fun _ => 10) with
  | .nested _ => .error .typeError
  | .flat points => do
    let vor ← lib.voronoi points
    voronoiCell lib.order (index000 10) vor

/-- `get_brillouin_zone`: `src/wulfric/cell/_voronoi.py` L193. -/
noncomputable def getBrillouinZone (lib : PlotLib) (cell : Cell ℝ) :
    Except Err (List (Vec ℝ) × List (ℕ × ℕ)) := do
  getWignerSeitzCell lib (← getReciprocal cell)

/-- The loop over the edges: `src/wulfric/_plotly_engine.py` L639-650. -/
noncomputable def Engine.plotEdges (s : Style) (shift : Vec ℝ) (vertices : List (Vec ℝ)) :
    Option String → List (ℕ × ℕ) → Engine → Engine × Except Err Unit
  | _, [], e => (e, .ok ())
  | label, edge :: rest, e =>
    match vertices[edge.1]?, vertices[edge.2]? with
    | some p, some q =>
      Engine.plotEdges s shift vertices none rest
        (e.plotLine { s with label := label } (shift + p) (shift + q))
    | _, _ => (e, .error .indexError)

/-- `plot_wigner_seitz_cell`: `src/wulfric/_plotly_engine.py` L620-650. -/
noncomputable def Engine.plotWignerSeitz (lib : PlotLib) (e : Engine) (s : Style) (cell : Cell ℝ)
    (shift : Vec ℝ) (plotVectors : Bool) (vectorLabel : String) : Engine × Except Err Unit :=
  let e := if plotVectors then e.plotVectors s cell shift vectorLabel else e
  match getWignerSeitzCell lib cell with
  | .error err => (e, .error err)
  | .ok (vertices, edges) => Engine.plotEdges s shift vertices s.label edges e

/-- `plot_brillouin_zone`: `src/wulfric/_plotly_engine.py` L692-702. -/
noncomputable def Engine.plotBrillouinZone (lib : PlotLib) (e : Engine) (s : Style) (cell : Cell ℝ)
    (shift : Vec ℝ) (plotVectors : Bool) (vectorLabel : String) : Engine × Except Err Unit :=
  match getReciprocal cell with
  | .error err => (e, .error err)
  | .ok rcell => e.plotWignerSeitz lib s rcell shift plotVectors vectorLabel

/-- The Cartesian points of one sub-path: `src/wulfric/_plotly_engine.py` L745-747. -/
noncomputable def kpathPoints (k : Kpoints) (shift : Vec ℝ) (sub : List String) :
    Except Err (List (Vec ℝ)) :=
  sub.mapM fun name => (k.hsCoordinates.getItem name).map fun c => shift + vecMat c k.rcell

/-- The loop over the sub-paths: `src/wulfric/_plotly_engine.py` L742-765; `last` is the variable
`xyz` (`none` before its first assignment). -/
noncomputable def Engine.plotSubpaths (s : Style) (k : Kpoints) (shift : Vec ℝ) :
    Option String → List (List String) → Option (List (Vec ℝ)) → Engine →
      Engine × Except Err (Option (List (Vec ℝ)))
  | _, [], last, e => (e, .ok last)
  | label, sub :: subs, _, e =>
    match kpathPoints k shift sub with
    | .error err => (e, .error err)
    | .ok [] => (e, .error .indexError)
    | .ok (p :: ps) =>
      Engine.plotSubpaths s k shift none subs (some (p :: ps))
        (e.add (Style.trace { s with label := label } .lines (p :: ps)))

/-- `plot_kpath`: `src/wulfric/_plotly_engine.py` L737-777. The range is updated once, after the
loop, with the points of the last sub-path. -/
noncomputable def Engine.plotKpath (e : Engine) (s : Style) (k : Kpoints) (shift : Vec ℝ) :
    Engine × Except Err Unit :=
  match Engine.plotSubpaths s k shift s.label k.path none e with
  | (e, .error err) => (e, .error err)
  | (e, .ok none) => (e, .error .unboundLocal)
  | (e, .ok (some xyz)) => (e.cover s.place xyz, .ok ())

/-- The names of the points that are plotted: `src/wulfric/_plotly_engine.py` L830-833. -/
def shownNames (k : Kpoints) (onlyFromKpath : Bool) : List String :=
  k.hsNames.filter fun name => !onlyFromKpath || decide (name ∈ k.path.flatten)

/-- One plotted point: `src/wulfric/_plotly_engine.py` L834-845. The hover text reads the label
of the point. -/
noncomputable def kpointPosition (k : Kpoints) (shift : Vec ℝ) (name : String) :
    Except Err (Vec ℝ) := do
  let c ← k.hsCoordinates.getItem name
  let _ ← k.hsLabels.getItem name
  return shift + vecMat c k.rcell

/-- `plot_kpoints`: `src/wulfric/_plotly_engine.py` L820-882. -/
noncomputable def Engine.plotKpoints (e : Engine) (s : Style) (k : Kpoints) (shift : Vec ℝ)
    (onlyFromKpath : Bool) : Engine × Except Err Unit :=
  match (shownNames k onlyFromKpath).mapM (kpointPosition k shift) with
  | .error err => (e, .error err)
  | .ok [] => (e, .error .indexError)
  | .ok (p :: ps) =>
    ((e.add { s.trace .markersText (p :: ps) with
      text := shownNames k onlyFromKpath, textColor := s.color }).cover s.place (p :: ps), .ok ())

/-- `plot_lattice`: `src/wulfric/_plotly_engine.py` L928-945. The three entries of `range` are
not negative. -/
noncomputable def Engine.plotLattice (e : Engine) (s : Style) (cell : Cell ℝ) (range : Fin 3 → ℕ)
    (shift : Vec ℝ) : Engine × Except Err Unit :=
  match getLatticePoints cell range false true with
  | .nested _ => (e, .error .typeError)
  | .flat points => e.plotPoints s (points.map fun p => p + shift)

/-! ### Colours -/

/-- The value of a hexadecimal digit. For `int(_, 16)` of `src/wulfric/_plotly_engine.py` L54. -/
def hexDigit (c : Char) : Option ℕ :=
  if '0' ≤ c ∧ c ≤ '9' then some (c.toNat - 48)
  else if 'a' ≤ c ∧ c ≤ 'f' then some (c.toNat - 87)
  else if 'A' ≤ c ∧ c ≤ 'F' then some (c.toNat - 55)
  else none

/-- `int(text, 16)` for at most two characters: blanks around, a sign, hexadecimal digits. (A
prefix `0x` or an underscore needs more characters. Digits of other alphabets are not modelled.) As
in `src/wulfric/_plotly_engine.py` L54. -/
def parseHex (text : List Char) : Except Err ℤ :=
  let (sign, digits) := takeSign (pyStrip text)
  if digits = [] then .error .valueError
  else
    match digits.mapM hexDigit with
    | none => .error .valueError
    | some ds => .ok (sign * (ds.foldl (fun n d => 16 * n + d) 0 : ℕ))

/-- `int(hex_color[i : i + 2], 16) / 255`: `src/wulfric/_plotly_engine.py` L53-54. -/
noncomputable def channel (color : List Char) (i : ℕ) : Except Err ℝ := do
  let n ← parseHex (((color.drop 1).drop i).take 2)
  return (n : ℝ) / 255

/-- `x ** gamma` with `gamma = 2.2`. A negative base gives a complex number, which cannot be
compared (L59). `src/wulfric/_plotly_engine.py` L56-57. -/
noncomputable def powGamma (x : ℝ) : Except Err ℝ :=
  if x < 0 then .error .typeError else .ok (x ^ (22 / 10 : ℝ))

/-- `_get_good_contrast`: `src/wulfric/_plotly_engine.py` L52-62. -/
noncomputable def getGoodContrast (color : List Char) : Except Err String := do
  let r ← channel color 0
  let g ← channel color 2
  let b ← channel color 4
  let r ← powGamma r
  let g ← powGamma g
  let b ← powGamma b
  if 2126 / 10000 * r + 7152 / 10000 * g + 722 / 10000 * b > (1 / 2 : ℝ) ^ (22 / 10 : ℝ) then
    return "#000000"
  return "#FFFFFF"

/-- `for color in colors`: a string is iterated character by character. As in
`src/wulfric/_plotly_engine.py` L1032. -/
def ColorArg.items : ColorArg → List (List Char)
  | .one s => s.toList.map fun c => [c]
  | .many l => l.map String.toList

/-- The names of the atoms: `src/wulfric/_plotly_engine.py` L1017-1020. -/
def plotNames (atoms : Atoms ℝ) (count : ℕ) : List String :=
  match atoms.names with
  | some names => names
  | none => (List.range count).map fun i : ℕ => "X" ++ Nat.repr (i + 1)

/-- The colours of the atoms: `src/wulfric/_plotly_engine.py` L1022-1030. -/
def plotColors (lower : String → String) (atoms : Atoms ℝ) (names : List String) :
    Option ColorArg → Except Err ColorArg
  | some colors => .ok colors
  | none => do
    let species ← match atoms.species with
      | some species => pure species
      | none => names.mapM fun name => getAtomSpecies lower name false
    return .many (← species.mapM fun s => PyDict.getItem atomColors s)

/-- `plot_atoms`: `src/wulfric/_plotly_engine.py` L1008-1113 (the colour of `s` is not used: the
argument is `colors`). An empty list cannot be multiplied with a matrix. -/
noncomputable def Engine.plotAtoms (lib : PlotLib) (e : Engine) (s : Style) (cell : Cell ℝ)
    (atoms : Atoms ℝ) (colors : Option ColorArg) (shift : Vec ℝ) : Engine × Except Err Unit :=
  match atoms.positions with
  | none => (e, .error .keyError)
  | some [] => (e, .error .valueError)
  | some (p :: ps) =>
    let points := (p :: ps).map fun q => vecMat q cell + shift
    let names := plotNames atoms (p :: ps).length
    match plotColors lib.lower atoms names colors with
    | .error err => (e, .error err)
    | .ok colors =>
      match colors.items.mapM getGoodContrast with
      | .error err => (e, .error err)
      | .ok textColors =>
        ((e.add { s.trace .markersText points with
          text := names, color := colors, textColor := .many textColors }).cover s.place points,
          .ok ())

/-! ### Sessions -/

/-- A call of a plotting method. The public methods of `src/wulfric/_plotly_engine.py` L231-1113. -/
inductive PlotCall where
  | points (points : List (Vec ℝ))
  | line (start stop : Vec ℝ)
  | vector (start stop : Vec ℝ) (vectorLabel : Option String)
  | cell (cell : Cell ℝ) (shift : Vec ℝ) (plotVectors : Bool) (vectorLabel : String)
  | wignerSeitz (cell : Cell ℝ) (shift : Vec ℝ) (plotVectors : Bool) (vectorLabel : String)
  | brillouinZone (cell : Cell ℝ) (shift : Vec ℝ) (plotVectors : Bool) (vectorLabel : String)
  | kpath (k : Kpoints) (shift : Vec ℝ)
  | kpoints (k : Kpoints) (shift : Vec ℝ) (onlyFromKpath : Bool)
  | lattice (cell : Cell ℝ) (range : Fin 3 → ℕ) (shift : Vec ℝ)
  | atoms (cell : Cell ℝ) (atoms : Atoms ℝ) (colors : Option ColorArg) (shift : Vec ℝ)

/-- The effect of a call: the methods of `src/wulfric/_plotly_engine.py` L231-1113. -/
noncomputable def Engine.call (lib : PlotLib) (e : Engine) (s : Style) :
    PlotCall → Engine × Except Err Unit
  | .points ps => e.plotPoints s ps
  | .line a b => (e.plotLine s a b, .ok ())
  | .vector a b l => (e.plotVector s a b l, .ok ())
  | .cell c shift v l => (e.plotCell s c shift v l, .ok ())
  | .wignerSeitz c shift v l => e.plotWignerSeitz lib s c shift v l
  | .brillouinZone c shift v l => e.plotBrillouinZone lib s c shift v l
  | .kpath k shift => e.plotKpath s k shift
  | .kpoints k shift o => e.plotKpoints s k shift o
  | .lattice c r shift => e.plotLattice s c r shift
  | .atoms c a colors shift => e.plotAtoms lib s c a colors shift

/-- A session: calls one after another; exceptions are caught by the user. Calls of the methods of
`src/wulfric/_plotly_engine.py` L231-1113. -/
noncomputable def Engine.session (lib : PlotLib) (e : Engine) (calls : List (Style × PlotCall)) :
    Engine :=
  calls.foldl (fun e c => (e.call lib c.1 c.2).1) e

end Wulfric
