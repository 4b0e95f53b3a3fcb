import Verif.Model.Species
import Verif.Model.AtomTables
import Mathlib.Data.Rat.Floor
import Mathlib.LinearAlgebra.Matrix.NonsingularInverse
import Mathlib.LinearAlgebra.Matrix.Notation

/-!
# Model of `src/wulfric/io/_vasp.py`

A text file is its list of characters: the model reads and writes actual characters. Numbers are
rational (every float is). Opening files and searching for them (L73-92, L260-262) is not
modelled.
-/

namespace Wulfric
open Matrix

/-! ### Text -/

/-- `str.isspace` of one character, the separators of `str.split()` and `str.strip()`. For
`src/wulfric/io/_vasp.py` L96, L99-100, L115, L125, L143. -/
def isSpace (c : Char) : Bool :=
  decide ((9 ≤ c.toNat ∧ c.toNat ≤ 13) ∨ (28 ≤ c.toNat ∧ c.toNat ≤ 32) ∨ c.toNat = 0x85 ∨
    c.toNat = 0xa0 ∨ c.toNat = 0x1680 ∨ (0x2000 ≤ c.toNat ∧ c.toNat ≤ 0x200a) ∨
    c.toNat = 0x2028 ∨ c.toNat = 0x2029 ∨ c.toNat = 0x202f ∨ c.toNat = 0x205f ∨ c.toNat = 0x3000)

/-- The loop of `str.split()`; `acc` is the token being read. For `src/wulfric/io/_vasp.py` L99-100,
L115, L125, L143. -/
def tokensLoop : List Char → List Char → List (List Char)
  | [], acc => if acc = [] then [] else [acc]
  | c :: rest, acc =>
    if isSpace c then (if acc = [] then tokensLoop rest [] else acc :: tokensLoop rest [])
    else tokensLoop rest (acc ++ [c])

/-- `str.split()` without an argument. As in `src/wulfric/io/_vasp.py` L99-100, L115, L125, L143. -/
def tokens (line : List Char) : List (List Char) := tokensLoop line []

/-- `str.strip()`. As in `src/wulfric/io/_vasp.py` L96. -/
def pyStrip (l : List Char) : List Char :=
  ((l.dropWhile isSpace).reverse.dropWhile isSpace).reverse

/-- Universal newlines of a text file opened by python: "\r\n" and "\r" are read as "\n". For
`src/wulfric/io/_vasp.py` L76, L83, L86-88. -/
def translateNewlines : List Char → List Char
  | '\r' :: '\n' :: rest => '\n' :: translateNewlines rest
  | '\r' :: rest => '\n' :: translateNewlines rest
  | c :: rest => c :: translateNewlines rest
  | [] => []

/-- The loop of `readlines`; `acc` is the line being read. The lines do not carry their "\n". For
`src/wulfric/io/_vasp.py` L94. -/
def linesLoop : List Char → List Char → List (List Char)
  | [], acc => if acc = [] then [] else [acc]
  | c :: rest, acc => if c = '\n' then acc :: linesLoop rest [] else linesLoop rest (acc ++ [c])

/-- `file_object.readlines()`: `src/wulfric/io/_vasp.py` L94. `universal` tells whether the file
object translates newlines (files opened by name do, `io.StringIO` does not). -/
def readLines (universal : Bool) (text : List Char) : List (List Char) :=
  linesLoop (if universal then translateNewlines text else text) []

/-! ### Numbers -/

/-- Decimal digits only, at least one. For `int` and `float` of `src/wulfric/io/_vasp.py` L99-100,
L120, L129, L143. -/
def isDigits (l : List Char) : Bool := !l.isEmpty && l.all Char.isDigit

/-- A sign and the rest of a number. For `int` and `float` of `src/wulfric/io/_vasp.py` L99-100,
L120, L129, L143. -/
def takeSign : List Char → ℤ × List Char
  | '-' :: rest => (-1, rest)
  | '+' :: rest => (1, rest)
  | rest => (1, rest)

/-- `int(token)` for a token without spaces. Underscores and non-ASCII digits, accepted by python,
are rejected here. As in `src/wulfric/io/_vasp.py` L120, L129. -/
def parseInt (token : List Char) : Except Err ℤ :=
  let (sign, rest) := takeSign token
  if isDigits rest then .ok (sign * (Nat.ofDigitChars 10 rest 0 : ℕ)) else .error .valueError

/-- `float(token)` of digits with an optional fractional part, without sign and exponent. For
`src/wulfric/io/_vasp.py` L99-100, L143. -/
def parseMantissa (l : List Char) : Except Err ℚ :=
  let ip := l.takeWhile (· ≠ '.')
  let fp := (l.dropWhile (· ≠ '.')).drop 1
  if isDigits (ip ++ fp) then
    .ok ((Nat.ofDigitChars 10 (ip ++ fp) 0 : ℕ) / 10 ^ fp.length)
  else .error .valueError

/-- `float(token)` for a token without spaces. "inf", "nan", underscores and non-ASCII digits,
accepted by python, are rejected here; no rounding to a float. As in `src/wulfric/io/_vasp.py`
L99-100, L143. -/
def parseFloat (token : List Char) : Except Err ℚ := do
  let (sign, rest) := takeSign token
  let isE := fun c : Char => c = 'e' ∨ c = 'E'
  let m ← parseMantissa (rest.takeWhile fun c => ¬ isE c)
  match rest.dropWhile fun c => ¬ isE c with
  | [] => return sign * m
  | _ :: e =>
    let e ← parseInt e
    return sign * m * (10 : ℚ) ^ e

/-- Rounding of a non-negative number to the nearest integer, halves to even. For the format of
`src/wulfric/io/_vasp.py` L270, L286. -/
def roundHalfEven (x : ℚ) : ℕ :=
  let f := ⌊x⌋.toNat
  let r := x - f
  if r < 1 / 2 then f
  else if 1 / 2 < r then f + 1
  else if f % 2 = 0 then f else f + 1

/-- `f"{x:.{decimals}f}"`. (A negative zero, which python would write with its sign, does not exist
here.) For `src/wulfric/io/_vasp.py` L270, L286. -/
def formatFixed (x : ℚ) (decimals : ℕ) : List Char :=
  let m := roundHalfEven (|x| * 10 ^ decimals)
  let frac := Nat.toDigits 10 (m % 10 ^ decimals)
  (if x < 0 then ['-'] else []) ++ Nat.toDigits 10 (m / 10 ^ decimals) ++
    (if decimals = 0 then [] else
      '.' :: (List.replicate (decimals - frac.length) '0' ++ frac))

/-- `f"{x:{decimals + 5}.{decimals}f} "`: numbers are aligned to the right.
`src/wulfric/io/_vasp.py` L270, L286. -/
def writeNumber (decimals : ℕ) (x : ℚ) : List Char :=
  let s := formatFixed x decimals
  List.replicate (decimals + 5 - s.length) ' ' ++ s ++ [' ']

/-- One line of three numbers: `src/wulfric/io/_vasp.py` L267-272, L283-288. -/
def writeRow (decimals : ℕ) (v : Vec ℚ) : List Char :=
  writeNumber decimals (v 0) ++ writeNumber decimals (v 1) ++ writeNumber decimals (v 2) ++ ['\n']

/-! ### `dump_poscar` -/

/-- The type of the atom number `i`: `src/wulfric/io/_vasp.py` L232-239. The message of the
`ValueError` cannot be built (`atoms['name']` instead of `atoms['names']`), so `KeyError` is raised
instead. -/
def poscarType (lower : String → String) (atoms : Atoms ℚ) (i : ℕ) : Except Err String :=
  match atoms.species with
  | some s => match s[i]? with
    | some t => .ok t
    | none => .error .indexError
  | none => match atoms.names with
    | none => .error .keyError
    | some names => match names[i]? with
      | none => .error .indexError
      | some name => do
        let t ← getAtomSpecies lower name false
        if t = "X" then .error .keyError else return t

/-- The loop over the atoms: `src/wulfric/io/_vasp.py` L229-245. -/
def poscarAtoms (lower : String → String) (atoms : Atoms ℚ) (cell : Cell ℚ) (direct : Bool) :
    ℕ → List (Vec ℚ) → Except Err (List (String × Vec ℚ))
  | _, [] => .ok []
  | i, p :: rest => do
    let t ← poscarType lower atoms i
    let l ← poscarAtoms lower atoms cell direct (i + 1) rest
    return (t, if direct then p else vecMat p cell) :: l

/-- `sorted(atoms_list, key=lambda x: x[0])`: `src/wulfric/io/_vasp.py` L248; strings are compared
by code points, the sort is stable. -/
def sortAtoms (l : List (String × Vec ℚ)) : List (String × Vec ℚ) :=
  l.mergeSort fun a b => decide (¬ b.1 < a.1)

/-- One more atom of a species: `src/wulfric/io/_vasp.py` L254-257. -/
def countOne (d : PyDict String ℕ) (s : String) : PyDict String ℕ :=
  match d.get? s with
  | none => d.setItem s 1
  | some n => d.setItem s (n + 1)

/-- The number of atoms of each species: `src/wulfric/io/_vasp.py` L251-258. -/
def countSpecies : List String → PyDict String ℕ → PyDict String ℕ
  | [], d => d
  | s :: rest, d => countSpecies rest (countOne d s)

/-- The text of the file: `src/wulfric/io/_vasp.py` L264-288. -/
def poscarText (comment : List Char) (cell : Cell ℚ) (decimals : ℕ) (mode : String)
    (l : List (String × Vec ℚ)) : List Char :=
  let counts := countSpecies (l.map Prod.fst) []
  comment ++ ['\n'] ++ (['1', '.', '0'] ++ ['\n']) ++
    (writeRow decimals (cell 0) ++ writeRow decimals (cell 1) ++ writeRow decimals (cell 2)) ++
    ((counts.flatMap fun p => p.1.toList ++ [' ']) ++ ['\n']) ++
    ((counts.flatMap fun p => Nat.toDigits 10 p.2 ++ [' ']) ++ ['\n']) ++
    (mode.toList ++ ['\n']) ++ l.flatMap fun p => writeRow decimals p.2

/-- `dump_poscar`: `src/wulfric/io/_vasp.py` L160-288. `now` is the default comment with the current
time (L215-221). The number of decimals is not negative (otherwise the format is invalid). -/
def dumpPoscar (lower : String → String) (now : String) (cell : Cell ℚ) (atoms : Atoms ℚ)
    (comment : Option String) (decimals : ℕ) (mode : String) : Except Err (List Char) :=
  let comment := match comment with
    | none => now.toList
    | some c => c.toList.map fun ch => if ch = '\n' then ' ' else ch
  if mode ≠ "Direct" ∧ mode ≠ "Cartesian" then .error .valueError
  else do
    let positions ← atoms.getPositions
    let l ← poscarAtoms lower atoms cell (decide (mode = "Direct")) 0 positions
    return poscarText comment cell decimals mode (sortAtoms l)

/-! ### `load_poscar` -/

/-- `scale_factor`: one number (already replaced by `abs(scale / volume)` if it was negative) or
three. `src/wulfric/io/_vasp.py` L99-113. -/
inductive Scale
  | one (s : ℚ)
  | three (v : Vec ℚ)

/-- The numbers of a line. `src/wulfric/io/_vasp.py` L99-100, L143. -/
def readFloats (line : List Char) : Except Err (List ℚ) := (tokens line).mapM parseFloat

/-- A line with three numbers; `np.array` of rows of unequal length raises `ValueError` (rows of one
other length, which fail later, are rejected as well). `src/wulfric/io/_vasp.py` L100, L143. -/
def readVec (l : List ℚ) : Except Err (Vec ℚ) :=
  match l with
  | [x, y, z] => .ok ![x, y, z]
  | _ => .error .valueError

/-- `scale_factor`: `src/wulfric/io/_vasp.py` L99-113. A negative scale with a cell of zero volume
(the code divides by zero and goes on with infinite numbers) is an error here. -/
def readScale (numbers : List ℚ) (cell : Cell ℚ) : Except Err Scale :=
  match numbers with
  | [s] =>
    if s < 0 then
      if cell.det = 0 then .error .zeroDivision else .ok (.one |s / abs cell.det|)
    else .ok (.one s)
  | [x, y, z] => if 0 < x ∧ 0 < y ∧ 0 < z then .ok (.three ![x, y, z]) else .error .valueError
  | _ => .error .valueError

/-- `cell *= scale_factor` or the three rows: `src/wulfric/io/_vasp.py` L104-108. -/
def scaleCell (cell : Cell ℚ) : Scale → Cell ℚ
  | .one s => fun i j => cell i j * s
  | .three v => fun i j => cell i j * v i

/-- `coordinates *= scale_factor`: `src/wulfric/io/_vasp.py` L147. -/
def scaleVec (v : Vec ℚ) : Scale → Vec ℚ
  | .one s => fun i => v i * s
  | .three w => fun i => v i * w i

/-- The coordinates of one line: `src/wulfric/io/_vasp.py` L143-149. Fewer than three numbers are an
error here (the code would keep a short array in the direct mode). -/
noncomputable def readPosition (scale : Scale) (cell : Cell ℚ) (cartesian : Bool)
    (line : List Char) : Except Err (Vec ℚ) := do
  let l ← ((tokens line).take 3).mapM parseFloat
  let v ← readVec l
  if cartesian then
    if cell.det = 0 then .error .linAlgError else return vecMat (scaleVec v scale) cell⁻¹
  else return v

/-- `species_names[i]` or `f"X{i + 1}"`: `src/wulfric/io/_vasp.py` L150-155. -/
def speciesName (names : Option (List (List Char))) (i : ℕ) : Except Err String :=
  match names with
  | none => .ok ("X" ++ Nat.repr (i + 1))
  | some l => match l[i]? with
    | some name => .ok (String.ofList name)
    | none => .error .indexError

/-- The inner loop: `src/wulfric/io/_vasp.py` L142-155; also gives the lines left. -/
def loadIons (position : List Char → Except Err (Vec ℚ)) (name : Except Err String) :
    ℕ → List (List Char) → Except Err (List (String × Vec ℚ) × List (List Char))
  | 0, lines => .ok ([], lines)
  | _ + 1, [] => .error .indexError
  | n + 1, line :: lines => do
    let c ← position line
    let s ← name
    let (l, left) ← loadIons position name n lines
    return ((s, c) :: l, left)

/-- The outer loop: `src/wulfric/io/_vasp.py` L140-155; `range` of a negative number is empty. -/
def loadAtoms (position : List Char → Except Err (Vec ℚ)) (names : Option (List (List Char))) :
    ℕ → List ℤ → List (List Char) → Except Err (List (String × Vec ℚ))
  | _, [], _ => .ok []
  | i, n :: rest, lines => do
    let (l, left) ← loadIons position (speciesName names i) n.toNat lines
    let l' ← loadAtoms position names (i + 1) rest left
    return l ++ l'

/-- Whether the mode line begins with "c" or "k": `src/wulfric/io/_vasp.py` L136-138. (The lower case
of the Kelvin sign is "k" as well.) -/
def isCartesian (line : List Char) : Bool :=
  decide (line.head? ∈ [some 'c', some 'C', some 'k', some 'K', some '\u212a'])

/-- The mode line and the atoms: `src/wulfric/io/_vasp.py` L135-155. -/
noncomputable def loadMode (scale : Scale) (cell : Cell ℚ) (names : Option (List (List Char)))
    (ions : List ℤ) (line : List Char) (lines : List (List Char)) :
    Except Err (List (String × Vec ℚ)) :=
  loadAtoms (readPosition scale cell (isCartesian line)) names 0 ions lines

/-- The counts and selective dynamics: `src/wulfric/io/_vasp.py` L129-133. An empty line begins with
"\n" in the code. -/
noncomputable def loadBody (scale : Scale) (cell : Cell ℚ) (names : Option (List (List Char)))
    (counts : List (List Char)) (lines : List (List Char)) :
    Except Err (List (String × Vec ℚ)) := do
  let ions ← counts.mapM parseInt
  match lines with
  | [] => .error .indexError
  | line :: rest =>
    if line.head? = some 'S' ∨ line.head? = some 's' then
      match rest with
      | [] => .error .indexError
      | line' :: rest' => loadMode scale cell names ions line' rest'
    else loadMode scale cell names ions line rest

/-- The names of the species: `src/wulfric/io/_vasp.py` L115-128. -/
noncomputable def loadSpecies (scale : Scale) (cell : Cell ℚ) (line : List Char)
    (lines : List (List Char)) : Except Err (List (String × Vec ℚ)) :=
  let species := tokens line
  if species.all fun t => (parseInt t).isOk then loadBody scale cell none species lines
  else
    match lines with
    | [] => .error .indexError
    | line' :: rest => loadBody scale cell (some species) (tokens line') rest

/-- `load_poscar`: `src/wulfric/io/_vasp.py` L33-157, of a file with the given text. With fewer than
six lines the code raises `IndexError` unless a number is malformed. -/
noncomputable def loadPoscar (universal : Bool) (text : List Char) :
    Except Err (Cell ℚ × Atoms ℚ × String) :=
  match readLines universal text with
  | l0 :: l1 :: l2 :: l3 :: l4 :: l5 :: rest => do
    let numbers ← readFloats l1
    let r0 ← readFloats l2
    let r1 ← readFloats l3
    let r2 ← readFloats l4
    let v0 ← readVec r0
    let v1 ← readVec r1
    let v2 ← readVec r2
    let scale ← readScale numbers (of ![v0, v1, v2])
    let cell := scaleCell (of ![v0, v1, v2]) scale
    let l ← loadSpecies scale cell l5 rest
    return (cell, { names := some (l.map Prod.fst), positions := some (l.map Prod.snd) },
      String.ofList (pyStrip l0))
  | _ => .error .indexError

end Wulfric
