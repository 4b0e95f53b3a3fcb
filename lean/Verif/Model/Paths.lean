import Verif.Model.Python

/-!
# k-path strings

Model of `get_path_as_list` and `get_path_as_string` of
`src/wulfric/kpoints/_path_and_points.py`. The checks of the python types of the arguments
(L78-79, L128-137) are not modelled: the argument is a string, or a list of lists of strings.
-/

namespace Wulfric

/-- `s.split(sep)` for a separator of one character, on the characters of the string: the
pieces between the separators, empty ones included. As in `src/wulfric/kpoints/_path_and_points.py`
L81, L84. -/
def splitChars (sep : Char) : List Char → List (List Char)
  | [] => [[]]
  | c :: cs =>
    if c = sep then [] :: splitChars sep cs
    else
      match splitChars sep cs with
      | [] => [[c]]
      | p :: ps => (c :: p) :: ps

/-- `s.split(sep)` (python's `str.split` with an explicit separator of one character). As in
`src/wulfric/kpoints/_path_and_points.py` L81, L84. -/
def pySplit (s : String) (sep : Char) : List String := (splitChars sep s.toList).map String.ofList

/-- `sep.join(l)` (python's `str.join`). As in `src/wulfric/kpoints/_path_and_points.py` L139, L141.
-/
def pyJoin (sep : String) : List String → String
  | [] => ""
  | [x] => x
  | x :: y :: l => x ++ sep ++ pyJoin sep (y :: l)

/-- The loop of `get_path_as_list`: `src/wulfric/kpoints/_path_and_points.py` L81-93. -/
def pathLoop : List String → List (List String) → Except Err (List (List String))
  | [], path => .ok path
  | sub :: subs, path =>
    let points := pySplit sub '-'
    if points.length = 1 then .error .valueError
    else if 2 ≤ points.length then pathLoop subs (path ++ [points])
    else pathLoop subs path

/-- `get_path_as_list`: `src/wulfric/kpoints/_path_and_points.py` L78-95. -/
def getPathAsList (s : String) : Except Err (List (List String)) := pathLoop (pySplit s '|') []

/-- `get_path_as_string`: `src/wulfric/kpoints/_path_and_points.py` L128-141. -/
def getPathAsString (path : List (List String)) : String := pyJoin "|" (path.map (pyJoin "-"))

end Wulfric
