import Verif.Model.Python

/-!
# `logo`

Model of `src/wulfric/_package_info.py` L29-148. Texts are lists of characters. The lines of
information are an argument (the default ones hold the version and the time). The round trip through
UTF-8 (L148) changes nothing and is left out.
-/

namespace Wulfric

/-- `src/wulfric/_package_info.py` L87-102. -/
def logoArt : Bool → List (List Char)
  | false =>
    ["██╗      ██╗ ██╗   ██╗ ██╗      ███████╗ ██████╗  ██╗  ██████╗".toList,
     "██║      ██║ ██║   ██║ ██║      ██╔════╝ ██╔══██╗ ██║ ██╔════╝".toList,
     "██║  █╗  ██║ ██║   ██║ ██║      █████╗   ██████╔╝ ██║ ██║     ".toList,
     "██║ ███╗ ██║ ██║   ██║ ██║      ██╔══╝   ██╔══██╗ ██║ ██║     ".toList,
     "╚███╔══███╔╝ ╚██████╔╝ ███████╗ ██║      ██║  ██║ ██║ ╚██████╗".toList,
     " ╚══╝  ╚══╝   ╚═════╝  ╚══════╝ ╚═╝      ╚═╝  ╚═╝ ╚═╝  ╚═════╝".toList]
  | true =>
    ["██       ██  ██    ██  ██       ███████  ██████   ██   ██████".toList,
     "██       ██  ██    ██  ██       ██       ██   ██  ██  ██     ".toList,
     "██   █   ██  ██    ██  ██       █████    ██████   ██  ██     ".toList,
     "██  ███  ██  ██    ██  ██       ██       ██   ██  ██  ██     ".toList,
     " ███   ███    ██████   ███████  ██       ██   ██  ██   ██████".toList]

/-- `src/wulfric/_package_info.py` L103-111. -/
def logoCat : List (List Char) :=
  ["▄   ▄     ".toList,
   "█▀█▀█     ".toList,
   "█▄█▄█     ".toList,
   " ███   ▄▄ ".toList,
   " ████ █  █".toList,
   " ████    █".toList,
   " ▀▀▀▀▀▀▀▀ ".toList]

/-- `f"{s:^{width}}"`. As in `src/wulfric/_package_info.py` L126, L133-144, L147. -/
def centre (width : ℕ) (s : List Char) : List Char :=
  let t := width - s.length
  List.replicate (t / 2) ' ' ++ s ++ List.replicate (t - t / 2) ' '

/-- What can be passed as `comment`: nothing, a bool or a string. `src/wulfric/_package_info.py`
L48, L119-124. -/
inductive CommentArg
  | none
  | bool (b : Bool)
  | str (s : List Char)

/-- `src/wulfric/_package_info.py` L119-124. -/
def commentText : CommentArg → List Char
  | .none => []
  | .bool true => ['#', ' ']
  | .bool false => ['F', 'a', 'l', 's', 'e']
  | .str s => s

/-- The lines under the logo: `src/wulfric/_package_info.py` L127-145; `wide` is `N - n`, `n` the
width of the cat. -/
def infoLines (wide n : ℕ) (info : List (List Char)) : Except Err (List (List Char)) :=
  if info = [] then .ok []
  else if info.length ≤ logoCat.length then
    let before := (logoCat.length - info.length) / 2 + (logoCat.length - info.length) % 2
    let after := logoCat.length - info.length - before
    (List.range logoCat.length).mapM fun i => do
      if i < before ∨ logoCat.length - after ≤ i then
        return (' ' :: List.replicate (wide - 1) ' ') ++ centre n (← pyGet logoCat i)
      else
        return centre wide (← pyGet info ((i : ℤ) - before)) ++ centre n (← pyGet logoCat i)
  else
    let before := (info.length - logoCat.length) / 2
    let after := info.length - logoCat.length - before
    (List.range info.length).mapM fun i => do
      if i < before ∨ info.length - after ≤ i then
        return centre wide (← pyGet info ((i : ℤ) - before))
      else
        return centre wide (← pyGet info ((i : ℤ) - before)) ++
          centre n (← pyGet logoCat ((i : ℤ) - before))

/-- The length of the lines: `src/wulfric/_package_info.py` L115-118. -/
def logoLength (N : ℕ) : Option ℤ → ℕ
  | none => N
  | some l => if l < N then N else l.toNat

/-- `logo`: `src/wulfric/_package_info.py` L113-148. -/
def logo (info : List (List Char)) (lineLength : Option ℤ) (flat : Bool) (comment : CommentArg) :
    Except Err (List Char) := do
  let N := ((logoArt flat).headD []).length
  let n := (logoCat.headD []).length + 2
  let width := logoLength N lineLength
  let below ← infoLines (N - n) n info
  let lines := (logoArt flat).map (centre N) ++ below
  let lines := lines.map fun x => commentText comment ++ centre width x ++ ['\n']
  return lines.flatten.dropLast

end Wulfric
