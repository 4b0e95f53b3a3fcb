/-! # Specification of k-path strings, without splitting or joining functions -/

namespace Spec

/-- The characters of the string of a sub-path: names with a hyphen between two of them. -/
inductive SubPath : List String → List Char → Prop
  | one (n : String) : SubPath [n] n.toList
  | cons (n : String) (ns : List String) (cs : List Char) :
      SubPath ns cs → SubPath (n :: ns) (n.toList ++ '-' :: cs)

/-- The characters of the string of a path: sub-paths with a bar between two of them. -/
inductive Path : List (List String) → List Char → Prop
  | one (p : List String) (cs : List Char) : SubPath p cs → Path [p] cs
  | cons (p : List String) (ps : List (List String)) (cs ds : List Char) :
      SubPath p cs → Path ps ds → Path (p :: ps) (cs ++ '|' :: ds)

/-- A name usable in a path. -/
def GoodName (n : String) : Prop := '-' ∉ n.toList ∧ '|' ∉ n.toList

/-- A path the library accepts: at least one sub-path, each with at least two names. -/
def GoodPath (p : List (List String)) : Prop :=
  p ≠ [] ∧ ∀ sub ∈ p, 2 ≤ sub.length ∧ ∀ n ∈ sub, GoodName n

/-- Between two bars (or an end of the string) there is a piece without any hyphen. -/
def HasShortPiece (cs : List Char) : Prop :=
  ∃ pre piece post, cs = pre ++ piece ++ post ∧ (pre = [] ∨ ∃ q, pre = q ++ ['|']) ∧
    (post = [] ∨ ∃ q, post = '|' :: q) ∧ '|' ∉ piece ∧ '-' ∉ piece

/-- A path fits a set of named points and can be drawn: no name is defined twice, every name on
the path is defined, every point has a label of its own, and neighbours on the path differ. -/
structure Plottable (label : String → Option String) (p : List (List String))
    (names : List String) : Prop where
  nodup : names.Nodup
  defined : ∀ sub ∈ p, ∀ n ∈ sub, n ∈ names
  labelled : ∀ n ∈ names, ∃ l, label n = some l
  distinct : ∀ n ∈ names, ∀ n' ∈ names, label n = label n' → n = n'
  moves : ∀ sub ∈ p, ∀ i a b, sub[i]? = some a → sub[i + 1]? = some b → a ≠ b

/-- The name of the negative of a point: that of the origin stays. -/
def negative (n : String) : String := if n = "GAMMA" then "GAMMA" else n ++ "_P"

/-- The segments of a path, in order. -/
def segments (p : List (List String)) : List (String × String) :=
  p.flatMap fun sub => sub.zip sub.tail

/-- No segment is followed twice, neither in the same direction nor backwards. -/
def Once (p : List (List String)) : Prop :=
  (segments p).Pairwise fun s t => s ≠ t ∧ s ≠ (t.2, t.1)

end Spec
