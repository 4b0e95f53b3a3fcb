import Mathlib.Data.List.Basic

/-!
# How the name of a high-symmetry point is typeset (C87)

A name is letters, perhaps digits, perhaps `_P`. Greek letters are spelled out in it. In LaTeX the
digits are a subscript and `_P` a prime.
-/

namespace Spec

/-- The LaTeX command of a Greek letter that is spelled out. -/
def greek (letters : List Char) : Option String :=
  if letters = "GAMMA".toList then some "\\Gamma"
  else if letters = "DELTA".toList then some "\\Delta"
  else if letters = "LAMBDA".toList then some "\\Lambda"
  else if letters = "SIGMA".toList then some "\\Sigma"
  else none

/-- The name in LaTeX: mathematics is between dollars, and there is no empty mathematics. -/
def typeset (name : String) : String :=
  let letters := name.toList.takeWhile fun c => !c.isDigit && c ≠ '_'
  let rest := name.toList.dropWhile fun c => !c.isDigit && c ≠ '_'
  let digits := rest.takeWhile (·.isDigit)
  let prime := rest.dropWhile (·.isDigit)
  let marks := (if digits = [] then "" else "_" ++ String.ofList digits) ++
    (if prime = "_P".toList then "^{\\prime}" else String.ofList prime)
  match greek letters with
  | some g => "$" ++ g ++ marks ++ "$"
  | none => String.ofList letters ++ if marks = "" then "" else "$" ++ marks ++ "$"

example : typeset "X" = "X" := by decide +kernel
example : typeset "H12" = "H$_12$" := by decide +kernel
example : typeset "SIGMA0_P" = "$\\Sigma_0^{\\prime}$" := by decide +kernel

end Spec
