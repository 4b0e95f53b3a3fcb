import Verif.Spec.Trim

/-!
# Specification vocabulary: the letter of a named point
-/

namespace Spec

/-- The letter of a name: its capital letters up to the first other character. "Z", "Z0" and "Z0_P"
have the letter "Z", "SIGMA1" has the letter "SIGMA". -/
def letter (name : String) : List Char := name.toList.takeWhile Char.isUpper

end Spec
