import Verif.Model.Sugar

/-!
# Specification of attribute access

The contents after a history, described key by key: the last statement about the key counts.
-/

namespace Wulfric.Spec
open Sugar
variable {V : Type*}

/-- The statement sets (`some (some v)`), removes (`some none`) or does not touch the key. -/
def touches (k : String) : Op V → Option (Option V)
  | .setItem a v => if a = k then some (some v) else none
  | .setAttr a v => if a = k then some (some v) else none
  | .delItem a => if a = k then some none else none
  | .delAttr a => if a = k then some none else none

/-- Value of the key after a history that started from `start`. -/
def lastValue (start : Option V) (k : String) (ops : List (Op V)) : Option V :=
  ((ops.filterMap (touches k)).getLast?).getD start

/-- The same statement, written with square brackets. -/
def bracketed : Op V → Op V
  | .setAttr a v => .setItem a v
  | .delAttr a => .delItem a
  | op => op

end Wulfric.Spec
