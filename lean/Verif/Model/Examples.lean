import Verif.Model.Conventional
import Verif.Model.Conventions

/-!
# Example cells of the SC convention

Model of `src/wulfric/cell/_sc_examples.py`. Real numbers; the decimal factors are exact.
`str.lower` is `String.toLower`, which changes ASCII letters only: no other character becomes, in
lower case, a letter of the names.
-/

namespace Wulfric

/-- `SC_CUB`: `src/wulfric/cell/_sc_examples.py` L51-99. -/
noncomputable def scCUB (a : ℝ) : Cell ℝ := !![a, 0, 0; 0, a, 0; 0, 0, a]

/-- `SC_FCC`: `src/wulfric/cell/_sc_examples.py` L102-150. -/
noncomputable def scFCC (a : ℝ) : Cell ℝ := !![0, a / 2, a / 2; a / 2, 0, a / 2; a / 2, a / 2, 0]

/-- `SC_BCC`: `src/wulfric/cell/_sc_examples.py` L153-203. -/
noncomputable def scBCC (a : ℝ) : Cell ℝ :=
  !![-a / 2, a / 2, a / 2; a / 2, -a / 2, a / 2; a / 2, a / 2, -a / 2]

/-- `SC_TET`: `src/wulfric/cell/_sc_examples.py` L206-256. -/
noncomputable def scTET (a c : ℝ) : Cell ℝ := !![a, 0, 0; 0, a, 0; 0, 0, c]

/-- `SC_BCT`: `src/wulfric/cell/_sc_examples.py` L259-311. -/
noncomputable def scBCT (a c : ℝ) : Cell ℝ :=
  !![-a / 2, a / 2, c / 2; a / 2, -a / 2, c / 2; a / 2, a / 2, -c / 2]

/-- `SC_ORC`: `src/wulfric/cell/_sc_examples.py` L314-369. -/
noncomputable def scORC (a b c : ℝ) : Cell ℝ := !![a, 0, 0; 0, b, 0; 0, 0, c]

/-- `SC_ORCF`: `src/wulfric/cell/_sc_examples.py` L372-427. -/
noncomputable def scORCF (a b c : ℝ) : Cell ℝ :=
  !![0, b / 2, c / 2; a / 2, 0, c / 2; a / 2, b / 2, 0]

/-- `SC_ORCI`: `src/wulfric/cell/_sc_examples.py` L430-487. -/
noncomputable def scORCI (a b c : ℝ) : Cell ℝ :=
  !![-a / 2, b / 2, c / 2; a / 2, -b / 2, c / 2; a / 2, b / 2, -c / 2]

/-- `SC_ORCC`: `src/wulfric/cell/_sc_examples.py` L490-545. -/
noncomputable def scORCC (a b c : ℝ) : Cell ℝ := !![a / 2, -b / 2, 0; a / 2, b / 2, 0; 0, 0, c]

/-- `SC_HEX`: `src/wulfric/cell/_sc_examples.py` L548-600. -/
noncomputable def scHEX (a c : ℝ) : Cell ℝ :=
  !![a / 2, -a * Real.sqrt 3 / 2, 0; a / 2, a * Real.sqrt 3 / 2, 0; 0, 0, c]

/-- `SC_RHL`: `src/wulfric/cell/_sc_examples.py` L603-669. In floating-point numbers the cosine of
the division is never exactly zero. -/
noncomputable def scRHL (a alpha : ℝ) : Except Err (Cell ℝ) := do
  let al := alpha * toRadians
  if Real.cos (al / 2) = 0 then .error .zeroDivision
  else
    let s ← mathSqrt (1 - Real.cos al ^ 2 / Real.cos (al / 2) ^ 2)
    return !![a * Real.cos (al / 2), -a * Real.sin (al / 2), 0;
      a * Real.cos (al / 2), a * Real.sin (al / 2), 0;
      a * Real.cos al / Real.cos (al / 2), 0, a * s]

/-- `SC_MCL`: `src/wulfric/cell/_sc_examples.py` L672-732. -/
noncomputable def scMCL (a b c alpha : ℝ) : Cell ℝ :=
  !![a, 0, 0; 0, b, 0; 0, c * Real.cos (alpha * toRadians), c * Real.sin (alpha * toRadians)]

/-- `SC_MCLC`: `src/wulfric/cell/_sc_examples.py` L735-802. -/
noncomputable def scMCLC (a b c alpha : ℝ) : Cell ℝ :=
  !![a / 2, b / 2, 0; -a / 2, b / 2, 0;
    0, c * Real.cos (alpha * toRadians), c * Real.sin (alpha * toRadians)]

/-- `SC_TRI`: `src/wulfric/cell/_sc_examples.py` L805-880. -/
noncomputable def scTRI (a b c alpha beta gamma : ℝ) (inputReciprocal : Bool := false) :
    Except Err (Cell ℝ) := do
  let cell ← fromParams a b c alpha beta gamma
  if inputReciprocal then getReciprocal cell else return cell

/-- `x.translate(str.maketrans("", "", "12345ab"))`: `src/wulfric/cell/_sc_examples.py` L934. -/
def withoutVariation (x : String) : String :=
  String.ofList (x.toList.filter fun c => !("12345ab".toList.contains c))

/-- `correct_inputs`: `src/wulfric/cell/_sc_examples.py` L931-938 (a set; the order is never
used but in the message of the error). -/
def exampleInputs : List String :=
  scBravaisLatticeVariations.map String.toLower ++
    scBravaisLatticeVariations.map fun x => (withoutVariation x).toLower

/-- The parameters of the examples `mclc3`, `mclc4`, `mclc5`:
`src/wulfric/cell/_sc_examples.py` L991-1014. -/
noncomputable def mclcExample (x alpha factor : ℝ) : Cell ℝ :=
  let b := Real.pi
  let ralpha := alpha * toRadians
  let c := b * x ^ 2 / (x ^ 2 - 1) * Real.cos ralpha * factor
  let a := x * b * Real.sin ralpha
  scMCLC a b c alpha

/-- The chain of names: `src/wulfric/cell/_sc_examples.py` L952-1024. -/
noncomputable def exampleCell (v : String) : Except Err (Cell ℝ) :=
  let p := Real.pi
  if v = "cub" then .ok (scCUB p)
  else if v = "fcc" then .ok (scFCC p)
  else if v = "bcc" then .ok (scBCC p)
  else if v = "tet" then .ok (scTET p (3 / 2 * p))
  else if v ∈ ["bct1", "bct"] then .ok (scBCT (3 / 2 * p) p)
  else if v = "bct2" then .ok (scBCT p (3 / 2 * p))
  else if v = "orc" then .ok (scORC p (3 / 2 * p) (2 * p))
  else if v ∈ ["orcf1", "orcf"] then .ok (scORCF (7 / 10 * p) (5 / 4 * p) (5 / 3 * p))
  else if v = "orcf2" then .ok (scORCF (6 / 5 * p) (5 / 4 * p) (5 / 3 * p))
  else if v = "orcf3" then .ok (scORCF p (5 / 4 * p) (5 / 3 * p))
  else if v = "orci" then .ok (scORCI p (13 / 10 * p) (17 / 10 * p))
  else if v = "orcc" then .ok (scORCC p (13 / 10 * p) (17 / 10 * p))
  else if v = "hex" then .ok (scHEX p (2 * p))
  else if v ∈ ["rhl1", "rhl"] then scRHL p 70
  else if v = "rhl2" then scRHL p 110
  else if v = "mcl" then .ok (scMCL p (13 / 10 * p) (8 / 5 * p) 75)
  else if v ∈ ["mclc1", "mclc"] then .ok (scMCLC p (7 / 5 * p) (17 / 10 * p) 80)
  else if v = "mclc2" then
    .ok (scMCLC (7 / 5 * p * Real.sin (75 * toRadians)) (7 / 5 * p) (17 / 10 * p) 75)
  else if v = "mclc3" then .ok (mclcExample (11 / 10) 78 (9 / 5))
  else if v = "mclc4" then .ok (mclcExample (6 / 5) 65 1)
  else if v = "mclc5" then .ok (mclcExample (7 / 5) 53 (9 / 10))
  else if v ∈ ["tri1a", "tri1", "tri", "tria"] then scTRI (1 / 2) (1 / 2) (1 / 2) 50 60 80
  else if v ∈ ["tri2a", "tri2"] then scTRI (1 / 2) 1 1 100 100 140
  else if v ∈ ["tri1b", "trib"] then scTRI (1 / 2) 1 1 100 110 60
  else if v = "tri2b" then scTRI (1 / 2) 1 2 80 100 40
  else .error .unboundLocal

/-- `sc_get_example`: `src/wulfric/cell/_sc_examples.py` L883-1024. `none` is an argument that is
not a string (the default value). -/
noncomputable def scGetExample (latticeVariation : Option String) : Except Err (Cell ℝ) :=
  match latticeVariation with
  | none => .error .valueError
  | some v => if v.toLower ∈ exampleInputs then exampleCell v.toLower else .error .valueError

end Wulfric
