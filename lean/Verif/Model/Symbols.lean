import Verif.Model.Conventional

/-!
# Extended Bravais lattice symbols and variations

Model of `src/wulfric/crystal/_hpkot_extended_bl_symbol.py` and
`src/wulfric/crystal/_sc_variation.py`.
-/

namespace Wulfric

/-- The lattice types whose symbol needs no lattice parameters (`none`: another type):
`src/wulfric/crystal/_hpkot_extended_bl_symbol.py` L130-161. -/
def hpkotSimpleSymbol (latticeType : String) (number : ℤ) : Option (Except Err String) :=
  if latticeType ∈ ["cI", "tP", "oP", "mP"] then some (.ok (latticeType ++ "1"))
  else if latticeType = "cP" then
    if 195 ≤ number ∧ number ≤ 206 then some (.ok "cP1")
    else if 207 ≤ number ∧ number ≤ 230 then some (.ok "cP2")
    else some (.error .potentialBug)
  else if latticeType = "cF" then
    if 195 ≤ number ∧ number ≤ 206 then some (.ok "cF1")
    else if 207 ≤ number ∧ number ≤ 230 then some (.ok "cF2")
    else some (.error .potentialBug)
  else if latticeType = "hP" then
    if (143 ≤ number ∧ number ≤ 149) ∨ (159 ≤ number ∧ number ≤ 163) ∨
        number ∈ ([151, 153, 157] : List ℤ) then some (.ok "hP1")
    else some (.ok "hP2")
  else none

/-- The lattice types whose symbol depends on the parameters of the conventional cell
(`none`: no branch returned):
`src/wulfric/crystal/_hpkot_extended_bl_symbol.py` L169-219. -/
noncomputable def hpkotLengthSymbol (latticeType : String) (a b c beta : ℝ) : Option String :=
  if latticeType = "tI" then if c ≤ a then some "tI1" else some "tI2"
  else if latticeType = "oF" then
    if 1 / b ^ 2 + 1 / c ^ 2 < 1 / a ^ 2 then some "oF1"
    else if 1 / a ^ 2 + 1 / b ^ 2 < 1 / c ^ 2 then some "oF2"
    else some "oF3"
  else if latticeType = "oI" then
    if a ≤ c ∧ b ≤ c then some "oI1"
    else if b ≤ a ∧ c ≤ a then some "oI2"
    else if a ≤ b ∧ c ≤ b then some "oI3"
    else none
  else if latticeType = "oC" then if a ≤ b then some "oC1" else some "oC2"
  else if latticeType = "oA" then if b ≤ c then some "oA1" else some "oA2"
  else if latticeType = "hR" then
    if Real.sqrt 3 * a ≤ Real.sqrt 2 * c then some "hR1" else some "hR2"
  else if latticeType = "mC" then
    if b ≤ a * Real.sin (beta * toRadians) then some "mC1"
    else if -a * Real.cos (beta * toRadians) / c + (a * Real.sin (beta * toRadians) / b) ^ 2 ≤ 1
      then some "mC2"
    else some "mC3"
  else none

/-- The triclinic case: `src/wulfric/crystal/_hpkot_extended_bl_symbol.py` L221-229. -/
noncomputable def hpkotTriclinicSymbol (conv : Cell ℝ) : Except Err String := do
  let r ← getReciprocal conv
  let (_, _, _, ra, rb, rg) ← getParams r
  if 90 ≤ ra ∧ 90 ≤ rb ∧ 90 ≤ rg then return "aP2" else return "aP3"

/-- `hpkot_get_extended_bl_symbol`:
`src/wulfric/crystal/_hpkot_extended_bl_symbol.py` L110-234. -/
noncomputable def hpkotGetExtendedBlSymbol (lower : String → String)
    (getData : Cell ℝ → Atoms ℝ → Except Err SpglibData)
    (niggli : Cell ℝ → Except Err (Cell ℝ)) (cell : Cell ℝ) (atoms : Atoms ℝ)
    (given : Option SpglibData) : Except Err String := do
  let data ← resolveData lower getData cell atoms given
  let latticeType := data.crystalFamily ++ data.centringType
  match hpkotSimpleSymbol latticeType data.spaceGroupNumber with
  | some r => r
  | none => do
    let (conv, _) ← getConventional lower getData niggli cell atoms "HPKOT" (some data)
    let (a, b, c, _, beta, _) ← getParams conv
    match hpkotLengthSymbol latticeType a b c beta with
    | some s => return s
    | none =>
      if latticeType = "aP" then hpkotTriclinicSymbol conv else .error .potentialBug

/-- `_BCT_variation`: `src/wulfric/crystal/_sc_variation.py` L62-67. -/
noncomputable def bctVariation (a c : ℝ) : Except Err (Option String) :=
  if c < a then .ok (some "BCT1") else if a < c then .ok (some "BCT2") else .error .valueError

/-- `_ORCF_variation` (`none` is python's `None`):
`src/wulfric/crystal/_sc_variation.py` L103-117. -/
noncomputable def orcfVariation (a b c tol : ℝ) : Except Err (Option String) :=
  if cwt a .ge b tol || cwt b .ge c tol then .error .valueError
  else
    let e := 1 / a ^ 2 - 1 / b ^ 2 - 1 / c ^ 2
    if cwt e .eq 0 tol then .ok (some "ORCF3")
    else if cwt e .gt 0 tol then .ok (some "ORCF1")
    else if cwt e .lt 0 tol then .ok (some "ORCF2")
    else .ok none

/-- `_RHL_variation`: `src/wulfric/crystal/_sc_variation.py` L146-153. -/
noncomputable def rhlVariation (alpha tol : ℝ) : Except Err (Option String) :=
  if cwt alpha .lt 90 tol then .ok (some "RHL1")
  else if cwt alpha .gt 90 tol then .ok (some "RHL2")
  else .error .valueError

/-- `_MCLC_variation`: `src/wulfric/crystal/_sc_variation.py` L206-227. -/
noncomputable def mclcVariation (a b c alpha kGamma distTol angTol : ℝ) :
    Except Err (Option String) :=
  if cwt alpha .gt 90 angTol then .error .valueError
  else if cwt kGamma .eq 90 angTol then .ok (some "MCLC2")
  else if cwt kGamma .gt 90 angTol then .ok (some "MCLC1")
  else if cwt kGamma .lt 90 angTol then
    let e := b * Real.cos (alpha * toRadians) / c +
      b ^ 2 * Real.sin (alpha * toRadians) ^ 2 / a ^ 2
    if cwt e .eq 1 distTol then .ok (some "MCLC4")
    else if cwt e .lt 1 distTol then .ok (some "MCLC3")
    else if cwt e .gt 1 distTol then .ok (some "MCLC5")
    else .ok none
  else .ok none

/-- `_TRI_variation`: `src/wulfric/crystal/_sc_variation.py` L268-289. -/
noncomputable def triVariation (ka kb kg tol : ℝ) : Except Err (Option String) :=
  if cwt ka .eq 90 tol || cwt kb .eq 90 tol then .error .valueError
  else if cwt kg .eq 90 tol then
    if cwt ka .gt 90 tol && cwt kb .gt 90 tol then .ok (some "TRI2a")
    else if cwt ka .lt 90 tol && cwt kb .lt 90 tol then .ok (some "TRI2b")
    else .ok none
  else if cwt (min kg (min kb ka)) .gt 90 tol then .ok (some "TRI1a")
  else if cwt (max kg (max kb ka)) .lt 90 tol then .ok (some "TRI1b")
  else .ok (some "TRI")

/-- The cases of `sc_get_variation` that need the conventional cell:
`src/wulfric/crystal/_sc_variation.py` L400-434. -/
noncomputable def scVariationOf (lower : String → String)
    (getData : Cell ℝ → Atoms ℝ → Except Err SpglibData)
    (niggli : Cell ℝ → Except Err (Cell ℝ)) (cell : Cell ℝ) (atoms : Atoms ℝ)
    (data : SpglibData) (latticeType : String) (conv : Cell ℝ) : Except Err (Option String) := do
  let (a, b, c, alpha, _, _) ← getParams conv
  if latticeType = "tI" then bctVariation a c
  else if latticeType = "oF" then orcfVariation a b c data.symprec
  else if latticeType = "hR" then rhlVariation alpha (angleTol data)
  else if latticeType = "mC" then do
    let (prim, _) ← getPrimitive lower getData niggli cell atoms "SC" (some data)
    let r ← getReciprocal prim
    let (_, _, _, _, _, kGamma) ← getParams r
    mclcVariation a b c alpha kGamma data.symprec (angleTol data)
  else do
    let r ← getReciprocal conv
    let (_, _, _, ka, kb, kg) ← getParams r
    triVariation ka kb kg (angleTol data)

/-- `sc_get_variation`: `src/wulfric/crystal/_sc_variation.py` L372-436. -/
noncomputable def scGetVariation (lower : String → String)
    (getData : Cell ℝ → Atoms ℝ → Except Err SpglibData)
    (niggli : Cell ℝ → Except Err (Cell ℝ)) (cell : Cell ℝ) (atoms : Atoms ℝ)
    (given : Option SpglibData) : Except Err (Option String) := do
  let data ← resolveData lower getData cell atoms given
  let latticeType := data.crystalFamily ++ data.centringType
  if latticeType ∈ ["tI", "oF", "hR", "mC", "aP"] then do
    let (conv, _) ← getConventional lower getData niggli cell atoms "SC" (some data)
    scVariationOf lower getData niggli cell atoms data latticeType conv
  else do
    let s ← scBravaisLatticeShortNames.getItem latticeType
    return some s

end Wulfric
