import Verif.Props.C37_Orthorhombic
import Verif.Props.C53_Primitive
import Verif.Model.Symbols

/-! # Sample crystals, used to show that hypotheses can be met -/

namespace Wulfric
open Matrix _root_.Spec Wulfric.Spec

/-- A crystal with one atom in a rectangular box. -/
noncomputable def boxData (x y z : ℝ) (n : ℤ) (family centring : String) : SpglibData :=
  { original := { cell := !![x, 0, 0; 0, y, 0; 0, 0, z], positions := [0], types := [1] },
    spaceGroupNumber := n, crystalFamily := family, centringType := centring,
    conventionalCell := !![x, 0, 0; 0, y, 0; 0, 0, z], conventionalPositions := [0],
    conventionalTypes := [1], primitiveCell := !![x, 0, 0; 0, y, 0; 0, 0, z],
    primitivePositions := [0], primitiveTypes := [1], symprec := 1 / 10 ^ 5,
    angleTolerance := -1 }

/-- The atom of `boxData`. -/
noncomputable def boxAtoms : Atoms ℝ := { positions := some [0], spglibTypes := some [1] }

variable (lower : String → String) (getData : Cell ℝ → Atoms ℝ → Except Err SpglibData)
  (niggli : Cell ℝ → Except Err (Cell ℝ)) (x y z : ℝ) (n : ℤ) (family centring : String)

theorem box_original : originalData lower !![x, 0, 0; 0, y, 0; 0, 0, z] boxAtoms =
    .ok (boxData x y z n family centring).original := by
  have hv : validateAtoms boxAtoms.toDict ["positions"] true = .ok true := by
    simp only [Atoms.toDict, boxAtoms]
    decide +kernel
  have hv' : validateAtoms boxAtoms.toDict [] true = .ok true := by
    simp only [Atoms.toDict, boxAtoms]
    decide +kernel
  unfold originalData
  rw [hv]
  unfold getSpglibTypes
  rw [hv']
  rfl

theorem box_resolve : resolveData lower getData !![x, 0, 0; 0, y, 0; 0, 0, z] boxAtoms
    (some (boxData x y z n family centring)) = .ok (boxData x y z n family centring) := by
  have hv : validateAtoms boxAtoms.toDict ["positions"] true = .ok true := by
    simp only [Atoms.toDict, boxAtoms]
    decide +kernel
  unfold resolveData
  rw [hv]
  simp only [bind, Except.bind]
  rw [C32_same lower _ boxAtoms _ (box_original lower x y z n family centring)]
  rfl

/-- The conventional cell of the box. -/
theorem box_conventional (convention : String) (conv : Cell ℝ) (ps : List (Vec ℝ))
    (h : conventionalParts niggli (lower convention) (boxData x y z n family centring) =
      .ok (conv, ps, [1])) :
    ∃ a, getConventional lower getData niggli !![x, 0, 0; 0, y, 0; 0, 0, z] boxAtoms convention
      (some (boxData x y z n family centring)) = .ok (conv, a) :=
  C36_defined lower getData niggli _ boxAtoms convention _ _ conv ps [1]
    (box_resolve lower getData x y z n family centring) h (by simp [boxData])
    (by intro l hl; cases hl) (by intro l hl; cases hl) (by intro l hl; cases hl; rfl)

theorem box_hpkot (hl : lower "HPKOT" = "hpkot") (hf : family ≠ "a") :
    ∃ a, getConventional lower getData niggli !![x, 0, 0; 0, y, 0; 0, 0, z] boxAtoms "HPKOT"
      (some (boxData x y z n family centring)) = .ok (!![x, 0, 0; 0, y, 0; 0, 0, z], a) := by
  apply box_conventional (ps := [0])
  rw [hl]
  unfold conventionalParts
  rw [if_pos (by decide), if_neg (by simp [boxData, hf])]
  rfl

theorem box_sc_tetragonal (hl : lower "SC" = "sc") (hd : x * y * z ≠ 0) :
    ∃ a, getConventional lower getData niggli !![x, 0, 0; 0, y, 0; 0, 0, z] boxAtoms "SC"
      (some (boxData x y z n "t" centring)) = .ok (!![x, 0, 0; 0, y, 0; 0, 0, z], a) := by
  have hdet : (!![x, 0, 0; 0, y, 0; 0, 0, z] : Cell ℝ).det ≠ 0 := by
    simpa [det_fin_three] using hd
  apply box_conventional (ps := [vecMat (vecMat 0 !![x, 0, 0; 0, y, 0; 0, 0, z])
    (!![x, 0, 0; 0, y, 0; 0, 0, z])⁻¹])
  rw [hl]
  unfold conventionalParts
  rw [if_neg (by decide), if_pos rfl, if_neg (by simp [boxData])]
  simp only [boxData, scConventionalNoHR, true_or, or_true, if_true, bind, Except.bind, pure,
    Except.pure, rebase, npInv, hdet, if_false, List.map_cons, List.map_nil]

theorem box_params (hx : machineEps < x) (hy : machineEps < y) (hz : machineEps < z) :
    getParams !![x, 0, 0; 0, y, 0; 0, 0, z] = .ok (x, y, z, 90, 90, 90) :=
  getParams_of_spec (hasParams_box (machineEps_pos.trans hx).le (machineEps_pos.trans hy).le
    (machineEps_pos.trans hz).le) hx hy hz

end Wulfric
