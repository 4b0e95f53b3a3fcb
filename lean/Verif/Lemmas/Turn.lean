import Verif.Props.C61_NiggliUnique
import Verif.Model.Spglib
import Verif.Model.PathPoints
import Verif.Model.Kpoints
import Verif.Lemmas.Lepage

/-!
# Rotations of the crystal
-/

namespace Wulfric

open Matrix _root_.Spec

variable {Q : Cell ℝ}

theorem det_orthogonal_ne (hQ : Q * Q.transpose = 1) : Q.det ≠ 0 := by
  intro e
  have := congrArg Matrix.det hQ
  rw [det_mul, e] at this
  simp at this

theorem inv_orthogonal (hQ : Q * Q.transpose = 1) : Q⁻¹ = Q.transpose :=
  Matrix.inv_eq_right_inv hQ

theorem npInv_turn (hQ : Q * Q.transpose = 1) (c : Cell ℝ) :
    npInv (c * Q) = (npInv c).map fun i => Q.transpose * i := by
  unfold npInv
  by_cases h : c.det = 0
  · rw [if_pos h, if_pos (by rw [det_mul, h, zero_mul])]; rfl
  · rw [if_neg h, if_neg (by rw [det_mul]; exact mul_ne_zero h (det_orthogonal_ne hQ)),
      Matrix.mul_inv_rev, inv_orthogonal hQ]
    rfl

theorem getReciprocal_turn (hQ : Q * Q.transpose = 1) (c : Cell ℝ) :
    getReciprocal (c * Q) = (getReciprocal c).map fun r => r * Q := by
  unfold getReciprocal
  rw [npInv_turn hQ]
  cases npInv c with
  | error e => rfl
  | ok i => simp [Except.map, Matrix.transpose_mul]

theorem getParams_turn (hQ : Q * Q.transpose = 1) (c : Cell ℝ) :
    getParams (c * Q) = getParams c :=
  getParams_of_sameMetric (sameMetric_mul c Q hQ)

theorem applyT_turn (m : Matrix (Fin 3) (Fin 3) ℤ) (c : Cell ℝ) :
    applyT m (c * Q) = applyT m c * Q := by
  unfold applyT; rw [Matrix.mul_assoc]

theorem npDot_turn (hQ : Q * Q.transpose = 1) (c : Cell ℝ) (i j : Fin 3) :
    npDot ((c * Q) i) ((c * Q) j) = npDot (c i) (c j) := by
  rw [npDot_eq, npDot_eq]; exact sameMetric_mul c Q hQ i j

theorem vecMat_mul (v : Vec ℝ) (m n : Cell ℝ) : vecMat v (m * n) = vecMat (vecMat v m) n := by
  funext j
  simp only [vecMat, Matrix.mul_apply, Fin.sum_univ_three]; ring

theorem vecMat_turn (hQ : Q * Q.transpose = 1) (v : Vec ℝ) (m n : Cell ℝ) :
    vecMat (vecMat v (m * Q)) (Q.transpose * n) = vecMat (vecMat v m) n := by
  rw [← vecMat_mul, Matrix.mul_assoc, ← Matrix.mul_assoc Q, hQ, Matrix.one_mul, vecMat_mul]

/-- `niggli` commutes with the rotation. -/
def TurnsWith (Q : Cell ℝ) (f : Cell ℝ → Except Err (Cell ℝ)) : Prop :=
  ∀ c, f (c * Q) = (f c).map fun r => r * Q

theorem hpkotConventionalA_turn (hQ : Q * Q.transpose = 1) {niggli : Cell ℝ → Except Err (Cell ℝ)}
    (hn : TurnsWith Q niggli) : TurnsWith Q (hpkotConventionalA niggli) := by
  intro c
  unfold hpkotConventionalA
  rw [getReciprocal_turn hQ]
  cases getReciprocal c with
  | error e => rfl
  | ok r =>
    simp only [Except.map, bind, Except.bind, hn r]
    cases niggli r with
    | error e => rfl
    | ok r1 =>
      simp only [getReciprocal_turn hQ, npDot_turn hQ]
      cases getReciprocal r1 with
      | error e => rfl
      | ok c1 =>
        simp only [Except.map]
        cases dotMatrix |npDot (r1 1) (r1 2)| |npDot (r1 0) (r1 2)| |npDot (r1 0) (r1 1)| with
        | error e => rfl
        | ok m2 =>
          simp only [applyT_turn, getReciprocal_turn hQ]
          cases getReciprocal (applyT m2 c1) with
          | error e => rfl
          | ok r2 =>
            simp only [Except.map, getParams_turn hQ]
            cases getParams r2 with
            | error e => rfl
            | ok p =>
              simp only
              cases signMatrix p.2.2.2.1 p.2.2.2.2.1 p.2.2.2.2.2 with
              | error e => rfl
              | ok m => rfl

theorem scConventionalOPFI_turn (hQ : Q * Q.transpose = 1) : TurnsWith Q scConventionalOPFI := by
  intro c
  unfold scConventionalOPFI
  rw [getParams_turn hQ]
  cases getParams c with
  | error e => rfl
  | ok p =>
    simp only [bind, Except.bind, applyT_turn]
    split_ifs <;> rfl

theorem scConventionalOC_turn (hQ : Q * Q.transpose = 1) : TurnsWith Q scConventionalOC := by
  intro c
  unfold scConventionalOC
  rw [getParams_turn hQ]
  cases getParams c with
  | error e => rfl
  | ok p =>
    simp only [bind, Except.bind, applyT_turn]
    split_ifs <;> rfl

theorem scConventionalM_turn (hQ : Q * Q.transpose = 1) (centring : String) (tol : ℝ) :
    TurnsWith Q fun c => scConventionalM c centring tol := by
  intro c
  simp only [scConventionalM]
  rw [getParams_turn hQ]
  cases getParams c with
  | error e => rfl
  | ok p =>
    simp only [bind, Except.bind]
    cases monoclinicStep1 p.2.2.2.1 p.2.2.2.2.1 p.2.2.2.2.2 centring tol with
    | error e => rfl
    | ok m =>
      simp only [applyT_turn, getParams_turn hQ]
      cases getParams (applyT m c) with
      | error e => rfl
      | ok p =>
        simp only [← apply_ite (fun x : Cell ℝ => x * Q), getParams_turn hQ]
        generalize (if p.2.1 ≤ p.2.2.1 ∨ centring = "C" then applyT 1 (applyT m c)
          else applyT !![-1, 0, 0; 0, 0, 1; 0, 1, 0] (applyT m c)) = c2
        cases getParams c2 with
        | error e => rfl
        | ok p =>
          simp only [applyT_turn]
          split_ifs <;> rfl

theorem scConventionalA_turn (hQ : Q * Q.transpose = 1) (tol : ℝ) :
    TurnsWith Q fun c => scConventionalA c tol := by
  intro c
  simp only [scConventionalA]
  rw [getReciprocal_turn hQ]
  cases getReciprocal c with
  | error e => rfl
  | ok r =>
    simp only [bind, Except.bind, Except.map, getParams_turn hQ]
    cases getParams r with
    | error e => rfl
    | ok p =>
      simp only
      cases signMatrix p.2.2.2.1 p.2.2.2.2.1 p.2.2.2.2.2 with
      | error e => rfl
      | ok m =>
        simp only [applyT_turn, getParams_turn hQ]
        cases getParams (applyT m r) with
        | error e => rfl
        | ok p =>
          simp only
          cases extremeMatrix p.2.2.2.1 p.2.2.2.2.1 p.2.2.2.2.2 tol with
          | error e => rfl
          | ok m2 =>
            simp only [getReciprocal_turn hQ]
            cases getReciprocal (applyT m r) with
            | error e => rfl
            | ok c1 =>
              simp only [Except.map, applyT_turn]
              rfl

theorem scConventionalHR_turn (hQ : Q * Q.transpose = 1) (x y : ℝ) :
    TurnsWith Q fun c => scConventionalHR c x y := by
  intro c
  simp only [scConventionalHR]
  rw [getParams_turn hQ]
  cases getParams c with
  | error e => rfl
  | ok p =>
    simp only [bind, Except.bind, applyT_turn]
    split_ifs <;> rfl

theorem scConventionalNoHR_turn (hQ : Q * Q.transpose = 1) (family centring : String) (tol : ℝ) :
    TurnsWith Q fun c => scConventionalNoHR c family centring tol := by
  intro c
  simp only [scConventionalNoHR, applyT_turn, scConventionalOPFI_turn hQ _,
    scConventionalOC_turn hQ _, scConventionalM_turn hQ centring tol c,
    scConventionalA_turn hQ tol c]
  split_ifs <;> rfl

theorem rebase_turn (hQ : Q * Q.transpose = 1) (ps : List (Vec ℝ)) (c d : Cell ℝ) :
    rebase ps (c * Q) (d * Q) = rebase ps c d := by
  unfold rebase
  rw [npInv_turn hQ]
  cases npInv d with
  | error e => rfl
  | ok i =>
    simp only [Except.map, bind, Except.bind, vecMat_turn hQ]

/-- The data of the turned crystal: cells turned, positions and everything else the same. -/
noncomputable def SpglibData.turn (Q : Cell ℝ) (d : SpglibData) : SpglibData :=
  { d with original := { d.original with cell := d.original.cell * Q },
           conventionalCell := d.conventionalCell * Q, primitiveCell := d.primitiveCell * Q }

theorem turn_family (d : SpglibData) : (d.turn Q).crystalFamily = d.crystalFamily := rfl
theorem turn_centring (d : SpglibData) : (d.turn Q).centringType = d.centringType := rfl
theorem turn_symprec (d : SpglibData) : (d.turn Q).symprec = d.symprec := rfl
theorem turn_types (d : SpglibData) : (d.turn Q).original.types = d.original.types := rfl
theorem turn_number (d : SpglibData) : (d.turn Q).spaceGroupNumber = d.spaceGroupNumber := rfl
theorem turn_angleTol (d : SpglibData) : angleTol (d.turn Q) = angleTol d := rfl

theorem conventionalParts_turn (hQ : Q * Q.transpose = 1)
    {niggli : Cell ℝ → Except Err (Cell ℝ)} (hn : TurnsWith Q niggli) (convention : String)
    (data : SpglibData) :
    conventionalParts niggli convention (data.turn Q) =
      (conventionalParts niggli convention data).map fun p => (p.1 * Q, p.2.1, p.2.2) := by
  unfold conventionalParts
  simp only [SpglibData.turn, hpkotConventionalA_turn hQ hn _]
  have ha : angleTol { data with
      original := { data.original with cell := data.original.cell * Q },
      conventionalCell := data.conventionalCell * Q,
      primitiveCell := data.primitiveCell * Q } = angleTol data := rfl
  have h1 := scConventionalHR_turn hQ (angleTol data) data.symprec data.primitiveCell
  have h2 := scConventionalNoHR_turn hQ data.crystalFamily data.centringType (angleTol data)
    data.conventionalCell
  simp only at h1 h2
  simp only [ha, h1, h2]
  split_ifs
  · cases hpkotConventionalA niggli data.conventionalCell with
    | error e => rfl
    | ok c =>
      simp only [Except.map, bind, Except.bind, rebase_turn hQ]
      cases rebase data.conventionalPositions data.conventionalCell c <;> rfl
  · rfl
  · cases scConventionalHR data.primitiveCell (angleTol data) data.symprec with
    | error e => rfl
    | ok c =>
      simp only [Except.map, bind, Except.bind, rebase_turn hQ]
      cases rebase data.primitivePositions data.primitiveCell c <;> rfl
  · cases scConventionalNoHR data.conventionalCell data.crystalFamily data.centringType
        (angleTol data) with
    | error e => rfl
    | ok c =>
      simp only [Except.map, bind, Except.bind, rebase_turn hQ]
      cases rebase data.conventionalPositions data.conventionalCell c <;> rfl
  · rfl

variable {lower : String → String} {getData : Cell ℝ → Atoms ℝ → Except Err SpglibData}
  {niggli : Cell ℝ → Except Err (Cell ℝ)}

theorem cellClose_refl (c : Cell ℝ) : cellClose c c = true := by
  simp only [cellClose, npClose, sub_self, abs_zero, decide_eq_true_eq]
  intro i j
  positivity

theorem resolve_turn (cell : Cell ℝ) (atoms : Atoms ℝ) (data : SpglibData)
    (h : data.original.cell = cell) :
    resolveData lower getData (cell * Q) atoms (some (data.turn Q)) =
      (resolveData lower getData cell atoms (some data)).map (SpglibData.turn Q) := by
  unfold resolveData
  cases validateAtoms atoms.toDict ["positions"] true with
  | error e => rfl
  | ok u =>
    simp only [bind, Except.bind]
    have e : validateSpglibData lower (cell * Q) atoms (data.turn Q).original =
        validateSpglibData lower cell atoms data.original := by
      unfold validateSpglibData
      simp only [SpglibData.turn, h, cellClose_refl]
    rw [e]
    cases validateSpglibData lower cell atoms data.original <;> rfl

theorem resolve_some {cell : Cell ℝ} {atoms : Atoms ℝ} {data d : SpglibData}
    (h : resolveData lower getData cell atoms (some data) = .ok d) : d = data := by
  unfold resolveData at h
  cases hv : validateAtoms atoms.toDict ["positions"] true with
  | error e => rw [hv] at h; cases h
  | ok u =>
    simp only [hv, bind, Except.bind] at h
    cases hw : validateSpglibData lower cell atoms data.original with
    | error e => rw [hw] at h; cases h
    | ok u => rw [hw] at h; cases h; rfl

theorem getConventional_turn (hQ : Q * Q.transpose = 1) (hn : TurnsWith Q niggli) (cell : Cell ℝ)
    (atoms : Atoms ℝ) (convention : String) (data : SpglibData) (h : data.original.cell = cell) :
    getConventional lower getData niggli (cell * Q) atoms convention (some (data.turn Q)) =
      (getConventional lower getData niggli cell atoms convention (some data)).map
        fun p => (p.1 * Q, p.2) := by
  unfold getConventional
  rw [resolve_turn cell atoms data h]
  cases hr : resolveData lower getData cell atoms (some data) with
  | error e => rfl
  | ok d =>
    obtain rfl := resolve_some hr
    simp only [Except.map, bind, Except.bind, conventionalParts_turn hQ hn]
    cases conventionalParts niggli (lower convention) d with
    | error e => rfl
    | ok p =>
      simp only [turn_types]
      cases newAtoms atoms (lastIndex d.original.types) p.2.1 p.2.2 <;> rfl

theorem primitiveParts_turn (hQ : Q * Q.transpose = 1) (hn : TurnsWith Q niggli) (cell : Cell ℝ)
    (atoms : Atoms ℝ) (convention : String) (data : SpglibData) (h : data.original.cell = cell) :
    primitiveParts lower getData niggli (cell * Q) atoms convention (data.turn Q) =
      (primitiveParts lower getData niggli cell atoms convention data).map
        fun p => (p.1 * Q, p.2.1, p.2.2) := by
  unfold primitiveParts
  split_ifs
  · rfl
  · simp only [getConventional_turn hQ hn cell atoms convention data h]
    cases getConventional lower getData niggli cell atoms convention (some data) with
    | error e => rfl
    | ok p =>
      simp only [Except.map, bind, Except.bind, turn_family, turn_centring, turn_symprec]
      cases primitiveMatrix convention (data.crystalFamily ++ data.centringType) with
      | error e => rfl
      | ok m =>
        simp only
        cases p.2.getPositions with
        | error e => rfl
        | ok ps =>
          simp only [← Matrix.mul_assoc, npInv_turn hQ]
          cases npInv (m.transpose * p.1) with
          | error e => rfl
          | ok i =>
            simp only [Except.map, vecMat_turn hQ, det_mul _ Q,
              mul_div_mul_right _ _ (det_orthogonal_ne hQ)]
            cases getUnique (ps.map fun x => vecMat (vecMat x p.1) i) (p.2.spglibTypes.getD [])
              |p.1.det / (m.transpose * p.1).det| data.symprec <;> rfl
  · rfl

theorem getPrimitive_turn (hQ : Q * Q.transpose = 1) (hn : TurnsWith Q niggli) (cell : Cell ℝ)
    (atoms : Atoms ℝ) (convention : String) (data : SpglibData) (h : data.original.cell = cell) :
    getPrimitive lower getData niggli (cell * Q) atoms convention (some (data.turn Q)) =
      (getPrimitive lower getData niggli cell atoms convention (some data)).map
        fun p => (p.1 * Q, p.2) := by
  unfold getPrimitive
  rw [resolve_turn cell atoms data h]
  cases hr : resolveData lower getData cell atoms (some data) with
  | error e => rfl
  | ok d =>
    obtain rfl := resolve_some hr
    simp only [Except.map, bind, Except.bind, primitiveParts_turn hQ hn cell atoms _ d h]
    cases primitiveParts lower getData niggli cell atoms (lower convention) d with
    | error e => rfl
    | ok p =>
      simp only [turn_types]
      cases newAtoms atoms (firstIndex d.original.types) p.2.1 p.2.2 <;> rfl

theorem triclinicSymbol_turn (hQ : Q * Q.transpose = 1) (c : Cell ℝ) :
    hpkotTriclinicSymbol (c * Q) = hpkotTriclinicSymbol c := by
  unfold hpkotTriclinicSymbol
  rw [getReciprocal_turn hQ]
  cases getReciprocal c with
  | error e => rfl
  | ok r => simp only [Except.map, bind, Except.bind, getParams_turn hQ]

theorem symbol_turn (hQ : Q * Q.transpose = 1) (hn : TurnsWith Q niggli) (cell : Cell ℝ)
    (atoms : Atoms ℝ) (data : SpglibData) (h : data.original.cell = cell) :
    hpkotGetExtendedBlSymbol lower getData niggli (cell * Q) atoms (some (data.turn Q)) =
      hpkotGetExtendedBlSymbol lower getData niggli cell atoms (some data) := by
  unfold hpkotGetExtendedBlSymbol
  rw [resolve_turn cell atoms data h]
  cases hr : resolveData lower getData cell atoms (some data) with
  | error e => rfl
  | ok d =>
    obtain rfl := resolve_some hr
    simp only [Except.map, bind, Except.bind, getConventional_turn hQ hn cell atoms _ d h]
    simp only [turn_family, turn_centring, turn_number]
    cases hpkotSimpleSymbol (d.crystalFamily ++ d.centringType) d.spaceGroupNumber with
    | some r => rfl
    | none =>
      simp only
      cases getConventional lower getData niggli cell atoms "HPKOT" (some d) with
      | error e => rfl
      | ok p =>
        simp only [getParams_turn hQ, triclinicSymbol_turn hQ]

theorem variationOf_turn (hQ : Q * Q.transpose = 1) (hn : TurnsWith Q niggli) (cell : Cell ℝ)
    (atoms : Atoms ℝ) (data : SpglibData) (h : data.original.cell = cell) (t : String)
    (conv : Cell ℝ) :
    scVariationOf lower getData niggli (cell * Q) atoms (data.turn Q) t (conv * Q) =
      scVariationOf lower getData niggli cell atoms data t conv := by
  unfold scVariationOf
  simp only [getParams_turn hQ, getPrimitive_turn hQ hn cell atoms _ data h,
    getReciprocal_turn hQ, turn_symprec, turn_angleTol, bind, Except.bind]
  cases getParams conv with
  | error e => rfl
  | ok q =>
    simp only
    split_ifs
    · rfl
    · rfl
    · rfl
    · cases getPrimitive lower getData niggli cell atoms "SC" (some data) with
      | error e => rfl
      | ok p =>
        simp only [Except.map, getReciprocal_turn hQ]
        cases getReciprocal p.1 with
        | error e => rfl
        | ok r => simp only [getParams_turn hQ]
    · cases getReciprocal conv with
      | error e => rfl
      | ok r => simp only [Except.map, getParams_turn hQ]

theorem variation_turn (hQ : Q * Q.transpose = 1) (hn : TurnsWith Q niggli) (cell : Cell ℝ)
    (atoms : Atoms ℝ) (data : SpglibData) (h : data.original.cell = cell) :
    scGetVariation lower getData niggli (cell * Q) atoms (some (data.turn Q)) =
      scGetVariation lower getData niggli cell atoms (some data) := by
  unfold scGetVariation
  rw [resolve_turn cell atoms data h]
  cases hr : resolveData lower getData cell atoms (some data) with
  | error e => rfl
  | ok d =>
    obtain rfl := resolve_some hr
    simp only [Except.map, bind, Except.bind]
    by_cases hm : d.crystalFamily ++ d.centringType ∈ ["tI", "oF", "hR", "mC", "aP"]
    · rw [if_pos hm, if_pos (show (d.turn Q).crystalFamily ++ (d.turn Q).centringType ∈
        ["tI", "oF", "hR", "mC", "aP"] from hm), getConventional_turn hQ hn cell atoms _ d h]
      cases getConventional lower getData niggli cell atoms "SC" (some d) with
      | error e => rfl
      | ok p => exact variationOf_turn hQ hn cell atoms d h _ _
    · rw [if_neg hm, if_neg (show ¬ (d.turn Q).crystalFamily ++ (d.turn Q).centringType ∈
        ["tI", "oF", "hR", "mC", "aP"] from hm)]
      rfl

theorem rawPoints_turn (hQ : Q * Q.transpose = 1) (hn : TurnsWith Q niggli) (cell : Cell ℝ)
    (atoms : Atoms ℝ) (data : SpglibData) (h : data.original.cell = cell) (conv : Cell ℝ)
    (convention : String) :
    pathAndRawPoints lower getData niggli (cell * Q) atoms (data.turn Q) (conv * Q) convention =
      pathAndRawPoints lower getData niggli cell atoms data conv convention := by
  unfold pathAndRawPoints
  have e1 : ∀ t v, scGetPoints (conv * Q) t v = scGetPoints conv t v := by
    intro t v; unfold scGetPoints; rw [getParams_turn hQ]
  have e2 : ∀ t v, hpkotGetPoints (conv * Q) t v = hpkotGetPoints conv t v := by
    intro t v; unfold hpkotGetPoints; rw [getParams_turn hQ]
  simp only [variation_turn hQ hn cell atoms data h, symbol_turn hQ hn cell atoms data h, e1, e2,
    turn_family, turn_centring]

/-- The points of the turned crystal. -/
noncomputable def turnPoints (Q : Cell ℝ) (relative : Bool) (l : PyDict String (Vec ℝ)) :
    PyDict String (Vec ℝ) :=
  if relative then l else l.map fun p => (p.1, vecMat p.2 Q)

theorem allCoordinates_turn (hQ : Q * Q.transpose = 1) (cell r : Cell ℝ) (relative : Bool)
    (l : PyDict String (Vec ℝ)) :
    allCoordinates (cell * Q) (r * Q) relative l =
      (allCoordinates cell r relative l).map (turnPoints Q relative) := by
  induction l with
  | nil => cases relative <;> rfl
  | cons p l ih =>
    obtain ⟨name, v⟩ := p
    simp only [allCoordinates, bind, Except.bind, ih]
    cases relative with
    | false =>
      simp only [pointCoordinates, Bool.false_eq_true, if_false, pure, Except.pure]
      cases allCoordinates cell r false l with
      | error e => rfl
      | ok w => simp [Except.map, turnPoints, vecMat_mul]
    | true =>
      simp only [pointCoordinates, if_true, pure, Except.pure, bind, Except.bind,
        getReciprocal_turn hQ]
      cases getReciprocal cell with
      | error e => rfl
      | ok r' =>
        simp only [Except.map, npInv_turn hQ]
        cases npInv r' with
        | error e => rfl
        | ok i =>
          simp only [vecMat_turn hQ]
          cases allCoordinates cell r true l with
          | error e => rfl
          | ok w => simp [turnPoints]

theorem setItem_map (f : Vec ℝ → Vec ℝ) (d : PyDict String (Vec ℝ)) (k : String) (v : Vec ℝ) :
    PyDict.setItem (d.map fun p => (p.1, f p.2)) k (f v) =
      (PyDict.setItem d k v).map fun p => (p.1, f p.2) := by
  induction d with
  | nil => rfl
  | cons p d ih =>
    obtain ⟨a, w⟩ := p
    simp only [List.map_cons, PyDict.setItem]
    split_ifs
    · rfl
    · rw [List.map_cons, ih]

theorem addNegated_turn (l d : PyDict String (Vec ℝ)) :
    addNegated (l.map fun p => (p.1, vecMat p.2 Q)) (d.map fun p => (p.1, vecMat p.2 Q)) =
      (addNegated l d).map fun p => (p.1, vecMat p.2 Q) := by
  induction l generalizing d with
  | nil => rfl
  | cons p l ih =>
    simp only [List.map_cons, addNegated]
    rw [← ih]
    congr 1
    split_ifs
    · rw [show -vecMat p.2 Q = vecMat (-p.2) Q by funext j; simp [vecMat]; ring]
      exact setItem_map (fun v => vecMat v Q) d _ _
    · rfl

theorem extendPath_turn (i t : Bool) (kpath : String) (relative : Bool)
    (l : PyDict String (Vec ℝ)) :
    extendPath i t kpath (turnPoints Q relative l) =
      (extendPath i t kpath l).map fun p => (p.1, turnPoints Q relative p.2) := by
  unfold extendPath
  split_ifs
  · cases getPathAsList kpath with
    | error e => rfl
    | ok e =>
      cases relative with
      | true => rfl
      | false =>
        simp only [turnPoints, Bool.false_eq_true, if_false, bind, Except.bind, Except.map, pure,
          Except.pure, addNegated_turn]
  · rfl

theorem pathAndPoints_turn (hQ : Q * Q.transpose = 1) (hn : TurnsWith Q niggli) (cell : Cell ℝ)
    (atoms : Atoms ℝ) (data : SpglibData) (h : data.original.cell = cell) (convention : String)
    (wtr relative : Bool) :
    getPathAndPoints lower getData niggli (cell * Q) atoms (some (data.turn Q)) convention wtr
      relative = (getPathAndPoints lower getData niggli cell atoms (some data) convention wtr
        relative).map fun p => (p.1, turnPoints Q relative p.2) := by
  unfold getPathAndPoints
  rw [resolve_turn cell atoms data h]
  cases hr : resolveData lower getData cell atoms (some data) with
  | error e => rfl
  | ok d =>
    obtain rfl := resolve_some hr
    simp only [Except.map, bind, Except.bind, getConventional_turn hQ hn cell atoms _ d h,
      getPrimitive_turn hQ hn cell atoms _ d h]
    cases getConventional lower getData niggli cell atoms convention (some d) with
    | error e => rfl
    | ok p =>
      simp only
      cases getPrimitive lower getData niggli cell atoms convention (some d) with
      | error e => rfl
      | ok q =>
        simp only [rawPoints_turn hQ hn cell atoms d h]
        cases pathAndRawPoints lower getData niggli cell atoms d p.1 (lower convention) with
        | error e => rfl
        | ok raw =>
          simp only [getReciprocal_turn hQ]
          cases getReciprocal q.1 with
          | error e => rfl
          | ok r =>
            simp only [Except.map, allCoordinates_turn hQ]
            cases allCoordinates cell r relative raw.2 with
            | error e => rfl
            | ok pts =>
              simp only [turn_number]
              cases inversionSymmetry.getItem d.spaceGroupNumber with
              | error e => rfl
              | ok i =>
                simp only [extendPath_turn]
                rfl

theorem kpoints_init_turn (r : Cell ℝ) (cs : List (Vec ℝ)) (ns ls : Option (List String))
    (path : Option PathArg) (n : ℤ) :
    Kpoints.init (r * Q) cs ns ls path n =
      (Kpoints.init r cs ns ls path n).map fun k => { k with rcell := k.rcell * Q } := by
  unfold Kpoints.init Kpoints.setPath
  cases initLabels cs.length ns ls with
  | error e => rfl
  | ok l =>
    simp only [bind, Except.bind]
    cases initNames cs.length ns with
    | error e => rfl
    | ok names =>
      simp only
      cases pathOfArg (path.getD (.string (pyJoin "-" names))) with
      | error e => rfl
      | ok q =>
        simp only
        cases checkPath names (pyDict (names.zip cs)) q with
        | error e => rfl
        | ok u => rfl

theorem fromCrystal_turn (hQ : Q * Q.transpose = 1) (hn : TurnsWith Q niggli) (cell : Cell ℝ)
    (atoms : Atoms ℝ) (data : SpglibData) (h : data.original.cell = cell) (convention : String)
    (wtr : Bool) (n : ℤ) :
    Kpoints.fromCrystal lower getData niggli (cell * Q) atoms convention wtr n
        (some (data.turn Q)) =
      (Kpoints.fromCrystal lower getData niggli cell atoms convention wtr n (some data)).map
        fun k => { k with rcell := k.rcell * Q } := by
  unfold Kpoints.fromCrystal
  rw [pathAndPoints_turn hQ hn cell atoms data h]
  cases getPathAndPoints lower getData niggli cell atoms (some data) convention wtr true with
  | error e => rfl
  | ok p =>
    simp only [Except.map, bind, Except.bind, turnPoints, if_true]
    cases List.mapM (fun name => hsPlotNames.getItem name) (PyDict.keys p.2) with
    | error e => rfl
    | ok labels =>
      simp only [getReciprocal_turn hQ]
      cases getReciprocal cell with
      | error e => rfl
      | ok r =>
        exact kpoints_init_turn _ _ _ _ _ _

theorem niggliInit_turn (hQ : Q * Q.transpose = 1) (c : Cell ℝ) :
    niggliInit (c * Q) = niggliInit c := by
  have h := (sameMetric_iff _ _).1 (sameMetric_mul c Q hQ)
  unfold niggliInit
  rw [h]

theorem niggliCore_turn (hQ : Q * Q.transpose = 1) (c : Cell ℝ) (eps e4 : ℝ) (m : ℤ) :
    niggliCore (c * Q) eps e4 m = (niggliCore c eps e4 m).map fun r => r * Q := by
  unfold niggliCore
  rw [niggliInit_turn hQ]
  cases niggliLoop eps e4 (m + 1).toNat (niggliInit c) with
  | error e => rfl
  | ok s => simp [Except.map, Matrix.mul_assoc]

theorem getNiggli_turn (hQ : Q * Q.transpose = 1) (sp : Cell ℝ → ℝ → Except Err (Cell ℝ)) (e : ℝ)
    (impl : String) (m : ℤ) (hs : ∀ c, sp (c * Q) e = (sp c e).map fun r => r * Q) :
    TurnsWith Q fun c => getNiggli sp c e impl m := by
  intro c
  have hd : |(c * Q).det| = |c.det| := by
    rw [det_mul, abs_mul, abs_det_orthogonal Q hQ, mul_one]
  simp only [getNiggli, hd, niggliCore_turn hQ, hs]
  split_ifs <;> rfl

end Wulfric
