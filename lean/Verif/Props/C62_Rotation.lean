import Verif.Spec.Turn
import Verif.Lemmas.Turn
import Verif.Props.C31_SpglibTypes
import Verif.Props.C50_Lepage

/-!
# C62: turning the crystal turns the results
-/

namespace Wulfric

open Matrix _root_.Spec

variable {Q : Cell ℝ} {lib : SpglibLib} {lower : String → String} {symprec angtol : ℝ}

/-- C62: the data of the turned crystal have the turned cells and are otherwise the same. -/
theorem C62_spglib_data (cell : Cell ℝ) (atoms : Atoms ℝ) (hs : SameStandard lib Q cell) :
    getSpglibData lib lower (cell * Q) atoms symprec angtol =
      (getSpglibData lib lower cell atoms symprec angtol).map fun d =>
        { d with original := { d.original with cell := d.original.cell * Q },
                 conventionalCell := d.conventionalCell * Q,
                 primitiveCell := d.primitiveCell * Q } := by
  unfold getSpglibData originalData
  cases validateAtoms atoms.toDict ["positions"] true with
  | error e => rfl
  | ok u =>
    simp only [bind, Except.bind]
    cases atoms.getPositions with
    | error e => rfl
    | ok ps =>
      simp only
      cases getSpglibTypes lower atoms with
      | error e => rfl
      | ok types =>
        simp only [pure, Except.pure, hs.dataset, hs.primitive]
        cases lib.symDataset cell ps types symprec angtol with
        | none => rfl
        | some d =>
          simp only [Option.map]
          cases crystalFamily.getItem d.number with
          | error e => rfl
          | ok f =>
            simp only
            cases centringType.getItem d.number with
            | error e => rfl
            | ok c =>
              simp only
              cases lib.findPrimitive cell ps types symprec angtol with
              | none => rfl
              | some p => simp [Except.map, Matrix.mul_assoc]

theorem spglibData_ok {cell : Cell ℝ} {atoms : Atoms ℝ} {d : SpglibData}
    (h : getSpglibData lib lower cell atoms symprec angtol = .ok d) :
    originalData lower cell atoms = .ok d.original ∧ d.original.cell = cell := by
  unfold getSpglibData at h
  cases ho : originalData lower cell atoms with
  | error e => rw [ho] at h; cases h
  | ok o =>
    simp only [ho, bind, Except.bind] at h
    split at h
    · cases h
    · split at h
      · cases h
      · split at h
        · cases h
        · split at h
          · cases h
          · cases h
            refine ⟨rfl, ?_⟩
            unfold originalData at ho
            simp only [bind, Except.bind, pure, Except.pure] at ho
            split at ho
            · cases ho
            · split at ho
              · cases ho
              · split at ho
                · cases ho
                · cases ho; rfl

/-- The two ways of resolving the data agree for both crystals. -/
theorem resolve_cases (cell : Cell ℝ) (atoms : Atoms ℝ) (hs : SameStandard lib Q cell) :
    let G := fun c a => getSpglibData lib lower c a symprec angtol
    (∃ e, resolveData lower G cell atoms none = .error e ∧
      resolveData lower G (cell * Q) atoms none = .error e) ∨
    ∃ d : SpglibData, d.original.cell = cell ∧ resolveData lower G cell atoms none = .ok d ∧
      resolveData lower G cell atoms (some d) = .ok d ∧
      resolveData lower G (cell * Q) atoms none = .ok (d.turn Q) ∧
      resolveData lower G (cell * Q) atoms (some (d.turn Q)) = .ok (d.turn Q) := by
  intro G
  have hG : G (cell * Q) atoms = (G cell atoms).map (SpglibData.turn Q) :=
    C62_spglib_data cell atoms hs
  have hres : ∀ c, resolveData lower G c atoms none =
      (validateAtoms atoms.toDict ["positions"] true).bind fun _ => G c atoms := fun c => rfl
  rw [hres, hres, hG]
  cases hv : validateAtoms atoms.toDict ["positions"] true with
  | error e => exact Or.inl ⟨e, rfl, rfl⟩
  | ok u =>
    cases hg : G cell atoms with
    | error e => exact Or.inl ⟨e, rfl, rfl⟩
    | ok d =>
      obtain ⟨ho, hc⟩ := spglibData_ok hg
      have hsome : resolveData lower G cell atoms (some d) = .ok d := by
        unfold resolveData
        simp only [hv, bind, Except.bind, C32_same lower cell atoms d.original ho]
        rfl
      refine Or.inr ⟨d, hc, rfl, hsome, rfl, ?_⟩
      rw [resolve_turn cell atoms d hc, hsome]
      rfl

section Crystal

variable {niggli : Cell ℝ → Except Err (Cell ℝ)}

/-- C62, `get_conventional` and `get_primitive`: the cells are turned, the atoms (relative positions,
names, species, types) are the same, and errors are the same. -/
theorem C62_cells (hQ : Q * Q.transpose = 1) (hn : TurnsWith Q niggli) (cell : Cell ℝ)
    (atoms : Atoms ℝ) (hs : SameStandard lib Q cell) (convention : String) :
    let G := fun c a => getSpglibData lib lower c a symprec angtol
    getConventional lower G niggli (cell * Q) atoms convention none =
      (getConventional lower G niggli cell atoms convention none).map (fun p => (p.1 * Q, p.2)) ∧
    getPrimitive lower G niggli (cell * Q) atoms convention none =
      (getPrimitive lower G niggli cell atoms convention none).map fun p => (p.1 * Q, p.2) := by
  intro G
  rcases resolve_cases (lower := lower) (symprec := symprec) (angtol := angtol) cell atoms hs with
    ⟨e, h1, h2⟩ | ⟨d, hc, h1, h2, h3, h4⟩
  · constructor
    · unfold getConventional; rw [h1, h2]; rfl
    · unfold getPrimitive; rw [h1, h2]; rfl
  · constructor
    · have a := getConventional_turn (lower := lower) (getData := G) hQ hn cell atoms convention d hc
      unfold getConventional at a ⊢
      rw [h1, h3]; rw [h2, h4] at a; exact a
    · have a := getPrimitive_turn (lower := lower) (getData := G) hQ hn cell atoms convention d hc
      unfold getPrimitive at a ⊢
      rw [h1, h3]; rw [h2, h4] at a; exact a

/-- C62: the extended Bravais lattice symbol and the variation do not change. -/
theorem C62_symbols (hQ : Q * Q.transpose = 1) (hn : TurnsWith Q niggli) (cell : Cell ℝ)
    (atoms : Atoms ℝ) (hs : SameStandard lib Q cell) :
    let G := fun c a => getSpglibData lib lower c a symprec angtol
    hpkotGetExtendedBlSymbol lower G niggli (cell * Q) atoms none =
      hpkotGetExtendedBlSymbol lower G niggli cell atoms none ∧
    scGetVariation lower G niggli (cell * Q) atoms none =
      scGetVariation lower G niggli cell atoms none := by
  intro G
  rcases resolve_cases (lower := lower) (symprec := symprec) (angtol := angtol) cell atoms hs with
    ⟨e, h1, h2⟩ | ⟨d, hc, h1, h2, h3, h4⟩
  · constructor
    · unfold hpkotGetExtendedBlSymbol; rw [h1, h2]; rfl
    · unfold scGetVariation; rw [h1, h2]; rfl
  · constructor
    · have a := symbol_turn (lower := lower) (getData := G) hQ hn cell atoms d hc
      unfold hpkotGetExtendedBlSymbol at a ⊢
      rw [h1, h3]; rw [h2, h4] at a; exact a
    · have a := variation_turn (lower := lower) (getData := G) hQ hn cell atoms d hc
      unfold scGetVariation at a ⊢
      rw [h1, h3]; rw [h2, h4] at a; exact a

/-- C62, `get_path_and_points`: the path and the names are the same; absolute coordinates are
turned, relative ones are the same. -/
theorem C62_path_and_points (hQ : Q * Q.transpose = 1) (hn : TurnsWith Q niggli) (cell : Cell ℝ)
    (atoms : Atoms ℝ) (hs : SameStandard lib Q cell) (convention : String)
    (withTimeReversal relative : Bool) :
    let G := fun c a => getSpglibData lib lower c a symprec angtol
    getPathAndPoints lower G niggli (cell * Q) atoms none convention withTimeReversal relative =
      (getPathAndPoints lower G niggli cell atoms none convention withTimeReversal relative).map
        fun p => (p.1, if relative then p.2 else p.2.map fun x => (x.1, vecMat x.2 Q)) := by
  intro G
  rcases resolve_cases (lower := lower) (symprec := symprec) (angtol := angtol) cell atoms hs with
    ⟨e, h1, h2⟩ | ⟨d, hc, h1, h2, h3, h4⟩
  · unfold getPathAndPoints; rw [h1, h2]; rfl
  · have a := pathAndPoints_turn (lower := lower) (getData := G) hQ hn cell atoms d hc convention
      withTimeReversal relative
    unfold getPathAndPoints at a ⊢
    rw [h1, h3]; rw [h2, h4] at a; exact a

/-- C62, `Kpoints.from_crystal`: the reciprocal cell is turned, all else is the same. -/
theorem C62_kpoints (hQ : Q * Q.transpose = 1) (hn : TurnsWith Q niggli) (cell : Cell ℝ)
    (atoms : Atoms ℝ) (hs : SameStandard lib Q cell) (convention : String)
    (withTimeReversal : Bool) (n : ℤ) :
    let G := fun c a => getSpglibData lib lower c a symprec angtol
    Kpoints.fromCrystal lower G niggli (cell * Q) atoms convention withTimeReversal n none =
      (Kpoints.fromCrystal lower G niggli cell atoms convention withTimeReversal n none).map
        fun k => { k with rcell := k.rcell * Q } := by
  intro G
  rcases resolve_cases (lower := lower) (symprec := symprec) (angtol := angtol) cell atoms hs with
    ⟨e, h1, h2⟩ | ⟨d, hc, h1, h2, h3, h4⟩
  · unfold Kpoints.fromCrystal getPathAndPoints; rw [h1, h2]; rfl
  · have a := fromCrystal_turn (lower := lower) (getData := G) hQ hn cell atoms d hc convention
      withTimeReversal n
    unfold Kpoints.fromCrystal getPathAndPoints at a ⊢
    rw [h1, h3]; rw [h2, h4] at a; exact a

end Crystal

/-- C62, `get_niggli`, its own implementation: the result is turned, for every cell, tolerance and
limit; in particular `TurnsWith` holds for it. With spglib's implementation the same follows if
`niggli_reduce` does it. -/
theorem C62_niggli (hQ : Q * Q.transpose = 1) (sp : Cell ℝ → ℝ → Except Err (Cell ℝ)) (e : ℝ)
    (impl : String) (m : ℤ)
    (hs : lowerStr impl = "spglib" → ∀ c, sp (c * Q) e = (sp c e).map fun r => r * Q)
    (cell : Cell ℝ) :
    getNiggli sp (cell * Q) e impl m = (getNiggli sp cell e impl m).map fun r => r * Q := by
  by_cases h : lowerStr impl = "spglib"
  · exact getNiggli_turn hQ sp e impl m (hs h) cell
  · have := getNiggli_turn hQ (fun _ _ => .error .valueError) e impl m (fun _ => rfl) cell
    simp only [getNiggli, h, if_false] at this ⊢
    exact this

/-- C62, `lepage`: the list of types does not change, with and without the Niggli reduction, for
cells that are not degenerate. -/
theorem C62_lepage (hQ : Q * Q.transpose = 1) {niggli : Cell ℝ → Except Err (Cell ℝ)}
    (hn : TurnsWith Q niggli) (cell : Cell ℝ) (hd : cell.det ≠ 0)
    (hnd : ∀ r, niggli cell = .ok r → r.det ≠ 0) (fuel : ℕ) (tol limit : ℝ) (noNiggli : Bool) :
    lepage niggli fuel (cell * Q) tol noNiggli limit =
      lepage niggli fuel cell tol noNiggli limit := by
  have key : ∀ c : Cell ℝ, c.det ≠ 0 → ∀ n1 n2 : Cell ℝ → Except Err (Cell ℝ), ∀ d1 d2 b1 b2,
      lepageCell n1 d1 b1 = .ok (c * Q) → lepageCell n2 d2 b2 = .ok c →
      lepage n1 fuel d1 tol b1 limit = lepage n2 fuel d2 tol b2 limit := by
    intro c hc n1 n2 d1 d2 b1 b2 h1 h2
    have := C50_rotation niggli fuel c Q hQ tol limit hc
    unfold lepage at this ⊢
    rw [h1, h2]
    unfold lepageCell at this
    simp only [if_true] at this
    exact this
  have e := hn cell
  cases noNiggli with
  | true => exact C50_rotation niggli fuel cell Q hQ tol limit hd
  | false =>
    cases hr : niggli cell with
    | ok r =>
      rw [hr] at e
      refine key r (hnd r hr) _ _ _ _ _ _ ?_ ?_
      · unfold lepageCell; rw [e]; rfl
      · unfold lepageCell; rw [hr]; rfl
    | error x =>
      rw [hr] at e
      by_cases hx : x = .niggliReductionFailed
      · subst hx
        refine key cell hd _ _ _ _ _ _ ?_ ?_
        · unfold lepageCell; rw [e]; rfl
        · unfold lepageCell; rw [hr]; rfl
      · unfold lepage lepageCell
        rw [e, hr]
        cases x <;> first | exact absurd rfl hx | rfl

/-- Non-vacuity: a library that standardises every input to a simple cubic crystal with the
rotation matrix given by the input; all hypotheses hold, for each rotation. -/
noncomputable def cubicLib : SpglibLib where
  symDataset c _ _ _ _ := some ⟨221, 1, c, [0], [1]⟩
  findPrimitive _ _ _ _ _ := some (1, [0], [1])

example (Q cell : Cell ℝ) : SameStandard cubicLib Q cell :=
  ⟨fun _ _ _ _ => rfl, fun _ _ _ _ => rfl⟩

example (hQ : Q * Q.transpose = 1) :
    TurnsWith Q fun c => getNiggli (fun _ _ => .error .valueError) c (1 / 10 ^ 5) "wulfric" 10000 :=
  C62_niggli hQ _ _ _ _ (fun h => absurd h (by decide +kernel))

/-- and the calls succeed. -/
example (Q : Cell ℝ) :
    (getSpglibData cubicLib lower Q { positions := some [0], spglibTypes := some [1] } symprec
      angtol).map (fun d => (d.crystalFamily, d.centringType, d.conventionalCell)) =
      .ok ("c", "P", 1 * Q) := by
  have h1 : validateAtoms (({ positions := some [0], spglibTypes := some [1] } :
      Atoms ℝ).toDict) ["positions"] true = .ok true := by decide +kernel
  have h2 : getSpglibTypes lower ({ positions := some [0], spglibTypes := some [1] } : Atoms ℝ) =
      .ok [1] := by rfl
  have h3 : crystalFamily.getItem 221 = .ok "c" := by decide +kernel
  have h4 : centringType.getItem 221 = .ok "P" := by decide +kernel
  unfold getSpglibData originalData
  simp only [h1, h2, bind, Except.bind, Atoms.getPositions, pure, Except.pure, cubicLib, h3, h4,
    Except.map]

end Wulfric
