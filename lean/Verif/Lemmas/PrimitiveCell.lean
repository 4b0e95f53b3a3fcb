import Verif.Lemmas.DirectTri
import Verif.Props.C55_BrillouinZone

/-! # The primitive cell: the steps of the package that lead to it -/

namespace Wulfric

open Matrix _root_.Spec Wulfric.Spec

section
variable (lower : String → String) (getData : Cell ℝ → Atoms ℝ → Except Err SpglibData)
  (niggli : Cell ℝ → Except Err (Cell ℝ)) (cell : Cell ℝ) (atoms : Atoms ℝ)
  (data : SpglibData)
  (hn : 1 ≤ data.spaceGroupNumber ∧ data.spaceGroupNumber ≤ 230)
  (hf : data.crystalFamily = family data.spaceGroupNumber)
  (hc : data.centringType = centring data.spaceGroupNumber) (convention : String)

include hn hf hc

/-- HPKOT: the cell of the triclinic procedure, or the matrix of the table times spglib's cell. -/
theorem hpkot_primitive_cell (hl' : lower "hpkot" = "hpkot") (hconv : lower convention = "hpkot")
    (prim : Cell ℝ) (pa : Atoms ℝ)
    (hprim : getPrimitive lower getData niggli cell atoms convention (some data) = .ok (prim, pa)) :
    prim.det ≠ 0 ∧
    ((family data.spaceGroupNumber = "a" ∧
        hpkotConventionalA niggli data.conventionalCell = .ok prim) ∨
      (family data.spaceGroupNumber ++ centring data.spaceGroupNumber ≠ "aP" ∧
        ∃ matrix, (hpkotConventionalToPrimitive ℝ).get?
          (family data.spaceGroupNumber ++ centring data.spaceGroupNumber) = some matrix ∧
          prim = matrix.transpose * data.conventionalCell)) := by
  obtain ⟨dd, ps, ts, g1, g2, -⟩ := getPrimitive_steps hprim
  obtain rfl := resolve_self g1
  obtain ⟨-, conv, ca, matrix, qs, ws, m1, m2, -, m3, -, m5, -⟩ :=
    primitiveParts_steps (by rw [hconv]; decide) g2
  refine ⟨(rebase_points m5).1, ?_⟩
  have s4 := m2 hconv
  rw [hf, hc] at s4
  obtain ⟨d2, qs', ts', k1, k2, -⟩ := getConventional_steps m1
  obtain rfl := resolve_given (.inl rfl) k1
  rw [hconv, hl'] at k2
  unfold conventionalParts at k2
  rw [if_pos (by decide)] at k2
  by_cases haP : family d2.spaceGroupNumber ++ centring d2.spaceGroupNumber = "aP"
  · have hfa := triclinic_groups _ (Finset.mem_Icc.2 hn) haP
    rw [if_pos ⟨rfl, hf.trans hfa⟩] at k2
    cases g3 : hpkotConventionalA niggli d2.conventionalCell with
    | error e => rw [g3] at k2; cases k2
    | ok d =>
      simp only [g3, bind, Except.bind, pure, Except.pure] at k2
      cases g4 : rebase d2.conventionalPositions d2.conventionalCell d with
      | error e => rw [g4] at k2; cases k2
      | ok ps' =>
        rw [g4] at k2
        cases k2
        rw [haP] at s4
        obtain rfl : !![1, 0, 0; 0, 1, 0; 0, 0, 1] = matrix := Option.some.inj s4
        rw [one_literal, transpose_one, one_mul] at m3
        subst m3
        exact .inl ⟨hfa, rfl⟩
  · have hfa : family d2.spaceGroupNumber ≠ "a" := fun e => haP (family_a _ (Finset.mem_Icc.2 hn) e)
    rw [if_neg (fun e => hfa (hf.symm.trans e.2))] at k2
    cases k2
    exact .inr ⟨haP, matrix, s4, m3⟩

/-- SC: the cell of the triclinic procedure, or the matrix of the table times the conventional
cell. -/
theorem sc_primitive_cell (hl' : lower "sc" = "sc") (hconv : lower convention = "sc")
    (prim conv : Cell ℝ) (pa ca : Atoms ℝ)
    (hprim : getPrimitive lower getData niggli cell atoms convention (some data) = .ok (prim, pa))
    (hcv : getConventional lower getData niggli cell atoms convention (some data) =
      .ok (conv, ca)) :
    prim.det ≠ 0 ∧
    ((family data.spaceGroupNumber = "a" ∧
        scConventionalA data.conventionalCell (angleTol data) = .ok prim) ∨
      (family data.spaceGroupNumber ++ centring data.spaceGroupNumber ≠ "aP" ∧
        ∃ matrix, (scConventionalToPrimitive ℝ).get?
          (family data.spaceGroupNumber ++ centring data.spaceGroupNumber) = some matrix ∧
          prim = matrix.transpose * conv)) := by
  obtain ⟨dd, ps, ts, g1, g2, -⟩ := getPrimitive_steps hprim
  obtain rfl := resolve_self g1
  obtain ⟨-, conv', ca', matrix, qs, ws, m1, -, m2, m3, -, m5, -⟩ :=
    primitiveParts_steps (by rw [hconv]; decide) g2
  have m4 : getConventional lower getData niggli cell atoms (lower convention) (some dd) =
      getConventional lower getData niggli cell atoms convention (some dd) :=
    getConventional_lower (by rw [hconv, hl'])
  rw [m4, hcv] at m1
  cases m1
  refine ⟨(rebase_points m5).1, ?_⟩
  have s4 := m2 hconv
  rw [hf, hc] at s4
  by_cases haP : family dd.spaceGroupNumber ++ centring dd.spaceGroupNumber = "aP"
  · have hfa := triclinic_groups _ (Finset.mem_Icc.2 hn) haP
    rw [haP] at s4
    obtain rfl : !![1, 0, 0; 0, 1, 0; 0, 0, 1] = matrix := Option.some.inj s4
    rw [one_literal, transpose_one, one_mul] at m3
    subst m3
    obtain ⟨d2, ps', ts', k1, k2, -⟩ := getConventional_steps hcv
    obtain rfl := resolve_given (.inl rfl) k1
    rw [hconv] at k2
    unfold conventionalParts at k2
    rw [if_neg (by decide), if_pos rfl, if_neg (fun e => absurd (hfa.symm.trans (hf.symm.trans e.1))
      (by decide))] at k2
    cases g3 : scConventionalNoHR d2.conventionalCell d2.crystalFamily d2.centringType
        (angleTol d2) with
    | error e => rw [g3] at k2; cases k2
    | ok d =>
      simp only [g3, bind, Except.bind, pure, Except.pure] at k2
      cases g4 : rebase d2.conventionalPositions d2.conventionalCell d with
      | error e => rw [g4] at k2; cases k2
      | ok ps' =>
        rw [g4] at k2
        cases k2
        rw [hf, hfa] at g3
        exact .inl ⟨hfa, by simpa [scConventionalNoHR] using g3⟩
  · exact .inr ⟨haP, matrix, s4, m3⟩

end

end Wulfric
