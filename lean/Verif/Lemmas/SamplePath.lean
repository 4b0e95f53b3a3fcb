import Verif.Lemmas.Samples
import Verif.Model.PathPoints

/-! # A sample crystal with a path -/

namespace Wulfric
open Matrix _root_.Spec Wulfric.Spec

variable (lower : String → String) (getData : Cell ℝ → Atoms ℝ → Except Err SpglibData)
  (niggli : Cell ℝ → Except Err (Cell ℝ)) (x y z : ℝ) (n : ℤ)

theorem box_primitive (hl : lower "HPKOT" = "hpkot") (hl' : lower "hpkot" = "hpkot")
    (hd : x * y * z ≠ 0) :
    ∃ a, getPrimitive lower getData niggli !![x, 0, 0; 0, y, 0; 0, 0, z] boxAtoms "HPKOT"
      (some (boxData x y z n "o" "P")) = .ok (!![x, 0, 0; 0, y, 0; 0, 0, z], a) := by
  set cell : Cell ℝ := !![x, 0, 0; 0, y, 0; 0, 0, z] with hcell
  have hr := box_resolve lower getData x y z n "o" "P"
  rw [← hcell] at hr
  obtain ⟨a, ha⟩ : ∃ a, newAtoms boxAtoms (lastIndex (boxData x y z n "o" "P").original.types)
      [0] [1] = .ok a ∧ a.positions = some [0] ∧ a.spglibTypes = some [1] := ⟨_, rfl, rfl, rfl⟩
  have hg : getConventional lower getData niggli cell boxAtoms "hpkot"
      (some (boxData x y z n "o" "P")) = .ok (cell, a) := by
    unfold getConventional
    rw [hr]
    have : conventionalParts niggli (lower "hpkot") (boxData x y z n "o" "P") =
        .ok (cell, [0], [1]) := by
      rw [hl']
      unfold conventionalParts
      rw [if_pos (by decide), if_neg (by simp [boxData])]
      rfl
    simp only [this, bind, Except.bind, ha.1, pure, Except.pure]
  have hm : primitiveMatrix "hpkot" ("o" ++ "P") = .ok (1 : Cell ℝ) := by
    unfold primitiveMatrix
    rw [if_pos rfl, one_fin_three]
    rfl
  have hdet : cell.det ≠ 0 := by simpa [hcell, det_fin_three] using hd
  have hi : npInv cell = .ok cell⁻¹ := by simp [npInv, hdet]
  obtain ⟨ps, ts, hu⟩ := C35_defined ([0] : List (Vec ℝ)) [1] 1 (1 / 10 ^ 5) (by simp) rfl (by
    intro p hp
    rw [twins_iff]
    simp only [List.map_cons, List.map_nil, List.mem_singleton] at hp ⊢
    subst hp
    simp [nEquiv, sameAtom])
  have hpp : primitiveParts lower getData niggli cell boxAtoms "hpkot"
      (boxData x y z n "o" "P") = .ok (cell, ps, ts) := by
    unfold primitiveParts
    rw [if_neg (by decide), if_pos (by decide), hg]
    have h0 : vecMat (vecMat (0 : Vec ℝ) cell) cell⁻¹ = 0 := by
      ext j; simp [vecMat]
    have hone : |cell.det / cell.det| = ((1 : ℕ) : ℝ) := by rw [div_self hdet]; norm_num
    simp only [bind, Except.bind, pure, Except.pure, boxData, hm, transpose_one, one_mul,
      Atoms.getPositions, ha.2.1, hi, ha.2.2, List.map_cons, List.map_nil, h0, hone,
      Option.getD_some, hu]
  have hts : ∀ t ∈ ts, t ∈ (boxData x y z n "o" "P").original.types := by
    obtain ⟨qs, kept, -, -, h3, -, h5, -⟩ := C35_kept _ _ _ _ _ _ hu
    intro t ht
    rw [h5, List.mem_map] at ht
    obtain ⟨i, hi1, rfl⟩ := ht
    have : i = 0 := by have := h3 i hi1; simpa using this
    subst this
    simp [boxData]
  obtain ⟨b, hb⟩ := newAtoms_defined (atoms := boxAtoms) (ps := ps) (ts := ts)
    (mapping := firstIndex (boxData x y z n "o" "P").original.types) (n := 1) (by
      intro t ht
      have := hts t ht
      simp only [boxData, List.mem_singleton] at this
      subst this
      exact ⟨0, by omega, rfl⟩) (by intro l hl; cases hl) (by intro l hl; cases hl)
      (by intro l hl; cases hl; rfl)
  refine ⟨b, ?_⟩
  unfold getPrimitive
  rw [hr]
  simp only [bind, Except.bind, pure, Except.pure, hl, hpp, hb]

end Wulfric
