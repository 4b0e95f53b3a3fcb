import Verif.Lemmas.LepageNiggli

/-! # The Le Page algorithm on the Niggli forms of the tetragonal lattices -/

namespace Wulfric

open Matrix _root_.Spec

section

variable {niggli : Cell ℝ → Except Err (Cell ℝ)} {tol limit : ℝ} (h0 : tol ≠ 0) (h1 : |tol| ≤ 1)
  (hl0 : 0 < limit) (hl90 : limit ≤ 90) {e : Cell ℝ} {l : Fin 3 → ℝ} (hb : Box e l)

include h0 h1 hl0 hl90 hb

omit h0 h1 hl0 hl90 hb in
theorem sort_TET1 {α : Type*} {le : α → α → Bool} {a b c d : α}
    (h01 : le a b = true) (h23 : le c d = false) (h03 : le a d = true) (h13 : le b d = false) (h12 : le b c = true) :
    [a, b, c, d].mergeSort le = [a, d, b, c] := by
  simp [List.mergeSort, List.MergeSort.Internal.splitInTwo, h01, h23, h03, h13, h12]

theorem form_TET1 (he : l 0 = l 1) (hno : LatticeNoPseudo (halfCell matP e) limit)
    (hax : AxesAlong (halfCell matP e) (boxAxes true e)) (fuel : ℕ) :
    lepage niggli (fuel + 1) (halfCell matTET1 e) tol true limit = some (.ok ["TET"]) := by
  refine tet_form h0 h1 hl0 hl90 hb (n := !![1, 0, 0; 0, 1, 0; 0, 0, 1])
    (M := !![1, 0, 0; 0, 1, 0; 0, 0, 1]) (by decide +kernel) (Or.inl (by decide +kernel))
    (by decide +kernel) he hno hax
    (axes := [![0, 0, 2], ![0, 2, 0], ![1, -1, 0], ![1, 1, 0], ![2, 0, 0]]) (by decide +kernel) (by decide +kernel) rfl
    (by decide +kernel) (z := [![0, 0, 1]])
    (good := [![0, 1, 0], ![1, -1, 0], ![1, 1, 0], ![1, 0, 0]])
    (xy := [![0, 1, 0], ![1, 0, 0], ![1, -1, 0], ![1, 1, 0]])
    (by decide +kernel) (by decide +kernel) ?_ rfl (d := 1) (by simp [absDet, det_fin_three]) rfl fuel
  apply sort_TET1
  all_goals rw [norm_le (c := halfCell matTET1 e) (m := matTET1) hb.pos he (half_gram hb _) (by decide +kernel) (by decide +kernel)]
  all_goals decide +kernel

omit h0 h1 hl0 hl90 hb in
theorem sort_TET2 {α : Type*} {le : α → α → Bool} {a b c d : α}
    (h01 : le a b = true) (h23 : le c d = false) (h03 : le a d = true) (h13 : le b d = false) (h12 : le b c = true) :
    [a, b, c, d].mergeSort le = [a, d, b, c] := by
  simp [List.mergeSort, List.MergeSort.Internal.splitInTwo, h01, h23, h03, h13, h12]

theorem form_TET2 (he : l 0 = l 1) (hno : LatticeNoPseudo (halfCell matP e) limit)
    (hax : AxesAlong (halfCell matP e) (boxAxes true e)) (fuel : ℕ) :
    lepage niggli (fuel + 1) (halfCell matTET2 e) tol true limit = some (.ok ["TET"]) := by
  refine tet_form h0 h1 hl0 hl90 hb (n := !![0, 1, 0; 0, 0, 1; 1, 0, 0])
    (M := !![0, 0, 1; 1, 0, 0; 0, 1, 0]) (by decide +kernel) (Or.inl (by decide +kernel))
    (by decide +kernel) he hno hax
    (axes := [![0, 0, 2], ![0, 1, -1], ![0, 1, 1], ![0, 2, 0], ![2, 0, 0]]) (by decide +kernel) (by decide +kernel) rfl
    (by decide +kernel) (z := [![1, 0, 0]])
    (good := [![0, 0, 1], ![0, 1, -1], ![0, 1, 1], ![0, 1, 0]])
    (xy := [![0, 0, 1], ![0, 1, 0], ![0, 1, -1], ![0, 1, 1]])
    (by decide +kernel) (by decide +kernel) ?_ rfl (d := 1) (by simp [absDet, det_fin_three]) rfl fuel
  apply sort_TET2
  all_goals rw [norm_le (c := halfCell matTET2 e) (m := matTET2) hb.pos he (half_gram hb _) (by decide +kernel) (by decide +kernel)]
  all_goals decide +kernel

omit h0 h1 hl0 hl90 hb in
theorem sort_BCT1 {α : Type*} {le : α → α → Bool} {a b c d : α}
    (h01 : le a b = true) (h23 : le c d = true) (h02 : le a c = true) (h12 : le b c = false) (h13 : le b d = true) :
    [a, b, c, d].mergeSort le = [a, c, b, d] := by
  simp [List.mergeSort, List.MergeSort.Internal.splitInTwo, h01, h23, h02, h12, h13]

theorem form_BCT1 (he : l 0 = l 1) (hno : LatticeNoPseudo (halfCell matI e) limit)
    (hax : AxesAlong (halfCell matI e) (boxAxes true e)) (fuel : ℕ) :
    lepage niggli (fuel + 1) (halfCell matBCT1 e) tol true limit = some (.ok ["BCT"]) := by
  refine tet_form h0 h1 hl0 hl90 hb (n := !![-1, 1, 1; 0, 1, -1; 1, 0, 0])
    (M := !![1, 1, 0; 1, 1, 1; 0, 1, 0]) (by decide +kernel) (Or.inr (by decide +kernel))
    (by decide +kernel) he hno hax
    (axes := [![0, 1, -1], ![1, -2, 0], ![1, -1, -1], ![1, 0, -2], ![1, 0, 0]]) (by decide +kernel) (by decide +kernel) rfl
    (by decide +kernel) (z := [![1, 0, 0]])
    (good := [![0, 1, -1], ![1, -2, 0], ![1, -1, -1], ![1, 0, -2]])
    (xy := [![0, 1, -1], ![1, -1, -1], ![1, -2, 0], ![1, 0, -2]])
    (by decide +kernel) (by decide +kernel) ?_ rfl (d := 2) (by simp [absDet, det_fin_three]) rfl fuel
  apply sort_BCT1
  all_goals rw [norm_le (c := halfCell matBCT1 e) (m := matBCT1) hb.pos he (half_gram hb _) (by decide +kernel) (by decide +kernel)]
  all_goals decide +kernel

omit h0 h1 hl0 hl90 hb in
theorem sort_BCT2 {α : Type*} {le : α → α → Bool} {a b c d : α}
    (h01 : le a b = true) (h23 : le c d = true) (h02 : le a c = true) (h12 : le b c = false) (h13 : le b d = true) :
    [a, b, c, d].mergeSort le = [a, c, b, d] := by
  simp [List.mergeSort, List.MergeSort.Internal.splitInTwo, h01, h23, h02, h12, h13]

theorem form_BCT2 (he : l 0 = l 1) (hno : LatticeNoPseudo (halfCell matI e) limit)
    (hax : AxesAlong (halfCell matI e) (boxAxes true e)) (fuel : ℕ) :
    lepage niggli (fuel + 1) (halfCell matBCT2 e) tol true limit = some (.ok ["BCT"]) := by
  refine tet_form h0 h1 hl0 hl90 hb (n := !![1, 0, 0; 0, 1, 0; 1, 1, 2])
    (M := !![0, 1, 1; 1, 0, 1; 0, 0, -1]) (by decide +kernel) (Or.inl (by decide +kernel))
    (by decide +kernel) he hno hax
    (axes := [![0, 1, 0], ![1, -1, 0], ![1, 0, 0], ![1, 1, 0], ![1, 1, 2]]) (by decide +kernel) (by decide +kernel) rfl
    (by decide +kernel) (z := [![1, 1, 2]])
    (good := [![0, 1, 0], ![1, -1, 0], ![1, 0, 0], ![1, 1, 0]])
    (xy := [![0, 1, 0], ![1, 0, 0], ![1, -1, 0], ![1, 1, 0]])
    (by decide +kernel) (by decide +kernel) ?_ rfl (d := 2) (by simp [absDet, det_fin_three]) rfl fuel
  apply sort_BCT2
  all_goals rw [norm_le (c := halfCell matBCT2 e) (m := matBCT2) hb.pos he (half_gram hb _) (by decide +kernel) (by decide +kernel)]
  all_goals decide +kernel

omit h0 h1 hl0 hl90 hb in
theorem sort_BCT3 {α : Type*} {le : α → α → Bool} {a b c d : α}
    (h01 : le a b = true) (h23 : le c d = true) (h02 : le a c = true) (h12 : le b c = false) (h13 : le b d = true) :
    [a, b, c, d].mergeSort le = [a, c, b, d] := by
  simp [List.mergeSort, List.MergeSort.Internal.splitInTwo, h01, h23, h02, h12, h13]

theorem form_BCT3 (he : l 0 = l 1) (hno : LatticeNoPseudo (halfCell matI e) limit)
    (hax : AxesAlong (halfCell matI e) (boxAxes true e)) (fuel : ℕ) :
    lepage niggli (fuel + 1) (halfCell matBCT3 e) tol true limit = some (.ok ["BCT"]) := by
  refine tet_form h0 h1 hl0 hl90 hb (n := !![1, 0, 1; 0, 1, 1; 1, 1, 0])
    (M := !![0, 1, 0; 1, 0, 0; 0, 0, 1]) (by decide +kernel) (Or.inr (by decide +kernel))
    (by decide +kernel) he hno hax
    (axes := [![0, 1, 1], ![1, -1, 0], ![1, 0, 1], ![1, 1, 0], ![1, 1, 2]]) (by decide +kernel) (by decide +kernel) rfl
    (by decide +kernel) (z := [![1, 1, 0]])
    (good := [![0, 1, 1], ![1, -1, 0], ![1, 0, 1], ![1, 1, 2]])
    (xy := [![0, 1, 1], ![1, 0, 1], ![1, -1, 0], ![1, 1, 2]])
    (by decide +kernel) (by decide +kernel) ?_ rfl (d := 2) (by simp [absDet, det_fin_three]) rfl fuel
  apply sort_BCT3
  all_goals rw [norm_le (c := halfCell matBCT3 e) (m := matBCT3) hb.pos he (half_gram hb _) (by decide +kernel) (by decide +kernel)]
  all_goals decide +kernel

omit h0 h1 hl0 hl90 hb in
theorem sort_BCT4 {α : Type*} {le : α → α → Bool} {a b c d : α}
    (h01 : le a b = false) (h23 : le c d = true) (h12 : le b c = true) (h02 : le a c = false) (h03 : le a d = true) :
    [a, b, c, d].mergeSort le = [b, c, a, d] := by
  simp [List.mergeSort, List.MergeSort.Internal.splitInTwo, h01, h23, h12, h02, h03]

theorem form_BCT4 (he : l 0 = l 1) (hno : LatticeNoPseudo (halfCell matI e) limit)
    (hax : AxesAlong (halfCell matI e) (boxAxes true e)) (fuel : ℕ) :
    lepage niggli (fuel + 1) (halfCell matBCT4 e) tol true limit = some (.ok ["BCT"]) := by
  refine tet_form h0 h1 hl0 hl90 hb (n := !![1, 1, 0; 1, 0, 1; 0, 1, 1])
    (M := !![0, 0, 1; 0, 1, 0; 1, 0, 0]) (by decide +kernel) (Or.inr (by decide +kernel))
    (by decide +kernel) he hno hax
    (axes := [![0, 1, -1], ![0, 1, 1], ![1, 0, 1], ![1, 1, 0], ![2, 1, 1]]) (by decide +kernel) (by decide +kernel) rfl
    (by decide +kernel) (z := [![0, 1, 1]])
    (good := [![0, 1, -1], ![1, 0, 1], ![1, 1, 0], ![2, 1, 1]])
    (xy := [![1, 0, 1], ![1, 1, 0], ![0, 1, -1], ![2, 1, 1]])
    (by decide +kernel) (by decide +kernel) ?_ rfl (d := 2) (by simp [absDet, det_fin_three]) rfl fuel
  apply sort_BCT4
  all_goals rw [norm_le (c := halfCell matBCT4 e) (m := matBCT4) hb.pos he (half_gram hb _) (by decide +kernel) (by decide +kernel)]
  all_goals decide +kernel

end

end Wulfric
