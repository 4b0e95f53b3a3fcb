import Verif.Lemmas.LepageNiggli

/-! # The Le Page algorithm on the Niggli forms of the ORCC lattices -/

namespace Wulfric

open Matrix _root_.Spec

section

variable {niggli : Cell ℝ → Except Err (Cell ℝ)} {tol limit : ℝ} (h0 : tol ≠ 0) (h1 : |tol| ≤ 1)
  (hl0 : 0 < limit) (hl90 : limit ≤ 90) {e : Cell ℝ} {l : Fin 3 → ℝ} (hb : Box e l)

include h0 h1 hl0 hl90 hb

theorem form_ORCC1 (hno : LatticeNoPseudo (halfCell matC e) limit)
    (hax : AxesAlong (halfCell matC e) (boxAxes false e)) (fuel : ℕ) :
    lepage niggli (fuel + 1) (halfCell matORCC1 e) tol true limit = some (.ok ["ORCC"]) :=
  orc_form h0 h1 hl0 hl90 hb (n := !![1, 1, 0; 1, -1, 0; 0, 0, 1])
    (M := !![0, 1, 0; 1, 0, 0; 0, 0, 1]) (by decide +kernel) (Or.inr (by decide +kernel))
    (by decide +kernel) hno hax
    (axes := [![0, 0, 2], ![1, -1, 0], ![1, 1, 0]]) (by decide +kernel) (by decide +kernel) rfl
    (by decide +kernel) (ax := [![0, 0, 1], ![1, -1, 0], ![1, 1, 0]]) (by decide +kernel)
    (d := 2) (by simp [absDet, det_fin_three]) (by decide +kernel) fuel

theorem form_ORCC2 (hno : LatticeNoPseudo (halfCell matC e) limit)
    (hax : AxesAlong (halfCell matC e) (boxAxes false e)) (fuel : ℕ) :
    lepage niggli (fuel + 1) (halfCell matORCC2 e) tol true limit = some (.ok ["ORCC"]) :=
  orc_form h0 h1 hl0 hl90 hb (n := !![0, 1, 1; 0, 1, -1; 1, 0, 0])
    (M := !![0, 0, 1; 0, 1, 0; 1, 0, 0]) (by decide +kernel) (Or.inr (by decide +kernel))
    (by decide +kernel) hno hax
    (axes := [![0, 1, -1], ![0, 1, 1], ![2, 0, 0]]) (by decide +kernel) (by decide +kernel) rfl
    (by decide +kernel) (ax := [![0, 1, -1], ![0, 1, 1], ![1, 0, 0]]) (by decide +kernel)
    (d := 2) (by simp [absDet, det_fin_three]) (by decide +kernel) fuel

theorem form_ORCC3 (hno : LatticeNoPseudo (halfCell matC e) limit)
    (hax : AxesAlong (halfCell matC e) (boxAxes false e)) (fuel : ℕ) :
    lepage niggli (fuel + 1) (halfCell matORCC3 e) tol true limit = some (.ok ["ORCC"]) :=
  orc_form h0 h1 hl0 hl90 hb (n := !![1, 0, 0; 1, 2, 0; 0, 0, 1])
    (M := !![1, 1, 0; -1, 0, 0; 0, 0, 1]) (by decide +kernel) (Or.inl (by decide +kernel))
    (by decide +kernel) hno hax
    (axes := [![0, 0, 2], ![1, 0, 0], ![1, 2, 0]]) (by decide +kernel) (by decide +kernel) rfl
    (by decide +kernel) (ax := [![0, 0, 1], ![1, 0, 0], ![1, 2, 0]]) (by decide +kernel)
    (d := 2) (by simp [absDet, det_fin_three]) (by decide +kernel) fuel

theorem form_ORCC4 (hno : LatticeNoPseudo (halfCell matC e) limit)
    (hax : AxesAlong (halfCell matC e) (boxAxes false e)) (fuel : ℕ) :
    lepage niggli (fuel + 1) (halfCell matORCC4 e) tol true limit = some (.ok ["ORCC"]) :=
  orc_form h0 h1 hl0 hl90 hb (n := !![1, 0, 0; 1, 0, 2; 0, 1, 0])
    (M := !![1, 1, 0; 0, 0, 1; -1, 0, 0]) (by decide +kernel) (Or.inr (by decide +kernel))
    (by decide +kernel) hno hax
    (axes := [![0, 2, 0], ![1, 0, 0], ![1, 0, 2]]) (by decide +kernel) (by decide +kernel) rfl
    (by decide +kernel) (ax := [![0, 1, 0], ![1, 0, 0], ![1, 0, 2]]) (by decide +kernel)
    (d := 2) (by simp [absDet, det_fin_three]) (by decide +kernel) fuel

theorem form_ORCC5 (hno : LatticeNoPseudo (halfCell matC e) limit)
    (hax : AxesAlong (halfCell matC e) (boxAxes false e)) (fuel : ℕ) :
    lepage niggli (fuel + 1) (halfCell matORCC5 e) tol true limit = some (.ok ["ORCC"]) :=
  orc_form h0 h1 hl0 hl90 hb (n := !![0, 1, 0; 0, 1, 2; 1, 0, 0])
    (M := !![0, 0, 1; 1, 1, 0; -1, 0, 0]) (by decide +kernel) (Or.inl (by decide +kernel))
    (by decide +kernel) hno hax
    (axes := [![0, 1, 0], ![0, 1, 2], ![2, 0, 0]]) (by decide +kernel) (by decide +kernel) rfl
    (by decide +kernel) (ax := [![0, 1, 0], ![0, 1, 2], ![1, 0, 0]]) (by decide +kernel)
    (d := 2) (by simp [absDet, det_fin_three]) (by decide +kernel) fuel

end

end Wulfric
