import Verif.Lemmas.LepageNiggli

/-! # The Le Page algorithm on the Niggli forms of the ORC, ORCI and ORCF lattices -/

namespace Wulfric

open Matrix _root_.Spec

section

variable {niggli : Cell ℝ → Except Err (Cell ℝ)} {tol limit : ℝ} (h0 : tol ≠ 0) (h1 : |tol| ≤ 1)
  (hl0 : 0 < limit) (hl90 : limit ≤ 90) {e : Cell ℝ} {l : Fin 3 → ℝ} (hb : Box e l)

include h0 h1 hl0 hl90 hb

theorem form_ORC1 (hno : LatticeNoPseudo (halfCell matP e) limit)
    (hax : AxesAlong (halfCell matP e) (boxAxes false e)) (fuel : ℕ) :
    lepage niggli (fuel + 1) (halfCell matORC1 e) tol true limit = some (.ok ["ORC"]) :=
  orc_form h0 h1 hl0 hl90 hb (n := !![1, 0, 0; 0, 1, 0; 0, 0, 1])
    (M := !![1, 0, 0; 0, 1, 0; 0, 0, 1]) (by decide +kernel) (Or.inl (by decide +kernel))
    (by decide +kernel) hno hax
    (axes := [![0, 0, 2], ![0, 2, 0], ![2, 0, 0]]) (by decide +kernel) (by decide +kernel) rfl
    (by decide +kernel) (ax := [![0, 0, 1], ![0, 1, 0], ![1, 0, 0]]) (by decide +kernel)
    (d := 1) (by simp [absDet, det_fin_three]) (by decide +kernel) fuel

theorem form_ORCI1 (hno : LatticeNoPseudo (halfCell matI e) limit)
    (hax : AxesAlong (halfCell matI e) (boxAxes false e)) (fuel : ℕ) :
    lepage niggli (fuel + 1) (halfCell matORCI1 e) tol true limit = some (.ok ["ORCI"]) :=
  orc_form h0 h1 hl0 hl90 hb (n := !![1, 0, 0; 0, 1, 0; 1, 1, 2])
    (M := !![0, 1, 1; 1, 0, 1; 0, 0, -1]) (by decide +kernel) (Or.inl (by decide +kernel))
    (by decide +kernel) hno hax
    (axes := [![0, 1, 0], ![1, 0, 0], ![1, 1, 2]]) (by decide +kernel) (by decide +kernel) rfl
    (by decide +kernel) (ax := [![0, 1, 0], ![1, 0, 0], ![1, 1, 2]]) (by decide +kernel)
    (d := 2) (by simp [absDet, det_fin_three]) (by decide +kernel) fuel

theorem form_ORCI2 (hno : LatticeNoPseudo (halfCell matI e) limit)
    (hax : AxesAlong (halfCell matI e) (boxAxes false e)) (fuel : ℕ) :
    lepage niggli (fuel + 1) (halfCell matORCI2 e) tol true limit = some (.ok ["ORCI"]) :=
  orc_form h0 h1 hl0 hl90 hb (n := !![1, 0, 0; 0, 1, -1; -1, 1, 1])
    (M := !![0, 1, 1; 1, 1, 1; 0, 1, 0]) (by decide +kernel) (Or.inl (by decide +kernel))
    (by decide +kernel) hno hax
    (axes := [![0, 1, -1], ![1, -1, -1], ![1, 0, 0]]) (by decide +kernel) (by decide +kernel) rfl
    (by decide +kernel) (ax := [![0, 1, -1], ![1, -1, -1], ![1, 0, 0]]) (by decide +kernel)
    (d := 2) (by simp [absDet, det_fin_three]) (by decide +kernel) fuel

theorem form_ORCI3 (hno : LatticeNoPseudo (halfCell matI e) limit)
    (hax : AxesAlong (halfCell matI e) (boxAxes false e)) (fuel : ℕ) :
    lepage niggli (fuel + 1) (halfCell matORCI3 e) tol true limit = some (.ok ["ORCI"]) :=
  orc_form h0 h1 hl0 hl90 hb (n := !![1, 1, 0; 1, 0, 1; 0, 1, 1])
    (M := !![0, 0, 1; 0, 1, 0; 1, 0, 0]) (by decide +kernel) (Or.inr (by decide +kernel))
    (by decide +kernel) hno hax
    (axes := [![0, 1, 1], ![1, 0, 1], ![1, 1, 0]]) (by decide +kernel) (by decide +kernel) rfl
    (by decide +kernel) (ax := [![0, 1, 1], ![1, 0, 1], ![1, 1, 0]]) (by decide +kernel)
    (d := 2) (by simp [absDet, det_fin_three]) (by decide +kernel) fuel

theorem form_ORCF1 (hno : LatticeNoPseudo (halfCell matF e) limit)
    (hax : AxesAlong (halfCell matF e) (boxAxes false e)) (fuel : ℕ) :
    lepage niggli (fuel + 1) (halfCell matORCF1 e) tol true limit = some (.ok ["ORCF"]) :=
  orc_form h0 h1 hl0 hl90 hb (n := !![1, 1, 0; 1, -1, 0; 1, 1, 2])
    (M := !![0, 0, 1; -1, 1, 0; 1, 0, -1]) (by decide +kernel) (Or.inr (by decide +kernel))
    (by decide +kernel) hno hax
    (axes := [![1, -1, 0], ![1, 1, 0], ![1, 1, 2]]) (by decide +kernel) (by decide +kernel) rfl
    (by decide +kernel) (ax := [![1, -1, 0], ![1, 1, 0], ![1, 1, 2]]) (by decide +kernel)
    (d := 4) (by simp [absDet, det_fin_three]) (by decide +kernel) fuel

theorem form_ORCF2 (hno : LatticeNoPseudo (halfCell matF e) limit)
    (hax : AxesAlong (halfCell matF e) (boxAxes false e)) (fuel : ℕ) :
    lepage niggli (fuel + 1) (halfCell matORCF2 e) tol true limit = some (.ok ["ORCF"]) :=
  orc_form h0 h1 hl0 hl90 hb (n := !![1, 0, 0; -1, 2, 0; -1, 0, 2])
    (M := !![-1, 1, 1; 0, 0, 1; 0, 1, 0]) (by decide +kernel) (Or.inl (by decide +kernel))
    (by decide +kernel) hno hax
    (axes := [![1, -2, 0], ![1, 0, -2], ![1, 0, 0]]) (by decide +kernel) (by decide +kernel) rfl
    (by decide +kernel) (ax := [![1, -2, 0], ![1, 0, -2], ![1, 0, 0]]) (by decide +kernel)
    (d := 4) (by simp [absDet, det_fin_three]) (by decide +kernel) fuel

end

end Wulfric
