import Verif.Props.C88_Tiling
import Verif.Props.C67_Example

/-! # C88: the simple cubic lattice -/

namespace Wulfric
open Matrix _root_.Spec

theorem cubic_niggli : IsNiggli (1 : Cell ℝ) := by constructor <;> simp [dot]

theorem cubic_answer (P : List (Vec ℝ)) (hP : getLatticePoints (1 : Cell ℝ) (fun _ => 10) = .flat P) :
    VoronoiAnswer ⟨id, id, fun _ => .ok cubeVoronoi⟩ P (index000 10) :=
  ⟨cubeVoronoi, rfl, rfl, cubic_around P hP⟩

/-- C88: the hypotheses of `C88_reduced` hold for the unit cell: the cube around the origin has the
volume 1 and fills space. -/
example : ∃ (lib : PlotLib) (vs : List (Vec ℝ)) (edges : List (ℕ × ℕ)),
    getWignerSeitzCell lib 1 = .ok (vs, edges) ∧ ZoneCorners vs (latticePoints 1) 1 := by
  obtain ⟨vs, edges, V, h1, h2, -, h3⟩ := C88_reduced ⟨id, id, fun _ => .ok cubeVoronoi⟩
    (fun l => List.Perm.refl _) 1 (by simp) cubic_niggli cubic_answer
  have hV : V = 1 := by
    have : Except.ok V = (Except.ok 1 : Except Err ℝ) := by
      rw [← h2]
      simp [getVolume]
    cases this
    rfl
  exact ⟨_, vs, edges, h1, hV ▸ h3⟩

/-- C88: the hypotheses of `C88_same_lattice` hold for the unit cell, with a library that gives the
pairs of vertices in another order. -/
example : ∃ (lib lib' : PlotLib) (vs vs' : List (Vec ℝ)) (edges edges' : List (ℕ × ℕ)),
    getWignerSeitzCell lib 1 = .ok (vs, edges) ∧ getWignerSeitzCell lib' 1 = .ok (vs', edges') ∧
    vs.Perm vs' := by
  obtain ⟨vs, edges, vs', edges', h1, h2, h3, -⟩ := C88_same_lattice
    ⟨id, id, fun _ => .ok cubeVoronoi⟩ ⟨id, List.reverse, fun _ => .ok cubeVoronoi⟩
    (fun l => List.Perm.refl _) (fun l => List.reverse_perm l) 1 1 (by simp) (by simp) rfl
    (C52_reduced 1 cubic_niggli 10 (by norm_num)) (C52_reduced 1 cubic_niggli 10 (by norm_num))
    cubic_answer (fun P hP => ⟨cubeVoronoi, rfl, rfl, cubic_around P hP⟩)
  exact ⟨_, _, vs, vs', edges, edges', h1, h2, h3⟩

end Wulfric
