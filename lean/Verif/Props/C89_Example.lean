import Verif.Props.C89_PackageZone
import Verif.Props.C88_Example
import Verif.Lemmas.SampleCube

/-! # C89: crystals whose primitive cell is the cube with the edge 2π -/

namespace Wulfric
open Matrix _root_.Spec Wulfric.Spec

theorem eps_pi : machineEps < 2 * Real.pi :=
  (eps_lt (by norm_num : (1 : ℝ) ≤ 3)).trans_le (by linarith [Real.two_le_pi])

/-- The reciprocal cell of the cube is the unit cell. -/
theorem cube_dual : IsDual 1 (cube (2 * Real.pi)) := by
  rw [isDual_iff]
  ext i j
  fin_cases i <;> fin_cases j <;> simp

theorem cube_dual_eq {r : Cell ℝ} (h : IsDual r (cube (2 * Real.pi))) : r = 1 := by
  obtain ⟨q, -, -, hu⟩ := C02_dual_unique (cube (2 * Real.pi)) (cube_det eps_pi)
  rw [hu r h, hu 1 cube_dual]

theorem cube_answer (r : Cell ℝ) (P : List (Vec ℝ)) (hr : IsDual r (cube (2 * Real.pi)))
    (hP : getLatticePoints r (fun _ => 10) = .flat P) :
    VoronoiAnswer ⟨id, id, fun _ => .ok cubeVoronoi⟩ P (index000 10) := by
  rw [cube_dual_eq hr] at hP
  exact cubic_answer P hP

theorem cube_edge : (0 : ℝ) < 2 * Real.pi := Real.two_pi_pos

/-- C89: the hypotheses of `C89_hpkot` and `C89_hpkot_points` are met: P222. -/
example : ∃ path pts prim pa r vs edges, getPathAndPoints String.toLower
    (fun _ _ => .error .runtimeError) (fun c => .ok c) (cube (2 * Real.pi)) boxAtoms
    (some (cubeData (2 * Real.pi) 16 "o" "P")) "HPKOT" false false =
      .ok (path, pts) ∧
    getPrimitive String.toLower (fun _ _ => .error .runtimeError) (fun c => .ok c)
      (cube (2 * Real.pi)) boxAtoms "HPKOT" (some (cubeData (2 * Real.pi) 16 "o" "P")) =
      .ok (prim, pa) ∧
    ZoneOf ⟨id, id, fun _ => .ok cubeVoronoi⟩ prim r vs edges ∧
    ∀ k v, pts.get? k = some v → k ≠ "GAMMA" → v ∈ frontier (convexHull ℝ {v | v ∈ vs}) := by
  obtain ⟨⟨path, pts⟩, h⟩ := cube_hpkot_path eps_pi false false
  obtain ⟨b, h2⟩ := box_primitive String.toLower (fun _ _ => .error .runtimeError)
    (fun c => .ok c) (2 * Real.pi) (2 * Real.pi) (2 * Real.pi) 16 (by decide +kernel)
    (by decide +kernel) (by have := cube_edge; positivity)
  have hfa : family (cubeData (2 * Real.pi) 16 "o"
      "P").spaceGroupNumber ≠ "a" := by
    show family 16 ≠ "a"
    decide +kernel
  have hstd : StandardCell (family (cubeData (2 * Real.pi) 16 "o"
      "P").spaceGroupNumber ++ centring (cubeData (2 * Real.pi) 16 "o"
      "P").spaceGroupNumber) (cubeData (2 * Real.pi) 16 "o"
      "P").conventionalCell :=
    .orthorhombic (a := 2 * Real.pi) (b := 2 * Real.pi) (c := 2 * Real.pi)
      (by show family 16 ++ centring 16 ∈ _; decide +kernel)
      (hasParams_box cube_edge.le cube_edge.le cube_edge.le)
  obtain ⟨r, vs, edges, hz⟩ := C89_hpkot String.toLower (fun _ _ => .error .runtimeError)
    (fun c => .ok c) (cube (2 * Real.pi)) boxAtoms
    (cubeData (2 * Real.pi) 16 "o" "P")
    ⟨by decide, by decide⟩ rfl rfl "HPKOT" ⟨id, id, fun _ => .ok cubeVoronoi⟩
    (fun l => List.Perm.refl _) (by decide +kernel) (by decide +kernel) hstd
    (fun e => absurd e hfa) _ b h2 cube_answer
  refine ⟨path, pts, _, b, r, vs, edges, h, h2, hz, fun k v hv hk => ?_⟩
  have := (C89_hpkot_points String.toLower _ _ _ _
    (cubeData (2 * Real.pi) 16 "o" "P")
    ⟨by decide, by decide⟩ rfl rfl "HPKOT" _ (by decide +kernel) (by decide +kernel)
    (by decide +kernel) _ (.inl rfl) hstd (fun e => absurd e hfa) _ r b h2 vs edges hz false path
    pts h k v hv).2
  rcases this with h | h | h
  · exact absurd h hk
  · exact h
  · exact absurd h.1 hfa

/-- C89: the hypotheses of `C89_sc` and `C89_sc_points` are met: P4. -/
example : ∃ path pts prim pa r vs edges, getPathAndPoints String.toLower
    (fun _ _ => .error .runtimeError) (fun c => .ok c) (cube (2 * Real.pi)) boxAtoms
    (some (cubeData (2 * Real.pi) 75 "t" "P")) "SC" false false =
      .ok (path, pts) ∧
    getPrimitive String.toLower (fun _ _ => .error .runtimeError) (fun c => .ok c)
      (cube (2 * Real.pi)) boxAtoms "SC" (some (cubeData (2 * Real.pi) 75 "t" "P")) =
      .ok (prim, pa) ∧
    ZoneOf ⟨id, id, fun _ => .ok cubeVoronoi⟩ prim r vs edges ∧
    ∀ k v, pts.get? k = some v → k ≠ "GAMMA" → v ∈ frontier (convexHull ℝ {v | v ∈ vs}) := by
  obtain ⟨⟨path, pts⟩, h⟩ := cube_path eps_pi false false
  obtain ⟨a, h1, -⟩ := cube_conventional eps_pi "SC" (by decide +kernel)
  obtain ⟨b, h2⟩ := cube_primitive eps_pi
  have hfa : family (cubeData (2 * Real.pi) 75 "t"
      "P").spaceGroupNumber ≠ "a" := by
    show family 75 ≠ "a"
    decide +kernel
  have hcell : ScCell (family (cubeData (2 * Real.pi) 75 "t"
      "P").spaceGroupNumber ++ centring (cubeData (2 * Real.pi) 75 "t"
      "P").spaceGroupNumber) (cube (2 * Real.pi)) :=
    .tetragonal (a := 2 * Real.pi) (c := 2 * Real.pi)
      (by show family 75 ++ centring 75 ∈ _; decide +kernel)
      (hasParams_box cube_edge.le cube_edge.le cube_edge.le)
  obtain ⟨r, vs, edges, hz⟩ := C89_sc String.toLower (fun _ _ => .error .runtimeError)
    (fun c => .ok c) (cube (2 * Real.pi)) boxAtoms
    (cubeData (2 * Real.pi) 75 "t" "P")
    ⟨by decide, by decide⟩ rfl rfl "SC" ⟨id, id, fun _ => .ok cubeVoronoi⟩
    (fun l => List.Perm.refl _) (by decide +kernel) (by decide +kernel) (.inl rfl) _ _ b a h2 h1
    hcell (fun e => absurd e hfa) cube_answer
  refine ⟨path, pts, _, b, r, vs, edges, h, h2, hz, fun k v hv => ?_⟩
  refine (C89_sc_points String.toLower _ _ _ _
    (cubeData (2 * Real.pi) 75 "t" "P")
    ⟨by decide, by decide⟩ rfl rfl "SC" _ (by decide +kernel) (by decide +kernel)
    (by decide +kernel) (.inl rfl) (by simp [boxData]) _ (.inl rfl) _ r _ b a _ h2 h1
    cube_variation hcell ?_ (fun e => absurd e hfa) vs edges hz false path pts h k v hv ?_
    (fun e => absurd e hfa)).2
  · intro _ _ _ _ _ _ _ _ _ _ _ _ _ _
    simp
  · intro e
    exact absurd (show family 75 ++ centring 75 = "mC" from e) (by decide +kernel)

end Wulfric
