import Verif.Props.C90_PackageCell
import Verif.Props.C89_Example

/-! # C90: a crystal with one atom in a cube, space group P4 -/

namespace Wulfric
open Matrix _root_.Spec Wulfric.Spec

theorem eps_one : machineEps < (1 : ℝ) := eps_lt le_rfl

theorem cube_one : cube 1 = 1 := by rw [one_fin_three]

theorem cube_one_answer (P : List (Vec ℝ)) (hP : getLatticePoints (cube 1) (fun _ => 10) = .flat P) :
    VoronoiAnswer ⟨id, id, fun _ => .ok cubeVoronoi⟩ P (index000 10) := by
  rw [cube_one] at hP
  exact cubic_answer P hP

theorem cube_family (x : ℝ) : family (cubeData x 75 "t" "P").spaceGroupNumber ≠ "a" := by
  show family 75 ≠ "a"
  decide +kernel

theorem cube_standard {x : ℝ} (hx : 0 ≤ x) :
    StandardCell (family (cubeData x 75 "t" "P").spaceGroupNumber ++
      centring (cubeData x 75 "t" "P").spaceGroupNumber) (cubeData x 75 "t" "P").conventionalCell :=
  .tetragonal (a := x) (c := x) (by show family 75 ++ centring 75 ∈ _; decide +kernel)
    (hasParams_box hx hx hx)

theorem cube_sc {x : ℝ} (hx : 0 ≤ x) :
    ScCell (family (cubeData x 75 "t" "P").spaceGroupNumber ++
      centring (cubeData x 75 "t" "P").spaceGroupNumber) (cube x) :=
  .tetragonal (a := x) (c := x) (by show family 75 ++ centring 75 ∈ _; decide +kernel)
    (hasParams_box hx hx hx)

/-- C90: the hypotheses of `C90_hpkot` are met. -/
example : ∃ prim pa vs edges, getPrimitive String.toLower (fun _ _ => .error .runtimeError)
      (fun c => .ok c) (cube 1) boxAtoms "HPKOT" (some (cubeData 1 75 "t" "P")) = .ok (prim, pa) ∧
    CellOf ⟨id, id, fun _ => .ok cubeVoronoi⟩ prim vs edges := by
  obtain ⟨b, h⟩ := cube_primitive_hpkot eps_one
  obtain ⟨vs, edges, hz⟩ := C90_hpkot String.toLower (fun _ _ => .error .runtimeError)
    (fun c => .ok c) (cube 1) boxAtoms (cubeData 1 75 "t" "P") ⟨by decide, by decide⟩ rfl rfl
    "HPKOT" ⟨id, id, fun _ => .ok cubeVoronoi⟩ (fun l => List.Perm.refl _) (by decide +kernel)
    (by decide +kernel) (cube_standard zero_le_one) (fun e => absurd e (cube_family 1)) _ b h
    cube_one_answer
  exact ⟨_, b, vs, edges, h, hz⟩

/-- C90: the hypotheses of `C90_sc` are met. -/
example : ∃ prim pa vs edges, getPrimitive String.toLower (fun _ _ => .error .runtimeError)
      (fun c => .ok c) (cube 1) boxAtoms "SC" (some (cubeData 1 75 "t" "P")) = .ok (prim, pa) ∧
    CellOf ⟨id, id, fun _ => .ok cubeVoronoi⟩ prim vs edges := by
  obtain ⟨a, h1, -⟩ := cube_conventional eps_one "SC" (by decide +kernel)
  obtain ⟨b, h⟩ := cube_primitive eps_one
  obtain ⟨vs, edges, hz⟩ := C90_sc String.toLower (fun _ _ => .error .runtimeError)
    (fun c => .ok c) (cube 1) boxAtoms (cubeData 1 75 "t" "P") ⟨by decide, by decide⟩ rfl rfl
    "SC" ⟨id, id, fun _ => .ok cubeVoronoi⟩ (fun l => List.Perm.refl _) (by decide +kernel)
    (by decide +kernel) _ _ b a h h1 (cube_sc zero_le_one) (fun e => absurd e (cube_family 1))
    cube_one_answer
  exact ⟨_, b, vs, edges, h, hz⟩

/-- C90: the hypotheses of `C90_conventions_cell` are met. -/
example : ∃ p1 p2 a1 a2 vs edges vs' edges', getPrimitive String.toLower
      (fun _ _ => .error .runtimeError) (fun c => .ok c) (cube 1) boxAtoms "HPKOT"
      (some (cubeData 1 75 "t" "P")) = .ok (p1, a1) ∧
    getPrimitive String.toLower (fun _ _ => .error .runtimeError) (fun c => .ok c) (cube 1) boxAtoms
      "SC" (some (cubeData 1 75 "t" "P")) = .ok (p2, a2) ∧
    getWignerSeitzCell ⟨id, id, fun _ => .ok cubeVoronoi⟩ p1 = .ok (vs, edges) ∧
    getWignerSeitzCell ⟨id, id, fun _ => .ok cubeVoronoi⟩ p2 = .ok (vs', edges') ∧
    SameDrawing vs edges vs' edges' := by
  obtain ⟨a, h1, -⟩ := cube_conventional eps_one "SC" (by decide +kernel)
  obtain ⟨b, h⟩ := cube_primitive eps_one
  obtain ⟨b', h'⟩ := cube_primitive_hpkot eps_one
  obtain ⟨vs, edges, vs', edges', hz⟩ := C90_conventions_cell String.toLower
    (fun _ _ => .error .runtimeError) (fun c => .ok c) (cube 1) boxAtoms (cubeData 1 75 "t" "P")
    ⟨by decide, by decide⟩ rfl rfl "HPKOT" "SC" ⟨id, id, fun _ => .ok cubeVoronoi⟩
    (fun l => List.Perm.refl _) (by decide +kernel) (by decide +kernel) (by decide +kernel)
    (by decide +kernel) (cube_standard zero_le_one) (fun e => absurd e (cube_family 1)) _ _ _ b' b a
    h' h h1 (cube_sc zero_le_one) (fun e => absurd e (cube_family 1)) rfl
    (fun c P hc => by rcases hc with rfl | rfl <;> exact cube_one_answer P)
  exact ⟨_, _, b', b, vs, edges, vs', edges', h', h, hz⟩

/-- C90: the hypotheses of `C90_conventions_zone` are met. -/
example : ∃ p1 p2 a1 a2 vs edges vs' edges', getPrimitive String.toLower
      (fun _ _ => .error .runtimeError) (fun c => .ok c) (cube (2 * Real.pi)) boxAtoms "HPKOT"
      (some (cubeData (2 * Real.pi) 75 "t" "P")) = .ok (p1, a1) ∧
    getPrimitive String.toLower (fun _ _ => .error .runtimeError) (fun c => .ok c)
      (cube (2 * Real.pi)) boxAtoms "SC" (some (cubeData (2 * Real.pi) 75 "t" "P")) =
      .ok (p2, a2) ∧
    getBrillouinZone ⟨id, id, fun _ => .ok cubeVoronoi⟩ p1 = .ok (vs, edges) ∧
    getBrillouinZone ⟨id, id, fun _ => .ok cubeVoronoi⟩ p2 = .ok (vs', edges') ∧
    SameDrawing vs edges vs' edges' := by
  obtain ⟨a, h1, -⟩ := cube_conventional eps_pi "SC" (by decide +kernel)
  obtain ⟨b, h⟩ := cube_primitive eps_pi
  obtain ⟨b', h'⟩ := cube_primitive_hpkot eps_pi
  obtain ⟨vs, edges, vs', edges', hz⟩ := C90_conventions_zone String.toLower
    (fun _ _ => .error .runtimeError) (fun c => .ok c) (cube (2 * Real.pi)) boxAtoms
    (cubeData (2 * Real.pi) 75 "t" "P") ⟨by decide, by decide⟩ rfl rfl "HPKOT" "SC"
    ⟨id, id, fun _ => .ok cubeVoronoi⟩ (fun l => List.Perm.refl _) (by decide +kernel)
    (by decide +kernel) (by decide +kernel) (by decide +kernel) (.inl rfl)
    (cube_standard cube_edge.le) (fun e => absurd e (cube_family _)) _ _ _ b' b a h' h h1
    (cube_sc cube_edge.le) (fun e => absurd e (cube_family _)) rfl
    (fun c P hc => by rcases hc with hc | hc <;> exact cube_answer c P hc)
  exact ⟨_, _, b', b, vs, edges, vs', edges', h', h, hz⟩

end Wulfric
