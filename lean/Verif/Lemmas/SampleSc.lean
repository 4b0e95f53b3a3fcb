import Verif.Lemmas.SamplePath
import Verif.Props.C43_Points

/-! # A sample crystal for the SC convention -/

namespace Wulfric
open Matrix _root_.Spec Wulfric.Spec

/-- The crystal: one atom in a tetragonal box, P4. -/
noncomputable abbrev boxT : Cell ℝ := !![3, 0, 0; 0, 3, 0; 0, 0, 4]

theorem boxT_det : boxT.det ≠ 0 := by simp [boxT, det_fin_three]

theorem boxT_conventional (convention : String) (hl : convention.toLower = "sc") :
    ∃ a, getConventional String.toLower (fun _ _ => .error .runtimeError) (fun c => .ok c)
      boxT boxAtoms convention (some (boxData 3 3 4 75 "t" "P")) = .ok (boxT, a) ∧
      a.positions = some [0] ∧ a.spglibTypes = some [1] := by
  have hr := box_resolve String.toLower (fun _ _ => .error .runtimeError) 3 3 4 75 "t" "P"
  have h0 : vecMat (vecMat (0 : Vec ℝ) boxT) boxT⁻¹ = 0 := by
    ext j; simp [vecMat]
  have hi : npInv boxT = .ok boxT⁻¹ := by simp only [npInv, boxT_det, if_false]
  have hg : conventionalParts (fun c => .ok c) "sc" (boxData 3 3 4 75 "t" "P") =
      .ok (boxT, [0], [1]) := by
    unfold conventionalParts
    rw [if_neg (by decide), if_pos rfl, if_neg (by simp [boxData])]
    simp only [boxData, scConventionalNoHR, true_or, or_true, if_true, bind, Except.bind, pure,
      Except.pure, rebase, hi, List.map_cons, List.map_nil, h0]
  obtain ⟨a, ha⟩ : ∃ a, newAtoms boxAtoms (lastIndex (boxData 3 3 4 75 "t" "P").original.types)
      [0] [1] = .ok a ∧ a.positions = some [0] ∧ a.spglibTypes = some [1] := ⟨_, rfl, rfl, rfl⟩
  refine ⟨a, ?_, ha.2⟩
  unfold getConventional
  rw [hr, hl]
  simp only [hg, bind, Except.bind, ha.1, pure, Except.pure]

theorem boxT_primitive :
    ∃ a, getPrimitive String.toLower (fun _ _ => .error .runtimeError) (fun c => .ok c)
      boxT boxAtoms "SC" (some (boxData 3 3 4 75 "t" "P")) = .ok (boxT, a) := by
  have hr := box_resolve String.toLower (fun _ _ => .error .runtimeError) 3 3 4 75 "t" "P"
  obtain ⟨a, hg, ha⟩ := boxT_conventional "sc" (by decide +kernel)
  have hm : primitiveMatrix "sc" ("t" ++ "P") = .ok (1 : Cell ℝ) := by
    unfold primitiveMatrix
    rw [if_neg (by decide), one_fin_three]
    rfl
  have hi : npInv boxT = .ok boxT⁻¹ := by simp only [npInv, boxT_det, if_false]
  obtain ⟨ps, ts, hu⟩ := C35_defined ([0] : List (Vec ℝ)) [1] 1 (1 / 10 ^ 5) (by simp) rfl (by
    intro p hp
    rw [twins_iff]
    simp only [List.map_cons, List.map_nil, List.mem_singleton] at hp ⊢
    subst hp
    simp [nEquiv, sameAtom])
  have hpp : primitiveParts String.toLower (fun _ _ => .error .runtimeError) (fun c => .ok c)
      boxT boxAtoms "sc" (boxData 3 3 4 75 "t" "P") = .ok (boxT, ps, ts) := by
    unfold primitiveParts
    rw [if_neg (by decide), if_pos (by decide), hg]
    have h0 : vecMat (vecMat (0 : Vec ℝ) boxT) boxT⁻¹ = 0 := by
      ext j; simp [vecMat]
    have hone : |boxT.det / boxT.det| = ((1 : ℕ) : ℝ) := by rw [div_self boxT_det]; norm_num
    simp only [bind, Except.bind, pure, Except.pure, boxData, hm, transpose_one, one_mul,
      Atoms.getPositions, ha.1, hi, ha.2, List.map_cons, List.map_nil, h0, hone,
      Option.getD_some, hu]
  have hts : ∀ t ∈ ts, t ∈ (boxData 3 3 4 75 "t" "P").original.types := by
    obtain ⟨qs, kept, -, -, h3, -, h5, -⟩ := C35_kept _ _ _ _ _ _ hu
    intro t ht
    rw [h5, List.mem_map] at ht
    obtain ⟨i, hi1, rfl⟩ := ht
    have : i = 0 := by have := h3 i hi1; simpa using this
    subst this
    simp [boxData]
  obtain ⟨b, hb⟩ := newAtoms_defined (atoms := boxAtoms) (ps := ps) (ts := ts)
    (mapping := firstIndex (boxData 3 3 4 75 "t" "P").original.types) (n := 1) (by
      intro t ht
      have := hts t ht
      simp only [boxData, List.mem_singleton] at this
      subst this
      exact ⟨0, by omega, rfl⟩) (by intro l hl; cases hl) (by intro l hl; cases hl)
      (by intro l hl; cases hl; rfl)
  refine ⟨b, ?_⟩
  have hl : "SC".toLower = "sc" := by decide +kernel
  unfold getPrimitive
  rw [hr]
  simp only [bind, Except.bind, pure, Except.pure, hl, hpp, hb]

theorem boxT_variation : scGetVariation String.toLower (fun _ _ => .error .runtimeError)
    (fun c => .ok c) boxT boxAtoms (some (boxData 3 3 4 75 "t" "P")) = .ok (some "TET") := by
  unfold scGetVariation
  rw [box_resolve]
  rfl

/-- A call with the SC convention that succeeds. -/
theorem boxT_path (t rel : Bool) : ∃ r, getPathAndPoints String.toLower
    (fun _ _ => .error .runtimeError) (fun c => .ok c) boxT boxAtoms
    (some (boxData 3 3 4 75 "t" "P")) "SC" t rel = .ok r := by
  have hl : "SC".toLower = "sc" := by decide +kernel
  obtain ⟨a, h1, -⟩ := boxT_conventional "SC" hl
  obtain ⟨b, h2⟩ := boxT_primitive
  obtain ⟨q, hq, -⟩ := C03_involution _ boxT_det
  obtain ⟨e, he⟩ := allCoordinates_exists boxT_det (r := q) (rel := rel) scTable5
  have e2 : (boxData 3 3 4 75 "t" "P").crystalFamily ++
      (boxData 3 3 4 75 "t" "P").centringType = "tP" := rfl
  have hp : getParams boxT = .ok (3, 3, 4, 90, 90, 90) :=
    box_params 3 3 4 (eps_lt (by norm_num)) (eps_lt (by norm_num)) (eps_lt (by norm_num))
  have hpts : scPointsOf 3 3 4 90 "TET" (some "TET") = .ok scTable5 := by simp [scPointsOf]
  obtain ⟨kp, hk⟩ : ∃ kp, scDefaultKPaths.getItem "TET" = .ok kp := ⟨_, rfl⟩
  have hsh : scBravaisLatticeShortNames.get? "tP" = some "TET" := rfl
  have hraw : pathAndRawPoints String.toLower (fun _ _ => .error .runtimeError)
      (fun c => .ok c) boxT boxAtoms (boxData 3 3 4 75 "t" "P")
      boxT "sc" = .ok (kp, scTable5) := by
    unfold pathAndRawPoints
    rw [if_pos rfl]
    simp only [boxT_variation, e2, scGetPoints, hp, hsh, hpts, hk, bind, Except.bind, pure,
      Except.pure]
  have hinv : inversionSymmetry.getItem (boxData 3 3 4 75 "t" "P").spaceGroupNumber =
      .ok false := by
    show inversionSymmetry.getItem 75 = .ok false
    rfl
  obtain ⟨d, path, hd', hk', hg⟩ := sc_points_tet 3 3 4 90
  rw [hpts] at hd'
  rw [hk] at hk'
  cases hd'
  cases hk'
  have hx : ∃ r, extendPath false t kp e = .ok r := by
    cases t with
    | true => exact ⟨_, extend_same (.inr rfl) kp e⟩
    | false =>
      obtain ⟨-, p', e', -, h, -⟩ := extend_spec hg (allCoordinates_ok he).1
      exact ⟨_, h⟩
  obtain ⟨r, hr⟩ := hx
  refine ⟨r, ?_⟩
  unfold getPathAndPoints
  rw [box_resolve]
  simp only [h1, h2, hl, hraw, hq, he, hinv, hr, bind, Except.bind]

end Wulfric
