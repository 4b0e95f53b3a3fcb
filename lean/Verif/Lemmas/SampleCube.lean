import Verif.Lemmas.SampleSc

/-! # A cube -/

namespace Wulfric
open Matrix _root_.Spec Wulfric.Spec

/-- The cell of the crystal. -/
abbrev cube (x : ℝ) : Cell ℝ := !![x, 0, 0; 0, x, 0; 0, 0, x]

/-- The data of a crystal with this cell. -/
noncomputable abbrev cubeData (x : ℝ) (n : ℤ) (family centring : String) : SpglibData :=
  boxData x x x n family centring

variable {x : ℝ} (hx : machineEps < x)

theorem edge_pos {x : ℝ} (hx : machineEps < x) : 0 < x := machineEps_pos.trans hx

include hx

theorem cube_det : (cube x).det ≠ 0 := by
  have := (edge_pos hx).ne'
  simp [cube, det_fin_three, this]

theorem cube_conventional (convention : String) (hl : convention.toLower = "sc") :
    ∃ a, getConventional String.toLower (fun _ _ => .error .runtimeError) (fun c => .ok c)
      (cube x) boxAtoms convention (some (cubeData x 75 "t" "P")) = .ok ((cube x), a) ∧
      a.positions = some [0] ∧ a.spglibTypes = some [1] := by
  have hr := box_resolve String.toLower (fun _ _ => .error .runtimeError) x x x 75 "t" "P"
  have h0 : vecMat (vecMat (0 : Vec ℝ) (cube x)) (cube x)⁻¹ = 0 := by
    ext j; simp [vecMat]
  have hi : npInv (cube x) = .ok (cube x)⁻¹ := by simp only [npInv, (cube_det hx), if_false]
  have hg : conventionalParts (fun c => .ok c) "sc" (cubeData x 75 "t" "P") =
      .ok ((cube x), [0], [1]) := by
    unfold conventionalParts
    rw [if_neg (by decide), if_pos rfl, if_neg (by simp [boxData])]
    simp only [boxData, scConventionalNoHR, true_or, or_true, if_true, bind, Except.bind, pure,
      Except.pure, rebase, hi, List.map_cons, List.map_nil, h0]
  obtain ⟨a, ha⟩ : ∃ a, newAtoms boxAtoms (lastIndex (cubeData x 75 "t" "P").original.types)
      [0] [1] = .ok a ∧ a.positions = some [0] ∧ a.spglibTypes = some [1] := ⟨_, rfl, rfl, rfl⟩
  refine ⟨a, ?_, ha.2⟩
  unfold getConventional
  rw [hr, hl]
  simp only [hg, bind, Except.bind, ha.1, pure, Except.pure]

theorem cube_primitive :
    ∃ a, getPrimitive String.toLower (fun _ _ => .error .runtimeError) (fun c => .ok c)
      (cube x) boxAtoms "SC" (some (cubeData x 75 "t" "P")) = .ok ((cube x), a) := by
  have hr := box_resolve String.toLower (fun _ _ => .error .runtimeError) x x x 75 "t" "P"
  obtain ⟨a, hg, ha⟩ := (cube_conventional hx) "sc" (by decide +kernel)
  have hm : primitiveMatrix "sc" ("t" ++ "P") = .ok (1 : Cell ℝ) := by
    unfold primitiveMatrix
    rw [if_neg (by decide), one_fin_three]
    rfl
  have hi : npInv (cube x) = .ok (cube x)⁻¹ := by simp only [npInv, (cube_det hx), if_false]
  obtain ⟨ps, ts, hu⟩ := C35_defined ([0] : List (Vec ℝ)) [1] 1 (1 / 10 ^ 5) (by simp) rfl (by
    intro p hp
    rw [twins_iff]
    simp only [List.map_cons, List.map_nil, List.mem_singleton] at hp ⊢
    subst hp
    simp [nEquiv, sameAtom])
  have hpp : primitiveParts String.toLower (fun _ _ => .error .runtimeError) (fun c => .ok c)
      (cube x) boxAtoms "sc" (cubeData x 75 "t" "P") = .ok ((cube x), ps, ts) := by
    unfold primitiveParts
    rw [if_neg (by decide), if_pos (by decide), hg]
    have h0 : vecMat (vecMat (0 : Vec ℝ) (cube x)) (cube x)⁻¹ = 0 := by
      ext j; simp [vecMat]
    have hone : |(cube x).det / (cube x).det| = ((1 : ℕ) : ℝ) := by rw [div_self (cube_det hx)]; norm_num
    simp only [bind, Except.bind, pure, Except.pure, boxData, hm, transpose_one, one_mul,
      Atoms.getPositions, ha.1, hi, ha.2, List.map_cons, List.map_nil, h0, hone,
      Option.getD_some, hu]
  have hts : ∀ t ∈ ts, t ∈ (cubeData x 75 "t" "P").original.types := by
    obtain ⟨qs, kept, -, -, h3, -, h5, -⟩ := C35_kept _ _ _ _ _ _ hu
    intro t ht
    rw [h5, List.mem_map] at ht
    obtain ⟨i, hi1, rfl⟩ := ht
    have : i = 0 := by have := h3 i hi1; simpa using this
    subst this
    simp [boxData]
  obtain ⟨b, hb⟩ := newAtoms_defined (atoms := boxAtoms) (ps := ps) (ts := ts)
    (mapping := firstIndex (cubeData x 75 "t" "P").original.types) (n := 1) (by
      intro t ht
      have := hts t ht
      simp only [boxData, List.mem_singleton] at this
      subst this
      exact ⟨0, by omega, rfl⟩) (by intro l hl; cases hl) (by intro l hl; cases hl)
      (by intro l hl; cases hl; rfl)
  refine ⟨b, ?_⟩
  have hl : "SC".toLower = "sc" := by decide +kernel
  unfold getPrimitive
  rw [hr]
  simp only [bind, Except.bind, pure, Except.pure, hl, hpp, hb]

omit hx in
theorem cube_conventional_hpkot (convention : String) (hl : convention.toLower = "hpkot") :
    ∃ a, getConventional String.toLower (fun _ _ => .error .runtimeError) (fun c => .ok c)
      (cube x) boxAtoms convention (some (cubeData x 75 "t" "P")) = .ok ((cube x), a) ∧
      a.positions = some [0] ∧ a.spglibTypes = some [1] := by
  have hr := box_resolve String.toLower (fun _ _ => .error .runtimeError) x x x 75 "t" "P"
  have hg : conventionalParts (fun c => .ok c) "hpkot" (cubeData x 75 "t" "P") =
      .ok ((cube x), [0], [1]) := by
    unfold conventionalParts
    rw [if_pos (by decide), if_neg (by simp [boxData])]
    rfl
  obtain ⟨a, ha⟩ : ∃ a, newAtoms boxAtoms (lastIndex (cubeData x 75 "t" "P").original.types)
      [0] [1] = .ok a ∧ a.positions = some [0] ∧ a.spglibTypes = some [1] := ⟨_, rfl, rfl, rfl⟩
  refine ⟨a, ?_, ha.2⟩
  unfold getConventional
  rw [hr, hl]
  simp only [hg, bind, Except.bind, ha.1, pure, Except.pure]

theorem cube_primitive_hpkot :
    ∃ a, getPrimitive String.toLower (fun _ _ => .error .runtimeError) (fun c => .ok c)
      (cube x) boxAtoms "HPKOT" (some (cubeData x 75 "t" "P")) = .ok ((cube x), a) := by
  have hr := box_resolve String.toLower (fun _ _ => .error .runtimeError) x x x 75 "t" "P"
  obtain ⟨a, hg, ha⟩ := cube_conventional_hpkot "hpkot" (by decide +kernel)
  have hm : primitiveMatrix "hpkot" ("t" ++ "P") = .ok (1 : Cell ℝ) := by
    unfold primitiveMatrix
    rw [if_pos rfl, one_fin_three]
    rfl
  have hi : npInv (cube x) = .ok (cube x)⁻¹ := by simp only [npInv, (cube_det hx), if_false]
  obtain ⟨ps, ts, hu⟩ := C35_defined ([0] : List (Vec ℝ)) [1] 1 (1 / 10 ^ 5) (by simp) rfl (by
    intro p hp
    rw [twins_iff]
    simp only [List.map_cons, List.map_nil, List.mem_singleton] at hp ⊢
    subst hp
    simp [nEquiv, sameAtom])
  have hpp : primitiveParts String.toLower (fun _ _ => .error .runtimeError) (fun c => .ok c)
      (cube x) boxAtoms "hpkot" (cubeData x 75 "t" "P") = .ok ((cube x), ps, ts) := by
    unfold primitiveParts
    rw [if_neg (by decide), if_pos (by decide), hg]
    have h0 : vecMat (vecMat (0 : Vec ℝ) (cube x)) (cube x)⁻¹ = 0 := by
      ext j; simp [vecMat]
    have hone : |(cube x).det / (cube x).det| = ((1 : ℕ) : ℝ) := by rw [div_self (cube_det hx)]; norm_num
    simp only [bind, Except.bind, pure, Except.pure, boxData, hm, transpose_one, one_mul,
      Atoms.getPositions, ha.1, hi, ha.2, List.map_cons, List.map_nil, h0, hone,
      Option.getD_some, hu]
  have hts : ∀ t ∈ ts, t ∈ (cubeData x 75 "t" "P").original.types := by
    obtain ⟨qs, kept, -, -, h3, -, h5, -⟩ := C35_kept _ _ _ _ _ _ hu
    intro t ht
    rw [h5, List.mem_map] at ht
    obtain ⟨i, hi1, rfl⟩ := ht
    have : i = 0 := by have := h3 i hi1; simpa using this
    subst this
    simp [boxData]
  obtain ⟨b, hb⟩ := newAtoms_defined (atoms := boxAtoms) (ps := ps) (ts := ts)
    (mapping := firstIndex (cubeData x 75 "t" "P").original.types) (n := 1) (by
      intro t ht
      have := hts t ht
      simp only [boxData, List.mem_singleton] at this
      subst this
      exact ⟨0, by omega, rfl⟩) (by intro l hl; cases hl) (by intro l hl; cases hl)
      (by intro l hl; cases hl; rfl)
  refine ⟨b, ?_⟩
  have hl : "HPKOT".toLower = "hpkot" := by decide +kernel
  unfold getPrimitive
  rw [hr]
  simp only [bind, Except.bind, pure, Except.pure, hl, hpp, hb]

omit hx in
theorem cube_variation : scGetVariation String.toLower (fun _ _ => .error .runtimeError)
    (fun c => .ok c) (cube x) boxAtoms (some (cubeData x 75 "t" "P")) = .ok (some "TET") := by
  unfold scGetVariation
  rw [box_resolve]
  rfl

theorem cube_path (t rel : Bool) : ∃ r, getPathAndPoints String.toLower
    (fun _ _ => .error .runtimeError) (fun c => .ok c) (cube x) boxAtoms
    (some (cubeData x 75 "t" "P")) "SC" t rel = .ok r := by
  have hl : "SC".toLower = "sc" := by decide +kernel
  obtain ⟨a, h1, -⟩ := (cube_conventional hx) "SC" hl
  obtain ⟨b, h2⟩ := (cube_primitive hx)
  obtain ⟨q, hq, -⟩ := C03_involution _ (cube_det hx)
  obtain ⟨e, he⟩ := allCoordinates_exists (cube_det hx) (r := q) (rel := rel) scTable5
  have e2 : (cubeData x 75 "t" "P").crystalFamily ++
      (cubeData x 75 "t" "P").centringType = "tP" := rfl
  have hp : getParams (cube x) = .ok (x, x, x, 90, 90, 90) :=
    box_params x x x hx hx hx
  have hpts : scPointsOf x x x 90 "TET" (some "TET") = .ok scTable5 := by simp [scPointsOf]
  obtain ⟨kp, hk⟩ : ∃ kp, scDefaultKPaths.getItem "TET" = .ok kp := ⟨_, rfl⟩
  have hsh : scBravaisLatticeShortNames.get? "tP" = some "TET" := rfl
  have hraw : pathAndRawPoints String.toLower (fun _ _ => .error .runtimeError)
      (fun c => .ok c) (cube x) boxAtoms (cubeData x 75 "t" "P")
      (cube x) "sc" = .ok (kp, scTable5) := by
    unfold pathAndRawPoints
    rw [if_pos rfl]
    simp only [(cube_variation (x := x)), e2, scGetPoints, hp, hsh, hpts, hk, bind, Except.bind, pure,
      Except.pure]
  have hinv : inversionSymmetry.getItem (cubeData x 75 "t" "P").spaceGroupNumber =
      .ok false := by
    show inversionSymmetry.getItem 75 = .ok false
    rfl
  obtain ⟨d, path, hd', hk', hg⟩ := sc_points_tet x x x 90
  rw [hpts] at hd'
  rw [hk] at hk'
  cases hd'
  cases hk'
  have hx : ∃ r, extendPath false t kp e = .ok r := by
    cases t with
    | true => exact ⟨_, extend_same (.inr rfl) kp e⟩
    | false =>
      obtain ⟨-, p', e', -, h, -⟩ := extend_spec hg (allCoordinates_ok he).1
      exact ⟨_, h⟩
  obtain ⟨r, hr⟩ := hx
  refine ⟨r, ?_⟩
  unfold getPathAndPoints
  rw [box_resolve]
  simp only [h1, h2, hl, hraw, hq, he, hinv, hr, bind, Except.bind]

theorem cube_hpkot_path (t rel : Bool) : ∃ r, getPathAndPoints String.toLower
    (fun _ _ => .error .runtimeError) (fun c => .ok c) (cube x) boxAtoms
    (some (cubeData x 16 "o" "P")) "HPKOT" t rel = .ok r := by
  have hl : "HPKOT".toLower = "hpkot" := by decide +kernel
  obtain ⟨a, h1⟩ := box_hpkot String.toLower (fun _ _ => .error .runtimeError) (fun c => .ok c)
    x x x 16 "o" "P" hl (by decide)
  obtain ⟨b, h2⟩ := box_primitive String.toLower (fun _ _ => .error .runtimeError)
    (fun c => .ok c) x x x 16 hl (by decide +kernel) (by have := edge_pos hx; positivity)
  have hdet : (cube x).det ≠ 0 := cube_det hx
  obtain ⟨q, hq, -⟩ := C03_involution _ hdet
  obtain ⟨e, he⟩ := allCoordinates_exists hdet (r := q) (rel := rel) hpkotTable75
  have e2 : (cubeData x 16 "o" "P").crystalFamily ++
      (cubeData x 16 "o" "P").centringType = "oP" := rfl
  have hsym : hpkotGetExtendedBlSymbol String.toLower (fun _ _ => .error .runtimeError)
      (fun c => .ok c) (cube x) boxAtoms
      (some (cubeData x 16 "o" "P")) = .ok "oP1" := by
    unfold hpkotGetExtendedBlSymbol
    rw [box_resolve]
    have e1 : hpkotSimpleSymbol ((cubeData x 16 "o" "P").crystalFamily ++
        (cubeData x 16 "o" "P").centringType) (cubeData x 16 "o" "P").spaceGroupNumber =
        some (.ok "oP1") := by rw [e2]; rfl
    simp only [bind, Except.bind, e1]
  have hp : getParams (cube x) = .ok (x, x, x, 90, 90, 90) :=
    box_params x x x hx hx hx
  have hpts : hpkotPointsOf x x x 90 "oP" "oP1" = .ok hpkotTable75 := by simp [hpkotPointsOf]
  obtain ⟨kp, hk⟩ : ∃ kp, hpkotDefaultKPaths.getItem "oP1" = .ok kp := ⟨_, rfl⟩
  have hraw : pathAndRawPoints String.toLower (fun _ _ => .error .runtimeError)
      (fun c => .ok c) (cube x) boxAtoms (cubeData x 16 "o" "P")
      (cube x) "hpkot" = .ok (kp, hpkotTable75) := by
    unfold pathAndRawPoints
    rw [if_neg (by decide), if_pos rfl]
    simp only [hsym, e2, hpkotGetPoints, hp, hpts, hk, bind, Except.bind, pure, Except.pure]
  have hinv : inversionSymmetry.getItem (cubeData x 16 "o" "P").spaceGroupNumber =
      .ok false := by
    show inversionSymmetry.getItem 16 = .ok false
    rfl
  obtain ⟨d, path, hd', hk', hg⟩ := hpkot_points_oP1 x x x 90
  rw [hpts] at hd'
  rw [hk] at hk'
  cases hd'
  cases hk'
  have hx : ∃ r, extendPath false t kp e = .ok r := by
    cases t with
    | true => exact ⟨_, extend_same (.inr rfl) kp e⟩
    | false =>
      obtain ⟨-, p', e', -, h, -⟩ := extend_spec hg (allCoordinates_ok he).1
      exact ⟨_, h⟩
  obtain ⟨r, hr⟩ := hx
  refine ⟨r, ?_⟩
  unfold getPathAndPoints
  rw [box_resolve]
  simp only [h1, h2, hl, hraw, hq, he, hinv, hr, bind, Except.bind]


end Wulfric
