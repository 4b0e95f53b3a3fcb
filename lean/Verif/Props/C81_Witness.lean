import Verif.Props.C77_Total
import Verif.Props.C81_Rhombohedral

/-! # C81: rhombohedral crystals with one atom, for which the wrong cell is returned -/

namespace Wulfric

open Matrix _root_.Spec Wulfric.Spec

/-- A rhombohedral crystal (R-3m) with one atom at the origin. -/
noncomputable def rhombData (conv : Cell ℝ) : SpglibData :=
  { original := { cell := obverse conv, positions := [0], types := [1] },
    spaceGroupNumber := 166, crystalFamily := "h", centringType := "R",
    conventionalCell := conv,
    conventionalPositions := [![0, 0, 0], ![2 / 3, 1 / 3, 1 / 3], ![1 / 3, 2 / 3, 2 / 3]],
    conventionalTypes := [1, 1, 1], primitiveCell := obverse conv, primitivePositions := [0],
    primitiveTypes := [1], symprec := 1 / 10 ^ 5, angleTolerance := -1 }

theorem rhomb_resolve (lower : String → String)
    (getData : Cell ℝ → Atoms ℝ → Except Err SpglibData) (conv : Cell ℝ) :
    resolveData lower getData (obverse conv) boxAtoms (some (rhombData conv)) =
      .ok (rhombData conv) := by
  have hv : validateAtoms boxAtoms.toDict ["positions"] true = .ok true := by
    simp only [Atoms.toDict, boxAtoms]
    decide +kernel
  have hv' : validateAtoms boxAtoms.toDict [] true = .ok true := by
    simp only [Atoms.toDict, boxAtoms]
    decide +kernel
  have ho : originalData lower (obverse conv) boxAtoms = .ok (rhombData conv).original := by
    unfold originalData
    rw [hv]
    unfold getSpglibTypes
    rw [hv']
    rfl
  unfold resolveData
  rw [hv]
  simp only [bind, Except.bind]
  rw [C32_same lower _ boxAtoms _ ho]
  rfl

theorem obverse_det (conv : Cell ℝ) : (obverse conv).det = 1 / 3 * conv.det := by
  unfold obverse
  rw [det_mul]
  congr 1
  simp [det_fin_three]
  norm_num

/-- Atoms of one kind at the points of a lattice. -/
theorem crystal_one (c : Cell ℝ) (a : ℤ × (Fin 3 → ℝ)) :
    a ∈ crystal c [0] [(1 : ℤ)] ↔ a.1 = 1 ∧ a.2 ∈ latticePoints c := by
  rw [mem_latticePoints]
  constructor
  · rintro ⟨i, p, n, h1, h2, h3⟩
    rcases i with _ | i
    · simp only [List.getElem?_cons_zero, Option.some.injEq] at h1 h2
      subst h2
      exact ⟨h1.symm, n, by rw [h3]; simp⟩
    · simp at h1
  · rintro ⟨h1, n, h2⟩
    refine ⟨0, 0, n, by simp [h1], rfl, ?_⟩
    rw [h2]
    simp

theorem rhomb_atoms (conv : Cell ℝ) : crystal conv
    [![0, 0, 0], ![2 / 3, 1 / 3, 1 / 3], ![1 / 3, 2 / 3, 2 / 3]] [(1 : ℤ), 1, 1] =
      crystal (obverse conv) [0] [(1 : ℤ)] := by
  ext ⟨l, x⟩
  rw [crystal_one, obverse_lattice]
  constructor
  · rintro ⟨i, p, n, h1, h2, h3⟩
    rcases i with _ | _ | _ | i
    · simp only [List.getElem?_cons_zero, Option.some.injEq] at h1 h2
      refine ⟨h1.symm, n, _, List.mem_of_getElem? (i := 0) rfl, ?_⟩
      simp only at h3
      rw [h3, ← h2]
      funext j
      simp [cartesian, Fin.sum_univ_three]
    · simp only [List.getElem?_cons_zero, List.getElem?_cons_succ, Option.some.injEq] at h1 h2
      refine ⟨h1.symm, n, _, List.mem_of_getElem? (i := 1) rfl, ?_⟩
      simp only at h3
      rw [h3, ← h2]
      funext j
      simp [cartesian, Fin.sum_univ_three]
      ring
    · simp only [List.getElem?_cons_zero, List.getElem?_cons_succ, Option.some.injEq] at h1 h2
      refine ⟨h1.symm, n, _, List.mem_of_getElem? (i := 2) rfl, ?_⟩
      simp only at h3
      rw [h3, ← h2]
      funext j
      simp [cartesian, Fin.sum_univ_three]
      ring
    · simp at h1
  · rintro ⟨h1, n, t, ht, h2⟩
    simp only [translations, List.mem_cons, List.not_mem_nil, or_false] at ht
    rcases ht with rfl | rfl | rfl
    · refine ⟨0, _, n, by simp at h1; simp [h1], rfl, ?_⟩
      simp only at h2
      rw [h2]
      funext j
      simp [cartesian, Fin.sum_univ_three]
    · refine ⟨1, _, n, by simp at h1; simp [h1], rfl, ?_⟩
      simp only at h2
      rw [h2]
      funext j
      simp [cartesian, Fin.sum_univ_three]
      ring
    · refine ⟨2, _, n, by simp at h1; simp [h1], rfl, ?_⟩
      simp only at h2
      rw [h2]
      funext j
      simp [cartesian, Fin.sum_univ_three]
      ring

theorem round_two_thirds : npRound8 (2 / 3 : ℝ) = 66666667 / 100000000 := by
  have h : ⌊(2 / 3 * 10 ^ 8 : ℝ)⌋ = 66666666 := by
    rw [Int.floor_eq_iff]
    norm_num
  unfold npRound8 npRint
  simp only [h]
  norm_num

theorem reduce_two_thirds : pyMod1 (pyMod1 (npRound8 (2 / 3 : ℝ))) = 66666667 / 100000000 := by
  have h : ⌊(66666667 / 100000000 : ℝ)⌋ = 0 := by
    rw [Int.floor_eq_iff]
    norm_num
  rw [round_two_thirds]
  simp [pyMod1, h]

theorem reduce_zero : pyMod1 (pyMod1 (npRound8 (0 : ℝ))) = 0 := by
  simp [npRound8, npRint, pyMod1]

/-- None of the three atoms of the conventional cell is dropped. -/
theorem rhomb_unique : getUnique ([![0, 0, 0], ![2 / 3, 0, 0], ![2 / 3, 2 / 3, 0]] : List (Vec ℝ))
    [1, 1, 1] (8 / 9) (1 / 10 ^ 5) = .ok ([![0, 0, 0], ![66666667 / 100000000, 0, 0],
      ![66666667 / 100000000, 66666667 / 100000000, 0]], [1, 1, 1]) := by
  have h : npRint (8 / 9 : ℝ) = 1 := by
    have : ⌊(8 / 9 : ℝ)⌋ = 0 := by
      rw [Int.floor_eq_iff]
      norm_num
    unfold npRint
    simp only [this]
    norm_num
  have hr : ∀ x y : ℝ, reducePosition ![x, y, 0] = ![pyMod1 (pyMod1 (npRound8 x)),
      pyMod1 (pyMod1 (npRound8 y)), 0] := by
    intro x y
    funext j
    fin_cases j <;> simp [reducePosition, reduce_zero]
  unfold getUnique
  simp only [h, List.map_cons, List.map_nil, hr, reduce_zero, reduce_two_thirds]
  have h0 : sameAtom (1 / 10 ^ 5 : ℝ) ![0, 0, 0] ![66666667 / 100000000, 0, 0] = false := by
    simp [sameAtom]
    norm_num
  have h1 : sameAtom (1 / 10 ^ 5 : ℝ) ![0, 0, 0]
      ![66666667 / 100000000, 66666667 / 100000000, 0] = false := by
    simp [sameAtom]
    norm_num
  have h2 : sameAtom (1 / 10 ^ 5 : ℝ) ![66666667 / 100000000, 0, 0]
      ![66666667 / 100000000, 66666667 / 100000000, 0] = false := by
    simp [sameAtom]
    norm_num
  have hs : ∀ p q : Vec ℝ, sameAtom (1 / 10 ^ 5 : ℝ) p q = sameAtom (1 / 10 ^ 5 : ℝ) q p := by
    intro p q
    unfold sameAtom
    congr 3
    ring
  have hp : ∀ p : Vec ℝ, sameAtom (1 / 10 ^ 5 : ℝ) p p = true := by
    intro p
    norm_num [sameAtom]
  generalize (![0, 0, 0] : Vec ℝ) = a at *
  generalize (![66666667 / 100000000, 0, 0] : Vec ℝ) = b at *
  generalize (![66666667 / 100000000, 66666667 / 100000000, 0] : Vec ℝ) = c at *
  generalize (1 / 10 ^ 5 : ℝ) = tol at *
  have k0 := (hs _ _).trans h0
  have k1 := (hs _ _).trans h1
  have k2 := (hs _ _).trans h2
  rw [if_pos (by simp [nEquiv, List.countP_cons, h0, h1, h2, k0, k1, k2, hp]),
    if_neg (by simp), if_pos (by simp)]
  simp [uniqueLoop, uniqueLoopFuel, List.range_succ, h0, h1, h2, maskSelect, List.zipIdx]

/-- C81, the crystals meant: for every rhombohedral crystal with one atom a cell is returned, with
three atoms in it, though its volume is not three times that of the crystal's cell. -/
theorem C81_returned (lower : String → String)
    (getData : Cell ℝ → Atoms ℝ → Except Err SpglibData)
    (niggli : Cell ℝ → Except Err (Cell ℝ)) (conv : Cell ℝ) (hdet : conv.det ≠ 0)
    (convention : String) (hconv : lower convention = "hpkot") (hl : lower "hpkot" = "hpkot") :
    ∃ prim pa, getPrimitive lower getData niggli (obverse conv) boxAtoms convention
        (some (rhombData conv)) = .ok (prim, pa) ∧
      prim = (3 / 2 : ℝ) • obverse conv ∧ pa.positions = some [![0, 0, 0],
        ![66666667 / 100000000, 0, 0], ![66666667 / 100000000, 66666667 / 100000000, 0]] ∧
      pa.spglibTypes = some [1, 1, 1] := by
  have hres := rhomb_resolve lower getData conv
  have hm : primitiveMatrix "hpkot" "hR" =
      .ok (!![1, -1 / 2, -1 / 2; 1 / 2, 1 / 2, -1; 1 / 2, 1 / 2, 1 / 2] : Cell ℝ) := rfl
  have hmt : (!![1, -1 / 2, -1 / 2; 1 / 2, 1 / 2, -1; 1 / 2, 1 / 2, 1 / 2] : Cell ℝ).transpose *
      conv = (3 / 2 : ℝ) • obverse conv := hR_cell rfl
  have hpd : ((3 / 2 : ℝ) • obverse conv).det = 9 / 8 * conv.det := by
    rw [det_smul, obverse_det]
    simp
    ring
  have hpd0 : ((3 / 2 : ℝ) • obverse conv).det ≠ 0 := by
    rw [hpd]
    exact mul_ne_zero (by norm_num) hdet
  have hinv : npInv ((3 / 2 : ℝ) • obverse conv) = .ok ((3 / 2 : ℝ) • obverse conv)⁻¹ := by
    unfold npInv
    rw [if_neg hpd0]
  have hrep : |conv.det / ((3 / 2 : ℝ) • obverse conv).det| = 8 / 9 := by
    rw [hpd]
    rw [show conv.det / (9 / 8 * conv.det) = 8 / 9 by field_simp]
    norm_num
  have hw : ∀ p w : Vec ℝ, p ᵥ* conv = w ᵥ* ((3 / 2 : ℝ) • obverse conv) →
      vecMat (vecMat p conv) ((3 / 2 : ℝ) • obverse conv)⁻¹ = w := by
    intro p w h
    rw [vecMat_eq, vecMat_eq, h, vecMul_vecMul, mul_nonsing_inv _ (isUnit_iff_ne_zero.2 hpd0),
      vecMul_one]
  have w0 := hw ![0, 0, 0] ![0, 0, 0] (by
    funext j
    simp [Matrix.vecMul, dotProduct, Fin.sum_univ_three])
  have w1 := hw ![2 / 3, 1 / 3, 1 / 3] ![2 / 3, 0, 0] (by
    funext j
    simp [Matrix.vecMul, dotProduct, Fin.sum_univ_three, obverse]
    ring)
  have w2 := hw ![1 / 3, 2 / 3, 2 / 3] ![2 / 3, 2 / 3, 0] (by
    funext j
    simp [Matrix.vecMul, dotProduct, Fin.sum_univ_three, obverse]
    ring)
  have hp := (C36_unchanged niggli (rhombData conv)).2 (by simp [rhombData])
  have hca : getConventional lower getData niggli (obverse conv) boxAtoms "hpkot"
      (some (rhombData conv)) = .ok (conv, ⟨none, none, some [![0, 0, 0], ![2 / 3, 1 / 3, 1 / 3],
        ![1 / 3, 2 / 3, 2 / 3]], some [1, 1, 1]⟩) := by
    unfold getConventional
    simp only [hres, hl, hp, bind, Except.bind]
    rfl
  have hparts : primitiveParts lower getData niggli (obverse conv) boxAtoms "hpkot"
      (rhombData conv) = .ok ((3 / 2 : ℝ) • obverse conv, [![0, 0, 0],
        ![66666667 / 100000000, 0, 0], ![66666667 / 100000000, 66666667 / 100000000, 0]],
        [1, 1, 1]) := by
    unfold primitiveParts Atoms.getPositions
    rw [if_neg (by decide), if_pos (.inl rfl)]
    have hsym : (rhombData conv).crystalFamily ++ (rhombData conv).centringType = "hR" := by
      simp [rhombData]
    simp only [hca, hsym, hm, hmt, hinv, bind, Except.bind, List.map_cons, List.map_nil, w0, w1, w2,
      hrep, Option.getD_some]
    rw [show (rhombData conv).symprec = 1 / 10 ^ 5 from rfl, rhomb_unique]
    rfl
  refine ⟨_, ⟨none, none, some [![0, 0, 0], ![66666667 / 100000000, 0, 0],
    ![66666667 / 100000000, 66666667 / 100000000, 0]], some [1, 1, 1]⟩, ?_, rfl, rfl, rfl⟩
  unfold getPrimitive
  simp only [hres, hconv, hparts, bind, Except.bind]
  rfl

theorem rhomb_standardised (conv : Cell ℝ) : Standardised (rhombData conv).given "hR" conv
    (rhombData conv).conventionalPositions (rhombData conv).conventionalTypes (obverse conv) [0]
    [1] where
  conventional := ⟨0, by
    change crystal conv [![0, 0, 0], ![2 / 3, 1 / 3, 1 / 3], ![1 / 3, 2 / 3, 2 / 3]] [(1 : ℤ), 1, 1] =
      moved 0 (crystal (obverse conv) [0] [(1 : ℤ)])
    rw [rhomb_atoms]
    simp [moved]⟩
  primitive := ⟨0, by
    change crystal (obverse conv) [0] [(1 : ℤ)] = moved 0 (crystal (obverse conv) [0] [(1 : ℤ)])
    simp [moved]⟩
  centred := by
    intro t ht
    change Symmetry _ (crystal conv [![0, 0, 0], ![2 / 3, 1 / 3, 1 / 3], ![1 / 3, 2 / 3, 2 / 3]]
      [(1 : ℤ), 1, 1])
    rw [rhomb_atoms]
    have ht' : cartesian conv t ∈ latticePoints (obverse conv) := by
      rw [obverse_lattice]
      refine ⟨0, t, by simpa [hpkotLetter] using ht, ?_⟩
      funext j
      simp [cartesian, Fin.sum_univ_three]
    rw [mem_latticePoints] at ht'
    obtain ⟨m, hm⟩ := ht'
    ext ⟨l, x⟩
    change (l, x - cartesian conv t) ∈ crystal (obverse conv) [0] [(1 : ℤ)] ↔
      (l, x) ∈ crystal (obverse conv) [0] [(1 : ℤ)]
    rw [crystal_one, crystal_one, hm, mem_latticePoints, mem_latticePoints]
    refine and_congr_right fun _ => ⟨?_, ?_⟩
    · rintro ⟨n, hn⟩
      refine ⟨n + m, ?_⟩
      rw [sub_eq_iff_eq_add.1 hn, cartesian_vecMul, cartesian_vecMul, cartesian_vecMul, ← add_vecMul]
      have : (fun j => ((n + m) j : ℝ)) = (fun j => (n j : ℝ)) + fun j => (m j : ℝ) := by
        funext j
        simp
      rw [this]
    · rintro ⟨n, hn⟩
      refine ⟨n - m, ?_⟩
      simp only at hn ⊢
      rw [hn, ← cartesian_sub]
      congr 1
      funext j
      simp

/-- C81 for these crystals, all hypotheses met: the crystal returned is not the given one, wherever
it is moved. -/
theorem C81_wrong (lower : String → String)
    (getData : Cell ℝ → Atoms ℝ → Except Err SpglibData)
    (niggli : Cell ℝ → Except Err (Cell ℝ)) (conv : Cell ℝ) (hdet : conv.det ≠ 0)
    (convention : String) (hconv : lower convention = "hpkot") (hl : lower "hpkot" = "hpkot") :
    ∃ prim pa ps ts, getPrimitive lower getData niggli (obverse conv) boxAtoms convention
        (some (rhombData conv)) = .ok (prim, pa) ∧ pa.positions = some ps ∧
      pa.spglibTypes = some ts ∧ ∀ v,
      ¬ (NearBy (1 / 2 / 10 ^ 8) prim (crystal prim ps ts)
          (moved v (crystal (obverse conv) [0] [(1 : ℤ)])) ∧
        NearBy (1 / 2 / 10 ^ 8) prim (moved v (crystal (obverse conv) [0] [(1 : ℤ)]))
          (crystal prim ps ts)) := by
  obtain ⟨prim, pa, h1, -, h2, h3⟩ := C81_returned lower getData niggli conv hdet convention hconv hl
  refine ⟨prim, pa, _, _, h1, h2, h3, fun v => ?_⟩
  refine C81_never lower getData niggli (obverse conv) boxAtoms (some (rhombData conv))
    (rhombData conv) (.inl rfl) (by simp [rhombData]) convention hconv hl (rhomb_standardised conv)
    hdet ?_ ?_ h1 v _ _
  · refine ⟨(1, 0), (crystal_one _ _).2 ⟨rfl, 0, ?_⟩⟩
    funext j
    simp
  · intro a ha b hb
    have ha' := ((crystal_one _ _).1 ha).2
    have hb' := ((crystal_one _ _).1 hb).2
    change _ ∈ centredLattice _ conv
    rw [← obverse_lattice, mem_latticePoints]
    rw [mem_latticePoints] at ha' hb'
    obtain ⟨n, hn⟩ := ha'
    obtain ⟨m, hm⟩ := hb'
    refine ⟨n - m, ?_⟩
    rw [hn, hm, ← cartesian_sub]
    congr 1
    funext j
    simp

/-- A path is returned for these crystals, with "T" among the points: the hypotheses of `C81_T`. -/
theorem rhomb_path (lower : String → String)
    (getData : Cell ℝ → Atoms ℝ → Except Err SpglibData)
    (niggli : Cell ℝ → Except Err (Cell ℝ)) (conv : Cell ℝ) (hdet : conv.det ≠ 0)
    (hpos : ∀ i, machineEps < npNorm (conv i)) (convention : String) (hl : lower "HPKOT" = "hpkot")
    (hl' : lower "hpkot" = "hpkot") (hcv : lower convention = "hpkot") (t rel : Bool) :
    ∃ path pts, getPathAndPoints lower getData niggli (obverse conv) boxAtoms
      (some (rhombData conv)) convention t rel = .ok (path, pts) := by
  have hres := rhomb_resolve lower getData conv
  have hn : 1 ≤ (rhombData conv).spaceGroupNumber ∧ (rhombData conv).spaceGroupNumber ≤ 230 := by
    simp [rhombData]
  have hf : (rhombData conv).crystalFamily = family (rhombData conv).spaceGroupNumber := by
    change "h" = family 166
    decide +kernel
  have hc : (rhombData conv).centringType = centring (rhombData conv).spaceGroupNumber := by
    change "R" = centring 166
    decide +kernel
  have hp := (C36_unchanged niggli (rhombData conv)).2 (by simp [rhombData])
  have hca : ∀ s, lower s = "hpkot" → getConventional lower getData niggli (obverse conv) boxAtoms s
      (some (rhombData conv)) = .ok (conv, ⟨none, none, some [![0, 0, 0], ![2 / 3, 1 / 3, 1 / 3],
        ![1 / 3, 2 / 3, 2 / 3]], some [1, 1, 1]⟩) := by
    intro s hs
    unfold getConventional
    simp only [hres, hs, hp, bind, Except.bind]
    rfl
  obtain ⟨prim, pa, h3, hprim, -⟩ := C81_returned lower getData niggli conv hdet convention hcv hl'
  have hpd : prim.det ≠ 0 := by
    rw [hprim, det_smul, obverse_det]
    exact mul_ne_zero (by simp) (mul_ne_zero (by norm_num) hdet)
  obtain ⟨s, h6⟩ := C40_total lower hl getData niggli (obverse conv) boxAtoms
    (some (rhombData conv)) (rhombData conv) (.inl rfl) hn hf hc hres
    (fun _ => ⟨conv, _, hca _ hl, hpos⟩)
  obtain ⟨-, a', b', c', be', ra, rb, rg, hsym, -⟩ := C40_symbol lower hl getData niggli
    (obverse conv) boxAtoms (some (rhombData conv)) (rhombData conv) (.inl rfl) hn hf hc s h6
  obtain ⟨al, be, ga, hp⟩ := exists_params (c := conv) fun i => (machineEps_pos.trans (hpos i)).ne'
  have h8 := getParams_of_spec hp (hpos 0) (hpos 1) (hpos 2)
  obtain ⟨raw, kpath, e2, e3, e4⟩ := hpkot_points hsym (npNorm (conv 0)) (npNorm (conv 1))
    (npNorm (conv 2)) be
  obtain ⟨r, h5, -⟩ := C03_involution prim hpd
  have h4 : pathAndRawPoints lower getData niggli (obverse conv) boxAtoms (rhombData conv) conv
      (lower convention) = .ok (kpath, raw) := by
    unfold pathAndRawPoints hpkotGetPoints
    rw [if_neg (by rw [hcv]; decide), if_pos hcv]
    simp only [h6, h8, e2, e3, bind, Except.bind, pure, Except.pure]
  refine path_returned hres hn ?_ (hca _ hcv) h3 h4 h5 e4 t rel
  rw [obverse_det]
  exact mul_ne_zero (by norm_num) hdet

/-- A rhombohedral crystal in the hexagonal cell with edges 2 and 5. -/
example : ∃ path pts right v, ∃ s : ℝ, getPathAndPoints String.toLower
    (fun _ _ => .error .runtimeError) (fun c => .ok c)
    (obverse !![2, 0, 0; -1, √3, 0; 0, 0, 5]) boxAtoms
    (some (rhombData !![2, 0, 0; -1, √3, 0; 0, 0, 5])) "HPKOT" true false = .ok (path, pts) ∧
    getReciprocal (obverse !![2, 0, 0; -1, √3, 0; 0, 0, 5]) = .ok right ∧ pts.get? "T" = some v ∧
    (s = 1 ∨ s = -1) ∧ v = (1 / 3 : ℝ) • (right 0 + s • right 1 + right 2) ∧
    ¬ TimeInvariant right v := by
  have h3 : (0 : ℝ) < √3 := by positivity
  have h3' : √3 * √3 = (3 : ℝ) := Real.mul_self_sqrt (by norm_num)
  have hl : String.toLower "HPKOT" = "hpkot" := by decide +kernel
  have hl' : String.toLower "hpkot" = "hpkot" := by decide +kernel
  set c : Cell ℝ := !![2, 0, 0; -1, √3, 0; 0, 0, 5] with hc
  have hdet : c.det ≠ 0 := by
    simp [hc, det_fin_three]
  obtain ⟨path, pts, h⟩ := rhomb_path String.toLower (fun _ _ => .error .runtimeError)
    (fun c => .ok c) c hdet (by
      intro i
      refine norm_above ?_
      fin_cases i <;> simp [hc, dot, h3'] <;> norm_num) "HPKOT" hl hl' hl true false
  obtain ⟨right, v, s, k⟩ := C81_T _ _ _ _ _ (some (rhombData c)) (rhombData c) (.inl rfl)
    (by simp [rhombData]) (by change "h" = family 166; decide +kernel)
    (by change "R" = centring 166; decide +kernel)
    (by change family 166 ++ centring 166 = "hR"; decide +kernel) "HPKOT" hl hl' hl true path pts h
  exact ⟨path, pts, right, v, s, h, k⟩

end Wulfric
