import Verif.Lemmas.Scale
import Verif.Lemmas.Samples
import Verif.Lemmas.NiggliScale
import Verif.Props.C62_Rotation

/-!
# C72: another unit of length

The cell is multiplied by `s > 0`; spglib finds the same symmetry in both units (`SameSymmetry`).
"Whenever both calls return" (`BothReturn`): `get_angle` refuses vectors shorter than `2^-52` in
any unit, and a tolerance in the wrong unit may make one of the calls fail.
-/

namespace Wulfric

open Matrix _root_.Spec Wulfric.Spec

variable {s : ℝ} {lib : SpglibLib} {lower : String → String} {symprec₁ symprec₂ angtol : ℝ}

/-- C72, `get_params`: lengths times `s`, the same angles, for vectors longer than the machine
epsilon in both units. -/
theorem C72_params (hs : 0 < s) (cell : Cell ℝ) (h1 : ∀ i, machineEps < npNorm (cell i))
    (h2 : ∀ i, machineEps < s * npNorm (cell i)) :
    getParams (s • cell) = (getParams cell).map fun p =>
      (s * p.1, s * p.2.1, s * p.2.2.1, p.2.2.2) := by
  have ok : ∀ c : Cell ℝ, (∀ i, machineEps < npNorm (c i)) → ∃ p, getParams c = .ok p := by
    intro c hc
    unfold getParams
    simp only [getAngle_val (hc 1) (hc 2), getAngle_val (hc 0) (hc 2), getAngle_val (hc 0) (hc 1),
      bind, Except.bind, Bool.false_eq_true, if_false]
    exact ⟨_, rfl⟩
  obtain ⟨p, hp⟩ := ok cell h1
  obtain ⟨q, hq⟩ := ok (s • cell) (fun i => by rw [smul_row, npNorm_scale hs]; exact h2 i)
  rw [hp, hq, getParams_scale hs cell p q hp hq]
  rfl

/-- C72, `get_reciprocal`: the reciprocal cell is divided by `s`. -/
theorem C72_reciprocal (hs : s ≠ 0) (cell : Cell ℝ) :
    getReciprocal (s • cell) = (getReciprocal cell).map fun r => s⁻¹ • r :=
  getReciprocal_scale hs cell

/-- C72, `get_spglib_data`: the cells are multiplied by `s`, all the rest is the same. -/
theorem C72_spglib_data (cell : Cell ℝ) (atoms : Atoms ℝ)
    (h : SameSymmetry lib s symprec₁ symprec₂ angtol cell) :
    getSpglibData lib lower (s • cell) atoms symprec₂ angtol =
      (getSpglibData lib lower cell atoms symprec₁ angtol).map fun d =>
        { d with original := { d.original with cell := s • d.original.cell },
                 conventionalCell := s • d.conventionalCell,
                 primitiveCell := s • d.primitiveCell, symprec := symprec₂ } := by
  unfold getSpglibData originalData
  cases validateAtoms atoms.toDict ["positions"] true with
  | error e => rfl
  | ok u =>
    simp only [bind, Except.bind]
    cases atoms.getPositions with
    | error e => rfl
    | ok ps =>
      simp only
      cases getSpglibTypes lower atoms with
      | error e => rfl
      | ok types =>
        simp only [pure, Except.pure, h.dataset, h.primitive]
        cases lib.symDataset cell ps types symprec₁ angtol with
        | none => rfl
        | some d =>
          simp only [Option.map]
          cases crystalFamily.getItem d.number with
          | error e => rfl
          | ok f =>
            simp only
            cases centringType.getItem d.number with
            | error e => rfl
            | ok c =>
              simp only
              cases lib.findPrimitive cell ps types symprec₁ angtol with
              | none => rfl
              | some p => simp [Except.map, Matrix.smul_mul]

theorem spglibData_symprec {cell : Cell ℝ} {atoms : Atoms ℝ} {d : SpglibData} {t a : ℝ}
    (h : getSpglibData lib lower cell atoms t a = .ok d) : d.symprec = t := by
  unfold getSpglibData at h
  cases ho : originalData lower cell atoms with
  | error e => rw [ho] at h; cases h
  | ok o =>
    simp only [ho, bind, Except.bind] at h
    split at h
    · cases h
    · split at h
      · cases h
      · split at h
        · cases h
        · split at h
          · cases h
          · cases h; rfl

theorem resolve_none {G : Cell ℝ → Atoms ℝ → Except Err SpglibData} {cell : Cell ℝ}
    {atoms : Atoms ℝ} {d : SpglibData} (h : resolveData lower G cell atoms none = .ok d) :
    G cell atoms = .ok d := by
  unfold resolveData at h
  cases hv : validateAtoms atoms.toDict ["positions"] true with
  | error e => rw [hv] at h; cases h
  | ok u => simpa [hv, bind, Except.bind] using h

theorem dataScale_none (cell : Cell ℝ) (atoms : Atoms ℝ)
    (h : SameSymmetry lib s symprec₁ symprec₂ angtol cell) :
    DataScale (lower := lower) s symprec₂ (fun c a => getSpglibData lib lower c a symprec₁ angtol)
      (fun c a => getSpglibData lib lower c a symprec₂ angtol) cell atoms none none := by
  intro a b h1 h2
  have e := C72_spglib_data (lower := lower) cell atoms h
  rw [resolve_none h1, resolve_none h2] at e
  cases e; rfl

section Crystal

variable {niggli : Cell ℝ → Except Err (Cell ℝ)}

theorem niggliOk_none {cell : Cell ℝ} {atoms : Atoms ℝ} {t : ℝ}
    (hn : ∀ d, getSpglibData lib lower cell atoms t angtol = .ok d → d.crystalFamily = "a" →
      NiggliAt s niggli d.conventionalCell) :
    NiggliOk lower s niggli (fun c a => getSpglibData lib lower c a t angtol) cell atoms none :=
  fun d hd => hn d (resolve_none hd)

/-- C72, `get_conventional` and `get_primitive`, every convention: the cells are multiplied by `s`,
and the atoms are the same (for the primitive cell: with the same value of `symprec`, since the
code compares relative coordinates with it). For the HPKOT cell of a triclinic crystal,
`niggli` has to do the same (`C72_niggli_partial`). -/
theorem C72_cells (hs : 0 < s) (cell : Cell ℝ) (atoms : Atoms ℝ)
    (h : SameSymmetry lib s symprec₁ symprec₂ angtol cell)
    (hn : ∀ d, getSpglibData lib lower cell atoms symprec₁ angtol = .ok d → d.crystalFamily = "a" →
      NiggliAt s niggli d.conventionalCell) (convention : String) :
    let G := fun t c a => getSpglibData lib lower c a t angtol
    (∀ p q, getConventional lower (G symprec₁) niggli cell atoms convention none = .ok p →
      getConventional lower (G symprec₂) niggli (s • cell) atoms convention none = .ok q →
      q.1 = s • p.1 ∧ q.2 = p.2) ∧
    ∀ p q, getPrimitive lower (G symprec₁) niggli cell atoms convention none = .ok p →
      getPrimitive lower (G symprec₂) niggli (s • cell) atoms convention none = .ok q →
      q.1 = s • p.1 ∧ (symprec₁ = symprec₂ → q.2 = p.2) := by
  intro G
  refine ⟨fun p q hp hq => ?_, fun p q hp hq => ?_⟩
  · have := getConventional_scale hs cell atoms (dataScale_none cell atoms h)
      (niggliOk_none hn) convention p q hp hq
    rw [this]; exact ⟨rfl, rfl⟩
  · obtain ⟨e1, e2⟩ := getPrimitive_scale hs cell atoms (dataScale_none cell atoms h)
      (niggliOk_none hn) convention
      p q hp hq
    exact ⟨e1, fun e => e2 fun d hd => by rw [spglibData_symprec (resolve_none hd), e]⟩

/-- C72: the extended Bravais lattice symbol (HPKOT) is the same, for every `symprec`. -/
theorem C72_symbol (hs : 0 < s) (cell : Cell ℝ) (atoms : Atoms ℝ)
    (h : SameSymmetry lib s symprec₁ symprec₂ angtol cell)
    (hn : ∀ d, getSpglibData lib lower cell atoms symprec₁ angtol = .ok d → d.crystalFamily = "a" →
      NiggliAt s niggli d.conventionalCell) :
    let G := fun t c a => getSpglibData lib lower c a t angtol
    ∀ p q, hpkotGetExtendedBlSymbol lower (G symprec₁) niggli cell atoms none = .ok p →
      hpkotGetExtendedBlSymbol lower (G symprec₂) niggli (s • cell) atoms none = .ok q → q = p :=
  fun p q hp hq => symbol_scale hs cell atoms (dataScale_none cell atoms h)
      (niggliOk_none hn) p q hp hq

/-- C72: the variation (SC) is the same, except that for a face-centred orthorhombic lattice the
number `1/a² - 1/b² - 1/c²` has to be larger than `symprec` in both units: the full statement is
refuted by `C72_orcf_refuted`. -/
theorem C72_variation_partial (hs : 0 < s) (cell : Cell ℝ)
    (atoms : Atoms ℝ) {symprec : ℝ} (h : SameSymmetry lib s symprec symprec angtol cell)
    (hn : ∀ d, getSpglibData lib lower cell atoms symprec angtol = .ok d → d.crystalFamily = "a" →
      NiggliAt s niggli d.conventionalCell)
    (hc : ∀ d p, getSpglibData lib lower cell atoms symprec angtol = .ok d →
      getConventional lower (fun c a => getSpglibData lib lower c a symprec angtol) niggli cell
        atoms "SC" (some d) = .ok p → ScClear s d p.1) :
    let G := fun c a => getSpglibData lib lower c a symprec angtol
    ∀ p q, scGetVariation lower G niggli cell atoms none = .ok p →
      scGetVariation lower G niggli (s • cell) atoms none = .ok q → q = p :=
  fun p q hp hq => variation_scale hs cell atoms (dataScale_none cell atoms h)
      (niggliOk_none hn)
    (fun _ hd => spglibData_symprec (resolve_none hd))
    (fun d u hd hu => hc d u (resolve_none hd) hu) p q hp hq

/-- C72, `get_path_and_points`: the same path, the same names, the same relative coordinates;
absolute coordinates are divided by `s`. For HPKOT without any condition (`ConventionClear` is about
SC only: there `symprec` has to be the same number and the test of the face-centred orthorhombic
lattices clear). -/
theorem C72_path_and_points_partial (hs : 0 < s) (cell : Cell ℝ)
    (atoms : Atoms ℝ) (h : SameSymmetry lib s symprec₁ symprec₂ angtol cell)
    (hn : ∀ d, getSpglibData lib lower cell atoms symprec₁ angtol = .ok d → d.crystalFamily = "a" →
      NiggliAt s niggli d.conventionalCell) (convention : String)
    (hc : ∀ d, getSpglibData lib lower cell atoms symprec₁ angtol = .ok d →
      ConventionClear lower niggli s symprec₂ cell atoms
        (fun c a => getSpglibData lib lower c a symprec₁ angtol) convention d)
    (withTimeReversal relative : Bool) :
    let G := fun t c a => getSpglibData lib lower c a t angtol
    ∀ p q, getPathAndPoints lower (G symprec₁) niggli cell atoms none convention withTimeReversal
        relative = .ok p →
      getPathAndPoints lower (G symprec₂) niggli (s • cell) atoms none convention withTimeReversal
        relative = .ok q →
      q.1 = p.1 ∧ q.2 = if relative then p.2 else p.2.map fun x => (x.1, s⁻¹ • x.2) := by
  intro G p q hp hq
  have := pathAndPoints_scale hs cell atoms (dataScale_none cell atoms h)
      (niggliOk_none hn) convention
    (fun d hd => hc d (resolve_none hd)) withTimeReversal relative p q hp hq
  rw [this]
  exact ⟨rfl, rfl⟩

/-- C72, `Kpoints.from_crystal`: the reciprocal cell is divided by `s`; the points, their names and
labels, the path and the numbers of points are the same. -/
theorem C72_kpoints_partial (hs : 0 < s) (cell : Cell ℝ)
    (atoms : Atoms ℝ) (h : SameSymmetry lib s symprec₁ symprec₂ angtol cell)
    (hn : ∀ d, getSpglibData lib lower cell atoms symprec₁ angtol = .ok d → d.crystalFamily = "a" →
      NiggliAt s niggli d.conventionalCell) (convention : String)
    (hc : ∀ d, getSpglibData lib lower cell atoms symprec₁ angtol = .ok d →
      ConventionClear lower niggli s symprec₂ cell atoms
        (fun c a => getSpglibData lib lower c a symprec₁ angtol) convention d)
    (withTimeReversal : Bool) (n : ℤ) :
    let G := fun t c a => getSpglibData lib lower c a t angtol
    ∀ p q, Kpoints.fromCrystal lower (G symprec₁) niggli cell atoms convention withTimeReversal n
        none = .ok p →
      Kpoints.fromCrystal lower (G symprec₂) niggli (s • cell) atoms convention withTimeReversal n
        none = .ok q →
      q = { p with rcell := s⁻¹ • p.rcell } :=
  fun p q hp hq => fromCrystal_scale hs cell atoms (dataScale_none cell atoms h)
      (niggliOk_none hn) convention
    (fun d hd => hc d (resolve_none hd)) withTimeReversal n p q hp hq

/-- C72, HPKOT: the condition of the two theorems above is void. -/
theorem C72_hpkot_unconditional {t : ℝ} {cell : Cell ℝ} {atoms : Atoms ℝ}
    {G : Cell ℝ → Atoms ℝ → Except Err SpglibData} {convention : String}
    (hl : lower convention = "hpkot") (d : SpglibData) :
    ConventionClear lower niggli s t cell atoms G convention d := by
  intro h
  rw [hl] at h
  exact absurd h (by decide)

end Crystal

/-- C72, `get_niggli`: for separated scalar products (in both units) the whole call is the same,
for every limit of iterations; the full statement is refuted by `C72_niggli_refuted`. -/
theorem C72_niggli_partial (hs : 0 < s) (sp : Cell ℝ → ℝ → Except Err (Cell ℝ)) (cell : Cell ℝ)
    (e : ℝ) (impl : String) (hi : IsWulfric impl) (spacing₁ spacing₂ : ℝ)
    (h₁ : Separated spacing₁ (absTol cell e) (1 / 10 ^ 8) cell)
    (h₂ : Separated spacing₂ (absTol (s • cell) e) (1 / 10 ^ 8) (s • cell)) (m : ℤ) :
    getNiggli sp (s • cell) e impl m = (getNiggli sp cell e impl m).map fun r => s • r := by
  have hdet : (s • cell).det = s ^ 3 * cell.det := by simp [det_smul]
  by_cases hd : cell.det = 0
  · unfold getNiggli IsWulfric at *
    simp only [hdet, hd, hi, mul_zero, abs_zero]
    rfl
  · have hd' : (s • cell).det ≠ 0 := by rw [hdet]; positivity
    rw [getNiggli_eq_core sp _ e impl hi m hd', getNiggli_eq_core sp _ e impl hi m hd, h₁.loop,
      h₂.loop, core_scale hs.ne']

/-- C72 is false for `get_niggli` in general: a cell of a simple cubic lattice is reduced when the
lengths are given in one unit, and the call raises `NiggliReductionFailed` for every limit of
iterations when they are given in a unit 20 times larger. -/
theorem C72_niggli_refuted : ∃ cell : Cell ℝ, cell.det ≠ 0 ∧ ∀ sp,
    (∀ m : ℤ, 100 ≤ m → ∃ r, getNiggli sp cell defaultRel "wulfric" m = .ok r ∧ IsNiggli r) ∧
    ∀ m : ℤ, getNiggli sp ((1 / 20 : ℝ) • cell) defaultRel "wulfric" m =
      .error .niggliReductionFailed := by
  have hW : IsWulfric "wulfric" := by unfold IsWulfric; decide +kernel
  have run : ∃ r, niggliCore (!![1, 0, 0; 1, 1, 0; 1, 1, 1] : Cell ℚ) (1 / 10 ^ 5) (1 / 10 ^ 8) 100 =
      .ok r := by
    have : (match niggliCore (!![1, 0, 0; 1, 1, 0; 1, 1, 1] : Cell ℚ) (1 / 10 ^ 5) (1 / 10 ^ 8) 100 with
      | .ok _ => true
      | .error _ => false) = true := by decide +kernel
    split at this
    · rename_i r hr; exact ⟨r, hr⟩
    · exact absurd this (by simp)
  obtain ⟨r, hr⟩ := run
  have hm : (!![1, 0, 0; 1, 1, 0; 1, 1, 1] : Cell ℚ).map (fun x : ℚ => (x : ℝ)) =
      !![1, 0, 0; 1, 1, 0; 1, 1, 1] := by
    ext i j
    fin_cases i <;> fin_cases j <;> simp
  have hd : (!![1, 0, 0; 1, 1, 0; 1, 1, 1] : Cell ℝ).det = 1 := by simp [det_fin_three]
  have ht : absTol (!![1, 0, 0; 1, 1, 0; 1, 1, 1] : Cell ℝ) defaultRel = 1 / 10 ^ 5 := by
    rw [absTol_of_cube _ _ 1 zero_le_one (by rw [hd]; norm_num)]
    unfold defaultRel
    norm_num
  have hsep : Separated 1 (1 / 10 ^ 5) (1 / 10 ^ 8) (!![1, 0, 0; 1, 1, 0; 1, 1, 1] : Cell ℝ) := by
    refine integer_separated _ ?_ _ _ (by norm_num) (by norm_num) (by norm_num) (by norm_num)
    intro i j
    refine ⟨(!![1, 0, 0; 1, 1, 0; 1, 1, 1] : Matrix (Fin 3) (Fin 3) ℤ) i j, ?_⟩
    fin_cases i <;> fin_cases j <;> simp
  have hW14 : (1 / 20 : ℝ) • (!![1, 0, 0; 1, 1, 0; 1, 1, 1] : Cell ℝ) =
      cellW14.map (fun x : ℚ => (x : ℝ)) := by
    ext i j
    fin_cases i <;> fin_cases j <;> simp [cellW14]
  have hd14 : (cellW14.map (fun x : ℚ => (x : ℝ))).det = (1 / 20) ^ 3 := by
    simp [cellW14, det_fin_three]; norm_num
  refine ⟨!![1, 0, 0; 1, 1, 0; 1, 1, 1], by rw [hd]; norm_num, fun sp => ⟨fun m h => ?_, fun m => ?_⟩⟩
  · have := core_cast (K := ℝ) !![1, 0, 0; 1, 1, 0; 1, 1, 1] (1 / 10 ^ 5) (1 / 10 ^ 8) 100
    rw [hr, hm] at this
    push_cast at this
    refine ⟨r.map (fun x : ℚ => (x : ℝ)), ?_⟩
    have hk : getNiggli sp !![1, 0, 0; 1, 1, 0; 1, 1, 1] defaultRel "wulfric" m =
        .ok (r.map (fun x : ℚ => (x : ℝ))) := by
      rw [getNiggli_eq_core sp _ _ "wulfric" hW m (by rw [hd]; norm_num), ht]
      exact C12_monotone _ _ _ 100 m h _ this
    exact ⟨hk, C13_getNiggli_partial sp _ _ _ hW m _ 1 (by rw [ht]; exact hsep) hk⟩
  · rw [hW14, getNiggli_eq_core sp _ _ "wulfric" hW m (by rw [hd14]; norm_num),
      absTol_of_cube _ _ (1 / 20) (by norm_num) (by rw [hd14, abs_of_pos (by norm_num)])]
    have := core_cast (K := ℝ) cellW14 (1 / 10 ^ 5 * (1 / 20)) (1 / 10 ^ 8) m
    rw [run_W14] at this
    push_cast at this
    unfold defaultRel
    exact this

/-! ## Le Page -/

/-- C72, `lepage`: in both units the same list of results, or the same error, except that the
names MCL, MCLC and TRI may be exchanged: to tell these three apart the code compares a scalar
product of two lattice vectors with the tolerance for angles. -/
theorem C72_lepage_partial (hs : 0 < s) {niggli : Cell ℝ → Except Err (Cell ℝ)} (fuel : ℕ)
    (cell : Cell ℝ) (tol : ℝ) (noNiggli : Bool) (limit : ℝ)
    (hn : noNiggli = false → niggli (s • cell) = (niggli cell).map fun r => s • r) :
    (lepage niggli fuel cell tol noNiggli limit = none ∧
      lepage niggli fuel (s • cell) tol noNiggli limit = none) ∨
    (∃ e, lepage niggli fuel cell tol noNiggli limit = some (.error e) ∧
      lepage niggli fuel (s • cell) tol noNiggli limit = some (.error e)) ∨
    ∃ a b, List.Forall₂ AlmostSame a b ∧
      lepage niggli fuel cell tol noNiggli limit = some (.ok a) ∧
      lepage niggli fuel (s • cell) tol noNiggli limit = some (.ok b) := by
  have hc : lepageCell niggli (s • cell) noNiggli =
      (lepageCell niggli cell noNiggli).map fun r => s • r := by
    unfold lepageCell
    cases noNiggli with
    | true => rfl
    | false =>
      rw [hn rfl]
      simp only [Bool.false_eq_true, if_false]
      cases niggli cell with
      | error e => cases e <;> rfl
      | ok r => rfl
  unfold lepage
  rw [hc]
  cases lepageCell niggli cell noNiggli with
  | error e => exact Or.inr (Or.inl ⟨e, rfl, rfl⟩)
  | ok c =>
    simp only [Except.map, lepageAxes_scale hs]
    cases lepageAxes c limit with
    | error e => exact Or.inr (Or.inl ⟨e, rfl, rfl⟩)
    | ok axes => exact lepageLoop_scale (fun l => classifyAxes_scale hs c _ _ l) fuel axes

/-! ## The witness: a face-centred orthorhombic lattice -/

/-- A library that finds space group 22 (F222) in every cell. -/
noncomputable def orthoLib : SpglibLib where
  symDataset c _ _ _ _ := some ⟨22, c, 1, [0], [1]⟩
  findPrimitive c _ _ _ _ := some (c, [0], [1])

theorem ortho_same (s a b t : ℝ) (cell : Cell ℝ) : SameSymmetry orthoLib s a b t cell :=
  ⟨fun _ _ => rfl, fun _ _ => rfl⟩

theorem ortho_data (lower : String → String) (x y z : ℝ) :
    getSpglibData orthoLib lower !![x, 0, 0; 0, y, 0; 0, 0, z] boxAtoms (1 / 10 ^ 5) (-1) =
      .ok (boxData x y z 22 "o" "F") := by
  have h3 : crystalFamily.getItem 22 = .ok "o" := by decide +kernel
  have h4 : centringType.getItem 22 = .ok "F" := by decide +kernel
  unfold getSpglibData
  rw [box_original lower x y z 22 "o" "F"]
  simp only [bind, Except.bind, orthoLib, h3, h4, pure, Except.pure, boxData, Matrix.mul_one]

theorem ortho_conventional (lower : String → String) (hl : lower "SC" = "sc")
    (niggli : Cell ℝ → Except Err (Cell ℝ)) {x y z : ℝ} (hx : machineEps < x) (hxy : x < y)
    (hyz : y < z) : ∃ a, getConventional lower
      (fun c a => getSpglibData orthoLib lower c a (1 / 10 ^ 5) (-1)) niggli
      !![x, 0, 0; 0, y, 0; 0, 0, z] boxAtoms "SC" (some (boxData x y z 22 "o" "F")) =
      .ok (!![x, 0, 0; 0, y, 0; 0, 0, z], a) := by
  have hp := box_params x y z hx (hx.trans hxy) ((hx.trans hxy).trans hyz)
  have x0 : 0 < x := machineEps_pos.trans hx
  have hdet : (!![x, 0, 0; 0, y, 0; 0, 0, z] : Cell ℝ).det ≠ 0 := by
    have y0 := x0.trans hxy
    have z0 := y0.trans hyz
    simp only [det_fin_three]
    simp
    exact ⟨⟨x0.ne', y0.ne'⟩, z0.ne'⟩
  exact box_conventional lower
    (fun c a => getSpglibData orthoLib lower c a (1 / 10 ^ 5) (-1)) niggli x y z 22 "o" "F" "SC"
    !![x, 0, 0; 0, y, 0; 0, 0, z] [vecMat (vecMat 0 !![x, 0, 0; 0, y, 0; 0, 0, z])
      (!![x, 0, 0; 0, y, 0; 0, 0, z])⁻¹] (by
      rw [hl]
      unfold conventionalParts
      rw [if_neg (by decide), if_pos rfl, if_neg (by simp [boxData])]
      have e : scConventionalNoHR !![x, 0, 0; 0, y, 0; 0, 0, z] "o" "F" (angleTol (boxData x y z 22 "o" "F")) =
          .ok !![x, 0, 0; 0, y, 0; 0, 0, z] := by
        unfold scConventionalNoHR
        rw [if_neg (by decide), if_pos rfl, if_pos (by decide)]
        unfold scConventionalOPFI
        simp only [hp, bind, Except.bind, hxy, hyz, and_self, if_true, applyT_one, pure, Except.pure]
      rw [show scConventionalNoHR (boxData x y z 22 "o" "F").conventionalCell
        (boxData x y z 22 "o" "F").crystalFamily (boxData x y z 22 "o" "F").centringType
        (angleTol (boxData x y z 22 "o" "F")) = _ from e]
      simp only [boxData, bind, Except.bind, rebase, npInv, hdet, if_false, pure, Except.pure, List.map_cons,
        List.map_nil])

theorem ortho_variation (lower : String → String) (hl : lower "SC" = "sc")
    (niggli : Cell ℝ → Except Err (Cell ℝ)) {x y z : ℝ} (hx : machineEps < x) (hxy : x < y)
    (hyz : y < z) :
    scGetVariation lower (fun c a => getSpglibData orthoLib lower c a (1 / 10 ^ 5) (-1)) niggli
      !![x, 0, 0; 0, y, 0; 0, 0, z] boxAtoms none = orcfVariation x y z (1 / 10 ^ 5) := by
  have hp := box_params x y z hx (hx.trans hxy) ((hx.trans hxy).trans hyz)
  have hv : validateAtoms boxAtoms.toDict ["positions"] true = .ok true := by
    simp only [Atoms.toDict, boxAtoms]
    decide +kernel
  obtain ⟨a, ha⟩ := ortho_conventional lower hl niggli hx hxy hyz
  unfold scGetVariation resolveData
  rw [hv]
  simp only [bind, Except.bind, ortho_data]
  rw [if_pos (show (boxData x y z 22 "o" "F").crystalFamily ++
    (boxData x y z 22 "o" "F").centringType ∈ ["tI", "oF", "hR", "mC", "aP"] from
    (by decide : "o" ++ "F" ∈ ["tI", "oF", "hR", "mC", "aP"]))]
  simp only [ha]
  unfold scVariationOf
  simp only [hp, bind, Except.bind]
  rw [if_neg (show ¬ (boxData x y z 22 "o" "F").crystalFamily ++
    (boxData x y z 22 "o" "F").centringType = "tI" from (by decide : ¬ "o" ++ "F" = "tI")),
    if_pos (show (boxData x y z 22 "o" "F").crystalFamily ++
    (boxData x y z 22 "o" "F").centringType = "oF" from (by decide : "o" ++ "F" = "oF"))]
  rfl

/-- C72 is false for the variation of a face-centred orthorhombic lattice: 3 x 4 x 5 (nm) is ORCF1
and the same lattice in a unit 100 times smaller is ORCF3, with the default tolerance: the code
compares `1/a² - 1/b² - 1/c²` with a length. Hence `get_path_and_points` returns another path. -/
theorem C72_orcf_refuted (lower : String → String) (hl : lower "SC" = "sc")
    (niggli : Cell ℝ → Except Err (Cell ℝ)) :
    ∃ (lib : SpglibLib) (cell : Cell ℝ) (atoms : Atoms ℝ),
      SameSymmetry lib 100 (1 / 10 ^ 5) (1 / 10 ^ 5) (-1) cell ∧
      scGetVariation lower (fun c a => getSpglibData lib lower c a (1 / 10 ^ 5) (-1)) niggli cell
        atoms none = .ok (some "ORCF1") ∧
      scGetVariation lower (fun c a => getSpglibData lib lower c a (1 / 10 ^ 5) (-1)) niggli
        ((100 : ℝ) • cell) atoms none = .ok (some "ORCF3") := by
  have he : machineEps < 1 := by unfold machineEps; norm_num
  have e : (100 : ℝ) • (!![3, 0, 0; 0, 4, 0; 0, 0, 5] : Cell ℝ) =
      !![300, 0, 0; 0, 400, 0; 0, 0, 500] := by
    ext i j
    match i, j with
    | 0, 0 => simp; norm_num
    | 0, 1 => simp
    | 0, 2 => simp
    | 1, 0 => simp
    | 1, 1 => simp; norm_num
    | 1, 2 => simp
    | 2, 0 => simp
    | 2, 1 => simp
    | 2, 2 => simp; norm_num
  refine ⟨orthoLib, !![3, 0, 0; 0, 4, 0; 0, 0, 5], boxAtoms, ortho_same _ _ _ _ _, ?_, ?_⟩
  · rw [ortho_variation lower hl niggli (by linarith) (by norm_num) (by norm_num)]
    unfold orcfVariation
    norm_num [cwt]
  · rw [e, ortho_variation lower hl niggli (by linarith) (by norm_num) (by norm_num)]
    unfold orcfVariation
    norm_num [cwt]

/-! ## The hypotheses are met -/

/-- The Niggli reduction of wulfric meets the condition of the theorems above on triclinic crystals
when the scalar products of the reciprocal cell are separated in both units. -/
theorem C72_niggli_at (hs : 0 < s) (sp : Cell ℝ → ℝ → Except Err (Cell ℝ)) (c : Cell ℝ) (e : ℝ)
    (m : ℤ) (spacing₁ spacing₂ : ℝ)
    (h : ∀ r, getReciprocal c = .ok r → Separated spacing₁ (absTol r e) (1 / 10 ^ 8) r ∧
      Separated spacing₂ (absTol (s⁻¹ • r) e) (1 / 10 ^ 8) (s⁻¹ • r)) :
    NiggliAt s (fun x => getNiggli sp x e "wulfric" m) c := by
  intro r hr
  obtain ⟨h1, h2⟩ := h r hr
  exact both_of_eq (C72_niggli_partial (inv_pos.2 hs) sp r e "wulfric"
    (by unfold IsWulfric; decide +kernel) _ _ h1 h2 m)

/-- The lengths in angstrom and in nanometre. -/
example : getParams ((10 : ℝ) • !![3, 0, 0; 0, 4, 0; 0, 0, 5]) =
    (getParams !![3, 0, 0; 0, 4, 0; 0, 0, 5]).map fun p =>
      (10 * p.1, 10 * p.2.1, 10 * p.2.2.1, p.2.2.2) := by
  have he : machineEps < 1 := by unfold machineEps; norm_num
  have h : ∀ i, 1 ≤ npNorm ((!![3, 0, 0; 0, 4, 0; 0, 0, 5] : Cell ℝ) i) := by
    intro i
    unfold npNorm
    refine Real.le_sqrt_of_sq_le ?_
    rw [npDot_eq_dot]
    match i with
    | 0 => simp [dot]; norm_num
    | 1 => simp [dot]; norm_num
    | 2 => simp [dot]; norm_num
  exact C72_params (by norm_num) _ (fun i => by linarith [h i]) (fun i => by linarith [h i])

/-- All the hypotheses of `C72_variation_partial` together, for a crystal on which both calls
return. -/
example (lower : String → String) (hl : lower "SC" = "sc")
    (niggli : Cell ℝ → Except Err (Cell ℝ)) :
    let G := fun c a => getSpglibData orthoLib lower c a (1 / 10 ^ 5) (-1)
    (∀ d, G !![3, 0, 0; 0, 4, 0; 0, 0, 5] boxAtoms = .ok d → d.crystalFamily = "a" →
      NiggliAt 2 niggli d.conventionalCell) ∧
    (∀ d p, G !![3, 0, 0; 0, 4, 0; 0, 0, 5] boxAtoms = .ok d →
      getConventional lower G niggli !![3, 0, 0; 0, 4, 0; 0, 0, 5] boxAtoms "SC" (some d) = .ok p →
      ScClear 2 d p.1) ∧
    scGetVariation lower G niggli !![3, 0, 0; 0, 4, 0; 0, 0, 5] boxAtoms none =
      .ok (some "ORCF1") ∧
    scGetVariation lower G niggli !![6, 0, 0; 0, 8, 0; 0, 0, 10] boxAtoms none =
      .ok (some "ORCF1") := by
  have he : machineEps < 1 := by unfold machineEps; norm_num
  intro G
  refine ⟨?_, ?_, ?_, ?_⟩
  · intro d hd ha
    have := ortho_data lower 3 4 5
    rw [show G !![3, 0, 0; 0, 4, 0; 0, 0, 5] boxAtoms = _ from this] at hd
    cases hd
    exact absurd ha (by decide : ¬ "o" = "a")
  · intro d p hd hp _ q hq
    rw [show G !![3, 0, 0; 0, 4, 0; 0, 0, 5] boxAtoms = _ from ortho_data lower 3 4 5] at hd
    cases hd
    obtain ⟨a, ha⟩ := ortho_conventional lower hl niggli (x := 3) (y := 4) (z := 5) (by linarith)
      (by norm_num) (by norm_num)
    rw [show getConventional lower G niggli _ _ _ _ = _ from ha] at hp
    cases hp
    simp only at hq
    rw [box_params 3 4 5 (by linarith) (by linarith) (by linarith)] at hq
    cases hq
    unfold ClearOrcf
    refine ⟨by simp only [boxData]; norm_num, ?_, ?_⟩ <;>
    · simp only [boxData]
      rw [abs_of_pos (by norm_num)]
      norm_num
  · rw [ortho_variation lower hl niggli (by linarith) (by norm_num) (by norm_num)]
    unfold orcfVariation
    norm_num [cwt]
  · rw [ortho_variation lower hl niggli (by linarith) (by norm_num) (by norm_num)]
    unfold orcfVariation
    norm_num [cwt]

/-- Integer scalar products are separated in the unit and in a unit two times smaller. -/
example : Separated 1 (1 / 10 ^ 5) (1 / 10 ^ 8) (!![1, 0, 0; 1, 1, 0; 3, 2, 1] : Cell ℝ) ∧
    Separated 1 (2 / 10 ^ 5) (1 / 10 ^ 8) ((2 : ℝ) • !![1, 0, 0; 1, 1, 0; 3, 2, 1] : Cell ℝ) := by
  refine ⟨integer_separated _ ?_ _ _ (by norm_num) (by norm_num) (by norm_num) (by norm_num),
    integer_separated _ ?_ _ _ (by norm_num) (by norm_num) (by norm_num) (by norm_num)⟩
  · intro i j
    refine ⟨(!![1, 0, 0; 1, 1, 0; 3, 2, 1] : Matrix (Fin 3) (Fin 3) ℤ) i j, ?_⟩
    fin_cases i <;> fin_cases j <;> simp
  · intro i j
    refine ⟨2 * (!![1, 0, 0; 1, 1, 0; 3, 2, 1] : Matrix (Fin 3) (Fin 3) ℤ) i j, ?_⟩
    fin_cases i <;> fin_cases j <;> simp <;> norm_num

end Wulfric
