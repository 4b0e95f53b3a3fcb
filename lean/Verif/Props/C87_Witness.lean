import Verif.Props.C76_Witness
import Verif.Props.C81_Witness
import Verif.Props.C87_Labels

/-! # C87: a monoclinic crystal that has the point "F3" -/

namespace Wulfric

open Matrix _root_.Spec Wulfric.Spec

/-- The conventional cell of spglib: edges 4, 2, 4, the angle between the first and the third is
120 degrees. -/
noncomputable def cellM : Cell ℝ := !![4, 0, 0; 0, 2, 0; -2, 0, 2 * √3]

/-- The primitive cell. -/
noncomputable def primM : Cell ℝ := !![2, 1, 0; -2, 1, 0; -2, 0, 2 * √3]

/-- The conventional cell of Setyawan and Curtarolo. -/
noncomputable def convM : Cell ℝ := !![0, 2, 0; -4, 0, 0; -2, 0, 2 * √3]

/-- The primitive cell of Setyawan and Curtarolo. -/
noncomputable def scPrimM : Cell ℝ := !![-2, 1, 0; -2, -1, 0; -2, 0, 2 * √3]

/-- A crystal of the group C2/m with one atom at the origin. -/
noncomputable def dataM : SpglibData :=
  { original := { cell := primM, positions := [0], types := [1] },
    spaceGroupNumber := 12, crystalFamily := "m", centringType := "C",
    conventionalCell := cellM, conventionalPositions := [![0, 0, 0], ![1 / 2, 1 / 2, 0]],
    conventionalTypes := [1, 1], primitiveCell := primM, primitivePositions := [0],
    primitiveTypes := [1], symprec := 1 / 10 ^ 5, angleTolerance := -1 }

theorem sqrt3 : √3 * √3 = (3 : ℝ) := Real.mul_self_sqrt (by norm_num)

theorem sqrt3_pos : (0 : ℝ) < √3 := by positivity

theorem resolveM (lower : String → String) (getData : Cell ℝ → Atoms ℝ → Except Err SpglibData) :
    resolveData lower getData primM boxAtoms (some dataM) = .ok dataM := by
  have hv : validateAtoms boxAtoms.toDict ["positions"] true = .ok true := by
    simp only [Atoms.toDict, boxAtoms]
    decide +kernel
  have hv' : validateAtoms boxAtoms.toDict [] true = .ok true := by
    simp only [Atoms.toDict, boxAtoms]
    decide +kernel
  have ho : originalData lower primM boxAtoms = .ok dataM.original := by
    unfold originalData
    rw [hv]
    unfold getSpglibTypes
    rw [hv']
    rfl
  unfold resolveData
  rw [hv]
  simp only [bind, Except.bind]
  rw [C32_same lower _ boxAtoms _ ho]
  rfl

theorem primM_det : primM.det ≠ 0 := by
  simp [primM, det_fin_three]

theorem cellM_det : cellM.det ≠ 0 := by
  simp [cellM, det_fin_three]

/-- A vector of the primitive lattice in terms of the conventional cell. -/
theorem primM_cartesian (n : Fin 3 → ℝ) : cartesian primM n =
    cartesian cellM ![(n 0 - n 1) / 2, (n 0 + n 1) / 2, n 2] := by
  funext j
  fin_cases j <;> simp [cartesian, primM, cellM] <;> ring

theorem atomsM : crystal cellM [![0, 0, 0], ![1 / 2, 1 / 2, 0]] [(1 : ℤ), 1] =
    crystal primM [0] [(1 : ℤ)] := by
  ext ⟨l, x⟩
  rw [crystal_one, mem_latticePoints]
  simp only [primM_cartesian]
  constructor
  · rintro ⟨i, p, n, h1, h2, h3⟩
    rcases i with _ | _ | i
    · simp only [List.getElem?_cons_zero, Option.some.injEq] at h1 h2
      refine ⟨h1.symm, ![n 0 + n 1, n 1 - n 0, n 2], ?_⟩
      simp only at h3
      rw [h3, ← h2]
      congr 1
      funext j
      fin_cases j <;> simp <;> ring
    · simp only [List.getElem?_cons_zero, List.getElem?_cons_succ, Option.some.injEq] at h1 h2
      refine ⟨h1.symm, ![n 0 + n 1 + 1, n 1 - n 0, n 2], ?_⟩
      simp only at h3
      rw [h3, ← h2]
      congr 1
      funext j
      fin_cases j <;> simp <;> ring
    · simp at h1
  · rintro ⟨h1, n, h2⟩
    change l = 1 at h1
    change x = _ at h2
    subst h1
    rcases Int.even_or_odd (n 0 + n 1) with ⟨m, hm⟩ | ⟨m, hm⟩
    · refine ⟨0, _, ![m - n 1, m, n 2], rfl, rfl, ?_⟩
      change x = _
      rw [h2]
      have hm' : (n 0 : ℝ) + n 1 = m + m := by exact_mod_cast hm
      congr 1
      funext j
      fin_cases j <;> simp <;> linarith
    · refine ⟨1, _, ![m - n 1, m, n 2], rfl, rfl, ?_⟩
      change x = _
      rw [h2]
      have hm' : (n 0 : ℝ) + n 1 = 2 * m + 1 := by exact_mod_cast hm
      congr 1
      funext j
      fin_cases j <;> simp <;> linarith

theorem soundM : SoundData dataM boxAtoms where
  number := by simp [dataM]
  family := by change "m" = family 12; decide +kernel
  centring := by change "C" = centring 12; decide +kernel
  types := by intro l hl; cases hl; rfl
  names := by intro l hl; cases hl
  species := by intro l hl; cases hl
  standardised := by
    refine ⟨⟨0, ?_⟩, ⟨0, ?_⟩, ?_⟩
    · change crystal cellM [![0, 0, 0], ![1 / 2, 1 / 2, 0]] [(1 : ℤ), 1] =
        moved 0 (crystal primM [0] [(1 : ℤ)])
      rw [atomsM]
      simp [moved]
    · change crystal primM [0] [(1 : ℤ)] = moved 0 (crystal primM [0] [(1 : ℤ)])
      simp [moved]
    · intro t ht
      change t ∈ translations ℝ (hpkotLetter (family 12 ++ centring 12)) at ht
      rw [show hpkotLetter (family 12 ++ centring 12) = 'C' by decide +kernel] at ht
      change Symmetry _ (crystal cellM [![0, 0, 0], ![1 / 2, 1 / 2, 0]] [(1 : ℤ), 1])
      rw [atomsM]
      have ht' : ∃ m : Fin 3 → ℤ, cartesian cellM t = cartesian primM fun j => (m j : ℝ) := by
        simp only [translations, List.mem_cons, List.not_mem_nil, or_false] at ht
        rcases ht with rfl | rfl
        · refine ⟨0, ?_⟩
          rw [primM_cartesian]
          congr 1
          funext j
          fin_cases j <;> simp
        · refine ⟨![1, 0, 0], ?_⟩
          rw [primM_cartesian]
          congr 1
          funext j
          fin_cases j <;> simp
      obtain ⟨m, hm⟩ := ht'
      ext ⟨l, x⟩
      change (l, x - cartesian cellM t) ∈ crystal primM [0] [(1 : ℤ)] ↔
        (l, x) ∈ crystal primM [0] [(1 : ℤ)]
      rw [crystal_one, crystal_one, hm, mem_latticePoints, mem_latticePoints]
      refine and_congr_right fun _ => ⟨?_, ?_⟩
      · rintro ⟨n, hn⟩
        refine ⟨n + m, ?_⟩
        rw [sub_eq_iff_eq_add.1 hn, cartesian_vecMul, cartesian_vecMul, cartesian_vecMul,
          ← add_vecMul]
        have : (fun j => ((n + m) j : ℝ)) = (fun j => (n j : ℝ)) + fun j => (m j : ℝ) := by
          funext j
          simp
        rw [this]
      · rintro ⟨n, hn⟩
        refine ⟨n - m, ?_⟩
        simp only at hn ⊢
        rw [hn, ← cartesian_sub]
        congr 1
        funext j
        simp
  conventional_det := cellM_det
  primitive_det := primM_det
  conventional_len := rfl
  primitive_len := rfl
  conventional_distinct := by
    intro i j p q hp hq ⟨n, hn⟩
    change ([![0, 0, 0], ![1 / 2, 1 / 2, 0]] : List (Vec ℝ))[i]? = some p at hp
    change ([![0, 0, 0], ![1 / 2, 1 / 2, 0]] : List (Vec ℝ))[j]? = some q at hq
    have h0 := hn 0
    have half : ∀ z : ℤ, (z : ℝ) ≠ 1 / 2 ∧ (z : ℝ) ≠ -(1 / 2) := by
      intro z
      constructor
      · intro h
        have : (2 * z : ℤ) = 1 := by
          have : (2 * z : ℝ) = 1 := by rw [h]; norm_num
          exact_mod_cast this
        omega
      · intro h
        have : (2 * z : ℤ) = -1 := by
          have : (2 * z : ℝ) = -1 := by rw [h]; norm_num
          exact_mod_cast this
        omega
    rcases i with _ | _ | i <;> rcases j with _ | _ | j <;> simp at hp hq <;> subst hp hq <;>
      simp at h0 ⊢
    · exact (half (n 0)).2 (by rw [← h0]; norm_num)
    · exact (half (n 0)).1 (by rw [← h0]; norm_num)
  primitive_distinct := by
    intro i j p q hp hq _
    have one : ∀ (k : ℕ) (t : Vec ℝ), ([0] : List (Vec ℝ))[k]? = some t → k = 0 := by
      intro k t hk
      rcases k with _ | k
      · rfl
      · simp at hk
    rw [one i p hp, one j q hq]
  conventional_some := by simp [dataM]
  primitive_some := by simp [dataM]
  symprec := by simp [dataM]

/-! ### The conventional cell -/

theorem cellM_params : HasParams cellM 4 2 4 90 120 90 := by
  have h3 := sqrt3
  refine ⟨by norm_num, by norm_num, by norm_num, ?_, ?_, ?_, ⟨by norm_num, by norm_num, ?_⟩,
    ⟨by norm_num, by norm_num, ?_⟩, ⟨by norm_num, by norm_num, ?_⟩⟩
  · simp [cellM, dot]; norm_num
  · simp [cellM, dot]; norm_num
  · simp [cellM, dot]; nlinarith
  · simp [cellM, dot, cos_90]
  · rw [cos_120]
    have e1 : dot (cellM 0) (cellM 0) = 4 ^ 2 := by simp [cellM, dot]; norm_num
    have e2 : dot (cellM 2) (cellM 2) = 4 ^ 2 := by simp [cellM, dot]; nlinarith
    rw [e1, e2, Real.sqrt_sq (by norm_num)]
    simp [cellM, dot]
    norm_num
  · simp [cellM, dot, cos_90]

theorem convM_params : HasParams convM 2 4 4 60 90 90 := by
  have h3 := sqrt3
  refine ⟨by norm_num, by norm_num, by norm_num, ?_, ?_, ?_, ⟨by norm_num, by norm_num, ?_⟩,
    ⟨by norm_num, by norm_num, ?_⟩, ⟨by norm_num, by norm_num, ?_⟩⟩
  · simp [convM, dot]; norm_num
  · simp [convM, dot]; norm_num
  · simp [convM, dot]; nlinarith
  · rw [cos_60]
    have e1 : dot (convM 1) (convM 1) = 4 ^ 2 := by simp [convM, dot]; norm_num
    have e2 : dot (convM 2) (convM 2) = 4 ^ 2 := by simp [convM, dot]; nlinarith
    rw [e1, e2, Real.sqrt_sq (by norm_num)]
    simp [convM, dot]
    norm_num
  · simp [convM, dot, cos_90]
  · simp [convM, dot, cos_90]

theorem eps2 : machineEps < 2 := machineEps_lt_one.trans (by norm_num)
theorem eps4 : machineEps < 4 := machineEps_lt_one.trans (by norm_num)

theorem convM_sc : scConventionalNoHR cellM "m" "C" (1 / 10 ^ 4) = .ok convM := by
  have e : applyT !![0, -1, 0; 1, 0, 0; 0, 0, 1] cellM = convM := by
    ext i j
    fin_cases i <;> fin_cases j <;>
      simp [applyT, cellM, convM, Matrix.mul_apply, Fin.sum_univ_three]
  have p1 := getParams_of_spec cellM_params eps4 eps2 eps4
  have p2 := getParams_of_spec convM_params eps2 eps4 eps4
  have s1 : monoclinicStep1 90 120 90 "C" (1 / 10 ^ 4) = .ok !![0, -1, 0; 1, 0, 0; 0, 0, 1] := by
    unfold monoclinicStep1
    norm_num [cwt]
  have s2 : cwt (60 : ℝ) .le 90 (1 / 10 ^ 4) = true := by norm_num [cwt]
  unfold scConventionalNoHR
  rw [if_neg (by simp), if_neg (by decide), if_pos rfl]
  unfold scConventionalM
  simp only [p1, s1, e, p2, bind, Except.bind, pure, Except.pure]
  rw [if_pos (.inr trivial), applyT_one]
  simp only [p2, s2, if_true, applyT_one]

/-- The reciprocal cell of the conventional one. -/
noncomputable def recipM : Cell ℝ := (2 * Real.pi) • !![0, 1 / 2, 0; -1 / 4, 0, -√3 / 12; 0, 0, √3 / 6]

/-- The reciprocal cell of the primitive one. -/
noncomputable def recipPrimM : Cell ℝ := (2 * Real.pi) • !![-1 / 4, 1 / 2, -√3 / 12;
  -1 / 4, -1 / 2, -√3 / 12; 0, 0, √3 / 6]

theorem recip_of {c r : Cell ℝ} (hc : c.det ≠ 0) (h : r * c.transpose = (2 * Real.pi) • 1) :
    getReciprocal c = .ok r := by
  obtain ⟨r', hr, -, hu⟩ := C02_dual_unique _ hc
  rw [hr]
  congr 1
  symm
  apply hu
  rw [isDual_iff]
  exact h

theorem convM_det : convM.det ≠ 0 := by
  simp [convM, det_fin_three]

theorem scPrimM_det : scPrimM.det ≠ 0 := by
  simp [scPrimM, det_fin_three]

theorem recipM_eq : getReciprocal convM = .ok recipM := by
  have h3 := sqrt3
  refine recip_of convM_det ?_
  ext i j
  fin_cases i <;> fin_cases j <;>
    simp [recipM, convM, Matrix.mul_apply, Fin.sum_univ_three, Matrix.smul_apply] <;>
    (try ring_nf) <;> (try norm_num [Real.sq_sqrt]) <;> (try ring_nf)

theorem recipPrimM_eq : getReciprocal scPrimM = .ok recipPrimM := by
  have h3 := sqrt3
  refine recip_of scPrimM_det ?_
  ext i j
  fin_cases i <;> fin_cases j <;>
    simp [recipPrimM, scPrimM, Matrix.mul_apply, Fin.sum_univ_three, Matrix.smul_apply] <;>
    (try ring_nf) <;> (try norm_num [Real.sq_sqrt]) <;> (try ring_nf)

theorem recipM_long (i : Fin 3) : machineEps < npNorm (recipM i) := by
  have h3 := sqrt3
  have hp := Real.pi_gt_three
  refine norm_above ?_
  have h4 : 2 * Real.pi * (√3 / 6) * (2 * Real.pi * (√3 / 6)) = Real.pi * Real.pi / 3 := by
    linear_combination (Real.pi * Real.pi / 9) * h3
  fin_cases i <;> simp [recipM, dot] <;> nlinarith

theorem recipPrimM_long (i : Fin 3) : machineEps < npNorm (recipPrimM i) := by
  have h3 := sqrt3
  have hp := Real.pi_gt_three
  refine norm_above ?_
  have h4 : 2 * Real.pi * (√3 / 6) * (2 * Real.pi * (√3 / 6)) = Real.pi * Real.pi / 3 := by
    linear_combination (Real.pi * Real.pi / 9) * h3
  fin_cases i <;> simp [recipPrimM, dot] <;> nlinarith

theorem recipPrimM_dot : dot (recipPrimM 0) (recipPrimM 1) < 0 := by
  have h3 := sqrt3
  have hp := Real.pi_gt_three
  have : dot (recipPrimM 0) (recipPrimM 1) = -(2 * Real.pi) ^ 2 / 6 := by
    simp [recipPrimM, dot]
    ring_nf
    norm_num [Real.sq_sqrt]
    ring
  rw [this]
  nlinarith

theorem matrixM {m : Cell ℝ} (h : primitiveMatrix "sc" "mC" = .ok m) : m.transpose * convM = scPrimM := by
  have : primitiveMatrix "sc" "mC" = .ok (!![1 / 2, -1 / 2, 0; 1 / 2, 1 / 2, 0; 0, 0, 1] : Cell ℝ) := by
    unfold primitiveMatrix
    rw [if_neg (by decide)]
    rfl
  rw [this] at h
  cases h
  ext i j
  fin_cases i <;> fin_cases j <;>
    simp [convM, scPrimM, Matrix.mul_apply, Fin.sum_univ_three] <;> norm_num

theorem scPrimM_lattice : SameLattice primM scPrimM := by
  ext v
  rw [mem_latticePoints, mem_latticePoints]
  constructor
  · rintro ⟨n, rfl⟩
    refine ⟨![n 1, -n 0, n 2], ?_⟩
    funext j
    fin_cases j <;> simp [cartesian, primM, scPrimM] <;> ring
  · rintro ⟨n, rfl⟩
    refine ⟨![-n 1, n 0, n 2], ?_⟩
    funext j
    fin_cases j <;> simp [cartesian, primM, scPrimM] <;> ring

theorem sparseM (tol : ℝ) (h : tol < 1) : Sparse tol scPrimM (crystal primM [0] [(1 : ℤ)]) := by
  have : crystal primM [0] [(1 : ℤ)] = crystal scPrimM [0] [(1 : ℤ)] := by
    ext a
    rw [crystal_one, crystal_one, scPrimM_lattice]
  rw [this]
  exact one_sparse scPrimM_det tol h

/-! ### The points -/

theorem keys_of_raw {cell r : Cell ℝ} {rel : Bool} : ∀ {raw pts : PyDict String (Vec ℝ)},
    allCoordinates cell r rel raw = .ok pts → pts.keys = raw.keys
  | [], pts, h => by cases h; rfl
  | (m, v) :: raw, pts, h => by
    unfold allCoordinates at h
    simp only [bind, Except.bind, pure, Except.pure] at h
    cases h1 : pointCoordinates cell r rel v with
    | error e => simp [h1] at h
    | ok w =>
    cases h2 : allCoordinates cell r rel raw with
    | error e => simp [h1, h2] at h
    | ok others =>
    simp only [h1, h2, Except.ok.injEq] at h
    subst h
    simpa [PyDict.keys] using keys_of_raw h2

theorem variationM {t s a b c al kp ka kb kg : ℝ} {v : String}
    (h : ScVariation "mC" t s a b c al kp ka kb kg v) (hk : 90 - s ≤ kp) :
    v = "MCLC1" ∨ v = "MCLC2" := by
  cases h <;> first
    | exact .inl rfl
    | exact .inr rfl
    | (exfalso; linarith)
    | (exfalso; simp_all)

/-- The last steps of the choice of path and points. -/
theorem rawM {v kpath : String} {raw : PyDict String (Vec ℝ)} (hv : v = "MCLC1" ∨ v = "MCLC2")
    (h : (match scGetPoints convM "mC" (some v) with
      | .error e => .error e
      | .ok points => match scDefaultKPaths.getItem v with
        | .error e => .error e
        | .ok kpath => .ok (kpath, points) : Except Err (String × PyDict String (Vec ℝ))) =
        .ok (kpath, raw)) : "F3" ∈ raw.keys := by
  have p : scGetPoints convM "mC" (some v) = .ok (scTable17 2 4 4 60) := by
    unfold scGetPoints
    rw [getParams_of_spec convM_params eps2 eps4 eps4]
    change scPointsOf 2 4 4 60 "MCLC" (some v) = _
    rcases hv with rfl | rfl <;> simp [scPointsOf]
  rw [p] at h
  cases h1 : scDefaultKPaths.getItem v with
  | error e => simp [h1] at h
  | ok q =>
    simp only [h1, Except.ok.injEq, Prod.mk.injEq] at h
    rw [← h.2]
    simp [scTable17, PyDict.keys]

/-- C87: the hypotheses of `C87_F3` are met: this crystal has "F3". -/
theorem C87_F3_witness (n : ℤ) : ∃ k, Kpoints.fromCrystal String.toLower
    (fun _ _ => .error .runtimeError) (fun c => .ok c) primM boxAtoms "SC" true n (some dataM) =
      .ok k ∧ "F3" ∈ k.hsNames ∧ k.hsLabels.get? "F3" = some (typeset "F4") ∧
      typeset "F4" ≠ typeset "F3" := by
  have hl : String.toLower "SC" = "sc" := by decide +kernel
  have hh : String.toLower "HPKOT" = "hpkot" := by decide +kernel
  have hres := resolveM String.toLower fun _ _ => .error .runtimeError
  have hinv : npInv convM = .ok convM⁻¹ := by simp only [npInv, convM_det, if_false]
  have hparts : ∃ ps, conventionalParts (fun c => .ok c) (String.toLower "SC") dataM =
      .ok (convM, ps, [1, 1]) := by
    rw [hl]
    unfold conventionalParts
    rw [if_neg (by decide), if_pos rfl, if_neg (by rintro ⟨e, -⟩; exact absurd e (by decide))]
    have ha : angleTol dataM = 1 / 10 ^ 4 := by simp [angleTol, dataM]
    have hc : scConventionalNoHR dataM.conventionalCell dataM.crystalFamily dataM.centringType
        (angleTol dataM) = .ok convM := by rw [ha]; exact convM_sc
    rw [hc]
    simp only [bind, Except.bind, pure, Except.pure, rebase, hinv]
    exact ⟨_, rfl⟩
  obtain ⟨ps, hparts⟩ := hparts
  obtain ⟨ca, hca⟩ := C77_conventional hres soundM hparts
  obtain ⟨xa, xb, xc, hk⟩ : ∃ xa xb xc, HasParams recipM (npNorm (recipM 0)) (npNorm (recipM 1))
      (npNorm (recipM 2)) xa xb xc :=
    exists_params fun i => (machineEps_pos.trans (recipM_long i)).ne'
  have hsp : ∀ matrix, primitiveMatrix (String.toLower "SC")
      (dataM.crystalFamily ++ dataM.centringType) = .ok matrix →
      Sparse (dataM.symprec + 1 / 10 ^ 8) (matrix.transpose * convM) dataM.given := by
    intro m hm
    rw [hl] at hm
    rw [matrixM hm]
    exact sparseM _ (by norm_num [dataM])
  have hnig : ∀ r r' : Cell ℝ, (Except.ok r : Except Err (Cell ℝ)) = .ok r' → SameLattice r r' := by
    intro r r' h
    cases h
    rfl
  obtain ⟨path, pts, hpts⟩ := (C77_sc hres soundM hl (by decide +kernel) hl hnig hres primM_det
    (1 / 10 ^ 4) (by norm_num) (fun _ => rfl) (fun h => absurd rfl h) hca convM_params eps2 eps4 eps4
    recipM_eq hk (recipM_long 0) (recipM_long 1) (recipM_long 2) (fun m hm => ⟨hsp m hm, fun r' h i => by
      rw [hl] at hm
      rw [matrixM hm, recipPrimM_eq] at h
      cases h
      exact recipPrimM_long i⟩) true true).1
    (by rintro (⟨e, -⟩ | ⟨e, -⟩ | ⟨e, -⟩ | ⟨e, -⟩) <;> exact absurd e (by decide))
  obtain ⟨prim, pa, h3, -, matrix, q2, q3⟩ := C77_primitive hres soundM hnig hres (.inr hl)
    (by decide +kernel) (fun e => absurd (hl.symm.trans e) (by decide)) hca hsp
  rw [hl] at q2
  have hF : "F3" ∈ pts.keys := by
    have h := hpts
    unfold getPathAndPoints at h
    simp only [hres, hca, h3, bind, Except.bind] at h
    cases h4 : pathAndRawPoints String.toLower (fun _ _ => .error .runtimeError) (fun c => .ok c)
        primM boxAtoms dataM convM (String.toLower "SC") with
    | error e => simp [h4] at h
    | ok res =>
    obtain ⟨kpath, raw⟩ := res
    simp only [h4] at h
    cases h5 : getReciprocal prim with
    | error e => simp [h5] at h
    | ok rp =>
    simp only [h5] at h
    cases h6 : allCoordinates primM rp true raw with
    | error e => simp [h6] at h
    | ok pts' =>
    simp only [h6] at h
    have hraw : "F3" ∈ raw.keys := by
      unfold pathAndRawPoints at h4
      rw [if_pos hl] at h4
      simp only [bind, Except.bind, pure, Except.pure] at h4
      cases h7 : scGetVariation String.toLower (fun _ _ => .error .runtimeError) (fun c => .ok c)
          primM boxAtoms (some dataM) with
      | error e => simp [h7] at h4
      | ok v =>
      obtain ⟨s, rfl, -, a, b, c, al, kp, ka, kb, kg, hs, hw⟩ := C41_variation String.toLower hl _ _ _ _
        (some dataM) dataM (.inl rfl) soundM.number soundM.family soundM.centring (1 / 10 ^ 4)
        (by norm_num) (fun _ => rfl) (fun h => absurd rfl h) v h7
      obtain ⟨conv', at', be, ga, g1, -, g2, -⟩ := hw (by decide)
      obtain ⟨prim', at'', r, x, y, z, p, q, g3, g4, g5⟩ := g2 (by decide)
      rw [h3] at g3
      cases g3
      rw [q3, matrixM q2, recipPrimM_eq] at g4
      cases g4
      have hkp := obtuse_of_dot g5.gamma recipPrimM_dot
      simp only [h7] at h4
      have hm : dataM.crystalFamily ++ dataM.centringType = "mC" := by decide
      rw [hm] at h4 hs
      refine rawM (variationM hs (by linarith)) (kpath := kpath) ?_
      rw [← h4]
      cases scGetPoints convM "mC" (some s) with
      | error e => rfl
      | ok a => cases scDefaultKPaths.getItem s <;> rfl
    rw [← keys_of_raw h6] at hraw
    cases h8 : inversionSymmetry.getItem dataM.spaceGroupNumber with
    | error e => simp [h8] at h
    | ok inv =>
    simp only [h8, extendPath, Bool.not_true, Bool.and_false, Bool.false_eq_true, if_false, pure,
      Except.pure] at h
    cases h
    exact hraw
  obtain ⟨r, hr, -⟩ := C03_involution primM primM_det
  obtain ⟨k, e1, -, -, -, e2, -⟩ := C45_from_crystal String.toLower hh hl _ _ _ _ (some dataM) dataM
    (.inl rfl) soundM.number soundM.family soundM.centring (.inl rfl) "SC" true n path pts hpts r hr
  refine ⟨k, e1, e2 ▸ hF, ?_⟩
  exact C87_F3 String.toLower hh hl _ _ _ _ (some dataM) dataM (.inl rfl) soundM.number soundM.family
    soundM.centring (.inl rfl) "SC" true n k e1 (e2 ▸ hF)

end Wulfric
