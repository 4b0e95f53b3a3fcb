import Verif.Props.C76_Trim
import Verif.Props.C77_Total

/-! # C76: a crystal with the symbol aP2, one of whose time-reversal-invariant momenta is missing -/

namespace Wulfric

open Matrix _root_.Spec Wulfric.Spec

/-- The cell of the crystal. -/
noncomputable abbrev cellP : Cell ℝ := !![1, 1 / 10, 41 / 400; 0, 1 / 3, 1 / 120; 0, 0, 1 / 4]

/-- Its reciprocal cell. -/
noncomputable abbrev recipP : Cell ℝ :=
  (2 * Real.pi) • !![1, 0, 0; -3 / 10, 3, 0; -2 / 5, -1 / 10, 4]

/-- The permutation made by the convention. -/
abbrev permP : Matrix (Fin 3) (Fin 3) ℤ := !![0, 0, 1; 1, 0, 0; 0, 1, 0]

theorem cellP_det : cellP.det ≠ 0 := by
  simp [cellP, det_fin_three]

theorem cellP_recip : getReciprocal cellP = .ok recipP := by
  obtain ⟨r, hr, -, hu⟩ := C02_dual_unique _ cellP_det
  rw [hr]
  congr 1
  symm
  apply hu
  rw [isDual_iff]
  ext i j
  fin_cases i <;> fin_cases j <;>
    simp [Matrix.mul_apply, Fin.sum_univ_three, Matrix.smul_apply] <;> ring

theorem recipP_back : getReciprocal recipP = .ok cellP := by
  obtain ⟨r, e1, -, e2⟩ := C03_involution cellP cellP_det
  rw [cellP_recip] at e1
  cases e1
  exact e2

theorem permP_rows (c : Cell ℝ) : applyT permP c = !![c 1 0, c 1 1, c 1 2; c 2 0, c 2 1, c 2 2;
    c 0 0, c 0 1, c 0 2] := by
  ext i j
  fin_cases i <;> fin_cases j <;>
    simp [applyT, permP, Matrix.mul_apply, Fin.sum_univ_three]

theorem permP_recip : getReciprocal (applyT permP cellP) = .ok (applyT permP recipP) :=
  recip_applyT _ (by decide) _ _ cellP_recip

theorem permP_entries : applyT permP recipP = (2 * Real.pi) • !![-3 / 10, 3, 0;
    -2 / 5, -1 / 10, 4; 1, 0, 0] := by
  rw [permP_rows]
  ext i j
  fin_cases i <;> fin_cases j <;> simp [Matrix.smul_apply]

theorem obtuse_of_dot {u v : Vec ℝ} {t : ℝ} (h : AngleDeg u v t) (hd : dot u v < 0) : 90 ≤ t := by
  by_contra hlt
  push Not at hlt
  have hc : 0 ≤ Real.cos (t * (Real.pi / 180)) := by
    apply Real.cos_nonneg_of_neg_pi_div_two_le_of_le
    · have := Real.pi_pos
      nlinarith [h.1]
    · have := Real.pi_pos
      nlinarith
  have := h.2.2
  have h2 : 0 ≤ dot u v := by
    rw [this]
    positivity
  linarith

theorem permP_params : ∃ a b c al be ga, getParams (applyT permP recipP) =
    .ok (a, b, c, al, be, ga) ∧ 90 ≤ al ∧ 90 ≤ be ∧ 90 ≤ ga := by
  have hpi := Real.pi_gt_three
  have hlen : ∀ i, machineEps < npNorm (applyT permP recipP i) := by
    intro i
    refine norm_above ?_
    rw [permP_entries]
    fin_cases i <;> simp [dot, Matrix.smul_apply] <;> nlinarith
  obtain ⟨al, be, ga, hp⟩ := exists_params (c := applyT permP recipP) fun i =>
    (machineEps_pos.trans (hlen i)).ne'
  refine ⟨_, _, _, al, be, ga, getParams_of_spec hp (hlen 0) (hlen 1) (hlen 2),
    obtuse_of_dot hp.alpha ?_, obtuse_of_dot hp.beta ?_, obtuse_of_dot hp.gamma ?_⟩
  all_goals
    rw [permP_entries]
    simp [dot, Matrix.smul_apply]
    nlinarith

theorem cellP_conventional : hpkotConventionalA (fun r => .ok r) cellP = .ok (applyT permP cellP) := by
  obtain ⟨a, b, c, al, be, ga, hp, h1, h2, h3⟩ := permP_params
  have hpi := Real.pi_gt_three
  have hdot : dotMatrix |npDot (recipP 1) (recipP 2)| |npDot (recipP 0) (recipP 2)|
      |npDot (recipP 0) (recipP 1)| = .ok permP := by
    unfold dotMatrix
    rw [if_pos]
    simp only [npDot_eq, dot]
    simp [recipP, Matrix.smul_apply]
    constructor
    all_goals
      rw [abs_of_nonpos (by nlinarith), abs_of_nonneg (by nlinarith)]
      nlinarith
  have hsign : signMatrix al be ga = .ok 1 := by
    unfold signMatrix
    rw [if_pos (.inr ⟨h1, h2, h3⟩)]
  unfold hpkotConventionalA
  simp only [cellP_recip, recipP_back, hdot, permP_recip, hp, hsign, applyT_one, bind, Except.bind,
    pure, Except.pure]

theorem cellP_len (i : Fin 3) : machineEps < npNorm (applyT permP cellP i) := by
  rw [npNorm_eq, Real.lt_sqrt machineEps_pos.le, permP_rows]
  unfold machineEps
  fin_cases i <;> simp [dot] <;> norm_num

theorem cellP_sparse (tol : ℝ) (h : tol < 1) :
    Sparse tol (applyT permP cellP) (crystal cellP [0] [(1 : ℤ)]) := by
  intro a ha b hb e he hxy
  refine one_sparse cellP_det tol h a ha b hb ![e 2, e 0, e 1] (fun j => ?_) ?_
  · fin_cases j
    · exact he 2
    · exact he 0
    · exact he 1
  · rw [hxy, permP_rows]
    ext j
    fin_cases j <;> simp [cartesian] <;> ring

theorem cellP_symbol : hpkotTriclinicSymbol (applyT permP cellP) = .ok "aP2" := by
  obtain ⟨a, b, c, al, be, ga, hp, h1, h2, h3⟩ := permP_params
  unfold hpkotTriclinicSymbol
  simp only [permP_recip, hp, bind, Except.bind, if_pos (And.intro h1 (And.intro h2 h3)), pure,
    Except.pure]

theorem recipP_short : ∀ g ∈ latticePoints (applyT permP recipP), g = 0 ∨
    g = applyT permP recipP 2 ∨ g = -applyT permP recipP 2 ∨
    dot (applyT permP recipP 2) (applyT permP recipP 2) < dot g g := by
  intro g hg
  obtain ⟨n, hn⟩ := (mem_latticePoints _ _).1 hg
  have hpi := Real.pi_gt_three
  have e : g = (2 * Real.pi) • ![-3 / 10 * (n 0 : ℝ) - 2 / 5 * n 1 + n 2, 3 * n 0 - 1 / 10 * n 1,
      4 * n 1] := by
    rw [hn, permP_entries]
    ext j
    fin_cases j <;> simp [cartesian, Matrix.smul_apply] <;> ring
  have sq : dot g g = (2 * Real.pi) ^ 2 * ((-3 / 10 * (n 0 : ℝ) - 2 / 5 * n 1 + n 2) ^ 2 +
      (3 * n 0 - 1 / 10 * n 1) ^ 2 + 16 * (n 1 : ℝ) ^ 2) := by
    rw [e]
    simp [dot]
    ring
  have s2 : dot (applyT permP recipP 2) (applyT permP recipP 2) = (2 * Real.pi) ^ 2 := by
    rw [permP_entries]
    simp [dot, Matrix.smul_apply]
    ring
  have big : 1 < (-3 / 10 * (n 0 : ℝ) - 2 / 5 * n 1 + n 2) ^ 2 +
      (3 * n 0 - 1 / 10 * n 1) ^ 2 + 16 * (n 1 : ℝ) ^ 2 →
      dot (applyT permP recipP 2) (applyT permP recipP 2) < dot g g := by
    intro h
    rw [s2, sq]
    have : 0 < (2 * Real.pi) ^ 2 := by positivity
    nlinarith
  have one : ∀ m : ℤ, m ≠ 0 → (1 : ℝ) ≤ (m : ℝ) ^ 2 := by
    intro m hm
    have : 1 ≤ m ^ 2 := by nlinarith [Int.one_le_abs hm, sq_abs m, abs_nonneg m]
    exact_mod_cast this
  by_cases h1 : n 1 = 0
  · by_cases h0 : n 0 = 0
    · by_cases h2 : n 2 = 0
      · left
        rw [e, h0, h1, h2]
        ext j
        fin_cases j <;> simp
      · by_cases h3 : n 2 = 1
        · right; left
          rw [e, h0, h1, h3, permP_entries]
          ext j
          fin_cases j <;> simp [Matrix.smul_apply]
        · by_cases h4 : n 2 = -1
          · right; right; left
            rw [e, h0, h1, h4, permP_entries]
            ext j
            fin_cases j <;> simp [Matrix.smul_apply]
          · right; right; right
            apply big
            rw [h0, h1]
            have : (4 : ℝ) ≤ (n 2 : ℝ) ^ 2 := by
              have : 4 ≤ n 2 ^ 2 := by
                rcases lt_or_gt_of_ne h2 with q | q
                · have : n 2 ≤ -2 := by omega
                  nlinarith
                · have : 2 ≤ n 2 := by omega
                  nlinarith
              exact_mod_cast this
            push_cast
            nlinarith
    · right; right; right
      apply big
      rw [h1]
      have := one _ h0
      push_cast
      nlinarith [sq_nonneg (-3 / 10 * (n 0 : ℝ) + n 2)]
  · right; right; right
    apply big
    have := one _ h1
    nlinarith [sq_nonneg (-3 / 10 * (n 0 : ℝ) - 2 / 5 * n 1 + n 2),
      sq_nonneg (3 * (n 0 : ℝ) - 1 / 10 * n 1)]

/-- C76 does not hold without the exception: for one atom in a triclinic cell, half of the shortest
reciprocal vector is a time-reversal-invariant momentum to which no point returned is equivalent. -/
theorem C76_aP2_witness (t : Bool) : ∃ path pts prim pa r k,
    getPathAndPoints String.toLower (fun _ _ => .error .runtimeError) (fun c => .ok c) cellP
      boxAtoms (some (oneData cellP 2 "a" "P")) "HPKOT" t false = .ok (path, pts) ∧
    getPrimitive String.toLower (fun _ _ => .error .runtimeError) (fun c => .ok c) cellP
      boxAtoms "HPKOT" (some (oneData cellP 2 "a" "P")) = .ok (prim, pa) ∧
    getReciprocal prim = .ok r ∧ TimeInvariant r k ∧
    ∀ name v, pts.get? name = some v → ¬ EquivalentVectors r k v := by
  have hl : String.toLower "HPKOT" = "hpkot" := by decide +kernel
  have hl' : String.toLower "hpkot" = "hpkot" := by decide +kernel
  have hsnd : SoundData (oneData cellP 2 "a" "P") boxAtoms :=
    one_sound _ cellP_det 2 (by norm_num) (by decide +kernel) (by decide +kernel) (by decide +kernel)
  have hpi := Real.pi_gt_three
  have hres := one_resolve String.toLower (fun _ _ => .error .runtimeError) cellP 2 "a" "P"
  have hnig : ∀ r r' : Cell ℝ, (fun c : Cell ℝ => (.ok c : Except Err (Cell ℝ))) r = .ok r' →
      SameLattice r r' := by intro r r' h; cases h; rfl
  have hdet : (applyT permP cellP).det ≠ 0 := (recip_ok permP_recip).1
  obtain ⟨ca, hca⟩ : ∃ ca, getConventional String.toLower (fun _ _ => .error .runtimeError)
      (fun c => .ok c) cellP boxAtoms "HPKOT" (some (oneData cellP 2 "a" "P")) =
      .ok (applyT permP cellP, ca) := by
    refine C77_conventional (ps := [vecMat (vecMat 0 cellP) (applyT permP cellP)⁻¹]) (ts := [1]) hres
      hsnd ?_
    rw [hl]
    unfold conventionalParts
    rw [if_pos (.inr rfl), if_pos ⟨rfl, rfl⟩]
    simp only [oneData, cellP_conventional, bind, Except.bind, pure, Except.pure, rebase, npInv,
      if_neg hdet, List.map_cons, List.map_nil]
  have hmat : ∀ m, primitiveMatrix (String.toLower "HPKOT") ((oneData cellP 2 "a" "P").crystalFamily ++
      (oneData cellP 2 "a" "P").centringType) = .ok m → m = 1 := by
    intro m hm
    rw [show (oneData cellP 2 "a" "P").crystalFamily ++ (oneData cellP 2 "a" "P").centringType =
      "a" ++ "P" from rfl, one_matrix (by decide)] at hm
    exact (Except.ok.inj hm).symm
  have hsp : ∀ m, primitiveMatrix (String.toLower "HPKOT") ((oneData cellP 2 "a" "P").crystalFamily ++
      (oneData cellP 2 "a" "P").centringType) = .ok m →
      Sparse ((oneData cellP 2 "a" "P").symprec + 1 / 10 ^ 8) (m.transpose * applyT permP cellP)
        (oneData cellP 2 "a" "P").given := by
    intro m hm
    rw [hmat m hm, transpose_one, one_mul]
    exact cellP_sparse _ (by norm_num [oneData])
  obtain ⟨prim, pa, hprim, -, m, hm, e⟩ := C77_primitive hres hsnd hnig hres (.inl hl) (by rw [hl, hl'])
    (fun _ => by decide +kernel) hca hsp
  rw [hmat m hm, transpose_one, one_mul] at e
  subst e
  have hsym : hpkotGetExtendedBlSymbol String.toLower (fun _ _ => .error .runtimeError)
      (fun c => .ok c) cellP boxAtoms (some (oneData cellP 2 "a" "P")) = .ok "aP2" := by
    obtain ⟨al, be, ga, hp⟩ := exists_params (c := applyT permP cellP) fun i =>
      (machineEps_pos.trans (cellP_len i)).ne'
    have hpp := getParams_of_spec hp (cellP_len 0) (cellP_len 1) (cellP_len 2)
    have e1 : (oneData cellP 2 "a" "P").crystalFamily ++ (oneData cellP 2 "a" "P").centringType =
      "aP" := by decide
    have e2 : ∀ n, hpkotSimpleSymbol "aP" n = none := by intro n; simp [hpkotSimpleSymbol]
    have e3 : ∀ a b c beta, hpkotLengthSymbol "aP" a b c beta = none := by
      intro a b c beta; simp [hpkotLengthSymbol]
    unfold hpkotGetExtendedBlSymbol
    simp only [hres, e1, e2, hca, hpp, e3, cellP_symbol, if_true, bind, Except.bind]
  obtain ⟨path, pts, h⟩ := C77_hpkot (convention := "HPKOT") hres hsnd hl hl' hl hnig hres
    (by decide +kernel) cellP_det (fun _ => ⟨recipP, recipP, cellP_recip, rfl,
      (recip_ok recipP_back).1, fun i => by
        refine norm_above ?_
        fin_cases i <;> simp [dot, recipP, Matrix.smul_apply] <;> nlinarith⟩)
    (fun conv ca' h => by rw [hca] at h; cases h; exact cellP_len)
    (fun conv ca' m h hm => by rw [hca] at h; cases h; exact hsp m hm) t false
  exact ⟨path, pts, _, pa, _, (1 / 2 : ℝ) • applyT permP recipP 2, h, hprim, permP_recip,
    C76_aP2_missing String.toLower _ _ _ _ _ (oneData cellP 2 "a" "P") (.inl rfl)
      ⟨by decide, by decide⟩ rfl rfl "HPKOT" hl hl' hl t path pts h _ _ pa hprim permP_recip hsym
      recipP_short⟩

end Wulfric
