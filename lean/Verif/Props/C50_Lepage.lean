import Verif.Lemmas.LepageLong

/-! # C50: the Le Page search -/

set_option linter.unusedSectionVars false

namespace Wulfric

open Matrix _root_.Spec

variable (niggli : Cell ℝ → Except Err (Cell ℝ))

/-- C50: the search terminates: for every cell, tolerance and limit there is an outcome, which no
longer depends on the number of passes allowed. -/
theorem C50_terminates (cell : Cell ℝ) (tol : ℝ) (noNiggli : Bool) (limit : ℝ) :
    ∃ n o, ∀ k, lepage niggli (n + k) cell tol noNiggli limit = some o := by
  unfold lepage
  cases lepageCell niggli cell noNiggli with
  | error e => exact ⟨0, _, fun k => rfl⟩
  | ok c =>
    cases ha : lepageAxes c limit with
    | error e => exact ⟨0, .error e, fun k => by simp only [ha]⟩
    | ok axes =>
      obtain ⟨o, ho⟩ := lepageLoop_some (classifyAxes c |tol| (angleMatrix axes)) (abs_nonneg tol)
        (axes.length + 1) axes (by omega)
      exact ⟨axes.length + 1, o, fun k => by simp only [ha]; exact ho k⟩

/-- C50: every pass of the loop but the last removes at least one axis, so there are at most
`number of axes + 1` passes. -/
theorem C50_removes (axes : List LAxis) (h : axes ≠ []) :
    (removeWorst axes).length < axes.length := removeWorst_length h

/-- C50: at least one type is reported, and each is one of the 14 Bravais lattice types. -/
theorem C50_types (fuel : ℕ) (cell : Cell ℝ) (tol : ℝ) (noNiggli : Bool) (limit : ℝ)
    (l : List String) (h : lepage niggli fuel cell tol noNiggli limit = some (.ok l)) :
    l ≠ [] ∧ ∀ r ∈ l, r ∈ bravaisTypes := by
  unfold lepage at h
  simp only at h
  split at h
  · simp at h
  · split at h
    · simp at h
    · exact lepageLoop_all _ _ (fun axes r hr => classifyAxes_types hr) fuel _ l h

/-- C50: the returned type is that of exactly the axes whose deviation is within the tolerance. -/
theorem C50_result (fuel : ℕ) (cell c : Cell ℝ) (tol : ℝ) (noNiggli : Bool) (limit : ℝ)
    (axes : List LAxis) (l : List String) (hc : lepageCell niggli cell noNiggli = .ok c)
    (ha : lepageAxes c limit = .ok axes)
    (h : lepage niggli fuel cell tol noNiggli limit = some (.ok l)) :
    ∃ r, l.getLast? = some r ∧ classifyAxes c |tol| (angleMatrix axes)
      (axes.filter fun a => decide (a.delta ≤ |tol|)) = .ok r := by
  unfold lepage at h
  simp only [hc, ha] at h
  exact lepageLoop_last _ fuel axes (lepageAxes_ordered ha) l h

/-- C50: the deviation of an axis is the angle (in degrees, at most 90) between a lattice vector and
a vector of the reciprocal lattice. -/
theorem C50_delta (cell : Cell ℝ) (limit : ℝ) (axes : List LAxis)
    (h : lepageAxes cell limit = .ok axes) (a : LAxis) (ha : a ∈ axes) :
    ∃ r t tau, getReciprocal cell = .ok r ∧ t ∈ latticePoints cell ∧ tau ∈ latticePoints r ∧
      a.dir = npNormalize t ∧ 0 ≤ a.delta ∧ a.delta < 90 ∧
      Real.cos (a.delta * toRadians) ^ 2 * (dot t t * dot tau tau) = dot t tau ^ 2 := by
  obtain ⟨r, u, k, hr, huk, _, hdir, hdel, _⟩ := lepageAxes_mem h ha
  have lat : ∀ (n : Fin 3 → ℤ) (c : Cell ℝ), intMat n c ∈ latticePoints c := by
    intro n c
    refine ⟨n, ?_⟩
    funext j; simp [intMat, vecMat, Fin.sum_univ_three]
  refine ⟨r, intMat u cell, intMat k r, hr, lat u cell, lat k r, hdir, ?_, ?_, ?_⟩
  · rw [hdel, lepageDelta]
    apply mul_nonneg
    · apply Real.arctan_nonneg.2
      exact div_nonneg (Real.sqrt_nonneg _) (abs_nonneg _)
    · unfold toDegrees; positivity
  · rw [hdel, lepageDelta]
    have := Real.arctan_lt_pi_div_two
      (npNorm (crossProduct (intMat u cell) (intMat k r)) / |npDot (intMat u cell) (intMat k r)|)
    have hp : (0 : ℝ) < 180 / Real.pi := by positivity
    have h2 := mul_lt_mul_of_pos_right this hp
    unfold toDegrees
    have e : Real.pi / 2 * (180 / Real.pi) = 90 := by field_simp; norm_num
    linarith
  · have hI : (intDot u k : ℝ) ≠ 0 := by
      have : intDot u k ≠ 0 := by rintro e; rw [e] at huk; simp at huk
      exact_mod_cast this
    have hts : dot (intMat u cell) (intMat k r) ≠ 0 := by
      rw [dual_dot hr]; exact mul_ne_zero two_pi_ne hI
    rw [hdel, lepageDelta, mul_assoc, show toDegrees * toRadians = 1 by
      unfold toDegrees toRadians; field_simp, mul_one, Real.cos_sq_arctan, div_pow, cross_sq,
      npDot_eq_dot, sq_abs]
    have hsq : dot (intMat u cell) (intMat k r) ^ 2 ≠ 0 := pow_ne_zero 2 hts
    have htt : 0 < dot (intMat u cell) (intMat u cell) := by
      apply vdot_self_pos; intro e; apply hts; rw [e]; simp [dot]
    have hss : 0 < dot (intMat k r) (intMat k r) := by
      apply vdot_self_pos; intro e; apply hts; rw [e]; simp [dot]
    have e : 1 + (dot (intMat u cell) (intMat u cell) * dot (intMat k r) (intMat k r) -
        dot (intMat u cell) (intMat k r) ^ 2) / dot (intMat u cell) (intMat k r) ^ 2 =
        dot (intMat u cell) (intMat u cell) * dot (intMat k r) (intMat k r) /
          dot (intMat u cell) (intMat k r) ^ 2 := by field_simp; ring
    rw [e]
    field_simp

/-- C50, soundness: an axis without deviation is a twofold axis of the lattice. -/
theorem C50_sound (cell : Cell ℝ) (limit : ℝ) (axes : List LAxis)
    (h : lepageAxes cell limit = .ok axes) (a : LAxis) (ha : a ∈ axes) (hd : a.delta = 0) :
    TwofoldAxis cell a.dir := by
  obtain ⟨r, u, k, hr, huk, _, hdir, hdel, _⟩ := lepageAxes_mem h ha
  rw [hdir]
  exact twofold_of_delta hr huk (by rw [← hdel, hd])

/-- C50: of the twins of an axis the one with the largest deviation is kept. -/
theorem C50_worst_twin (cell r : Cell ℝ) (limit : ℝ) (axes : List LAxis)
    (hr : getReciprocal cell = .ok r)
    (h : lepageAxes cell limit = .ok axes) (a : LAxis) (ha : a ∈ axes) :
    ∃ u, a.U = halveAxis u ∧ ∀ b ∈ potentialAxes cell r limit, sameAxis u b.U →
      b.delta ≤ a.delta := by
  unfold lepageAxes at h
  rw [hr] at h
  simp only [bind, Except.bind, pure, Except.pure, Except.ok.injEq] at h
  rw [← h] at ha
  obtain ⟨b, _, rfl, hw⟩ := dropTwins_worst (sortAxes_ordered _) ha
  refine ⟨b.U, rfl, fun c hc hs => ?_⟩
  exact hw c (by rw [sortAxes, List.mem_mergeSort]; exact hc) hs

theorem closeSorted_tol_zero {xs ys : List ℝ} (h : xs ≠ []) (hy : ys ≠ []) :
    closeSorted xs ys 0 = false := by
  unfold closeSorted
  have hl : (sortReals xs).length = xs.length := by simp [sortReals]
  obtain ⟨a, l, hal⟩ := List.exists_cons_of_ne_nil
    (show sortReals xs ≠ [] by intro e; rw [e] at hl; exact h (List.length_eq_zero_iff.1 hl.symm))
  obtain ⟨b, m, rfl⟩ := List.exists_cons_of_ne_nil hy
  rw [hal]
  simp [abs_nonneg]

theorem classify_zero (cell : Cell ℝ) (angles : ℕ → ℕ → ℝ) (axes : List LAxis) :
    classifyAxes cell 0 angles axes = .ok "TRI" := by
  have m : ∀ t : List (List ℝ), t ≠ [] → t.flatten ≠ [] → matchesTarget angles t 0 = false := by
    intro t ht hf
    unfold matchesTarget
    apply closeSorted_tol_zero
    · unfold flattenAngles
      obtain ⟨n, hn⟩ : ∃ n, t.length = n + 1 :=
        Nat.exists_eq_succ_of_ne_zero (by simpa using ht)
      rw [hn, List.range_succ_eq_map]
      simp
    · intro e
      have : (sortReals t.flatten).length = t.flatten.length := by simp [sortReals]
      rw [e] at this
      exact hf (List.length_eq_zero_iff.1 this.symm)
  have h1 : checkCub angles axes 0 = .ok none := by
    unfold checkCub
    rw [m cubTarget (by simp [cubTarget]) (by simp [cubTarget, List.replicate])]
    simp
  have h2 : checkHex angles axes 0 = none := by
    unfold checkHex
    rw [m hexTarget (by simp [hexTarget]) (by simp [hexTarget, List.replicate])]
    simp
  have h3 : checkTet angles axes 0 cell = .ok none := by
    unfold checkTet
    rw [m tetTarget (by simp [tetTarget]) (by simp [tetTarget, List.replicate])]
    simp
  have h4 : checkRhl angles axes 0 = none := by
    unfold checkRhl
    rw [m rhlTarget (by simp [rhlTarget]) (by simp [rhlTarget, List.replicate])]
    simp
  have h5 : checkOrc angles axes 0 = .ok none := by
    unfold checkOrc
    rw [m orcTarget (by simp [orcTarget]) (by simp [orcTarget, List.replicate])]
    simp
  have h6 : checkMcl axes 0 cell = none := by
    unfold checkMcl
    cases axes with
    | nil => rfl
    | cons b l =>
      have : perpAxes b.U cell 0 = [] := by
        unfold perpAxes
        have : ((millerIndices 1).filter fun u => decide (u ≠ 0) &&
          decide (|npDot (intMat u cell) (intMat b.U cell)| < 0)) = [] := by
          rw [List.filter_eq_nil_iff]
          intro u _
          simp [abs_nonneg]
        rw [this, List.mergeSort_nil]
      simp only [this]
  unfold classifyAxes
  rw [h1, h2, h3, h4, h5, h6]
  rfl

/-- C50: with a zero tolerance no lattice has any symmetry: the result is always TRI. -/
theorem C50_zero_tolerance (fuel : ℕ) (cell : Cell ℝ) (noNiggli : Bool) (limit : ℝ)
    (l : List String) (h : lepage niggli fuel cell 0 noNiggli limit = some (.ok l)) :
    ∀ r ∈ l, r = "TRI" := by
  unfold lepage at h
  simp only at h
  split at h
  · simp at h
  · split at h
    · simp at h
    · refine (lepageLoop_all _ (fun r => r = "TRI") (fun axes r hr => ?_) fuel _ l h).2
      rw [abs_zero, classify_zero] at hr
      simpa using hr.symm

/-- C50: the reported types do not depend on the orientation of the cell. -/
theorem C50_rotation (fuel : ℕ) (cell Q : Cell ℝ) (hQ : Q * Q.transpose = 1) (tol limit : ℝ)
    (hd : cell.det ≠ 0) :
    lepage niggli fuel (cell * Q) tol true limit = lepage niggli fuel cell tol true limit := by
  obtain ⟨r, hr, _⟩ := C02_dual_unique cell hd
  obtain ⟨axes, ha⟩ : ∃ axes, lepageAxes cell limit = .ok axes := by
    unfold lepageAxes; rw [hr]; exact ⟨_, rfl⟩
  have ha' := lepageAxes_turn hQ ha
  unfold lepage lepageCell
  simp only [if_true, ha, ha', angleMatrix_turn hQ]
  exact lepageLoop_turn _ _ _ (fun l => classifyAxes_turn hQ cell _ _ l) fuel axes

/-- The lattice of a tetragonal cell has the twofold axes along both of its short vectors and
along the tall one. -/
theorem tall_twofold (c : ℝ) :
    TwofoldAxis (tall c) ![1, 0, 0] ∧ TwofoldAxis (tall c) ![0, 1, 0] ∧
      TwofoldAxis (tall c) ![1, 1, 0] ∧ TwofoldAxis (tall c) ![1, -1, 0] ∧
      TwofoldAxis (tall c) ![0, 0, 1] := by
  have go : ∀ (d : Vec ℝ) (f : (Fin 3 → ℤ) → (Fin 3 → ℤ)), d ≠ 0 →
      (∀ n, halfTurn d (fun j => ∑ i, (n i : ℝ) * tall c i j) =
        fun j => ∑ i, (f n i : ℝ) * tall c i j) → TwofoldAxis (tall c) d := by
    intro d f hd hf
    refine ⟨hd, ?_⟩
    rintro x ⟨n, rfl⟩
    exact ⟨f n, hf n⟩
  refine ⟨go _ (fun n => ![n 0, -n 1, -n 2]) ?_ ?_, go _ (fun n => ![-n 0, n 1, -n 2]) ?_ ?_,
    go _ (fun n => ![n 1, n 0, -n 2]) ?_ ?_, go _ (fun n => ![-n 1, -n 0, -n 2]) ?_ ?_,
    go _ (fun n => ![-n 0, -n 1, n 2]) ?_ ?_⟩
  all_goals first
    | (intro e; have := congrFun e 0; norm_num at this; done)
    | (intro e; have := congrFun e 1; norm_num at this; done)
    | (intro e; have := congrFun e 2; simp at this)
    | (intro n
       funext j
       fin_cases j <;> simp [halfTurn, dot, tall, Fin.sum_univ_three] <;> ring)

/-- C50, where the code is wrong: a primitive tetragonal cell that is more than 21 (and less than
1000) times taller than wide has all the twofold axes of its class, but the search with the default
parameters finds only one of them, and the result is monoclinic or triclinic. -/
theorem C50_elongated (c : ℝ) (hc : 21 ≤ c) (hc2 : c ≤ 1000) (fuel : ℕ) (noNiggli : Bool)
    (hn : lepageCell niggli (tall c) noNiggli = .ok (tall c)) (l : List String)
    (h : lepage niggli fuel (tall c) (1 / 10000) noNiggli 2 = some (.ok l)) :
    l.getLast? = some "MCL" ∨ l.getLast? = some "MCLC" ∨ l.getLast? = some "TRI" := by
  have hc0 : 0 < c := by linarith
  obtain ⟨axes, ha⟩ : ∃ axes, lepageAxes (tall c) 2 = .ok axes := by
    unfold lepageAxes; rw [recip_tall hc0]; exact ⟨_, rfl⟩
  obtain ⟨r, hr, hcl⟩ := C50_result niggli fuel (tall c) (tall c) (1 / 10000) noNiggli 2 axes l hn
    ha h
  rw [hr]
  rw [abs_of_pos (by norm_num : (0 : ℝ) < 1 / 10000)] at hcl
  set kept := axes.filter fun a => decide (a.delta ≤ 1 / 10000) with hkept
  -- the kept axes are the first ones
  have hpre : kept = axes.takeWhile fun a => decide (a.delta ≤ 1 / 10000) := by
    have ho := lepageAxes_ordered ha
    rw [hkept]
    clear hkept hcl h hr ha kept
    induction axes with
    | nil => rfl
    | cons a axes ih =>
      obtain ⟨h1, h2⟩ := List.pairwise_cons.1 ho
      by_cases hd : a.delta ≤ 1 / 10000
      · rw [List.filter_cons, List.takeWhile_cons]; simp only [hd, decide_true, if_true, ih h2]
      · rw [List.filter_cons, List.takeWhile_cons]
        simp only [hd, decide_false, Bool.false_eq_true, if_false]
        rw [List.filter_eq_nil_iff]
        intro b hb
        have := h1 b hb
        simp only [decide_eq_true_eq]; linarith
  have hdir : ∀ i < kept.length, (axes.map LAxis.dir).getD i 0 = ![0, 0, 1] ∨
      (axes.map LAxis.dir).getD i 0 = ![0, 0, -1] := by
    intro i hi
    have hp : kept <+: axes := by rw [hpre]; exact List.takeWhile_prefix _
    have e : (axes.map LAxis.dir).getD i 0 = (kept[i]).dir := by
      have h1 : axes[i]? = some kept[i] := by
        obtain ⟨t, ht⟩ := hp
        rw [← ht, List.getElem?_append_left hi, List.getElem?_eq_getElem hi]
      simp only [List.getD_eq_getElem?_getD, List.getElem?_map, h1]
      rfl
    rw [e]
    have hm : kept[i] ∈ kept := List.getElem_mem hi
    have key : ∀ a ∈ kept, a ∈ axes ∧ decide (a.delta ≤ 1 / 10000) = true := by
      intro a ha'; rw [hkept] at ha'; exact List.mem_filter.1 ha'
    have hm' := key _ hm
    exact tall_kept hc hc2 ha hm'.1 (of_decide_eq_true hm'.2)
  have hzero : ∀ i < kept.length, ∀ j < kept.length, angleMatrix axes i j = 0 := by
    intro i hi j hj
    simp only [angleMatrix]
    split_ifs
    · exact axisAngle_parallel (hdir i hi) (hdir j hj)
    · exact axisAngle_parallel (hdir j hj) (hdir i hi)
    · rw [axisAngle_parallel (hdir i hi) (hdir i hi), add_zero]
  have m : ∀ t : List (List ℝ), t.length ≤ kept.length → t.flatten.length ≤ t.length * t.length →
      (∃ y ∈ t.flatten, (60 : ℝ) ≤ y) → matchesTarget (angleMatrix axes) t (1 / 10000) = false := by
    intro t ht hl hy
    unfold matchesTarget
    apply closeSorted_zeros
    · intro x hx
      unfold flattenAngles at hx
      simp only [List.mem_flatMap, List.mem_range, List.mem_map] at hx
      obtain ⟨i, hi, j, hj, rfl⟩ := hx
      exact hzero i (by omega) j (by omega)
    · have : (flattenAngles (angleMatrix axes) t.length).length = t.length * t.length := by
        simp [flattenAngles, List.length_flatMap]
      rw [this]
      simpa [sortReals] using hl
    · obtain ⟨y, hy, h60⟩ := hy
      refine ⟨y, by rw [sortReals, List.mem_mergeSort]; exact hy, ?_⟩
      rw [abs_of_nonneg (by linarith)]
      linarith
  have h1 : checkCub (angleMatrix axes) kept (1 / 10000) = .ok none := by
    unfold checkCub
    split_ifs with g1 g2
    · rw [m cubTarget (by simpa [cubTarget] using g1) (by simp [cubTarget, List.replicate])
        ⟨90, by simp [cubTarget, List.replicate], by norm_num⟩] at g2
      simp at g2
    · rfl
    · rfl
  have h2 : checkHex (angleMatrix axes) kept (1 / 10000) = none := by
    unfold checkHex
    split_ifs with g
    · rw [m hexTarget (by simpa [hexTarget] using g.1) (by simp [hexTarget, List.replicate])
        ⟨90, by simp [hexTarget, List.replicate], by norm_num⟩] at g
      simp at g
    · rfl
  have h3 : checkTet (angleMatrix axes) kept (1 / 10000) (tall c) = .ok none := by
    unfold checkTet
    split_ifs with g1 g2
    · rw [m tetTarget (by simpa [tetTarget] using g1) (by simp [tetTarget, List.replicate])
        ⟨90, by simp [tetTarget, List.replicate], by norm_num⟩] at g2
      simp at g2
    · rfl
    · rfl
  have h4 : checkRhl (angleMatrix axes) kept (1 / 10000) = none := by
    unfold checkRhl
    split_ifs with g
    · rw [m rhlTarget (by simpa [rhlTarget] using g.1) (by simp [rhlTarget, List.replicate])
        ⟨60, by simp [rhlTarget, List.replicate], by norm_num⟩] at g
      simp at g
    · rfl
  have h5 : checkOrc (angleMatrix axes) kept (1 / 10000) = .ok none := by
    unfold checkOrc
    split_ifs with g1 g2
    · rw [m orcTarget (by simpa [orcTarget] using g1) (by simp [orcTarget, List.replicate])
        ⟨90, by simp [orcTarget, List.replicate], by norm_num⟩] at g2
      simp at g2
    · rfl
    · rfl
  unfold classifyAxes at hcl
  rw [h1, h2, h3, h4, h5] at hcl
  simp only [bind, Except.bind] at hcl
  clear_value kept
  cases h6 : checkMcl kept (1 / 10000) (tall c) with
  | none =>
    rw [h6] at hcl
    simp only [pure, Except.pure, Except.ok.injEq] at hcl
    right; right; rw [hcl]
  | some s =>
    rw [h6] at hcl
    simp only [pure, Except.pure, Except.ok.injEq] at hcl
    subst hcl
    unfold checkMcl at h6
    split at h6
    · simp at h6
    · split at h6
      · simp only [] at h6
        split_ifs at h6 <;> simp at h6 <;> simp [← h6]
      · simp at h6

/-- C50: without the Niggli reduction (and with any that keeps the cell) the case occurs. -/
example : lepageCell niggli (tall 30) true = .ok (tall 30) := rfl

/-- C50: the cell of the example has a non-zero determinant. -/
example : (tall 30).det ≠ 0 := by simp [tall, det_fin_three]

end Wulfric
