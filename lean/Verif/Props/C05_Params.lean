import Verif.Lemmas.Params
import Verif.Lemmas.Lattice
import Mathlib.Tactic.NormNum

/-! # C05, C06, C09: lengths and angles of a cell -/

namespace Wulfric
open Matrix Spec

/-- C05: an accepted set of parameters is realised by the returned cell, which has the
documented orientation; `get_params` gives the parameters back. -/
theorem C05_realises (a b c al be ga : ℝ) (cell : Cell ℝ)
    (h : fromParams a b c al be ga = .ok cell) :
    HasParams cell a b c al be ga ∧
    getParams cell = .ok (a, b, c, al, be, ga) ∧
    0 < cell.det ∧
    (0 < cell 0 0 ∧ cell 0 1 = 0 ∧ cell 0 2 = 0) ∧ (0 < cell 1 1 ∧ cell 1 2 = 0) ∧
    0 < cell 2 2 ∧
    0 < 1 + 2 * Real.cos (al * (Real.pi / 180)) * Real.cos (be * (Real.pi / 180))
          * Real.cos (ga * (Real.pi / 180)) - Real.cos (al * (Real.pi / 180)) ^ 2
          - Real.cos (be * (Real.pi / 180)) ^ 2 - Real.cos (ga * (Real.pi / 180)) ^ 2 := by
  rw [fromParams_eq] at h
  split at h
  · rename_i hp
    injection h with h
    subst h
    obtain ⟨⟨ha, hb, hc⟩, hs⟩ := parResult_strict (by positivity) (by positivity) hp
    obtain ⟨h1, h2⟩ := paramCell_spec ha hb hc hs
    have hsin := sin_deg_pos hs.hga
    have hD := Real.sqrt_pos.2 hs.pos
    rw [parResult_iff] at hp
    obtain ⟨⟨l1, l2, l3⟩, -⟩ := hp
    have hm : machineEps < 1 / 10 ^ 8 := by unfold machineEps; norm_num
    refine ⟨h1, getParams_of_spec h1 (hm.trans l1) (hm.trans l2) (hm.trans l3), h2, ?_, ?_, ?_, ?_⟩
    · simpa [paramCell] using ha
    · simp only [paramCell, of_apply, cons_val_zero, cons_val_one, cons_val]
      exact ⟨by positivity, trivial⟩
    · simp only [paramCell, of_apply, cons_val_zero, cons_val_one, cons_val]
      positivity
    · exact hs.pos
  · simp at h

/-- C05: the only error is the `ValueError` of the check: neither the square root nor the
division can fail on accepted parameters. -/
theorem C05_errors (a b c al be ga : ℝ) :
    (∃ cell, fromParams a b c al be ga = .ok cell ∧
      parallelepipedCheck a b c al be ga = .ok true) ∨
    (fromParams a b c al be ga = .error .valueError ∧
      parallelepipedCheck a b c al be ga = .ok false) := by
  rw [fromParams_eq]
  by_cases h : parallelepipedResult a b c al be ga (1 / 10 ^ 8) (1 / 10 ^ 4) = true
  · left; exact ⟨_, if_pos h, by unfold parallelepipedCheck; rw [h]; rfl⟩
  · right
    have h' := Bool.eq_false_iff.mpr h
    exact ⟨if_neg h, by unfold parallelepipedCheck; rw [h']; rfl⟩

/-- Non-vacuity: a triclinic set of parameters is accepted. -/
example : ∃ cell, fromParams 3 4 5 70 80 95 = .ok cell := by
  rw [fromParams_eq, if_pos]
  · exact ⟨_, rfl⟩
  · rw [parResult_iff]; norm_num

/-- C06: a cell rebuilt from the parameters of another one has the same scalar products,
the same volume, and differs by an orthogonal transformation. -/
theorem C06_metric (cell cell' : Cell ℝ) (a b c al be ga : ℝ)
    (h : getParams cell = .ok (a, b, c, al, be, ga))
    (h' : fromParams a b c al be ga = .ok cell') :
    (∀ i j, dot (cell' i) (cell' j) = dot (cell i) (cell j)) ∧ |cell'.det| = |cell.det| ∧
    ∃ Q : Cell ℝ, Q * Q.transpose = 1 ∧ cell' = cell * Q := by
  obtain ⟨s1, -⟩ := getParams_ok h
  obtain ⟨s2, -, hpos, -⟩ := C05_realises _ _ _ _ _ _ _ h'
  have hd := HasParams.dots_eq s2 s1
  have hdet : cell'.det ^ 2 = cell.det ^ 2 := by
    rw [HasParams.det_sq s1, HasParams.det_sq s2]
  have hne : cell.det ≠ 0 := by
    intro h0
    rw [h0] at hdet
    simp at hdet
    exact hpos.ne' hdet
  refine ⟨hd, sq_eq_sq_iff_abs_eq_abs _ _ |>.1 hdet, cell⁻¹ * cell', ?_, ?_⟩
  · have hg : cell' * cell'.transpose = cell * cell.transpose := by
      ext i j
      have := hd i j
      simp only [dot] at this
      simp only [mul_apply, Fin.sum_univ_three, transpose_apply]
      exact this
    have hu : IsUnit cell.det := Ne.isUnit hne
    have hut : IsUnit cell.transpose.det := by rwa [det_transpose]
    calc cell⁻¹ * cell' * (cell⁻¹ * cell').transpose
        = cell⁻¹ * (cell' * cell'.transpose) * (cell⁻¹).transpose := by
          rw [transpose_mul]; simp only [Matrix.mul_assoc]
      _ = (cell⁻¹ * cell) * (cell.transpose * (cell.transpose)⁻¹) := by
          rw [hg, transpose_nonsing_inv]; simp only [Matrix.mul_assoc]
      _ = 1 := by rw [nonsing_inv_mul _ hu, mul_nonsing_inv _ hut, Matrix.one_mul]
  · rw [← Matrix.mul_assoc, mul_nonsing_inv _ (Ne.isUnit hne), Matrix.one_mul]

/-- C06: `get_params` answers for every non-singular cell with vectors longer than the
machine epsilon, and its answer is realisable in the exact sense. -/
theorem C06_defined (cell : Cell ℝ) (hd : cell.det ≠ 0)
    (hn : ∀ i, machineEps ^ 2 < dot (cell i) (cell i)) :
    ∃ a b c al be ga, getParams cell = .ok (a, b, c, al, be, ga) ∧
      HasParams cell a b c al be ga ∧
      parallelepipedCheck a b c al be ga true 0 0 = .ok true := by
  have hn' : ∀ i, machineEps < npNorm (cell i) := by
    intro i
    rw [npNorm_eq]
    exact Real.lt_sqrt_of_sq_lt (hn i)
  have nz : ∀ i, npNorm (cell i) ≠ 0 := fun i => (machineEps_pos.trans (hn' i)).ne'
  have hp : HasParams cell (npNorm (cell 0)) (npNorm (cell 1)) (npNorm (cell 2)) _ _ _ :=
    ⟨npNorm_nonneg _, npNorm_nonneg _, npNorm_nonneg _, (npNorm_sq _).symm,
      (npNorm_sq _).symm, (npNorm_sq _).symm, angle_spec_val (nz 1) (nz 2),
      angle_spec_val (nz 0) (nz 2), angle_spec_val (nz 0) (nz 1)⟩
  refine ⟨_, _, _, _, _, _, getParams_of_spec hp (hn' 0) (hn' 1) (hn' 2), hp, ?_⟩
  obtain ⟨⟨ha, hb, hc⟩, hs⟩ := HasParams.strict hd hp
  unfold parallelepipedCheck
  have : parallelepipedResult (npNorm (cell 0)) (npNorm (cell 1)) (npNorm (cell 2))
    (Real.arccos (dot (cell 1) (cell 2) / (npNorm (cell 1) * npNorm (cell 2))) * toDegrees)
    (Real.arccos (dot (cell 0) (cell 2) / (npNorm (cell 0) * npNorm (cell 2))) * toDegrees)
    (Real.arccos (dot (cell 0) (cell 1) / (npNorm (cell 0) * npNorm (cell 1))) * toDegrees)
    0 0 = true := by
    rw [parResult_iff]
    obtain ⟨⟨p1, p2⟩, ⟨p3, p4⟩, ⟨p5, p6⟩, p7, p8, p9, p10⟩ := hs
    refine ⟨⟨ha, hb, hc⟩, ⟨?_, ?_, ?_⟩, ⟨?_, ?_, ?_⟩, ⟨?_, ?_, ?_⟩, ?_⟩ <;> linarith
  rw [this]; rfl

/-- Non-vacuity of `C06_metric`: start from any cell `from_params` returns. -/
example : ∃ cell cell' a b c al be ga, getParams cell = .ok (a, b, c, al, be, ga) ∧
    fromParams a b c al be ga = .ok cell' := by
  obtain ⟨cell, hc⟩ : ∃ cell, fromParams 3 4 5 70 80 95 = .ok cell := by
    rw [fromParams_eq, if_pos]
    · exact ⟨_, rfl⟩
    · rw [parResult_iff]; norm_num
  exact ⟨cell, cell, 3, 4, 5, 70, 80, 95, (C05_realises _ _ _ _ _ _ _ hc).2.1, hc⟩

/-- C09: with zero tolerances the check accepts exactly the parameters of the
non-degenerate cells. -/
theorem C09_exact (a b c al be ga : ℝ) :
    parallelepipedCheck a b c al be ga false 0 0 = .ok true ↔
      ∃ cell : Cell ℝ, cell.det ≠ 0 ∧ HasParams cell a b c al be ga := by
  have e : parallelepipedCheck a b c al be ga false 0 0 = .ok true ↔
      parallelepipedResult a b c al be ga 0 0 = true := by
    unfold parallelepipedCheck; simp
  rw [e]
  constructor
  · intro h
    obtain ⟨⟨ha, hb, hc⟩, hs⟩ := parResult_strict le_rfl le_rfl h
    obtain ⟨h1, h2⟩ := paramCell_spec ha hb hc hs
    exact ⟨_, h2.ne', h1⟩
  · rintro ⟨cell, hd, hp⟩
    obtain ⟨⟨ha, hb, hc⟩, ⟨⟨p1, p2⟩, ⟨p3, p4⟩, ⟨p5, p6⟩, p7, p8, p9, p10⟩⟩ :=
      HasParams.strict hd hp
    rw [parResult_iff]
    refine ⟨⟨ha, hb, hc⟩, ⟨?_, ?_, ?_⟩, ⟨?_, ?_, ?_⟩, ⟨?_, ?_, ?_⟩, ?_⟩ <;> linarith

/-- C09: with any non-negative tolerances acceptance implies that such a cell exists, and
larger tolerances accept less. -/
theorem C09_sound (a b c al be ga lt at' : ℝ) (hl : 0 ≤ lt) (ht : 0 ≤ at')
    (h : parallelepipedCheck a b c al be ga false lt at' = .ok true) :
    ∃ cell : Cell ℝ, cell.det ≠ 0 ∧ HasParams cell a b c al be ga := by
  have h' : parallelepipedResult a b c al be ga lt at' = true := by
    unfold parallelepipedCheck at h; simpa using h
  obtain ⟨⟨ha, hb, hc⟩, hs⟩ := parResult_strict hl ht h'
  obtain ⟨h1, h2⟩ := paramCell_spec ha hb hc hs
  exact ⟨_, h2.ne', h1⟩

theorem C09_monotone (a b c al be ga lt at' lt2 at2 : ℝ) (hl : lt ≤ lt2) (ht : at' ≤ at2)
    (h : parallelepipedCheck a b c al be ga false lt2 at2 = .ok true) :
    parallelepipedCheck a b c al be ga false lt at' = .ok true := by
  unfold parallelepipedCheck at h ⊢
  simp only [Bool.and_false, Bool.false_eq_true, if_false, Except.ok.injEq] at h ⊢
  rw [parResult_iff] at h ⊢
  obtain ⟨⟨h1, h2, h3⟩, ⟨h4, h5, h6⟩, ⟨h7, h8, h9⟩, ⟨h10, h11, h12⟩, h13⟩ := h
  refine ⟨⟨?_, ?_, ?_⟩, ⟨?_, ?_, ?_⟩, ⟨?_, ?_, ?_⟩, ⟨?_, ?_, ?_⟩, ?_⟩ <;> linarith

/-- C09: without `raise_error` there is always an answer; with it, an error is raised
exactly when the answer would be `False`. -/
theorem C09_raise (a b c al be ga lt at' : ℝ) :
    ∃ r, parallelepipedCheck a b c al be ga false lt at' = .ok r ∧
      parallelepipedCheck a b c al be ga true lt at' =
        if r = true then .ok true else .error .valueError := by
  unfold parallelepipedCheck
  cases h : parallelepipedResult a b c al be ga lt at' <;> simp

/-- C09: the answer does not depend on the order of the (length, angle) pairs. -/
theorem C09_order (l ang : Fin 3 → ℝ) (σ : Equiv.Perm (Fin 3)) (raiseError : Bool)
    (lt at' : ℝ) :
    parallelepipedCheck (l (σ 0)) (l (σ 1)) (l (σ 2)) (ang (σ 0)) (ang (σ 1)) (ang (σ 2))
      raiseError lt at' =
    parallelepipedCheck (l 0) (l 1) (l 2) (ang 0) (ang 1) (ang 2) raiseError lt at' := by
  have key : ∀ (l ang : Fin 3 → ℝ),
      parallelepipedResult (l 0) (l 1) (l 2) (ang 0) (ang 1) (ang 2) lt at' = true ↔
      (∀ i, lt < l i ∧ ang i < 180 - at' ∧ at' < ang i ∧ 2 * ang i < (∑ j, ang j) - at') ∧
      (∑ j, ang j) < 360 - at' := by
    intro l ang
    rw [parResult_iff, Fin.sum_univ_three]
    constructor
    · rintro ⟨⟨h1, h2, h3⟩, ⟨h4, h5, h6⟩, ⟨h7, h8, h9⟩, ⟨h10, h11, h12⟩, h13⟩
      refine ⟨?_, h13⟩
      intro i
      fin_cases i <;> simp only [Fin.zero_eta, Fin.mk_one, Fin.reduceFinMk] <;>
        refine ⟨?_, ?_, ?_, ?_⟩ <;> linarith
    · rintro ⟨h, h13⟩
      have a0 := h 0
      have a1 := h 1
      have a2 := h 2
      refine ⟨⟨a0.1, a1.1, a2.1⟩, ⟨a0.2.1, a1.2.1, a2.2.1⟩, ⟨a0.2.2.1, a1.2.2.1, a2.2.2.1⟩,
        ⟨?_, ?_, ?_⟩, h13⟩
      · linarith [a2.2.2.2]
      · linarith [a1.2.2.2]
      · linarith [a0.2.2.2]
  have e : parallelepipedResult (l (σ 0)) (l (σ 1)) (l (σ 2)) (ang (σ 0)) (ang (σ 1)) (ang (σ 2))
      lt at' = parallelepipedResult (l 0) (l 1) (l 2) (ang 0) (ang 1) (ang 2) lt at' := by
    rw [Bool.eq_iff_iff, key l ang, key (fun i => l (σ i)) (fun i => ang (σ i)),
      Equiv.sum_comp σ ang]
    constructor
    · rintro ⟨h, h2⟩
      exact ⟨fun i => by simpa using h (σ.symm i), h2⟩
    · rintro ⟨h, h2⟩
      exact ⟨fun i => h (σ i), h2⟩
  unfold parallelepipedCheck
  rw [e]

/-- Non-vacuity of `C09_exact` in both directions. -/
example : parallelepipedCheck 1 1 1 90 90 90 false 0 0 = .ok true ∧
    parallelepipedCheck 1 1 1 150 60 60 false 0 0 = .ok false := by
  unfold parallelepipedCheck
  have h1 : parallelepipedResult 1 1 1 90 90 90 0 0 = true := by rw [parResult_iff]; norm_num
  have h2 : parallelepipedResult 1 1 1 150 60 60 0 0 = false := by
    rw [Bool.eq_false_iff, Ne, parResult_iff]; norm_num
  rw [h1, h2]; simp

end Wulfric
