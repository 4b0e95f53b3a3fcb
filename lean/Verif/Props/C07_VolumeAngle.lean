import Verif.Lemmas.Params
import Verif.Lemmas.LatticeEquiv
import Mathlib.Tactic.NormNum

/-! # C07, C08: volume and angle -/

namespace Wulfric
open Matrix Spec

/-- C07: the three forms of `get_volume` give one and the same non-negative number. -/
theorem C07_forms_agree (cell : Cell ℝ) (a b c al be ga : ℝ)
    (h : getParams cell = .ok (a, b, c, al, be, ga)) :
    getVolume (.one cell) = .ok |cell.det| ∧
    getVolume (.three (cell 0) (cell 1) (cell 2)) = .ok |cell.det| ∧
    getVolume (.six a b c al be ga) = .ok |cell.det| := by
  obtain ⟨hp, ha, hb, hc⟩ := getParams_ok h
  refine ⟨rfl, ?_, ?_⟩
  · have : (Matrix.of ![cell 0, cell 1, cell 2] : Cell ℝ) = cell := by
      ext i j; fin_cases i <;> rfl
    simp only [getVolume]; rw [this]
  · have e := HasParams.det_sq hp
    have ha' := machineEps_pos.trans ha
    have hb' := machineEps_pos.trans hb
    have hc' := machineEps_pos.trans hc
    have habc : 0 < a * b * c := by positivity
    have hD : 0 ≤ sqRoot (al * toRadians) (be * toRadians) (ga * toRadians) := by
      by_contra hn
      push Not at hn
      have : (a * b * c) ^ 2 * sqRoot (al * (Real.pi / 180)) (be * (Real.pi / 180))
        (ga * (Real.pi / 180)) < 0 := mul_neg_of_pos_of_neg (by positivity) hn
      nlinarith [sq_nonneg cell.det]
    simp only [getVolume, mathSqrt]
    rw [if_neg (not_lt.2 hD)]
    simp only
    congr 1
    rw [← Real.sqrt_sq_eq_abs, e, Real.sqrt_mul (sq_nonneg _), Real.sqrt_sq habc.le]
    rfl

/-- C07: every answer for a cell or three vectors is non-negative. -/
theorem C07_nonneg (cell : Cell ℝ) (v1 v2 v3 : Vec ℝ) :
    (∃ v, getVolume (.one cell) = .ok v ∧ 0 ≤ v) ∧
    (∃ v, getVolume (.three v1 v2 v3) = .ok v ∧ 0 ≤ v) :=
  ⟨⟨_, rfl, abs_nonneg _⟩, ⟨_, rfl, abs_nonneg _⟩⟩

/-- C07: the volume belongs to the lattice, not to the chosen basis. -/
theorem C07_lattice_invariant (c d : Cell ℝ) (h : SameLattice c d) :
    getVolume (.one d) = getVolume (.one c) := by
  simp only [getVolume]
  rw [h.abs_det]

/-- C07: any other number of arguments is a `ValueError`. -/
theorem C07_count : getVolume .other = .error .valueError := rfl

/-- Non-vacuity of `C07_forms_agree`. -/
example : ∃ cell : Cell ℝ, getParams cell = .ok (3, 4, 5, 70, 80, 95) := by
  have hs : Strict 70 80 95 := ⟨by norm_num, by norm_num, by norm_num, by norm_num, by norm_num,
    by norm_num, by norm_num⟩
  have hm : machineEps < 1 := by unfold machineEps; norm_num
  exact ⟨_, getParams_of_spec (paramCell_spec (by norm_num) (by norm_num) (by norm_num) hs).1
    (by linarith) (by linarith) (by linarith)⟩

/-- C08: an error is raised exactly if one of the lengths does not exceed the machine
epsilon (lengths written without the model's norm). -/
theorem C08_error_iff (u v : Vec ℝ) (radians : Bool) :
    getAngle u v radians = .error .valueError ↔
      (Real.sqrt (dot u u) ≤ 1 / 2 ^ 52 ∨ Real.sqrt (dot v v) ≤ 1 / 2 ^ 52) := by
  rw [← npNorm_eq, ← npNorm_eq]
  constructor
  · intro h
    by_contra hc
    push Not at hc
    rw [getAngle_val (u := u) (v := v) hc.1 hc.2] at h
    simp at h
  · intro h
    unfold getAngle machineEps
    rw [abs_of_nonneg (npNorm_nonneg u), abs_of_nonneg (npNorm_nonneg v), if_pos h]

/-- C08: without an error the degrees form is the angle of the specification. -/
theorem C08_spec (u v : Vec ℝ) (t : ℝ) (h : getAngle u v = .ok t) : AngleDeg u v t :=
  (getAngle_ok h).2.2

/-- C08: radians and degrees agree. -/
theorem C08_radians (u v : Vec ℝ) :
    (∃ t, getAngle u v true = .ok t ∧ getAngle u v false = .ok (t * (180 / Real.pi)) ∧
      0 ≤ t ∧ t ≤ Real.pi) ∨
    (getAngle u v true = .error .valueError ∧ getAngle u v false = .error .valueError) := by
  by_cases h : npNorm u ≤ machineEps ∨ npNorm v ≤ machineEps
  · right
    unfold getAngle
    rw [abs_of_nonneg (npNorm_nonneg u), abs_of_nonneg (npNorm_nonneg v), if_pos h, if_pos h]
    exact ⟨rfl, rfl⟩
  · left
    push Not at h
    refine ⟨_, getAngle_val h.1 h.2 true, ?_, ?_, ?_⟩
    · rw [getAngle_val h.1 h.2 false]; rfl
    · exact Real.arccos_nonneg _
    · exact Real.arccos_le_pi _

/-- C08: symmetric. -/
theorem C08_symm (u v : Vec ℝ) (radians : Bool) : getAngle u v radians = getAngle v u radians := by
  by_cases h : npNorm u ≤ machineEps ∨ npNorm v ≤ machineEps
  · unfold getAngle
    rw [abs_of_nonneg (npNorm_nonneg u), abs_of_nonneg (npNorm_nonneg v), if_pos h,
      if_pos (Or.symm h)]
  · push Not at h
    rw [getAngle_val h.1 h.2, getAngle_val h.2 h.1, dot_comm' v u, mul_comm (npNorm v)]

theorem npNorm_smul (k : ℝ) (hk : 0 < k) (u : Vec ℝ) : npNorm (fun i => k * u i) = k * npNorm u := by
  rw [npNorm_eq, npNorm_eq]
  have : dot (fun i => k * u i) (fun i => k * u i) = k ^ 2 * dot u u := by unfold dot; ring
  rw [this, Real.sqrt_mul (sq_nonneg k), Real.sqrt_sq hk.le]

theorem npNorm_neg (u : Vec ℝ) : npNorm (fun i => - u i) = npNorm u := by
  rw [npNorm_eq, npNorm_eq]
  congr 1
  unfold dot; ring

/-- C08: positive rescaling of the vectors does not change the angle (as long as the
rescaled vectors are not taken for zero). -/
theorem C08_rescale (u v : Vec ℝ) (k l t : ℝ) (hk : 0 < k) (hl : 0 < l)
    (h : getAngle u v = .ok t)
    (hu : 1 / 2 ^ 52 < k * Real.sqrt (dot u u)) (hv : 1 / 2 ^ 52 < l * Real.sqrt (dot v v)) :
    getAngle (fun i => k * u i) (fun i => l * v i) = .ok t := by
  obtain ⟨h1, h2, h3⟩ := getAngle_ok h
  rw [← h, getAngle_val h1 h2]
  rw [← npNorm_eq] at hu hv
  rw [getAngle_val (by rw [npNorm_smul k hk]; exact hu) (by rw [npNorm_smul l hl]; exact hv),
    npNorm_smul k hk, npNorm_smul l hl]
  have hu0 : npNorm u ≠ 0 := (machineEps_pos.trans h1).ne'
  have hv0 : npNorm v ≠ 0 := (machineEps_pos.trans h2).ne'
  have : dot (fun i => k * u i) (fun i => l * v i) / (k * npNorm u * (l * npNorm v)) =
      dot u v / (npNorm u * npNorm v) := by
    have : dot (fun i => k * u i) (fun i => l * v i) = k * l * dot u v := by unfold dot; ring
    rw [this]; field_simp
  rw [this]

/-- C08: reversing one vector gives the supplementary angle. -/
theorem C08_supplement (u v : Vec ℝ) (t : ℝ) (h : getAngle u v = .ok t) :
    getAngle (fun i => - u i) v = .ok (180 - t) ∧ getAngle u (fun i => - v i) = .ok (180 - t) := by
  have main : ∀ (u v : Vec ℝ) (t : ℝ), getAngle u v = .ok t →
      getAngle (fun i => - u i) v = .ok (180 - t) := by
    intro u v t h
    obtain ⟨h1, h2, h3⟩ := getAngle_ok h
    rw [getAngle_val h1 h2] at h
    rw [getAngle_val (by rwa [npNorm_neg]) h2, npNorm_neg]
    have : dot (fun i => - u i) v / (npNorm u * npNorm v) = - (dot u v / (npNorm u * npNorm v)) := by
      rw [← neg_div]; congr 1; unfold dot; ring
    simp only [Bool.false_eq_true, if_false, Except.ok.injEq] at h ⊢
    rw [this, Real.arccos_neg, ← h]
    unfold toDegrees
    have := Real.pi_ne_zero
    field_simp
  refine ⟨main u v t h, ?_⟩
  rw [C08_symm] at h
  rw [C08_symm]
  exact main v u t h

/-- Non-vacuity of the `C08` theorems: the right angle of two axes. -/
example : getAngle ![1, 0, 0] ![0, 2, 0] = .ok 90 := by
  have hm : machineEps < 1 := by unfold machineEps; norm_num
  have h1 : npNorm ![1, 0, 0] = 1 := npNorm_of_sq (by norm_num) (by simp [dot])
  have h2 : npNorm ![0, 2, 0] = 2 := npNorm_of_sq (by norm_num) (by simp [dot]; norm_num)
  apply getAngle_of_spec (by rw [h1]; exact hm) (by rw [h2]; linarith)
  refine ⟨by norm_num, by norm_num, ?_⟩
  rw [show (90 : ℝ) * (Real.pi / 180) = Real.pi / 2 by ring, Real.cos_pi_div_two]
  simp [dot]

end Wulfric
