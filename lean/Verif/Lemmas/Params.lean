import Verif.Lemmas.Geometry
import Mathlib.Tactic.FinCases

/-! # `get_params`, `from_params` and the specification of lengths and angles -/

namespace Wulfric
open Matrix Spec

theorem npNorm_of_sq {v : Vec ℝ} {a : ℝ} (ha : 0 ≤ a) (h : dot v v = a ^ 2) : npNorm v = a := by
  rw [npNorm_eq, h, Real.sqrt_sq ha]

theorem getAngle_of_spec {u v : Vec ℝ} {t : ℝ} (hu : machineEps < npNorm u)
    (hv : machineEps < npNorm v) (h : AngleDeg u v t) : getAngle u v = .ok t := by
  rw [getAngle_val hu hv]
  simp only [Bool.false_eq_true, if_false]
  congr 1
  apply deg_arccos ⟨h.1, h.2.1⟩
  rw [h.2.2, ← npNorm_eq, ← npNorm_eq]
  have hu0 : npNorm u ≠ 0 := (machineEps_pos.trans hu).ne'
  have hv0 : npNorm v ≠ 0 := (machineEps_pos.trans hv).ne'
  field_simp

theorem angle_spec_val {u v : Vec ℝ} (hu : npNorm u ≠ 0) (hv : npNorm v ≠ 0) :
    AngleDeg u v (Real.arccos (dot u v / (npNorm u * npNorm v)) * toDegrees) := by
  have hp := Real.pi_pos
  refine ⟨?_, ?_, ?_⟩
  · unfold toDegrees; have := Real.arccos_nonneg (dot u v / (npNorm u * npNorm v)); positivity
  · unfold toDegrees
    have := Real.arccos_le_pi (dot u v / (npNorm u * npNorm v))
    rw [mul_div_assoc', div_le_iff₀ hp]; nlinarith
  · rw [toDegrees_toRadians, Real.cos_arccos (ratio_mem hu hv).1 (ratio_mem hu hv).2,
      ← npNorm_eq, ← npNorm_eq]
    field_simp

theorem getAngle_ok {u v : Vec ℝ} {t : ℝ} (h : getAngle u v = .ok t) :
    machineEps < npNorm u ∧ machineEps < npNorm v ∧ AngleDeg u v t := by
  by_cases hc : |npNorm u| ≤ machineEps ∨ |npNorm v| ≤ machineEps
  · unfold getAngle at h; rw [if_pos hc] at h; simp at h
  · have hc' := hc
    push Not at hc'
    rw [abs_of_nonneg (npNorm_nonneg u), abs_of_nonneg (npNorm_nonneg v)] at hc'
    refine ⟨hc'.1, hc'.2, ?_⟩
    rw [getAngle_val hc'.1 hc'.2] at h
    simp only [Bool.false_eq_true, if_false] at h
    injection h with h
    rw [← h]
    exact angle_spec_val (machineEps_pos.trans hc'.1).ne' (machineEps_pos.trans hc'.2).ne'

theorem getParams_of_spec {cell : Cell ℝ} {a b c al be ga : ℝ}
    (h : HasParams cell a b c al be ga) (ha : machineEps < a) (hb : machineEps < b)
    (hc : machineEps < c) : getParams cell = .ok (a, b, c, al, be, ga) := by
  have na := npNorm_of_sq h.a_nonneg h.aa
  have nb := npNorm_of_sq h.b_nonneg h.bb
  have nc := npNorm_of_sq h.c_nonneg h.cc
  unfold getParams
  rw [getAngle_of_spec (by rwa [nb]) (by rwa [nc]) h.alpha,
    getAngle_of_spec (by rwa [na]) (by rwa [nc]) h.beta,
    getAngle_of_spec (by rwa [na]) (by rwa [nb]) h.gamma, na, nb, nc]
  rfl

theorem getParams_ok {cell : Cell ℝ} {a b c al be ga : ℝ}
    (h : getParams cell = .ok (a, b, c, al, be, ga)) :
    HasParams cell a b c al be ga ∧ machineEps < a ∧ machineEps < b ∧ machineEps < c := by
  unfold getParams at h
  cases h1 : getAngle (cell 1) (cell 2) with
  | error e => rw [h1] at h; simp [bind, Except.bind] at h
  | ok x =>
  cases h2 : getAngle (cell 0) (cell 2) with
  | error e => rw [h1, h2] at h; simp [bind, Except.bind] at h
  | ok y =>
  cases h3 : getAngle (cell 0) (cell 1) with
  | error e => rw [h1, h2, h3] at h; simp [bind, Except.bind] at h
  | ok z =>
  rw [h1, h2, h3] at h
  simp only [bind, Except.bind, pure, Except.pure, Except.ok.injEq, Prod.mk.injEq] at h
  obtain ⟨rfl, rfl, rfl, rfl, rfl, rfl⟩ := h
  obtain ⟨b1, c1, s1⟩ := getAngle_ok h1
  obtain ⟨a1, -, s2⟩ := getAngle_ok h2
  obtain ⟨-, -, s3⟩ := getAngle_ok h3
  exact ⟨⟨npNorm_nonneg _, npNorm_nonneg _, npNorm_nonneg _, (npNorm_sq _).symm,
    (npNorm_sq _).symm, (npNorm_sq _).symm, s1, s2, s3⟩, a1, b1, c1⟩

/-- Acceptance by the check, spelled out. -/
theorem parResult_iff (a b c al be ga lt at' : ℝ) :
    parallelepipedResult a b c al be ga lt at' = true ↔
      (lt < a ∧ lt < b ∧ lt < c) ∧
      (al < 180 - at' ∧ be < 180 - at' ∧ ga < 180 - at') ∧
      (at' < al ∧ at' < be ∧ at' < ga) ∧
      (ga < al + be - at' ∧ be < al + ga - at' ∧ al < be + ga - at') ∧
      al + be + ga < 360 - at' := by
  unfold parallelepipedResult
  simp only [Bool.and_eq_true, cwt_lt, cwt_gt]
  constructor
  · rintro ⟨⟨⟨⟨⟨⟨⟨⟨⟨⟨⟨⟨⟨⟨h1, h2⟩, h3⟩, h4⟩, h5⟩, h6⟩, h7⟩, h8⟩, h9⟩, h10⟩, h11⟩, h12⟩, h13⟩, h14⟩, h15⟩
    refine ⟨⟨?_, ?_, ?_⟩, ⟨?_, ?_, ?_⟩, ⟨?_, ?_, ?_⟩, ⟨?_, ?_, ?_⟩, ?_⟩ <;> linarith
  · rintro ⟨⟨h1, h2, h3⟩, ⟨h4, h5, h6⟩, ⟨h7, h8, h9⟩, ⟨h10, h11, h12⟩, h13⟩
    refine ⟨⟨⟨⟨⟨⟨⟨⟨⟨⟨⟨⟨⟨⟨?_, ?_⟩, ?_⟩, ?_⟩, ?_⟩, ?_⟩, ?_⟩, ?_⟩, ?_⟩, ?_⟩, ?_⟩, ?_⟩, ?_⟩, ?_⟩, ?_⟩ <;> linarith

/-- The strict conditions in radians. -/
theorem sqRoot_deg_pos_iff {al be ga : ℝ} (h1 : 0 < al ∧ al < 180) (h2 : 0 < be ∧ be < 180)
    (h3 : 0 < ga ∧ ga < 180) :
    0 < sqRoot (al * toRadians) (be * toRadians) (ga * toRadians) ↔
      al < be + ga ∧ be < al + ga ∧ ga < al + be ∧ al + be + ga < 360 := by
  have hp := Real.pi_pos
  have hk : 0 < toRadians := by unfold toRadians; positivity
  have hpi : (180 : ℝ) * toRadians = Real.pi := by unfold toRadians; field_simp
  have m : ∀ {t : ℝ}, 0 < t ∧ t < 180 → 0 < t * toRadians ∧ t * toRadians < Real.pi := by
    intro t ht
    refine ⟨mul_pos ht.1 hk, ?_⟩
    rw [← hpi]; exact mul_lt_mul_of_pos_right ht.2 hk
  rw [sqRoot_pos_iff (m h1) (m h2) (m h3), ← hpi, ← add_mul, ← add_mul, ← add_mul, ← add_mul,
    mul_lt_mul_iff_left₀ hk, mul_lt_mul_iff_left₀ hk, mul_lt_mul_iff_left₀ hk,
    show (2 : ℝ) * (180 * toRadians) = 360 * toRadians by ring, mul_lt_mul_iff_left₀ hk]

/-- The matrix built by `from_params`. -/
noncomputable def paramCell (a b c al be ga : ℝ) : Cell ℝ :=
  !![a, 0, 0;
    b * Real.cos (ga * toRadians), b * Real.sin (ga * toRadians), 0;
    c * Real.cos (be * toRadians),
    c / Real.sin (ga * toRadians) *
      (Real.cos (al * toRadians) - Real.cos (be * toRadians) * Real.cos (ga * toRadians)),
    c / Real.sin (ga * toRadians) *
      Real.sqrt (sqRoot (al * toRadians) (be * toRadians) (ga * toRadians))]

structure Strict (al be ga : ℝ) : Prop where
  hal : 0 < al ∧ al < 180
  hbe : 0 < be ∧ be < 180
  hga : 0 < ga ∧ ga < 180
  t1 : al < be + ga
  t2 : be < al + ga
  t3 : ga < al + be
  sum : al + be + ga < 360

theorem Strict.pos {al be ga : ℝ} (h : Strict al be ga) :
    0 < sqRoot (al * toRadians) (be * toRadians) (ga * toRadians) :=
  (sqRoot_deg_pos_iff h.hal h.hbe h.hga).2 ⟨h.t1, h.t2, h.t3, h.sum⟩

theorem sin_deg_pos {t : ℝ} (h : 0 < t ∧ t < 180) : 0 < Real.sin (t * toRadians) := by
  have hp := Real.pi_pos
  have hk : 0 < toRadians := by unfold toRadians; positivity
  apply Real.sin_pos_of_pos_of_lt_pi (mul_pos h.1 hk)
  unfold toRadians
  nlinarith [h.2]

theorem parResult_strict {a b c al be ga lt at' : ℝ} (hl : 0 ≤ lt) (ht : 0 ≤ at')
    (h : parallelepipedResult a b c al be ga lt at' = true) :
    (0 < a ∧ 0 < b ∧ 0 < c) ∧ Strict al be ga := by
  rw [parResult_iff] at h
  obtain ⟨⟨h1, h2, h3⟩, ⟨h4, h5, h6⟩, ⟨h7, h8, h9⟩, ⟨h10, h11, h12⟩, h13⟩ := h
  refine ⟨⟨?_, ?_, ?_⟩, ⟨⟨?_, ?_⟩, ⟨?_, ?_⟩, ⟨?_, ?_⟩, ?_, ?_, ?_, ?_⟩⟩ <;> linarith

theorem paramCell_spec {a b c al be ga : ℝ} (ha : 0 < a) (hb : 0 < b) (hc : 0 < c)
    (h : Strict al be ga) :
    HasParams (paramCell a b c al be ga) a b c al be ga ∧ 0 < (paramCell a b c al be ga).det := by
  have hs := sin_deg_pos h.hga
  have hD := h.pos
  have hsq := Real.sq_sqrt hD.le
  have hsp := Real.sqrt_pos.2 hD
  have g := Real.sin_sq_add_cos_sq (ga * toRadians)
  have rr : Real.pi / 180 = toRadians := rfl
  have E := sqRoot_sq (al * toRadians) (be * toRadians) (ga * toRadians)
  have g2 := Real.sin_sq_add_cos_sq (be * toRadians)
  have d0 : dot (paramCell a b c al be ga 0) (paramCell a b c al be ga 0) = a ^ 2 := by
    simp [paramCell, dot]; ring
  have d1 : dot (paramCell a b c al be ga 1) (paramCell a b c al be ga 1) = b ^ 2 := by
    simp only [paramCell, dot, of_apply, cons_val_zero, cons_val_one, cons_val]
    linear_combination b ^ 2 * g
  have d2 : dot (paramCell a b c al be ga 2) (paramCell a b c al be ga 2) = c ^ 2 := by
    simp only [paramCell, dot, of_apply, cons_val_zero, cons_val_one, cons_val]
    have : c / Real.sin (ga * toRadians) * Real.sqrt (sqRoot (al * toRadians) (be * toRadians) (ga * toRadians)) *
        (c / Real.sin (ga * toRadians) * Real.sqrt (sqRoot (al * toRadians) (be * toRadians) (ga * toRadians)))
        = (c / Real.sin (ga * toRadians)) ^ 2 * sqRoot (al * toRadians) (be * toRadians) (ga * toRadians) := by
      rw [← hsq, Real.sqrt_sq hsp.le]; ring
    rw [this, E]
    have e : c / Real.sin (ga * toRadians) * Real.sin (ga * toRadians) = c := by field_simp
    have e2 : (c / Real.sin (ga * toRadians)) ^ 2 * Real.sin (ga * toRadians) ^ 2 = c ^ 2 := by
      rw [← mul_pow, e]
    linear_combination (Real.sin (be * toRadians) ^ 2) * e2 + c ^ 2 * g2
  refine ⟨⟨ha.le, hb.le, hc.le, d0, d1, d2, ⟨h.hal.1.le, h.hal.2.le, ?_⟩, ⟨h.hbe.1.le, h.hbe.2.le, ?_⟩,
    ⟨h.hga.1.le, h.hga.2.le, ?_⟩⟩, ?_⟩
  · rw [d1, d2, Real.sqrt_sq hb.le, Real.sqrt_sq hc.le, rr]
    simp only [paramCell, dot, of_apply, cons_val_zero, cons_val_one, cons_val]
    field_simp
    ring
  · rw [d0, d2, Real.sqrt_sq ha.le, Real.sqrt_sq hc.le, rr]
    simp only [paramCell, dot, of_apply, cons_val_zero, cons_val_one, cons_val]
    ring
  · rw [d0, d1, Real.sqrt_sq ha.le, Real.sqrt_sq hb.le, rr]
    simp only [paramCell, dot, of_apply, cons_val_zero, cons_val_one, cons_val]
    ring
  · rw [det_fin_three]
    simp only [paramCell, of_apply, cons_val_zero, cons_val_one, cons_val]
    have : 0 < a * (b * Real.sin (ga * toRadians)) * (c / Real.sin (ga * toRadians) *
      Real.sqrt (sqRoot (al * toRadians) (be * toRadians) (ga * toRadians))) := by positivity
    linarith

theorem fromParams_eq (a b c al be ga : ℝ) :
    fromParams a b c al be ga =
      if parallelepipedResult a b c al be ga (1 / 10 ^ 8) (1 / 10 ^ 4) = true
      then .ok (paramCell a b c al be ga) else .error .valueError := by
  unfold fromParams parallelepipedCheck
  by_cases h : parallelepipedResult a b c al be ga (1 / 10 ^ 8) (1 / 10 ^ 4) = true
  · obtain ⟨-, hs⟩ := parResult_strict (by positivity) (by positivity) h
    have h1 := (sin_deg_pos hs.hga).ne'
    have h2 := hs.pos
    simp only [h, Bool.not_true, Bool.false_and, Bool.false_eq_true, if_false, if_true, h1]
    unfold mathSqrt
    rw [if_neg (not_lt.2 h2.le)]
    rfl
  · have h' := Bool.eq_false_iff.mpr h
    rw [if_neg h]
    simp only [h', Bool.not_false, Bool.true_and, if_true]

theorem HasParams.strict {cell : Cell ℝ} {a b c al be ga : ℝ} (hd : cell.det ≠ 0)
    (h : HasParams cell a b c al be ga) : (0 < a ∧ 0 < b ∧ 0 < c) ∧ Strict al be ga := by
  have e := HasParams.det_sq h
  have hp := Real.pi_pos
  have hdd : 0 < cell.det ^ 2 := by positivity
  rw [e] at hdd
  have hD : 0 < sqRoot (al * toRadians) (be * toRadians) (ga * toRadians) := by
    by_contra hn
    push Not at hn
    have : (a * b * c) ^ 2 * sqRoot (al * (Real.pi / 180)) (be * (Real.pi / 180)) (ga * (Real.pi / 180)) ≤ 0 :=
      mul_nonpos_of_nonneg_of_nonpos (sq_nonneg _) hn
    linarith
  have pos : ∀ {x : ℝ} (i : Fin 3), 0 ≤ x → dot (cell i) (cell i) = x ^ 2 → 0 < x := by
    intro x i hx he
    have := row_ne hd i
    rw [he] at this
    exact lt_of_le_of_ne hx (by rintro rfl; simp at this)
  have m : ∀ {t : ℝ}, 0 ≤ t → t ≤ 180 → 0 ≤ t * toRadians ∧ t * toRadians ≤ Real.pi := by
    intro t h1 h2
    unfold toRadians
    constructor
    · positivity
    · nlinarith
  have back : ∀ {t : ℝ}, 0 < t * toRadians ∧ t * toRadians < Real.pi → 0 < t ∧ t < 180 := by
    intro t ht
    have hk : 0 < toRadians := by unfold toRadians; positivity
    have hpi : Real.pi = (180 : ℝ) * toRadians := by unfold toRadians; field_simp
    exact ⟨(mul_pos_iff_of_pos_right hk).mp ht.1, by
      have := ht.2; rw [hpi] at this; exact lt_of_mul_lt_mul_right this hk.le⟩
  have hal := back (sqRoot_pos_mem hD (m h.alpha.1 h.alpha.2.1))
  have hD2 := hD
  rw [(sqRoot_symm _ _ _).1] at hD2
  have hbe := back (sqRoot_pos_mem hD2 (m h.beta.1 h.beta.2.1))
  have hD3 := hD
  rw [(sqRoot_symm _ _ _).2, (sqRoot_symm _ _ _).1] at hD3
  have hga := back (sqRoot_pos_mem hD3 (m h.gamma.1 h.gamma.2.1))
  obtain ⟨t1, t2, t3, t4⟩ := (sqRoot_deg_pos_iff hal hbe hga).1 hD
  exact ⟨⟨pos 0 h.a_nonneg h.aa, pos 1 h.b_nonneg h.bb, pos 2 h.c_nonneg h.cc⟩,
    ⟨hal, hbe, hga, t1, t2, t3, t4⟩⟩

end Wulfric
