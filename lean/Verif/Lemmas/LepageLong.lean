import Verif.Lemmas.Lepage
import Mathlib.Analysis.SpecialFunctions.Trigonometric.Bounds
import Mathlib.Analysis.Real.Pi.Bounds
import Mathlib.Tactic.IntervalCases

/-! # Lemmas for the Le Page algorithm in elongated cells -/

set_option linter.unusedSectionVars false

namespace Wulfric

open Matrix _root_.Spec

/-- A tetragonal cell. -/
noncomputable def tall (c : ℝ) : Cell ℝ := !![1, 0, 0; 0, 1, 0; 0, 0, c]

theorem recip_tall {c : ℝ} (hc : 0 < c) :
    getReciprocal (tall c) = .ok ((2 * Real.pi) • !![1, 0, 0; 0, 1, 0; 0, 0, 1 / c]) := by
  have hd : (tall c).det ≠ 0 := by
    simp [tall, det_fin_three]; exact hc.ne'
  obtain ⟨r', h1, _, h3⟩ := C02_dual_unique (tall c) hd
  rw [h1, ← h3]
  intro i j
  fin_cases i <;> fin_cases j <;> simp [dot, tall, hc.ne']

theorem mem_miller {u : Fin 3 → ℤ} : u ∈ millerIndices 2 ↔ ∀ i, -2 ≤ u i ∧ u i ≤ 2 := by
  unfold millerIndices
  simp only [List.mem_flatMap, List.mem_map, List.mem_range]
  constructor
  · rintro ⟨x, ⟨a, ha, rfl⟩, y, ⟨b, hb, rfl⟩, z, ⟨c, hc, rfl⟩, rfl⟩ i
    fin_cases i <;> simp <;> omega
  · intro h
    have h0 := h 0
    have h1 := h 1
    have h2 := h 2
    refine ⟨u 0, ⟨(u 0 + 2).toNat, by omega, by push_cast; omega⟩, u 1,
      ⟨(u 1 + 2).toNat, by omega, by push_cast; omega⟩, u 2,
      ⟨(u 2 + 2).toNat, by omega, by push_cast; omega⟩, ?_⟩
    funext i
    fin_cases i <;> rfl

/-- The squared tangent of the deviation, times four. -/
noncomputable def tallS (c : ℝ) (u h : Fin 3 → ℤ) : ℝ :=
  (u 1 * (h 2 / c) - c * u 2 * h 1) ^ 2 + (c * u 2 * h 0 - u 0 * (h 2 / c)) ^ 2 +
    (u 0 * h 1 - u 1 * h 0) ^ 2

theorem tallS_nonneg (c : ℝ) (u h : Fin 3 → ℤ) : 0 ≤ tallS c u h := by unfold tallS; positivity

theorem tall_delta {c : ℝ} (hc : 0 < c) {u h : Fin 3 → ℤ} (huh : |intDot u h| = 2) :
    lepageDelta (intMat u (tall c)) (intMat h ((2 * Real.pi) • !![1, 0, 0; 0, 1, 0; 0, 0, 1 / c])) =
      Real.arctan (Real.sqrt (tallS c u h) / 2) * toDegrees := by
  unfold lepageDelta
  have hd := dual_dot (recip_tall hc) u h
  have habs : |(intDot u h : ℝ)| = 2 := by exact_mod_cast congrArg (fun z : ℤ => (z : ℝ)) huh
  have hpi := Real.pi_pos
  rw [npDot_eq_dot, hd, abs_mul, habs, abs_of_pos (by positivity)]
  have hn : npNorm (crossProduct (intMat u (tall c))
      (intMat h ((2 * Real.pi) • !![1, 0, 0; 0, 1, 0; 0, 0, 1 / c]))) =
      2 * Real.pi * Real.sqrt (tallS c u h) := by
    have e : dot (crossProduct (intMat u (tall c))
        (intMat h ((2 * Real.pi) • !![1, 0, 0; 0, 1, 0; 0, 0, 1 / c])))
        (crossProduct (intMat u (tall c))
        (intMat h ((2 * Real.pi) • !![1, 0, 0; 0, 1, 0; 0, 0, 1 / c]))) =
        (2 * Real.pi) ^ 2 * tallS c u h := by
      simp only [dot, cross_apply, cons_val_zero, cons_val_one, cons_val, intMat, vecMat, tall,
        Matrix.smul_apply, of_apply, smul_eq_mul, tallS]
      field_simp
      ring
    rw [npNorm, npDot_eq_dot, e, Real.sqrt_mul (by positivity), Real.sqrt_sq (by positivity)]
  rw [hn]
  congr 2
  field_simp

/-- A bound of the tangent from below. -/
theorem delta_gt {x d : ℝ} (hd : 0 ≤ d) (hd2 : d ≤ 2) (h : d / 25 < x) :
    d < Real.arctan x * toDegrees := by
  have hpi := Real.pi_pos
  have hpi2 := Real.pi_lt_d2
  have key : d * (Real.pi / 180) < Real.arctan x := by
    set y := d * (Real.pi / 180) with hy
    have hy0 : 0 ≤ y := by positivity
    have hy1 : y ≤ d * (7 / 400) := by
      rw [hy]; apply mul_le_mul_of_nonneg_left _ hd; linarith
    have hy2 : y < Real.pi / 2 := by nlinarith [Real.pi_gt_three]
    have ht : Real.tan y ≤ 2 * y := by
      rw [Real.tan_eq_sin_div_cos]
      have hc : 1 / 2 ≤ Real.cos y := by
        have := Real.one_sub_sq_div_two_le_cos (x := y)
        nlinarith
      rw [div_le_iff₀ (by linarith)]
      nlinarith [Real.sin_le hy0]
    rw [← Real.arctan_tan (by linarith : -(Real.pi / 2) < y) hy2]
    apply Real.arctan_strictMono
    linarith
  unfold toDegrees
  have : d = d * (Real.pi / 180) * (180 / Real.pi) := by field_simp
  rw [this]
  exact mul_lt_mul_of_pos_right key (by positivity)

theorem delta_lt {x : ℝ} (hx : 0 ≤ x) (h : x ≤ 17 / 500) : Real.arctan x * toDegrees < 2 := by
  have hpi := Real.pi_gt_d2
  have h1 : Real.arctan x ≤ x := by
    have := Real.le_tan (Real.arctan_nonneg.2 hx) (Real.arctan_lt_pi_div_two x)
    rwa [Real.tan_arctan] at this
  unfold toDegrees
  have h2 : Real.arctan x < Real.pi / 90 := by linarith
  have h3 : (0 : ℝ) < 180 / Real.pi := by positivity
  have := mul_lt_mul_of_pos_right h2 h3
  have e : Real.pi / 90 * (180 / Real.pi) = 2 := by field_simp; norm_num
  linarith

/-- In-plane directions with a parallel in-plane Miller index. -/
theorem plane_cases : ∀ x ∈ Finset.Icc (-2 : ℤ) 2, ∀ y ∈ Finset.Icc (-2 : ℤ) 2,
    ∀ p ∈ Finset.Icc (-2 : ℤ) 2, ∀ q ∈ Finset.Icc (-2 : ℤ) 2, x * q = y * p →
    |x * p + y * q| = 2 → ∃ m ∈ Finset.Icc (-1 : ℤ) 1, ∃ n ∈ Finset.Icc (-1 : ℤ) 1,
      (m ≠ 0 ∨ n ≠ 0) ∧ ((x = m ∧ y = n) ∨ (x = 2 * m ∧ y = 2 * n)) := by decide +kernel

theorem small_int {n : ℤ} {x : ℝ} (h : |x - n| < 1) (hx : |x| ≤ 0) : n = 0 := by
  have : x = 0 := abs_nonpos_iff.1 hx
  rw [this, zero_sub, abs_neg] at h
  have : |n| < 1 := by exact_mod_cast h
  exact Int.abs_lt_one_iff.1 this

theorem int_zero_of_mul {c : ℝ} {n : ℤ} {e : ℝ} (hc : 21 ≤ c) (he : |e| ≤ 4 / 21)
    (h : (c * n - e) ^ 2 < 1 / 4) : n = 0 := by
  by_contra hn
  have h1 : (1 : ℝ) ≤ |(n : ℝ)| := by exact_mod_cast Int.one_le_abs hn
  have h2 : |c * n - e| < 1 / 2 := by
    apply abs_lt_of_sq_lt_sq _ (by norm_num); linarith
  have h3 : |c * n| ≤ |c * n - e| + |e| := by
    have := abs_add_le (c * n - e) e; simpa using this
  rw [abs_mul, abs_of_pos (by linarith : 0 < c)] at h3
  nlinarith

/-- The axes that pass the limit of two degrees. -/
theorem tall_pairs {c : ℝ} (hc : 21 ≤ c) {u h : Fin 3 → ℤ} (hu : u ∈ millerIndices 2)
    (hh : h ∈ millerIndices 2) (hS : tallS c u h < 1 / 4) :
    u 2 * h 1 = 0 ∧ u 2 * h 0 = 0 ∧ u 0 * h 1 = u 1 * h 0 := by
  rw [mem_miller] at hu hh
  have hc0 : 0 < c := by linarith
  have bound : ∀ i j, |(u i : ℝ) * (h j / c)| ≤ 4 / 21 := by
    intro i j
    have a1 : |(u i : ℝ)| ≤ 2 := by
      rw [abs_le]; exact ⟨by exact_mod_cast (hu i).1, by exact_mod_cast (hu i).2⟩
    have a2 : |(h j : ℝ)| ≤ 2 := by
      rw [abs_le]; exact ⟨by exact_mod_cast (hh j).1, by exact_mod_cast (hh j).2⟩
    rw [abs_mul, abs_div, abs_of_pos hc0, ← mul_div_assoc, div_le_div_iff₀ hc0 (by norm_num)]
    nlinarith [abs_nonneg (u i : ℝ), abs_nonneg (h j : ℝ)]
  unfold tallS at hS
  have s1 := sq_nonneg ((u 1 : ℝ) * (h 2 / c) - c * u 2 * h 1)
  have s2 := sq_nonneg (c * u 2 * h 0 - (u 0 : ℝ) * (h 2 / c))
  have s3 := sq_nonneg ((u 0 : ℝ) * h 1 - u 1 * h 0)
  refine ⟨?_, ?_, ?_⟩
  · apply int_zero_of_mul hc (bound 1 2)
    push_cast
    calc (c * ((u 2 : ℝ) * h 1) - u 1 * (h 2 / c)) ^ 2
        = ((u 1 : ℝ) * (h 2 / c) - c * u 2 * h 1) ^ 2 := by ring
      _ < 1 / 4 := by linarith
  · apply int_zero_of_mul hc (bound 0 2)
    push_cast
    calc (c * ((u 2 : ℝ) * h 0) - u 0 * (h 2 / c)) ^ 2
        = (c * u 2 * h 0 - (u 0 : ℝ) * (h 2 / c)) ^ 2 := by ring
      _ < 1 / 4 := by linarith
  · have h1 : ((u 0 * h 1 - u 1 * h 0 : ℤ) : ℝ) ^ 2 < 1 := by push_cast; linarith
    have h2 : (u 0 * h 1 - u 1 * h 0) ^ 2 < 1 := by exact_mod_cast h1
    have h3 : u 0 * h 1 - u 1 * h 0 = 0 := by
      have := sq_nonneg (u 0 * h 1 - u 1 * h 0)
      have h4 : (u 0 * h 1 - u 1 * h 0) ^ 2 = 0 := by omega
      exact pow_eq_zero_iff (by norm_num) |>.1 h4
    omega

/-- Every axis kept within the tolerance is along the tall direction. -/
theorem tall_kept {c : ℝ} (hc : 21 ≤ c) (hc2 : c ≤ 1000) {axes : List LAxis}
    (h : lepageAxes (tall c) 2 = .ok axes) {a : LAxis} (ha : a ∈ axes) (hd : a.delta ≤ 1 / 10000) :
    a.dir = ![0, 0, 1] ∨ a.dir = ![0, 0, -1] := by
  have hc0 : 0 < c := by linarith
  unfold lepageAxes at h
  rw [recip_tall hc0] at h
  simp only [bind, Except.bind, pure, Except.pure, Except.ok.injEq] at h
  rw [← h] at ha
  obtain ⟨b, hb, rfl, hw⟩ := dropTwins_worst (sortAxes_ordered _) ha
  simp only [sortAxes, List.mem_mergeSort] at hb hw
  obtain ⟨u, hu, k, hk, h1, h2, rfl⟩ := mem_potentialAxes.1 hb
  simp only at hw hd ⊢
  rw [tall_delta hc0 h1] at h2 hd
  -- the tangent is small
  have hS : tallS c u k < 1 / 4 := by
    by_contra hn
    have : (2 : ℝ) < Real.arctan (Real.sqrt (tallS c u k) / 2) * toDegrees := by
      apply delta_gt (by norm_num) le_rfl
      have : Real.sqrt (1 / 4) ≤ Real.sqrt (tallS c u k) := Real.sqrt_le_sqrt (not_lt.1 hn)
      rw [show Real.sqrt (1 / 4) = 1 / 2 by
        rw [show (1 / 4 : ℝ) = (1 / 2) ^ 2 by norm_num, Real.sqrt_sq (by norm_num)]] at this
      linarith
    linarith
  have hS2 : ¬ 1 / c ^ 2 ≤ tallS c u k := by
    intro hle
    have : (1 / 10000 : ℝ) < Real.arctan (Real.sqrt (tallS c u k) / 2) * toDegrees := by
      apply delta_gt (by norm_num) (by norm_num)
      have : Real.sqrt (1 / c ^ 2) ≤ Real.sqrt (tallS c u k) := Real.sqrt_le_sqrt hle
      rw [show Real.sqrt (1 / c ^ 2) = 1 / c by
        rw [show (1 / c ^ 2 : ℝ) = (1 / c) ^ 2 by ring, Real.sqrt_sq (by positivity)]] at this
      have h3 : (1 / 1000 : ℝ) ≤ 1 / c := by
        rw [div_le_div_iff₀ (by norm_num) hc0]; linarith
      linarith
    linarith
  obtain ⟨p1, p2, p3⟩ := tall_pairs hc hu hk hS
  have hu' := mem_miller.1 hu
  have hk' := mem_miller.1 hk
  by_cases hz : u 2 = 0
  · -- in the plane: a twin with a larger deviation exists
    exfalso
    have hdot : |u 0 * k 0 + u 1 * k 1| = 2 := by
      rw [← h1, intDot, hz]; simp
    obtain ⟨m, hm, n, hn, hmn, hcase⟩ := plane_cases (u 0) (Finset.mem_Icc.2 (hu' 0)) (u 1)
      (Finset.mem_Icc.2 (hu' 1)) (k 0) (Finset.mem_Icc.2 (hk' 0)) (k 1) (Finset.mem_Icc.2 (hk' 1))
      p3 hdot
    rw [Finset.mem_Icc] at hm hn
    obtain ⟨g, hg, hgdot⟩ : ∃ g : ℤ, (1 ≤ g ∧ g ≤ 2) ∧ m * (g * m) + n * (g * n) = 2 := by
      have hm' := hm
      obtain ⟨hm1, hm2⟩ := hm
      obtain ⟨hn1, hn2⟩ := hn
      interval_cases m <;> interval_cases n <;>
        first
        | exact absurd hmn (by decide)
        | exact ⟨1, by decide⟩
        | exact ⟨2, by decide⟩
    have hmn1 : 1 ≤ m ^ 2 + n ^ 2 ∧ m ^ 2 + n ^ 2 ≤ 2 := by
      obtain ⟨hm1, hm2⟩ := hm
      obtain ⟨hn1, hn2⟩ := hn
      interval_cases m <;> interval_cases n <;>
        first
        | exact absurd hmn (by decide)
        | norm_num
    have hgm : -2 ≤ g * m ∧ g * m ≤ 2 := by constructor <;> nlinarith
    have hgn : -2 ≤ g * n ∧ g * n ≤ 2 := by constructor <;> nlinarith
    have hv : (![m, n, 0] : Fin 3 → ℤ) ∈ millerIndices 2 := by
      rw [mem_miller]; intro i; fin_cases i <;> simp <;> omega
    have hl : (![g * m, g * n, 1] : Fin 3 → ℤ) ∈ millerIndices 2 := by
      rw [mem_miller]; intro i; fin_cases i <;> simp <;> omega
    have hvl : |intDot ![m, n, 0] ![g * m, g * n, 1]| = 2 := by
      have : intDot ![m, n, 0] ![g * m, g * n, 1] = 2 := by
        simp only [intDot, cons_val_zero, cons_val_one, cons_val]; linarith
      rw [this]; rfl
    have hT : tallS c ![m, n, 0] ![g * m, g * n, 1] = ((m ^ 2 + n ^ 2 : ℤ) : ℝ) * (1 / c ^ 2) := by
      simp only [tallS, cons_val_zero, cons_val_one, cons_val]
      push_cast
      ring
    have q1 : (1 : ℝ) ≤ ((m ^ 2 + n ^ 2 : ℤ) : ℝ) := by exact_mod_cast hmn1.1
    have q2 : ((m ^ 2 + n ^ 2 : ℤ) : ℝ) ≤ 2 := by exact_mod_cast hmn1.2
    have hcc : (0 : ℝ) < 1 / c ^ 2 := by positivity
    have hlt : Real.arctan (Real.sqrt (tallS c ![m, n, 0] ![g * m, g * n, 1]) / 2) * toDegrees
        < 2 := by
      apply delta_lt (by positivity)
      have : Real.sqrt (tallS c ![m, n, 0] ![g * m, g * n, 1]) ≤ 17 / 250 := by
        rw [Real.sqrt_le_left (by norm_num), hT]
        have : 1 / c ^ 2 ≤ 1 / 441 := by
          rw [div_le_div_iff₀ (by positivity) (by norm_num)]; nlinarith
        nlinarith
      linarith
    have hgt : (1 / 10000 : ℝ) <
        Real.arctan (Real.sqrt (tallS c ![m, n, 0] ![g * m, g * n, 1]) / 2) * toDegrees := by
      apply delta_gt (by norm_num) (by norm_num)
      have : Real.sqrt (1 / c ^ 2) ≤ Real.sqrt (tallS c ![m, n, 0] ![g * m, g * n, 1]) := by
        apply Real.sqrt_le_sqrt; rw [hT]; nlinarith
      rw [show Real.sqrt (1 / c ^ 2) = 1 / c by
        rw [show (1 / c ^ 2 : ℝ) = (1 / c) ^ 2 by ring, Real.sqrt_sq (by positivity)]] at this
      have h3 : (1 / 1000 : ℝ) ≤ 1 / c := by
        rw [div_le_div_iff₀ (by norm_num) hc0]; linarith
      linarith
    have hmem := mem_potentialAxes.2 ⟨![m, n, 0], hv, ![g * m, g * n, 1], hl, hvl,
      by rw [tall_delta hc0 hvl]; exact hlt, rfl⟩
    have := hw _ hmem (by
      simp only [sameAxis, Bool.or_eq_true, decide_eq_true_eq]
      rcases hcase with ⟨e1, e2⟩ | ⟨e1, e2⟩
      · left; left; left
        funext i; fin_cases i
        · exact e1
        · exact e2
        · exact hz
      · left; right
        funext i; fin_cases i
        · simpa using e1
        · simpa using e2
        · simpa using hz)
    simp only at this
    rw [tall_delta hc0 hvl, tall_delta hc0 h1] at this
    linarith
  · -- along the tall direction
    have k1 : k 1 = 0 := (mul_eq_zero.1 p1).resolve_left hz
    have k0 : k 0 = 0 := (mul_eq_zero.1 p2).resolve_left hz
    have hk2 : k 2 ≠ 0 := by
      intro e
      rw [intDot, k0, k1, e] at h1; simp at h1
    have hT : tallS c u k = (((u 0) ^ 2 + (u 1) ^ 2) * (k 2) ^ 2 : ℤ) * (1 / c ^ 2) := by
      simp only [tallS, k0, k1]
      push_cast
      ring
    have hz2 : u 0 = 0 ∧ u 1 = 0 := by
      by_contra hne
      apply hS2
      rw [hT]
      have h4 : 1 ≤ ((u 0) ^ 2 + (u 1) ^ 2) * (k 2) ^ 2 := by
        have h5 : 0 < (k 2) ^ 2 := by positivity
        have h6 : 0 < (u 0) ^ 2 + (u 1) ^ 2 := by
          by_cases h7 : u 0 = 0
          · have h8 : u 1 ≠ 0 := fun e => hne ⟨h7, e⟩
            positivity
          · positivity
        exact Int.add_one_le_iff.2 (mul_pos h6 h5)
      have h5 : (1 : ℝ) ≤ ((((u 0) ^ 2 + (u 1) ^ 2) * (k 2) ^ 2 : ℤ) : ℝ) := by exact_mod_cast h4
      have hcc : (0 : ℝ) < 1 / c ^ 2 := by positivity
      nlinarith
    have ht : intMat u (tall c) = ![0, 0, c * u 2] := by
      funext j
      fin_cases j <;> simp [intMat, vecMat, tall, hz2.1, hz2.2, mul_comm]
    have hnorm : npNorm ![0, 0, c * u 2] = c * |(u 2 : ℝ)| := by
      rw [npNorm, npDot_eq_dot]
      simp only [dot, cons_val_zero, cons_val_one, cons_val]
      rw [show (0 : ℝ) * 0 + 0 * 0 + c * u 2 * (c * u 2) = (c * u 2) ^ 2 by ring, Real.sqrt_sq_eq_abs,
        abs_mul, abs_of_pos hc0]
    rw [ht]
    have hu2 : (u 2 : ℝ) ≠ 0 := by exact_mod_cast hz
    rcases lt_or_gt_of_ne hu2 with hneg | hpos
    · right
      funext j
      simp only [npNormalize, hnorm, abs_of_neg hneg]
      have e : c * (u 2 : ℝ) / (c * -(u 2 : ℝ)) = -1 := by field_simp
      fin_cases j
      · simp
      · simp
      · exact e
    · left
      funext j
      simp only [npNormalize, hnorm, abs_of_pos hpos]
      have e : c * (u 2 : ℝ) / (c * (u 2 : ℝ)) = 1 := by field_simp
      fin_cases j
      · simp
      · simp
      · exact e

theorem axisAngle_parallel {v w : Vec ℝ} (hv : v = ![0, 0, 1] ∨ v = ![0, 0, -1])
    (hw : w = ![0, 0, 1] ∨ w = ![0, 0, -1]) : axisAngle v w = 0 := by
  unfold axisAngle clip1
  rw [npDot_eq_dot]
  rcases hv with rfl | rfl <;> rcases hw with rfl | rfl <;> simp [dot]

theorem closeSorted_zeros {xs ys : List ℝ} {tol : ℝ} (h : ∀ x ∈ xs, x = 0)
    (hl : ys.length ≤ xs.length) (hy : ∃ y ∈ ys, tol ≤ |y|) : closeSorted xs ys tol = false := by
  obtain ⟨y, hy, ht⟩ := hy
  obtain ⟨i, hi, rfl⟩ := List.getElem_of_mem hy
  unfold closeSorted
  rw [List.all_eq_false]
  have hlen : (sortReals xs).length = xs.length := by simp [sortReals]
  have hz : ∀ x ∈ sortReals xs, x = 0 := by
    intro x hx; rw [sortReals, List.mem_mergeSort] at hx; exact h x hx
  refine ⟨_, List.getElem_mem (n := i) (by rw [List.length_zipWith]; omega), ?_⟩
  rw [List.getElem_zipWith]
  have := hz _ (List.getElem_mem (n := i) (by omega))
  rw [this]
  simp
  linarith

end Wulfric
