import Verif.Spec.Isometry
import Verif.Lemmas.NiggliUnique
import Verif.Props.C11_Niggli
import Verif.Props.C54_ScalarProducts

/-!
# C61: the Niggli cell is a property of the lattice
-/

namespace Wulfric

open Matrix _root_.Spec

section General

variable {K : Type*} [Field K] [LinearOrder K] [IsStrictOrderedRing K]

theorem gram_apply (m : Cell K) (i j : Fin 3) : (m * m.transpose) i j = dot (m i) (m j) := by
  simp [Matrix.mul_apply, dot, Fin.sum_univ_three]

theorem sameMetric_iff (c d : Cell K) :
    SameMetric c d ↔ c * c.transpose = d * d.transpose := by
  constructor
  · intro h; ext i j; rw [gram_apply, gram_apply, h]
  · intro h i j; rw [← gram_apply, ← gram_apply, h]

theorem sameMetric_mul (c R : Cell K) (hR : R * R.transpose = 1) : SameMetric (c * R) c := by
  rw [sameMetric_iff, Matrix.transpose_mul, Matrix.mul_assoc, ← Matrix.mul_assoc R, hR,
    Matrix.one_mul]

theorem sameMetric_exists (c d : Cell K) (hc : c.det ≠ 0) (h : SameMetric d c) :
    ∃ R : Cell K, R * R.transpose = 1 ∧ d = c * R := by
  rw [sameMetric_iff] at h
  have hu : IsUnit c.det := isUnit_iff_ne_zero.2 hc
  refine ⟨c⁻¹ * d, ?_, ?_⟩
  · rw [Matrix.transpose_mul, Matrix.mul_assoc, ← Matrix.mul_assoc d, h,
      ← Matrix.mul_assoc, ← Matrix.mul_assoc, Matrix.nonsing_inv_mul _ hu, Matrix.one_mul,
      ← Matrix.transpose_mul, Matrix.nonsing_inv_mul _ hu, Matrix.transpose_one]
  · rw [← Matrix.mul_assoc, Matrix.mul_nonsing_inv _ hu, Matrix.one_mul]

theorem abs_det_orthogonal (R : Cell K) (hR : R * R.transpose = 1) : |R.det| = 1 := by
  have h := congrArg Matrix.det hR
  rw [det_mul, det_transpose, det_one] at h
  have h2 : |R.det| * |R.det| = 1 := by rw [← abs_mul, h, abs_one]
  nlinarith [abs_nonneg R.det]

theorem niggli_of_sameMetric {c d : Cell K} (h : SameMetric d c) (hn : IsNiggli c) :
    IsNiggli d := by
  unfold IsNiggli at hn ⊢
  rw [h 0 0, h 1 1, h 2 2, h 1 2, h 0 2, h 0 1]
  exact hn

theorem sameLattice_mul {c d : Cell K} (h : SameLattice c d) (hc : c.det ≠ 0) (R : Cell K) :
    SameLattice (c * R) (d * R) := by
  obtain ⟨M, hM, rfl⟩ := h.unimodular hc
  rw [Matrix.mul_assoc]
  exact (sameLattice_of_unimodular M (by rcases hM with h | h <;> simp [h]) _).symm

/-- C61: two reduced bases of one lattice have the same scalar products; the lattice may have been
rotated or reflected in between. Hence the reduced form is a property of the lattice. -/
theorem C61_unique (c d : Cell K) (hc : c.det ≠ 0) (h : Isometric c d) (nc : IsNiggli c)
    (nd : IsNiggli d) : SameMetric c d := by
  obtain ⟨R, hR, hs⟩ := h
  have hm := sameMetric_mul c R hR
  have hd : (c * R).det ≠ 0 := by
    rw [det_mul]
    have := abs_det_orthogonal R hR
    refine mul_ne_zero hc fun h0 => ?_
    rw [h0, abs_zero] at this
    exact zero_ne_one this
  intro i j
  rw [← hm i j]
  exact niggli_unique hd hs (niggli_of_sameMetric hm nc) nd i j

/-- Being a multiple of a spacing is a property of the lattice. -/
theorem commensurate_isometric {spacing : K} {c d : Cell K} (hc : c.det ≠ 0)
    (h : Isometric c d) (hs : Commensurate spacing c) : Commensurate spacing d := by
  obtain ⟨R, hR, hl⟩ := h
  have hm := sameMetric_mul c R hR
  have hd : (c * R).det ≠ 0 := by
    rw [det_mul]
    have := abs_det_orthogonal R hR
    refine mul_ne_zero hc fun h0 => ?_
    rw [h0, abs_zero] at this
    exact zero_ne_one this
  have hs' : Commensurate spacing (c * R) := by
    intro i j
    obtain ⟨n, hn⟩ := hs i j
    exact ⟨n, by rw [hm i j, hn]⟩
  obtain ⟨M, -, e⟩ := hl.unimodular hd
  generalize c * R = cell at *
  choose g hg using hs'
  have hrow : ∀ i k, d i k = (M i 0 : K) * cell 0 k + (M i 1 : K) * cell 1 k + (M i 2 : K) * cell 2 k := by
    intro i k; rw [e, Matrix.mul_apply, Fin.sum_univ_three]; simp
  have h00 := hg 0 0
  have h11 := hg 1 1
  have h22 := hg 2 2
  have h01 := hg 0 1
  have h02 := hg 0 2
  have h12 := hg 1 2
  simp only [if_true, Fin.isValue, show (0 : Fin 3) ≠ 1 by decide, show (0 : Fin 3) ≠ 2 by decide,
    show (1 : Fin 3) ≠ 2 by decide, if_false, dot] at h00 h11 h22 h01 h02 h12
  intro i j
  split
  · rename_i hij
    subst hij
    refine ⟨M i 0 * M i 0 * g 0 0 + M i 1 * M i 1 * g 1 1 + M i 2 * M i 2 * g 2 2 +
      M i 0 * M i 1 * g 0 1 + M i 0 * M i 2 * g 0 2 + M i 1 * M i 2 * g 1 2, ?_⟩
    simp only [dot, hrow]; push_cast
    linear_combination (M i 0 : K) * M i 0 * h00 + (M i 1 : K) * M i 1 * h11 +
      (M i 2 : K) * M i 2 * h22 + (M i 0 : K) * M i 1 * h01 + (M i 0 : K) * M i 2 * h02 +
      (M i 1 : K) * M i 2 * h12
  · refine ⟨2 * (M i 0 * M j 0 * g 0 0 + M i 1 * M j 1 * g 1 1 + M i 2 * M j 2 * g 2 2) +
      (M i 0 * M j 1 + M i 1 * M j 0) * g 0 1 + (M i 0 * M j 2 + M i 2 * M j 0) * g 0 2 +
      (M i 1 * M j 2 + M i 2 * M j 1) * g 1 2, ?_⟩
    simp only [dot, hrow]; push_cast
    linear_combination 2 * (M i 0 : K) * M j 0 * h00 + 2 * (M i 1 : K) * M j 1 * h11 +
      2 * (M i 2 : K) * M j 2 * h22 + ((M i 0 : K) * M j 1 + (M i 1 : K) * M j 0) * h01 +
      ((M i 0 : K) * M j 2 + (M i 2 : K) * M j 0) * h02 +
      ((M i 1 : K) * M j 2 + (M i 2 : K) * M j 1) * h12

theorem abs_det_isometric {c d : Cell K} (h : Isometric c d) : |d.det| = |c.det| := by
  obtain ⟨R, hR, hs⟩ := h
  rw [hs.abs_det, det_mul, abs_mul, abs_det_orthogonal R hR, mul_one]

/-- C61 for every non-degenerate lattice, commensurate or not: for two cells of one lattice
(rotated or reflected) there is a positive threshold such that, whenever the tolerances are below
it and the limit is large enough, both reductions return, and the two results have the same scalar
products. -/
theorem C61_small_tolerance [Archimedean K] (c₁ c₂ : Cell K) (hc : c₁.det ≠ 0)
    (h : Isometric c₁ c₂) :
    ∃ δ > 0, ∃ N : ℕ, ∃ r₁ r₂, SameMetric r₁ r₂ ∧
      ∀ eps e4 : K, 0 ≤ eps → eps < δ → 0 ≤ e4 → e4 < δ → ∀ m : ℤ, (N : ℤ) ≤ m →
        niggliCore c₁ eps e4 m = .ok r₁ ∧ niggliCore c₂ eps e4 m = .ok r₂ := by
  have hc2 : c₂.det ≠ 0 := by
    have := abs_det_isometric h
    intro h0
    rw [h0, abs_zero, eq_comm, abs_eq_zero] at this
    exact hc this
  obtain ⟨δ₁, p₁, N₁, r₁, n₁, s₁, d₁, k₁⟩ := C14_small_tolerance c₁ hc
  obtain ⟨δ₂, p₂, N₂, r₂, n₂, s₂, d₂, k₂⟩ := C14_small_tolerance c₂ hc2
  obtain ⟨R, hR, hs⟩ := h
  have hr1 : r₁.det ≠ 0 := by rw [d₁]; exact hc
  refine ⟨min δ₁ δ₂, lt_min p₁ p₂, max N₁ N₂, r₁, r₂, C61_unique r₁ r₂ hr1
    ⟨R, hR, ((sameLattice_mul s₁ hr1 R).trans hs).trans s₂.symm⟩ n₁ n₂, ?_⟩
  intro eps e4 a b a' b' m hm
  refine ⟨k₁ eps e4 a (b.trans_le (min_le_left _ _)) a' (b'.trans_le (min_le_left _ _)) m ?_,
    k₂ eps e4 a (b.trans_le (min_le_right _ _)) a' (b'.trans_le (min_le_right _ _)) m ?_⟩
  · exact le_trans (by exact_mod_cast le_max_left _ _) hm
  · exact le_trans (by exact_mod_cast le_max_right _ _) hm

end General

/-! ## The public function -/

theorem separated_isometric {c d : Cell ℝ} {e spacing : ℝ} (hc : c.det ≠ 0) (h : Isometric c d)
    (hs : Separated spacing (absTol c e) (1 / 10 ^ 8) c) :
    Separated spacing (absTol d e) (1 / 10 ^ 8) d := by
  have : absTol d e = absTol c e := by unfold absTol; rw [abs_det_isometric h]
  rw [this]
  exact ⟨commensurate_isometric hc h hs.comm, hs.pos, hs.eps_nonneg, hs.eps_lt, hs.eps_lt3,
    hs.e4_nonneg, hs.e4_lt⟩

theorem npNorm_of_dot {u v : Vec ℝ} (h : dot u u = dot v v) : npNorm u = npNorm v := by
  rw [← Real.sqrt_sq (npNorm_nonneg u), ← Real.sqrt_sq (npNorm_nonneg v), npNorm_sq, npNorm_sq, h]

theorem getAngle_of_dot {u v u' v' : Vec ℝ} (hu : dot u u = dot u' u') (hv : dot v v = dot v' v')
    (h : dot u v = dot u' v') (b : Bool) : getAngle u v b = getAngle u' v' b := by
  unfold getAngle
  have key : ∀ (x y : Vec ℝ) (p q : ℝ), npDot (fun i => x i / p) (fun i => y i / q) =
      dot x y / (p * q) := by
    intro x y p q
    rw [npDot_eq]; simp only [dot]; ring
  simp only [npNorm_of_dot hu, npNorm_of_dot hv, key, h]

/-- The parameters depend on the scalar products only. -/
theorem getParams_of_sameMetric {c d : Cell ℝ} (h : SameMetric c d) :
    getParams c = getParams d := by
  unfold getParams
  rw [getAngle_of_dot (h 1 1) (h 2 2) (h 1 2), getAngle_of_dot (h 0 0) (h 2 2) (h 0 2),
    getAngle_of_dot (h 0 0) (h 1 1) (h 0 1), npNorm_of_dot (h 0 0), npNorm_of_dot (h 1 1),
    npNorm_of_dot (h 2 2)]

theorem getScalarProducts_of_sameMetric {c d : Cell ℝ} (h : SameMetric c d) :
    getScalarProducts c = getScalarProducts d := by
  unfold getScalarProducts
  simp only [npDot_eq, h 1 2, h 0 2, h 0 1]

/-- C61: two calls decide whether two cells span the same lattice up to a rotation or reflection
of space: this is the case exactly when the two results agree in `get_scalar_products` and in the
three lengths. -/
theorem C61_decides (sp : Cell ℝ → ℝ → Except Err (Cell ℝ)) (c₁ c₂ : Cell ℝ) (e : ℝ)
    (impl : String) (hi : IsWulfric impl) (m₁ m₂ : ℤ) (r₁ r₂ : Cell ℝ) (s₁ s₂ : ℝ)
    (h₁ : Separated s₁ (absTol c₁ e) (1 / 10 ^ 8) c₁)
    (h₂ : Separated s₂ (absTol c₂ e) (1 / 10 ^ 8) c₂)
    (k₁ : getNiggli sp c₁ e impl m₁ = .ok r₁) (k₂ : getNiggli sp c₂ e impl m₂ = .ok r₂) :
    Isometric c₁ c₂ ↔ (getScalarProducts r₁ = getScalarProducts r₂ ∧
      ∀ i, npNorm (r₁ i) = npNorm (r₂ i)) := by
  have n₁ := C13_getNiggli_partial sp c₁ e impl hi m₁ r₁ s₁ h₁ k₁
  have n₂ := C13_getNiggli_partial sp c₂ e impl hi m₂ r₂ s₂ h₂ k₂
  obtain ⟨-, l₁, -, d₁⟩ := C11_same_lattice sp c₁ e impl hi m₁ r₁ k₁
  obtain ⟨-, l₂, -, d₂⟩ := C11_same_lattice sp c₂ e impl hi m₂ r₂ k₂
  have e₁ : r₁.det ≠ 0 := by
    have := SameLattice.abs_det l₁
    intro h0
    rw [h0, abs_zero, abs_eq_zero] at this
    exact d₁ this
  have e₂ : r₂.det ≠ 0 := by
    have := SameLattice.abs_det l₂
    intro h0
    rw [h0, abs_zero, abs_eq_zero] at this
    exact d₂ this
  constructor
  · rintro ⟨R, hR, hs⟩
    have hm := C61_unique r₁ r₂ e₁
      ⟨R, hR, ((sameLattice_mul l₁ e₁ R).trans hs).trans l₂.symm⟩ n₁ n₂
    exact ⟨getScalarProducts_of_sameMetric hm, fun i => npNorm_of_dot (hm i i)⟩
  · intro h
    obtain ⟨R, hR, rfl⟩ := (C54_invariant r₁ r₂ e₂).1 h
    have hR' : R.transpose * R.transpose.transpose = 1 := by
      rw [Matrix.transpose_transpose]; exact mul_eq_one_comm.1 hR
    refine ⟨R.transpose, hR', ?_⟩
    have := sameLattice_mul l₁ e₁ R.transpose
    rw [Matrix.mul_assoc, hR, Matrix.mul_one] at this
    exact this.symm.trans l₂

/-- C61: for a lattice with separated scalar products the parameters of the Niggli cell do not
depend on the basis and orientation in which the lattice was supplied: from some limit on, both
calls return, and `get_params` of the two results is the same. -/
theorem C61_params (sp : Cell ℝ → ℝ → Except Err (Cell ℝ)) (c₁ c₂ : Cell ℝ) (e : ℝ)
    (impl : String) (hi : IsWulfric impl) (spacing : ℝ) (hc : c₁.det ≠ 0)
    (h : Isometric c₁ c₂) (hs : Separated spacing (absTol c₁ e) (1 / 10 ^ 8) c₁) :
    ∃ N : ℕ, ∃ r₁ r₂, getParams r₁ = getParams r₂ ∧
      (∃ R : Cell ℝ, R * R.transpose = 1 ∧ r₁ = r₂ * R ∧ R.det * c₂.det = c₁.det) ∧
      ∀ m : ℤ, (N : ℤ) ≤ m →
        getNiggli sp c₁ e impl m = .ok r₁ ∧ getNiggli sp c₂ e impl m = .ok r₂ := by
  have hc2 : c₂.det ≠ 0 := by
    have := abs_det_isometric h
    intro h0
    rw [h0, abs_zero, eq_comm, abs_eq_zero] at this
    exact hc this
  obtain ⟨N₁, r₁, n₁, l₁, d₁, k₁⟩ := C14_getNiggli sp c₁ e impl hi spacing hc hs
  obtain ⟨N₂, r₂, n₂, l₂, d₂, k₂⟩ := C14_getNiggli sp c₂ e impl hi spacing hc2
    (separated_isometric hc h hs)
  obtain ⟨R, hR, hs'⟩ := h
  have hr1 : r₁.det ≠ 0 := by rw [d₁]; exact hc
  have hr2 : r₂.det ≠ 0 := by rw [d₂]; exact hc2
  have hm := C61_unique r₁ r₂ hr1
    ⟨R, hR, ((sameLattice_mul l₁ hr1 R).trans hs').trans l₂.symm⟩ n₁ n₂
  obtain ⟨Q, hQ, eQ⟩ := sameMetric_exists r₂ r₁ hr2 hm
  refine ⟨max N₁ N₂, r₁, r₂, getParams_of_sameMetric hm, ⟨Q, hQ, eQ, ?_⟩, ?_⟩
  · have := congrArg Matrix.det eQ
    rw [det_mul, d₁, d₂] at this
    rw [this]; ring
  · intro m hm
    exact ⟨k₁ m (le_trans (by exact_mod_cast le_max_left _ _) hm),
      k₂ m (le_trans (by exact_mod_cast le_max_right _ _) hm)⟩

/-- Non-vacuity: two quite different integer bases, one of them rotated by a quarter turn. -/
example : Isometric (!![2, 0, 0; 1, 3, 0; 1, 1, 4] : Cell ℚ) !![0, 2, 0; -3, 1, 0; -4, 2, 4] ∧
    (!![2, 0, 0; 1, 3, 0; 1, 1, 4] : Cell ℚ).det ≠ 0 ∧
    ¬ SameMetric (!![2, 0, 0; 1, 3, 0; 1, 1, 4] : Cell ℚ) !![0, 2, 0; -3, 1, 0; -4, 2, 4] := by
  refine ⟨⟨!![0, 1, 0; -1, 0, 0; 0, 0, 1], ?_, ?_⟩, ?_, ?_⟩
  · ext i j; fin_cases i <;> fin_cases j <;> simp [Matrix.mul_apply, Fin.sum_univ_three]
  · have := sameLattice_of_unimodular (K := ℚ) !![1, 0, 0; 0, 1, 0; 0, 1, 1]
      (by simp [det_fin_three]) (!![2, 0, 0; 1, 3, 0; 1, 1, 4] * !![0, 1, 0; -1, 0, 0; 0, 0, 1])
    convert this.symm using 1
    ext i j
    fin_cases i <;> fin_cases j <;> simp [Matrix.mul_apply, Fin.sum_univ_three] <;> norm_num
  · simp [det_fin_three]
  · intro h
    have := h 2 2
    simp [dot] at this
    norm_num at this

/-- Non-vacuity of the separation hypothesis for real cells: integer entries and the default
tolerance. -/
example : Separated 1 (absTol (!![2, 0, 0; 1, 3, 0; 1, 1, 4] : Cell ℝ) defaultRel) (1 / 10 ^ 8)
    (!![2, 0, 0; 1, 3, 0; 1, 1, 4] : Cell ℝ) := by
  have hd : |(!![2, 0, 0; 1, 3, 0; 1, 1, 4] : Cell ℝ).det| = 24 := by
    simp [det_fin_three]; norm_num
  have hb : (24 : ℝ) ^ ((1 : ℝ) / 3) ≤ 27 ^ ((1 : ℝ) / 3) :=
    Real.rpow_le_rpow (by norm_num) (by norm_num) (by norm_num)
  have h27 : (27 : ℝ) ^ ((1 : ℝ) / 3) = 3 := by
    rw [show (27 : ℝ) = 3 ^ (3 : ℝ) by norm_num, ← Real.rpow_mul (by norm_num)]; norm_num
  rw [h27] at hb
  have h0 : (0 : ℝ) ≤ 24 ^ ((1 : ℝ) / 3) := by positivity
  refine integer_separated _ ?_ _ _ ?_ ?_ (by norm_num) (by norm_num)
  · intro i j
    refine ⟨(!![2, 0, 0; 1, 3, 0; 1, 1, 4] : Matrix (Fin 3) (Fin 3) ℤ) i j, ?_⟩
    fin_cases i <;> fin_cases j <;> simp
  · unfold absTol defaultRel; rw [hd]; positivity
  · unfold absTol defaultRel; rw [hd]; norm_num at hb ⊢; linarith

end Wulfric
