import Verif.Lemmas.Params
import Mathlib.Tactic.NormNum

/-! # C10: spherical coordinates -/

namespace Wulfric
open Matrix Spec

/-- Unit vector along `v` (specification side). -/
noncomputable def unitVec (v : Vec ℝ) : Vec ℝ := fun i => v i / Real.sqrt (dot v v)

theorem unitVec_dot {v : Vec ℝ} (h : dot v v ≠ 0) : dot (unitVec v) (unitVec v) = 1 := by
  unfold unitVec
  rw [dot_div, ← pow_two, Real.sq_sqrt (gdot_self_nonneg v), div_self h]

/-- Expansion of a vector in the frame `e, f, e × f`. -/
theorem frame_expand {e f : Vec ℝ} (he : dot e e = 1) (hf : dot f f = 1) (hef : dot e f = 0)
    (u : Vec ℝ) :
    (∀ i, u i = dot u e * e i + dot u f * f i + dot u (cross e f) * cross e f i) := by
  let M : Cell ℝ := Matrix.of ![e, f, cross e f]
  have hM : M * M.transpose = 1 := by
    have h0 : dot e (cross e f) = 0 := by simp [dot, cross]; ring
    have h1 : dot f (cross e f) = 0 := by simp [dot, cross]; ring
    have h2 : dot (cross e f) (cross e f) = 1 := by
      have : dot (cross e f) (cross e f) = dot e e * dot f f - dot e f ^ 2 := by
        simp [dot, cross]; ring
      rw [this, he, hf, hef]; norm_num
    have hfe : dot f e = 0 := by rw [dot_comm']; exact hef
    have h0' : dot (cross e f) e = 0 := by rw [dot_comm']; exact h0
    have h1' : dot (cross e f) f = 0 := by rw [dot_comm']; exact h1
    ext i j
    fin_cases i <;> fin_cases j <;>
      simp only [M, mul_apply, Fin.sum_univ_three, transpose_apply, of_apply, cons_val_zero,
        cons_val_one, cons_val, Fin.zero_eta, Fin.mk_one, Fin.reduceFinMk, one_apply] <;>
      simp only [dot] at * <;> simp <;> assumption
  have hM' : M.transpose * M = 1 := mul_eq_one_comm.1 hM
  intro i
  have := congrFun (congrArg (fun X => X *ᵥ u) hM') i
  simp only [one_mulVec, ← mulVec_mulVec] at this
  rw [← this]
  simp only [mulVec, dotProduct, Fin.sum_univ_three, M, transpose_apply, of_apply, cons_val_zero,
    cons_val_one, cons_val, dot]
  ring

theorem triple_eq (e f u : Vec ℝ) : (Matrix.of ![e, f, u] : Cell ℝ).det = dot u (cross e f) := by
  rw [det_fin_three]; simp [dot, cross]; ring

theorem dot_expand {u e f g : Vec ℝ} {x y z : ℝ} (h : ∀ i, u i = x * e i + y * f i + z * g i) :
    dot u u = x * dot u e + y * dot u f + z * dot u g := by
  unfold dot
  linear_combination u 0 * h 0 + u 1 * h 1 + u 2 * h 2

theorem parseval {e f : Vec ℝ} (he : dot e e = 1) (hf : dot f f = 1) (hef : dot e f = 0)
    (u : Vec ℝ) : dot u u = dot u e ^ 2 + dot u f ^ 2 + dot u (cross e f) ^ 2 := by
  rw [dot_expand (frame_expand he hf hef u)]; ring

theorem sq_eq_one_iff_of_side {x : ℝ} (h : x ^ 2 = 1) : x = 1 ∨ x = -1 := by
  have : (x - 1) * (x + 1) = 0 := by linear_combination h
  rcases mul_eq_zero.1 this with h | h
  · left; linarith
  · right; linarith

/-- The angle part of `get_spherical` off the axis, for a unit vector `n` and an
orthonormal pair `e, f`. -/
theorem off_axis {n e f : Vec ℝ} (hn : dot n n = 1) (he : dot e e = 1) (hf : dot f f = 1)
    (hef : dot e f = 0) (h1 : n ≠ e) (h2 : n ≠ fun i => -e i) :
    let w : Vec ℝ := fun i => n i - e i * dot n e
    let u : Vec ℝ := npNormalize w
    let θ := Real.arccos (clip1 (dot n e))
    let az0 := Real.arccos (clip1 (dot u f))
    let φ := if 0 ≤ (Matrix.of ![e, f, u] : Cell ℝ).det then az0 else 2 * Real.pi - az0
    (∀ i, n i = Real.cos θ * e i + Real.sin θ * (Real.cos φ * f i + Real.sin φ * cross e f i)) ∧
    (0 ≤ φ ∧ φ < 2 * Real.pi) := by
  intro w u θ az0 φ
  have hc : dot n e ^ 2 ≤ 1 := by have := cauchy n e; rw [hn, he, mul_one] at this; exact this
  have hcl := abs_le_of_sq_le_sq' (a := dot n e) (b := 1) (by rw [one_pow]; exact hc) zero_le_one
  have hw : dot w w = 1 - dot n e ^ 2 := by
    have : dot w w = dot n n - 2 * dot n e * dot n e + dot n e ^ 2 * dot e e := by
      simp only [w, dot]; ring
    rw [this, hn, he]; ring
  have hwe : dot w e = 0 := by
    have : dot w e = dot n e - dot n e * dot e e := by simp only [w, dot]; ring
    rw [this, he]; ring
  have hw0 : dot w w ≠ 0 := by
    intro h0
    have hz : ∀ i, w i = 0 := by
      have e' : w 0 * w 0 + w 1 * w 1 + w 2 * w 2 = 0 := h0
      intro i
      fin_cases i <;> simp only [Fin.zero_eta, Fin.mk_one, Fin.reduceFinMk] <;>
        nlinarith [mul_self_nonneg (w 0), mul_self_nonneg (w 1), mul_self_nonneg (w 2)]
    have hsq : dot n e ^ 2 = 1 := by rw [h0] at hw; linarith
    have hn' : ∀ i, n i = e i * dot n e := fun i => by have := hz i; simp only [w] at this; linarith
    rcases sq_eq_one_iff_of_side hsq with h | h
    · apply h1; ext i; rw [hn' i, h, mul_one]
    · apply h2; ext i; rw [hn' i, h]; ring
  have hwn : npNorm w ≠ 0 := by
    intro h; apply hw0; rw [← npNorm_sq, h]; norm_num
  have hu : dot u u = 1 := by
    show dot (fun i => w i / npNorm w) (fun i => w i / npNorm w) = 1
    rw [dot_div, npNorm_mul_self, div_self hw0]
  have hue : dot u e = 0 := by
    have : dot u e = dot w e / npNorm w := by simp only [u, npNormalize, dot]; ring
    rw [this, hwe, zero_div]
  have hp := parseval he hf hef u
  rw [hu, hue] at hp
  have hx1 : -1 ≤ dot u f := by nlinarith [sq_nonneg (dot u (cross e f))]
  have hx2 : dot u f ≤ 1 := by nlinarith [sq_nonneg (dot u (cross e f))]
  have hθc : Real.cos θ = dot n e := by
    simp only [θ]; rw [clip1_id hcl.1 hcl.2, Real.cos_arccos hcl.1 hcl.2]
  have hθs : Real.sin θ = npNorm w := by
    simp only [θ]; rw [clip1_id hcl.1 hcl.2, Real.sin_arccos, npNorm_eq, hw]
  have haz : az0 = Real.arccos (dot u f) := by simp only [az0]; rw [clip1_id hx1 hx2]
  have hsin0 : Real.sin az0 = |dot u (cross e f)| := by
    rw [haz, Real.sin_arccos, ← Real.sqrt_sq_eq_abs]; congr 1; linarith
  have hcos0 : Real.cos az0 = dot u f := by rw [haz, Real.cos_arccos hx1 hx2]
  have haz1 : 0 ≤ az0 := Real.arccos_nonneg _
  have haz2 : az0 ≤ Real.pi := Real.arccos_le_pi _
  have hpi := Real.pi_pos
  have hφ : Real.cos φ = dot u f ∧ Real.sin φ = dot u (cross e f) ∧ 0 ≤ φ ∧ φ < 2 * Real.pi := by
    by_cases ht : 0 ≤ dot u (cross e f)
    · have : φ = az0 := by simp only [φ]; rw [triple_eq, if_pos ht]
      rw [this]
      exact ⟨hcos0, by rw [hsin0, abs_of_nonneg ht], haz1, by linarith⟩
    · have e' : φ = 2 * Real.pi - az0 := by simp only [φ]; rw [triple_eq, if_neg ht]
      push Not at ht
      rw [e']
      refine ⟨by rw [Real.cos_two_pi_sub, hcos0], ?_, by linarith, ?_⟩
      · rw [Real.sin_two_pi_sub, hsin0, abs_of_neg ht]; ring
      · have : 0 < az0 := by
          rw [haz, Real.arccos_pos]
          nlinarith [mul_pos_of_neg_of_neg ht ht]
        linarith
  refine ⟨?_, hφ.2.2⟩
  intro i
  rw [hθc, hθs, hφ.1, hφ.2.1]
  have hx := frame_expand he hf hef u i
  rw [hue, zero_mul, zero_add] at hx
  have : npNorm w * (dot u f * f i + dot u (cross e f) * cross e f i) = w i := by
    rw [← hx]; simp only [u, npNormalize]; field_simp
  rw [this]; simp only [w]; ring

theorem allclose_refl (x : Vec ℝ) : allclose3 x x := by
  intro i; rw [sub_self, abs_zero]; positivity

theorem unit_div (v : Vec ℝ) : npNormalize v = unitVec v := by
  unfold unitVec npNormalize; rw [npNorm_eq]

/-- C10: for orthogonal non-zero polar axis and radial line, the spherical coordinates of a
vector not taken to be parallel to the axis reconstruct the vector. -/
theorem C10_reconstruct (v p q : Vec ℝ) (hv : dot v v ≠ 0) (hp : dot p p ≠ 0) (hq : dot q q ≠ 0)
    (hpq : dot p q = 0) (h1 : ¬ allclose3 (unitVec v) (unitVec p))
    (h2 : ¬ allclose3 (unitVec v) (fun i => - unitVec p i)) :
    ∃ r θ φ, getSpherical v false p q = (r, θ, φ) ∧
      r = Real.sqrt (dot v v) ∧ 0 ≤ θ ∧ θ ≤ Real.pi ∧ 0 ≤ φ ∧ φ < 2 * Real.pi ∧
      ∀ i, v i = r * (Real.cos θ * unitVec p i + Real.sin θ *
        (Real.cos φ * unitVec q i + Real.sin φ * cross (unitVec p) (unitVec q) i)) := by
  have hef : dot (unitVec p) (unitVec q) = 0 := by unfold unitVec; rw [dot_div, hpq, zero_div]
  obtain ⟨hmain, hφ1, hφ2⟩ := off_axis (unitVec_dot hv) (unitVec_dot hp) (unitVec_dot hq) hef
    (fun h => h1 (by rw [h]; exact allclose_refl _)) (fun h => h2 (by rw [h]; exact allclose_refl _))
  refine ⟨_, Real.arccos (clip1 (dot (unitVec v) (unitVec p))), _, ?_, rfl, Real.arccos_nonneg _,
    Real.arccos_le_pi _, hφ1, hφ2, ?_⟩
  · unfold getSpherical
    rw [unit_div v, unit_div p, unit_div q]
    unfold sphericalAngles
    rw [if_neg h1, if_neg h2]
    simp only [npDot_eq, Bool.false_eq_true, if_false]
    rw [npNorm_eq v]
  · intro i
    have := hmain i
    have hs : Real.sqrt (dot v v) ≠ 0 := by
      intro h; apply hv; rw [← Real.sq_sqrt (gdot_self_nonneg v), h]; norm_num
    rw [← this]
    unfold unitVec
    field_simp

/-- C10: on the axis. -/
theorem C10_on_axis (p q : Vec ℝ) (r : ℝ) (hr : 0 < r) (hp : dot p p ≠ 0) :
    getSpherical (fun i => r * unitVec p i) false p q = (r, 0, 0) ∧
    getSpherical (fun i => - (r * unitVec p i)) false p q = (r, Real.pi, Real.pi) := by
  have h1 := unitVec_dot hp
  have n1 : npNorm (fun i => r * unitVec p i) = r := by
    apply npNorm_of_sq hr.le
    have : dot (fun i => r * unitVec p i) (fun i => r * unitVec p i) =
      r ^ 2 * dot (unitVec p) (unitVec p) := by unfold dot; ring
    rw [this, h1, mul_one]
  have n2 : npNorm (fun i => - (r * unitVec p i)) = r := by
    apply npNorm_of_sq hr.le
    have : dot (fun i => - (r * unitVec p i)) (fun i => - (r * unitVec p i)) =
      r ^ 2 * dot (unitVec p) (unitVec p) := by unfold dot; ring
    rw [this, h1, mul_one]
  have u1 : npNormalize (fun i => r * unitVec p i) = unitVec p := by
    unfold npNormalize; rw [n1]; ext i; field_simp
  have u2 : npNormalize (fun i => - (r * unitVec p i)) = fun i => - unitVec p i := by
    unfold npNormalize; rw [n2]; ext i; field_simp
  have hne : ¬ allclose3 (fun i => - unitVec p i) (unitVec p) := by
    intro h
    have big : ∃ i, 1 / 2 ≤ |unitVec p i| := by
      by_contra hc
      push Not at hc
      have k : ∀ i, unitVec p i * unitVec p i ≤ 1 / 4 := by
        intro i
        have := hc i
        rw [abs_lt] at this
        nlinarith [this.1, this.2]
      have : dot (unitVec p) (unitVec p) ≤ 3 / 4 := by
        unfold dot; linarith [k 0, k 1, k 2]
      rw [h1] at this
      norm_num at this
    obtain ⟨i, hi⟩ := big
    have := h i
    rw [show -unitVec p i - unitVec p i = -(2 * unitVec p i) by ring, abs_neg, abs_mul, abs_two] at this
    norm_num at this
    linarith
  constructor
  · unfold getSpherical
    rw [u1, unit_div p, n1]
    unfold sphericalAngles
    rw [if_pos (allclose_refl _)]
    simp
  · unfold getSpherical
    rw [u2, unit_div p, n2]
    unfold sphericalAngles
    rw [if_neg hne, if_pos (allclose_refl _)]
    simp

/-- C10: the degrees form is the radians form times `180/π`. -/
theorem C10_degrees (v p q : Vec ℝ) :
    getSpherical v true p q = ((getSpherical v false p q).1,
      (getSpherical v false p q).2.1 * (180 / Real.pi),
      (getSpherical v false p q).2.2 * (180 / Real.pi)) := by
  unfold getSpherical
  simp only [if_true, Bool.false_eq_true, if_false]
  rfl

/-- Non-vacuity of `C10_reconstruct`: default axes and the vector `(1, 0, 0)`. -/
example : dot ![1, 0, 0] ![1, 0, 0] ≠ (0 : ℝ) ∧ dot ![0, 0, 1] ![0, 0, 1] ≠ (0 : ℝ) ∧
    dot ![0, 0, 1] ![1, 0, 0] = (0 : ℝ) ∧
    ¬ allclose3 (unitVec ![1, 0, 0]) (unitVec ![0, 0, 1]) ∧
    ¬ allclose3 (unitVec ![1, 0, 0]) (fun i => - unitVec ![0, 0, 1] i) := by
  refine ⟨by simp [dot], by simp [dot], by simp [dot], ?_, ?_⟩
  · intro h
    have := h 0
    simp [unitVec, dot] at this
    norm_num at this
  · intro h
    have := h 0
    simp [unitVec, dot] at this
    norm_num at this

/-- C10: orthogonality of the two axes is needed.  For the polar axis `(1, 0, 1)` and the
radial line `(1, 0, 0)` the vector `(1, 0, -1)` is along the projection of the radial line,
yet its azimuthal angle is `π/4`, not zero. -/
theorem C10_not_orthogonal :
    (getSpherical ![1, 0, -1] false ![1, 0, 1] ![1, 0, 0]).2.2 = Real.pi / 4 ∧
    ∃ k : ℝ, 0 < k ∧ ∀ i, (![1, 0, -1] : Vec ℝ) i = k * ((![1, 0, 0] : Vec ℝ) i -
      dot ![1, 0, 0] (unitVec ![1, 0, 1]) * unitVec ![1, 0, 1] i) := by
  have h2 : Real.sqrt 2 * Real.sqrt 2 = 2 := Real.mul_self_sqrt (by norm_num)
  have hs : (0 : ℝ) < Real.sqrt 2 := by positivity
  have hs1 : (1 : ℝ) < Real.sqrt 2 := by rw [Real.lt_sqrt (by norm_num)]; norm_num
  have hs2 : Real.sqrt 2 < 2 := by nlinarith
  have n1 : npNorm ![1, 0, -1] = Real.sqrt 2 := by rw [npNorm_eq]; simp [dot]; norm_num
  have n2 : npNorm ![1, 0, 1] = Real.sqrt 2 := by rw [npNorm_eq]; simp [dot]; norm_num
  have n3 : npNorm ![1, 0, 0] = 1 := by rw [npNorm_eq]; simp [dot]
  have hi : (Real.sqrt 2)⁻¹ * Real.sqrt 2 = 1 := inv_mul_cancel₀ hs.ne'
  have hi2 : 1 / 2 < (Real.sqrt 2)⁻¹ := by nlinarith [inv_pos.2 hs]
  have v1 : npNormalize ![1, 0, -1] = ![(Real.sqrt 2)⁻¹, 0, -(Real.sqrt 2)⁻¹] := by
    unfold npNormalize; rw [n1]; ext i; fin_cases i <;> simp [neg_div]
  have v2 : npNormalize ![1, 0, 1] = ![(Real.sqrt 2)⁻¹, 0, (Real.sqrt 2)⁻¹] := by
    unfold npNormalize; rw [n2]; ext i; fin_cases i <;> simp
  have v3 : npNormalize ![1, 0, 0] = ![1, 0, 0] := by
    unfold npNormalize; rw [n3]; ext i; fin_cases i <;> simp
  have c1 : ¬ allclose3 ![(Real.sqrt 2)⁻¹, 0, -(Real.sqrt 2)⁻¹] ![(Real.sqrt 2)⁻¹, 0, (Real.sqrt 2)⁻¹] := by
    intro h
    have := h 2
    simp only [cons_val] at this
    rw [show -(Real.sqrt 2)⁻¹ - (Real.sqrt 2)⁻¹ = -(2 * (Real.sqrt 2)⁻¹) by ring, abs_neg,
      abs_of_pos (by positivity), abs_of_pos (by positivity)] at this
    norm_num at this
    linarith
  have c2 : ¬ allclose3 ![(Real.sqrt 2)⁻¹, 0, -(Real.sqrt 2)⁻¹]
      (fun i => - (![(Real.sqrt 2)⁻¹, 0, (Real.sqrt 2)⁻¹] : Vec ℝ) i) := by
    intro h
    have := h 0
    simp only [cons_val_zero] at this
    rw [show (Real.sqrt 2)⁻¹ - -(Real.sqrt 2)⁻¹ = (2 * (Real.sqrt 2)⁻¹) by ring, abs_neg,
      abs_of_pos (by positivity), abs_of_pos (by positivity)] at this
    norm_num at this
    linarith
  have d0 : dot ![(Real.sqrt 2)⁻¹, 0, -(Real.sqrt 2)⁻¹] ![(Real.sqrt 2)⁻¹, 0, (Real.sqrt 2)⁻¹] = 0 := by
    simp [dot]
  constructor
  · unfold getSpherical
    rw [v1, v2, v3]
    unfold sphericalAngles
    rw [if_neg c1, if_neg c2]
    simp only [npDot_eq, d0, mul_zero, sub_zero, Bool.false_eq_true, if_false]
    have n4 : npNorm ![(Real.sqrt 2)⁻¹, 0, -(Real.sqrt 2)⁻¹] = 1 := by
      apply npNorm_of_sq (by norm_num)
      simp [dot]
      nlinarith
    have v4 : npNormalize (fun i => (![(Real.sqrt 2)⁻¹, 0, -(Real.sqrt 2)⁻¹] : Vec ℝ) i) =
      ![(Real.sqrt 2)⁻¹, 0, -(Real.sqrt 2)⁻¹] := by
      show npNormalize ![(Real.sqrt 2)⁻¹, 0, -(Real.sqrt 2)⁻¹] = _
      unfold npNormalize; rw [n4]; ext i; rw [div_one]
    rw [v4]
    have d1 : dot ![(Real.sqrt 2)⁻¹, 0, -(Real.sqrt 2)⁻¹] ![1, 0, 0] = (Real.sqrt 2)⁻¹ := by
      simp [dot]
    have d2 : 0 ≤ (Matrix.of ![![(Real.sqrt 2)⁻¹, 0, (Real.sqrt 2)⁻¹], ![1, 0, 0],
        ![(Real.sqrt 2)⁻¹, 0, -(Real.sqrt 2)⁻¹]] : Cell ℝ).det := by
      rw [det_fin_three]; simp
    rw [if_pos d2, d1, clip1_id (by linarith) (by nlinarith)]
    have e : (Real.sqrt 2)⁻¹ = Real.cos (Real.pi / 4) := by
      rw [Real.cos_pi_div_four]; field_simp; linarith
    have hp := Real.pi_pos
    rw [e, Real.arccos_cos (by positivity) (by linarith)]
  · refine ⟨2, by norm_num, ?_⟩
    have hu : unitVec ![1, 0, 1] = ![(Real.sqrt 2)⁻¹, 0, (Real.sqrt 2)⁻¹] := by
      rw [← unit_div, v2]
    rw [hu]
    have hh : (Real.sqrt 2)⁻¹ * (Real.sqrt 2)⁻¹ = 1 / 2 := by
      rw [← mul_inv, h2]; norm_num
    intro i
    fin_cases i <;> simp [dot, hh] <;> nlinarith

end Wulfric
