import Verif.Model.Geometry
import Verif.Spec.Geometry
import Verif.Lemmas.Numerical
import Mathlib.Tactic.Linarith
import Mathlib.Tactic.LinearCombination
import Mathlib.Tactic.FieldSimp
import Mathlib.Tactic.Positivity

/-! # Helper lemmas for the geometry module -/

namespace Wulfric
open Matrix Spec

theorem npDot_eq (u v : Vec ℝ) : npDot u v = dot u v := by
  unfold npDot dot; rw [Fin.sum_univ_three]

theorem gdot_self_nonneg (v : Vec ℝ) : 0 ≤ dot v v := by
  unfold dot; nlinarith [mul_self_nonneg (v 0), mul_self_nonneg (v 1), mul_self_nonneg (v 2)]

theorem npNorm_eq (v : Vec ℝ) : npNorm v = Real.sqrt (dot v v) := by
  unfold npNorm; rw [npDot_eq]

theorem npNorm_nonneg (v : Vec ℝ) : 0 ≤ npNorm v := Real.sqrt_nonneg _

theorem npNorm_sq (v : Vec ℝ) : npNorm v ^ 2 = dot v v := by
  rw [npNorm_eq, Real.sq_sqrt (gdot_self_nonneg v)]

theorem npNorm_mul_self (v : Vec ℝ) : npNorm v * npNorm v = dot v v := by
  rw [← npNorm_sq, pow_two]

theorem dot_comm' (u v : Vec ℝ) : dot u v = dot v u := by unfold dot; ring

theorem cauchy (u v : Vec ℝ) : dot u v ^ 2 ≤ dot u u * dot v v := by
  unfold dot
  nlinarith [sq_nonneg (u 0 * v 1 - u 1 * v 0), sq_nonneg (u 0 * v 2 - u 2 * v 0),
    sq_nonneg (u 1 * v 2 - u 2 * v 1)]

theorem dot_div (u v : Vec ℝ) (a b : ℝ) :
    dot (fun i => u i / a) (fun i => v i / b) = dot u v / (a * b) := by
  unfold dot
  simp only [div_mul_div_comm]
  ring

theorem clip1_id {x : ℝ} (h1 : -1 ≤ x) (h2 : x ≤ 1) : clip1 x = x := by
  unfold clip1; rw [max_eq_left h1, min_eq_left h2]

/-- `v1·v2/(|v1||v2|)` is a cosine. -/
theorem ratio_mem {u v : Vec ℝ} (hu : npNorm u ≠ 0) (hv : npNorm v ≠ 0) :
    -1 ≤ dot u v / (npNorm u * npNorm v) ∧ dot u v / (npNorm u * npNorm v) ≤ 1 := by
  have hu' : 0 < npNorm u := lt_of_le_of_ne (npNorm_nonneg u) (Ne.symm hu)
  have hv' : 0 < npNorm v := lt_of_le_of_ne (npNorm_nonneg v) (Ne.symm hv)
  have hp : 0 < npNorm u * npNorm v := mul_pos hu' hv'
  have h := cauchy u v
  rw [← npNorm_sq, ← npNorm_sq, ← mul_pow] at h
  have := abs_le_of_sq_le_sq' h hp.le
  rw [le_div_iff₀ hp, div_le_iff₀ hp]
  constructor <;> linarith [this.1, this.2]

/-- Value of the angle in radians. -/
theorem getAngle_val {u v : Vec ℝ} (hu : machineEps < npNorm u) (hv : machineEps < npNorm v)
    (radians : Bool) :
    getAngle u v radians = .ok (if radians then Real.arccos (dot u v / (npNorm u * npNorm v))
      else Real.arccos (dot u v / (npNorm u * npNorm v)) * toDegrees) := by
  have he : (0 : ℝ) < machineEps := by unfold machineEps; positivity
  have hu0 : npNorm u ≠ 0 := (he.trans hu).ne'
  have hv0 : npNorm v ≠ 0 := (he.trans hv).ne'
  unfold getAngle
  rw [abs_of_nonneg (npNorm_nonneg u), abs_of_nonneg (npNorm_nonneg v),
    if_neg (by push Not; exact ⟨hu, hv⟩)]
  simp only
  rw [npDot_eq, dot_div, clip1_id (ratio_mem hu0 hv0).1 (ratio_mem hu0 hv0).2]
  cases radians <;> simp

theorem machineEps_pos : (0 : ℝ) < machineEps := by unfold machineEps; positivity

theorem toDegrees_toRadians (x : ℝ) : x * toDegrees * (Real.pi / 180) = x := by
  unfold toDegrees
  have := Real.pi_ne_zero
  field_simp

theorem deg_arccos {x t : ℝ} (ht : 0 ≤ t ∧ t ≤ 180) (h : x = Real.cos (t * (Real.pi / 180))) :
    Real.arccos x * toDegrees = t := by
  have hp := Real.pi_pos
  rw [h, Real.arccos_cos (by have := ht.1; positivity)]
  · unfold toDegrees; field_simp
  · nlinarith [ht.2]

/-! ## Determinant and Gram matrix -/

theorem gram (m : Cell ℝ) :
    m.det ^ 2 = dot (m 0) (m 0) * dot (m 1) (m 1) * dot (m 2) (m 2)
      + 2 * dot (m 0) (m 1) * dot (m 0) (m 2) * dot (m 1) (m 2)
      - dot (m 0) (m 0) * dot (m 1) (m 2) ^ 2 - dot (m 1) (m 1) * dot (m 0) (m 2) ^ 2
      - dot (m 2) (m 2) * dot (m 0) (m 1) ^ 2 := by
  rw [det_fin_three]; unfold dot; ring

theorem row_ne {c : Cell ℝ} (h : c.det ≠ 0) (i : Fin 3) : 0 < dot (c i) (c i) := by
  rcases (gdot_self_nonneg (c i)).lt_or_eq with h' | h'
  · exact h'
  · exfalso
    apply h
    apply Matrix.det_eq_zero_of_row_eq_zero i
    have e : c i 0 * c i 0 + c i 1 * c i 1 + c i 2 * c i 2 = 0 := h'.symm
    have h0 : c i 0 = 0 := by nlinarith [mul_self_nonneg (c i 0), mul_self_nonneg (c i 1), mul_self_nonneg (c i 2)]
    have h1 : c i 1 = 0 := by nlinarith [mul_self_nonneg (c i 0), mul_self_nonneg (c i 1), mul_self_nonneg (c i 2)]
    have h2 : c i 2 = 0 := by nlinarith [mul_self_nonneg (c i 0), mul_self_nonneg (c i 1), mul_self_nonneg (c i 2)]
    intro j
    fin_cases j <;> assumption

/-! ## The expression under the square root -/

theorem sqRoot_sq (x y z : ℝ) :
    sqRoot x y z = Real.sin y ^ 2 * Real.sin z ^ 2
      - (Real.cos x - Real.cos y * Real.cos z) ^ 2 := by
  unfold sqRoot
  have h1 := Real.sin_sq_add_cos_sq y
  have h2 := Real.sin_sq_add_cos_sq z
  have e1 : Real.sin y ^ 2 = 1 - Real.cos y ^ 2 := by linarith
  have e2 : Real.sin z ^ 2 = 1 - Real.cos z ^ 2 := by linarith
  rw [e1, e2]; ring

theorem sqRoot_symm (x y z : ℝ) : sqRoot x y z = sqRoot y x z ∧ sqRoot x y z = sqRoot x z y := by
  unfold sqRoot; constructor <;> ring

/-- Product formula for the volume factor. -/
theorem sqRoot_prod (p q r : ℝ) :
    sqRoot (q + r) (p + r) (p + q) =
      4 * Real.sin (p + q + r) * Real.sin p * Real.sin q * Real.sin r := by
  have h1 : 2 * Real.sin (p + q + r) * Real.sin p = Real.cos (q + r) - Real.cos ((p + r) + (p + q)) := by
    have a := Real.cos_sub (p + q + r) p
    have b := Real.cos_add (p + q + r) p
    rw [show p + q + r - p = q + r by ring] at a
    rw [show p + q + r + p = (p + r) + (p + q) by ring] at b
    rw [a, b]; ring
  have h2 : 2 * Real.sin q * Real.sin r = Real.cos ((p + r) - (p + q)) - Real.cos (q + r) := by
    have a := Real.cos_sub r q
    have b := Real.cos_add q r
    rw [show (p + r) - (p + q) = r - q by ring, a, b]; ring
  have h3 : 4 * Real.sin (p + q + r) * Real.sin p * Real.sin q * Real.sin r =
      (2 * Real.sin (p + q + r) * Real.sin p) * (2 * Real.sin q * Real.sin r) := by ring
  rw [h3, h1, h2, Real.cos_add (p + r), Real.cos_sub (p + r), sqRoot_sq]
  ring

/-- With all angles strictly between 0 and π the volume factor is positive exactly if the
angles satisfy the strict triangle inequalities and sum to less than 2π. -/
theorem sqRoot_pos_iff {x y z : ℝ} (hx : 0 < x ∧ x < Real.pi) (hy : 0 < y ∧ y < Real.pi)
    (hz : 0 < z ∧ z < Real.pi) :
    0 < sqRoot x y z ↔ x < y + z ∧ y < x + z ∧ z < x + y ∧ x + y + z < 2 * Real.pi := by
  obtain ⟨p, q, r, rfl, rfl, rfl⟩ : ∃ p q r : ℝ, x = q + r ∧ y = p + r ∧ z = p + q :=
    ⟨(y + z - x) / 2, (x + z - y) / 2, (x + y - z) / 2, by ring, by ring, by ring⟩
  rw [sqRoot_prod]
  have hpi := Real.pi_pos
  constructor
  · intro h
    have key : ∀ t : ℝ, -Real.pi < t → t ≤ 0 → Real.sin t ≤ 0 := fun t h1 h2 =>
      Real.sin_nonpos_of_nonpos_of_neg_pi_le h2 h1.le
    have pos : ∀ t : ℝ, 0 < t → t < Real.pi → 0 < Real.sin t := fun t h1 h2 =>
      Real.sin_pos_of_pos_of_lt_pi h1 h2
    by_cases hs : p + q + r < Real.pi
    · have s0 : 0 < Real.sin (p + q + r) := pos _ (by linarith) hs
      have hprod : 0 < Real.sin p * Real.sin q * Real.sin r := by
        have e : 4 * Real.sin (p + q + r) * Real.sin p * Real.sin q * Real.sin r =
          (4 * Real.sin (p + q + r)) * (Real.sin p * Real.sin q * Real.sin r) := by ring
        rw [e] at h
        exact (mul_pos_iff_of_pos_left (by positivity)).mp h
      have hp : 0 < p := by
        by_contra hp
        push Not at hp
        have := key p (by linarith) hp
        have h2 := pos q (by linarith) (by linarith)
        have h3 := pos r (by linarith) (by linarith)
        nlinarith [mul_pos h2 h3]
      have hq : 0 < q := by
        by_contra hp
        push Not at hp
        have := key q (by linarith) hp
        have h2 := pos p (by linarith) (by linarith)
        have h3 := pos r (by linarith) (by linarith)
        nlinarith [mul_pos h2 h3]
      have hr : 0 < r := by
        by_contra hp
        push Not at hp
        have := key r (by linarith) hp
        have h2 := pos p (by linarith) (by linarith)
        have h3 := pos q (by linarith) (by linarith)
        nlinarith [mul_pos h2 h3]
      refine ⟨by linarith, by linarith, by linarith, by linarith⟩
    · exfalso
      push Not at hs
      have h1 := pos p (by linarith) (by linarith)
      have h2 := pos q (by linarith) (by linarith)
      have h3 := pos r (by linarith) (by linarith)
      have h4 : Real.sin (p + q + r) ≤ 0 := by
        have e : Real.sin (p + q + r) = -Real.sin (p + q + r - Real.pi) := by
          rw [Real.sin_sub_pi]; ring
        rw [e]
        have := Real.sin_nonneg_of_nonneg_of_le_pi (x := p + q + r - Real.pi) (by linarith)
          (by linarith)
        linarith
      have : 4 * Real.sin (p + q + r) * Real.sin p * Real.sin q * Real.sin r =
        Real.sin (p + q + r) * (4 * (Real.sin p * Real.sin q * Real.sin r)) := by ring
      rw [this] at h
      have : 0 < 4 * (Real.sin p * Real.sin q * Real.sin r) := by positivity
      nlinarith
  · rintro ⟨h1, h2, h3, h4⟩
    have a1 := Real.sin_pos_of_pos_of_lt_pi (x := p) (by linarith) (by linarith)
    have a2 := Real.sin_pos_of_pos_of_lt_pi (x := q) (by linarith) (by linarith)
    have a3 := Real.sin_pos_of_pos_of_lt_pi (x := r) (by linarith) (by linarith)
    have a4 := Real.sin_pos_of_pos_of_lt_pi (x := p + q + r) (by linarith) (by linarith)
    positivity

/-- A positive volume factor excludes the straight angles. -/
theorem sqRoot_pos_mem {x y z : ℝ} (h : 0 < sqRoot x y z) (hx : 0 ≤ x ∧ x ≤ Real.pi)
    : 0 < x ∧ x < Real.pi := by
  have hs : Real.sin x ≠ 0 := by
    intro h0
    have e := (sqRoot_symm x y z).1
    rw [e, sqRoot_sq, h0] at h
    nlinarith [sq_nonneg (Real.cos y - Real.cos x * Real.cos z)]
  constructor
  · rcases hx.1.lt_or_eq with h' | h'
    · exact h'
    · rw [← h'] at hs; simp at hs
  · rcases hx.2.lt_or_eq with h' | h'
    · exact h'
    · rw [h'] at hs; simp at hs

/-! ## Cells with given parameters -/

theorem sqrt_sq' {a : ℝ} (h : 0 ≤ a) : Real.sqrt (a ^ 2) = a := Real.sqrt_sq h

theorem HasParams.det_sq {cell : Cell ℝ} {a b c al be ga : ℝ}
    (h : HasParams cell a b c al be ga) :
    cell.det ^ 2 = (a * b * c) ^ 2 *
      sqRoot (al * (Real.pi / 180)) (be * (Real.pi / 180)) (ga * (Real.pi / 180)) := by
  have h1 := h.alpha.2.2
  have h2 := h.beta.2.2
  have h3 := h.gamma.2.2
  rw [h.bb, h.cc, sqrt_sq' h.b_nonneg, sqrt_sq' h.c_nonneg] at h1
  rw [h.aa, h.cc, sqrt_sq' h.a_nonneg, sqrt_sq' h.c_nonneg] at h2
  rw [h.aa, h.bb, sqrt_sq' h.a_nonneg, sqrt_sq' h.b_nonneg] at h3
  rw [gram, h.aa, h.bb, h.cc, h1, h2, h3]
  unfold sqRoot
  ring

/-- Two cells with the same parameters have the same scalar products. -/
theorem HasParams.dots_eq {c1 c2 : Cell ℝ} {a b c al be ga : ℝ}
    (h1 : HasParams c1 a b c al be ga) (h2 : HasParams c2 a b c al be ga) :
    ∀ i j, dot (c1 i) (c1 j) = dot (c2 i) (c2 j) := by
  have e0 : dot (c1 0) (c1 0) = dot (c2 0) (c2 0) := by rw [h1.aa, h2.aa]
  have e1 : dot (c1 1) (c1 1) = dot (c2 1) (c2 1) := by rw [h1.bb, h2.bb]
  have e2 : dot (c1 2) (c1 2) = dot (c2 2) (c2 2) := by rw [h1.cc, h2.cc]
  have e12 : dot (c1 1) (c1 2) = dot (c2 1) (c2 2) := by
    rw [h1.alpha.2.2, h2.alpha.2.2, e1, e2]
  have e02 : dot (c1 0) (c1 2) = dot (c2 0) (c2 2) := by
    rw [h1.beta.2.2, h2.beta.2.2, e0, e2]
  have e01 : dot (c1 0) (c1 1) = dot (c2 0) (c2 1) := by
    rw [h1.gamma.2.2, h2.gamma.2.2, e0, e1]
  intro i j
  fin_cases i <;> fin_cases j <;> simp only [Fin.zero_eta, Fin.mk_one, Fin.reduceFinMk] <;>
    first | assumption | (rw [dot_comm' _ (c1 _), dot_comm' _ (c2 _)]; assumption)

end Wulfric
