import Verif.Spec.Lattice
import Mathlib.MeasureTheory.Covering.BesicovitchVectorSpace
import Mathlib.Analysis.InnerProductSpace.PiL2
import Mathlib.Data.Set.Card

/-! # How many points with a minimal distance fit into a ball -/

namespace Wulfric
open Matrix Spec MeasureTheory Metric Module Set
open scoped ENNReal

open scoped Function in
/-- Points of a ball of radius `R` with mutual distances of at least `d`: at most
`(2 R / d + 1) ^ 3` of them (balls of radius `d / 2` around them are disjoint). -/
theorem packing_count (s : Finset (EuclideanSpace ℝ (Fin 3))) (R d : ℝ) (hR : 0 ≤ R) (hd : 0 < d)
    (hs : ∀ c ∈ s, ‖c‖ ≤ R) (h : ∀ c ∈ s, ∀ e ∈ s, c ≠ e → d ≤ ‖c - e‖) :
    (s.card : ℝ) ≤ (2 * R / d + 1) ^ 3 := by
  borelize (EuclideanSpace ℝ (Fin 3))
  let μ : Measure (EuclideanSpace ℝ (Fin 3)) := Measure.addHaar
  have hf : finrank ℝ (EuclideanSpace ℝ (Fin 3)) = 3 := by simp
  have δpos : 0 < d / 2 := by positivity
  have ρpos : 0 < R + d / 2 := by positivity
  set A := ⋃ c ∈ s, ball (c : EuclideanSpace ℝ (Fin 3)) (d / 2) with hA
  have D : Set.Pairwise (s : Set (EuclideanSpace ℝ (Fin 3)))
      (Disjoint on fun c => ball (c : EuclideanSpace ℝ (Fin 3)) (d / 2)) := by
    rintro c hc e he hce
    apply ball_disjoint_ball
    rw [dist_eq_norm]
    have := h c hc e he hce
    linarith
  have A_subset : A ⊆ ball (0 : EuclideanSpace ℝ (Fin 3)) (R + d / 2) := by
    refine iUnion₂_subset fun x hx => ?_
    apply ball_subset_ball'
    rw [dist_zero_right]
    have := hs x hx
    linarith
  have I : (s.card : ℝ≥0∞) * ENNReal.ofReal ((d / 2) ^ 3) * μ (ball 0 1) ≤
      ENNReal.ofReal ((R + d / 2) ^ 3) * μ (ball 0 1) :=
    calc
      (s.card : ℝ≥0∞) * ENNReal.ofReal ((d / 2) ^ 3) * μ (ball 0 1) = μ A := by
        rw [hA, measure_biUnion_finset D fun c _ => measurableSet_ball]
        simp only [μ.addHaar_ball_of_pos _ δpos, hf]
        simp only [Finset.sum_const, nsmul_eq_mul, mul_assoc]
      _ ≤ μ (ball (0 : EuclideanSpace ℝ (Fin 3)) (R + d / 2)) := measure_mono A_subset
      _ = ENNReal.ofReal ((R + d / 2) ^ 3) * μ (ball 0 1) := by
        simp only [μ.addHaar_ball_of_pos _ ρpos, hf]
  have J : (s.card : ℝ≥0∞) * ENNReal.ofReal ((d / 2) ^ 3) ≤ ENNReal.ofReal ((R + d / 2) ^ 3) :=
    (ENNReal.mul_le_mul_iff_left (measure_ball_pos _ _ zero_lt_one).ne' measure_ball_lt_top.ne).1 I
  have K : (s.card : ℝ) * (d / 2) ^ 3 ≤ (R + d / 2) ^ 3 := by
    have := ENNReal.toReal_le_of_le_ofReal (pow_nonneg ρpos.le _) J
    rwa [ENNReal.toReal_mul, ENNReal.toReal_natCast, ENNReal.toReal_ofReal (by positivity)] at this
  have e : (2 * R / d + 1) ^ 3 = (R + d / 2) ^ 3 / (d / 2) ^ 3 := by
    rw [← div_pow]
    congr 1
    field_simp
  rw [e, le_div_iff₀ (by positivity)]
  exact K

theorem norm_toLp_sq (v : Fin 3 → ℝ) :
    ‖(WithLp.toLp 2 v : EuclideanSpace ℝ (Fin 3))‖ ^ 2 = dot v v := by
  rw [EuclideanSpace.real_norm_sq_eq, Fin.sum_univ_three]
  simp only [dot]
  ring

/-- The same with scalar products: vectors with `v·v ≤ r² l` whose differences have a square
of at least `l`. -/
theorem packing_dot (s : Finset (Fin 3 → ℝ)) (r l : ℝ) (hr : 0 ≤ r) (hl : 0 < l)
    (hs : ∀ v ∈ s, dot v v ≤ r ^ 2 * l)
    (h : ∀ v ∈ s, ∀ w ∈ s, v ≠ w → l ≤ dot (v - w) (v - w)) :
    (s.card : ℝ) ≤ (2 * r + 1) ^ 3 := by
  classical
  have hq : 0 < √l := Real.sqrt_pos.mpr hl
  have hq2 : √l ^ 2 = l := Real.sq_sqrt hl.le
  have key := packing_count (s.image (WithLp.toLp 2)) (r * √l) (√l) (by positivity) hq ?_ ?_
  · rw [Finset.card_image_of_injective _ (WithLp.toLp_injective 2)] at key
    rwa [show 2 * (r * √l) / √l = 2 * r by field_simp] at key
  · intro c hc
    obtain ⟨v, hv, rfl⟩ := Finset.mem_image.1 hc
    refine (sq_le_sq₀ (by positivity) (by positivity)).1 ?_
    rw [norm_toLp_sq, mul_pow, hq2]
    exact hs v hv
  · intro c hc e he hce
    obtain ⟨v, hv, rfl⟩ := Finset.mem_image.1 hc
    obtain ⟨w, hw, rfl⟩ := Finset.mem_image.1 he
    refine (sq_le_sq₀ (by positivity) (by positivity)).1 ?_
    rw [← WithLp.toLp_sub, norm_toLp_sq, hq2]
    exact h v hv w hw (fun e => hce (by rw [e]))

end Wulfric
