import Verif.Spec.Stability
import Verif.Spec.Symbols
import Verif.Lemmas.Conventional
import Mathlib.Topology.Instances.Matrix
import Mathlib.Topology.MetricSpace.Pseudo.Pi
import Mathlib.Analysis.SpecialFunctions.Trigonometric.Inverse

/-! # Helper lemmas on continuity -/

namespace Wulfric

open Matrix _root_.Spec Filter Topology

theorem eventually_entries {P : Cell ℝ → Prop} {c : Cell ℝ} (h : ∀ᶠ x in 𝓝 c, P x) :
    ∃ ε > 0, ∀ x : Cell ℝ, (∀ i j, |x i j - c i j| < ε) → P x := by
  have h' : ∀ᶠ x : Fin 3 → Fin 3 → ℝ in 𝓝 (fun i j => c i j), P x := h
  obtain ⟨ε, e0, e1⟩ := Metric.eventually_nhds_iff.1 h'
  refine ⟨ε, e0, fun x hx => e1 (y := fun i j => x i j) ?_⟩
  rw [dist_pi_lt_iff e0]
  intro i
  rw [dist_pi_lt_iff e0]
  intro j
  rw [Real.dist_eq]
  exact hx i j

theorem continuous_entry (i j : Fin 3) : Continuous fun x : Cell ℝ => x i j :=
  continuous_apply_apply i j

theorem continuous_dot (i j : Fin 3) : Continuous fun x : Cell ℝ => dot (x i) (x j) := by
  unfold dot
  exact (((continuous_entry i 0).mul (continuous_entry j 0)).add
    ((continuous_entry i 1).mul (continuous_entry j 1))).add
    ((continuous_entry i 2).mul (continuous_entry j 2))

/-- The length of a vector of the cell. -/
noncomputable def rowLen (i : Fin 3) (x : Cell ℝ) : ℝ := npNorm (x i)

/-- The angle between two vectors of the cell. -/
noncomputable def rowAngle (i j : Fin 3) (x : Cell ℝ) : ℝ :=
  Real.arccos (dot (x i) (x j) / (npNorm (x i) * npNorm (x j))) * toDegrees

theorem continuous_rowLen (i : Fin 3) : Continuous (rowLen i) := by
  unfold rowLen
  simp only [npNorm_eq]
  exact Real.continuous_sqrt.comp (continuous_dot i i)

theorem continuousAt_rowAngle (i j : Fin 3) {x : Cell ℝ} (h : x.det ≠ 0) :
    ContinuousAt (rowAngle i j) x := by
  unfold rowAngle
  refine ContinuousAt.mul (Real.continuous_arccos.continuousAt.comp ?_) continuousAt_const
  exact (continuous_dot i j).continuousAt.div
    ((continuous_rowLen i).mul (continuous_rowLen j)).continuousAt
    (mul_ne_zero (norm_pos_of_det h i) (norm_pos_of_det h j))

theorem params_eq {x : Cell ℝ} {a b c al be ga : ℝ} (hd : x.det ≠ 0)
    (h : HasParams x a b c al be ga) : a = rowLen 0 x ∧ b = rowLen 1 x ∧ c = rowLen 2 x ∧
      al = rowAngle 1 2 x ∧ be = rowAngle 0 2 x ∧ ga = rowAngle 0 1 x := by
  have n := norm_pos_of_det hd
  refine ⟨(npNorm_of_sq h.a_nonneg h.aa).symm, (npNorm_of_sq h.b_nonneg h.bb).symm,
    (npNorm_of_sq h.c_nonneg h.cc).symm, ?_, ?_, ?_⟩
  · exact h.alpha.unique (angle_spec_val (n 1) (n 2)) (row_ne hd 1) (row_ne hd 2)
  · exact h.beta.unique (angle_spec_val (n 0) (n 2)) (row_ne hd 0) (row_ne hd 2)
  · exact h.gamma.unique (angle_spec_val (n 0) (n 1)) (row_ne hd 0) (row_ne hd 1)

theorem continuousAt_inv {x : Cell ℝ} (h : x.det ≠ 0) :
    ContinuousAt (fun y : Cell ℝ => y⁻¹) x := by
  simp only [Matrix.inv_def, Ring.inverse_eq_inv']
  exact ((Continuous.matrix_det continuous_id).continuousAt.inv₀ h).smul
    (Continuous.matrix_adjugate continuous_id).continuousAt

theorem eventually_det {x : Cell ℝ} (h : x.det ≠ 0) : ∀ᶠ y : Cell ℝ in 𝓝 x, y.det ≠ 0 :=
  (Continuous.matrix_det continuous_id).continuousAt.eventually_ne h

/-! ## The symbols -/

section
variable {X : Type*} [TopologicalSpace X] {x₀ : X} {a b c be ra rb rg : X → ℝ}

theorem symbol_stable (ha : ContinuousAt a x₀) (hb : ContinuousAt b x₀) (hc : ContinuousAt c x₀)
    (hbe : ContinuousAt be x₀) (pa : 0 < a x₀) (pb : 0 < b x₀) (pc : 0 < c x₀) {bl s : String}
    (hra : bl = "aP" → ContinuousAt ra x₀ ∧ ContinuousAt rb x₀ ∧ ContinuousAt rg x₀) {n : ℤ}
    (h : HpkotSymbol bl n (a x₀) (b x₀) (c x₀) (be x₀) (ra x₀) (rb x₀) (rg x₀) s)
    (hin : HpkotInside bl (a x₀) (b x₀) (c x₀) (be x₀) (ra x₀) (rb x₀) (rg x₀)) :
    ∀ᶠ x in 𝓝 x₀, HpkotSymbol bl n (a x) (b x) (c x) (be x) (ra x) (rb x) (rg x) s := by
  have ia : ContinuousAt (fun x => 1 / a x ^ 2) x₀ :=
    continuousAt_const.div (ha.pow 2) (pow_pos pa 2).ne'
  have ib : ContinuousAt (fun x => 1 / b x ^ 2) x₀ :=
    continuousAt_const.div (hb.pow 2) (pow_pos pb 2).ne'
  have ic : ContinuousAt (fun x => 1 / c x ^ 2) x₀ :=
    continuousAt_const.div (hc.pow 2) (pow_pos pc 2).ne'
  have rbe : ContinuousAt (fun x => be x * (Real.pi / 180)) x₀ := hbe.mul continuousAt_const
  have hs : ContinuousAt (fun x => Real.sin (be x * (Real.pi / 180))) x₀ :=
    Real.continuous_sin.continuousAt.comp rbe
  have hco : ContinuousAt (fun x => Real.cos (be x * (Real.pi / 180))) x₀ :=
    Real.continuous_cos.continuousAt.comp rbe
  have he : ContinuousAt (fun x => -a x * Real.cos (be x * (Real.pi / 180)) / c x +
        a x ^ 2 * Real.sin (be x * (Real.pi / 180)) ^ 2 / b x ^ 2) x₀ :=
    ((ha.neg.mul hco).div hc pc.ne').add
      (((ha.pow 2).mul (hs.pow 2)).div (hb.pow 2) (pow_pos pb 2).ne')
  cases h with
  | cP1 q h1 h2 => exact .of_forall fun _ => .cP1 q h1 h2
  | cP2 q h1 h2 => exact .of_forall fun _ => .cP2 q h1 h2
  | cF1 q h1 h2 => exact .of_forall fun _ => .cF1 q h1 h2
  | cF2 q h1 h2 => exact .of_forall fun _ => .cF2 q h1 h2
  | cI1 q => exact .of_forall fun _ => .cI1 q
  | tP1 q => exact .of_forall fun _ => .tP1 q
  | tI1 q h =>
    filter_upwards [hc.eventually_lt ha (lt_of_le_of_ne h (hin.tI q).symm)] with x h1
    exact .tI1 q h1.le
  | tI2 q h =>
    filter_upwards [ha.eventually_lt hc h] with x h1
    exact .tI2 q h1
  | oP1 q => exact .of_forall fun _ => .oP1 q
  | oF1 q h =>
    filter_upwards [(ib.add ic).eventually_lt ia h] with x h1
    exact .oF1 q h1
  | oF2 q h =>
    filter_upwards [(ia.add ib).eventually_lt ic h] with x h1
    exact .oF2 q h1
  | oF3 q h h' =>
    filter_upwards [ia.eventually_lt (ib.add ic) (lt_of_le_of_ne h (hin.oF q).1),
      ic.eventually_lt (ia.add ib) (lt_of_le_of_ne h' (hin.oF q).2)] with x h1 h2
    exact .oF3 q h1.le h2.le
  | oI1 q h h' =>
    rcases hin.oI q with ⟨k, k'⟩ | ⟨k, k'⟩ | ⟨k, k'⟩
    · filter_upwards [ha.eventually_lt hc k, hb.eventually_lt hc k'] with x h1 h2
      exact .oI1 q h1.le h2.le
    · exact absurd h (not_le.2 k')
    · exact absurd h' (not_le.2 k')
  | oI2 q h h' =>
    rcases hin.oI q with ⟨k, k'⟩ | ⟨k, k'⟩ | ⟨k, k'⟩
    · exact absurd k (not_lt.2 h'.le)
    · filter_upwards [hb.eventually_lt ha k, hc.eventually_lt ha k'] with x h1 h2
      exact .oI2 q h1.le h2
    · exact absurd k (not_lt.2 h)
  | oI3 q h h' =>
    filter_upwards [ha.eventually_lt hb h, hc.eventually_lt hb h'] with x h1 h2
    exact .oI3 q h1 h2
  | oC1 q h =>
    filter_upwards [ha.eventually_lt hb (lt_of_le_of_ne h (hin.oC q))] with x h1
    exact .oC1 q h1.le
  | oC2 q h =>
    filter_upwards [hb.eventually_lt ha h] with x h1
    exact .oC2 q h1
  | oA1 q h =>
    filter_upwards [hb.eventually_lt hc (lt_of_le_of_ne h (hin.oA q))] with x h1
    exact .oA1 q h1.le
  | oA2 q h =>
    filter_upwards [hc.eventually_lt hb h] with x h1
    exact .oA2 q h1
  | hP1 q h => exact .of_forall fun _ => .hP1 q h
  | hP2 q h => exact .of_forall fun _ => .hP2 q h
  | hR1 q h =>
    filter_upwards [(continuousAt_const.mul (ha.pow 2)).eventually_lt
      (continuousAt_const.mul (hc.pow 2)) (lt_of_le_of_ne h (hin.hR q))] with x h1
    exact .hR1 q (le_of_lt h1)
  | hR2 q h =>
    filter_upwards [(continuousAt_const.mul (hc.pow 2)).eventually_lt
      (continuousAt_const.mul (ha.pow 2)) h] with x h1
    exact .hR2 q h1
  | mP1 q => exact .of_forall fun _ => .mP1 q
  | mC1 q h =>
    have h' : b x₀ < a x₀ * Real.sin (be x₀ * (Real.pi / 180)) := by
      rcases hin.mC q with k | k
      · exact k
      · exact lt_of_le_of_ne h k.1
    filter_upwards [hb.eventually_lt (ha.mul hs) h'] with x h1
    exact .mC1 q (le_of_lt h1)
  | mC2 q h h' =>
    rcases hin.mC q with k | k
    · exact absurd k (not_lt.2 h.le)
    · filter_upwards [(ha.mul hs).eventually_lt hb h,
        he.eventually_lt continuousAt_const (lt_of_le_of_ne h' k.2)] with x h1 h2
      exact .mC2 q h1 (le_of_lt h2)
  | mC3 q h h' =>
    filter_upwards [(ha.mul hs).eventually_lt hb h, continuousAt_const.eventually_lt he h'] with
      x h1 h2
    exact .mC3 q h1 h2
  | aP2 q h1 h2 h3 =>
    obtain ⟨c1, c2, c3⟩ := hra q
    obtain ⟨n1, n2, n3⟩ := hin.aP q
    filter_upwards [continuousAt_const.eventually_lt c1 (lt_of_le_of_ne h1 n1.symm),
      continuousAt_const.eventually_lt c2 (lt_of_le_of_ne h2 n2.symm),
      continuousAt_const.eventually_lt c3 (lt_of_le_of_ne h3 n3.symm)] with x k1 k2 k3
    exact .aP2 q (le_of_lt k1) (le_of_lt k2) (le_of_lt k3)
  | aP3 q h1 h2 h3 =>
    obtain ⟨c1, c2, c3⟩ := hra q
    filter_upwards [c1.eventually_lt continuousAt_const h1, c2.eventually_lt continuousAt_const h2,
      c3.eventually_lt continuousAt_const h3] with x k1 k2 k3
    exact .aP3 q k1 k2 k3

end

section
variable {X : Type*} [TopologicalSpace X] {x₀ : X} {a b c al kp ka kb kg : X → ℝ}

theorem variation_stable (ha : ContinuousAt a x₀) (hb : ContinuousAt b x₀)
    (hc : ContinuousAt c x₀) (hal : ContinuousAt al x₀) (pa : 0 < a x₀) (pb : 0 < b x₀)
    (pc : 0 < c x₀) {bl s : String} (hkp : bl = "mC" → ContinuousAt kp x₀)
    (hk : bl = "aP" → ContinuousAt ka x₀ ∧ ContinuousAt kb x₀ ∧ ContinuousAt kg x₀) {t u : ℝ}
    (ht : 0 ≤ t) (hu : 0 ≤ u)
    (h : ScVariation bl t u (a x₀) (b x₀) (c x₀) (al x₀) (kp x₀) (ka x₀) (kb x₀) (kg x₀) s)
    (hin : ScInside bl t u (a x₀) (b x₀) (c x₀) (al x₀) (kp x₀) (kg x₀)) :
    ∀ᶠ x in 𝓝 x₀, ∀ s', ScVariation bl t u (a x) (b x) (c x) (al x) (kp x) (ka x) (kb x) (kg x)
      s' → s' = s := by
  have ia : ContinuousAt (fun x => 1 / a x ^ 2) x₀ :=
    continuousAt_const.div (ha.pow 2) (pow_pos pa 2).ne'
  have ib : ContinuousAt (fun x => 1 / b x ^ 2) x₀ :=
    continuousAt_const.div (hb.pow 2) (pow_pos pb 2).ne'
  have ic : ContinuousAt (fun x => 1 / c x ^ 2) x₀ :=
    continuousAt_const.div (hc.pow 2) (pow_pos pc 2).ne'
  have ie : ContinuousAt (fun x => 1 / a x ^ 2 - 1 / b x ^ 2 - 1 / c x ^ 2) x₀ :=
    (ia.sub ib).sub ic
  have ral : ContinuousAt (fun x => al x * (Real.pi / 180)) x₀ := hal.mul continuousAt_const
  have hs : ContinuousAt (fun x => Real.sin (al x * (Real.pi / 180))) x₀ :=
    Real.continuous_sin.continuousAt.comp ral
  have hco : ContinuousAt (fun x => Real.cos (al x * (Real.pi / 180))) x₀ :=
    Real.continuous_cos.continuousAt.comp ral
  have he : ContinuousAt (fun x => b x * Real.cos (al x * (Real.pi / 180)) / c x +
        b x ^ 2 * Real.sin (al x * (Real.pi / 180)) ^ 2 / a x ^ 2) x₀ :=
    ((hb.mul hco).div hc pc.ne').add
      (((hb.pow 2).mul (hs.pow 2)).div (ha.pow 2) (pow_pos pa 2).ne')
  have lt1 : ∀ {f : X → ℝ} {k : ℝ}, ContinuousAt f x₀ → f x₀ < k → ∀ᶠ x in 𝓝 x₀, f x < k :=
    fun hf h => hf.eventually_lt continuousAt_const h
  have lt2 : ∀ {f : X → ℝ} {k : ℝ}, ContinuousAt f x₀ → k < f x₀ → ∀ᶠ x in 𝓝 x₀, k < f x :=
    fun hf h => continuousAt_const.eventually_lt hf h
  have key : ∀ {f : X → ℝ} {k w : ℝ}, ContinuousAt f x₀ → |f x₀ - k| ≤ w → |f x₀ - k| ≠ w →
      ∀ᶠ x in 𝓝 x₀, k - w < f x ∧ f x < k + w := by
    intro f k w hf h1 h2
    obtain ⟨l1, l2⟩ := abs_lt.1 (lt_of_le_of_ne h1 h2)
    exact (lt2 hf (by linarith)).and (lt1 hf (by linarith))
  cases h with
  | cub q | fcc q | bcc q | tet q | orc q | orci q | hex q | mcl q =>
    subst q
    refine .of_forall fun x s' h' => ?_
    cases h' <;> first | rfl | (rename_i q; revert q; decide) | (rename_i q _; revert q; decide) |
      (rename_i q _ _; revert q; decide) | (rename_i q _ _ _; revert q; decide) |
      (rename_i q _ _ _ _ _; revert q; decide)
  | orcc q =>
    refine .of_forall fun x s' h' => ?_
    rcases q with rfl | rfl <;>
    cases h' <;> first | rfl | (rename_i q; revert q; decide) | (rename_i q _; revert q; decide) |
      (rename_i q _ _; revert q; decide) | (rename_i q _ _ _; revert q; decide) |
      (rename_i q _ _ _ _ _; revert q; decide)
  | bct1 q h =>
    subst q
    filter_upwards [hc.eventually_lt ha h] with x h1 s' h'
    cases h' <;> first | rfl | (exfalso; linarith) | (rename_i q; revert q; decide) |
      (rename_i q _; revert q; decide) |
      (rename_i q _ _; revert q; decide) | (rename_i q _ _ _; revert q; decide) |
      (rename_i q _ _ _ _ _; revert q; decide)
  | bct2 q h =>
    subst q
    filter_upwards [ha.eventually_lt hc h] with x h1 s' h'
    cases h' <;> first | rfl | (exfalso; linarith) | (rename_i q; revert q; decide) |
      (rename_i q _; revert q; decide) |
      (rename_i q _ _; revert q; decide) | (rename_i q _ _ _; revert q; decide) |
      (rename_i q _ _ _ _ _; revert q; decide)
  | orcf1 q _ _ h =>
    subst q
    filter_upwards [lt2 ie h] with x h1 s' h'
    cases h' <;> first | rfl | (exfalso; linarith) |
      (exfalso; rename_i h; have := (abs_le.1 h).2; linarith) | (rename_i q; revert q; decide) |
      (rename_i q _; revert q; decide) |
      (rename_i q _ _; revert q; decide) | (rename_i q _ _ _; revert q; decide) |
      (rename_i q _ _ _ _ _; revert q; decide)
  | orcf2 q _ _ h =>
    subst q
    filter_upwards [lt1 ie h] with x h1 s' h'
    cases h' <;> first | rfl | (exfalso; linarith) |
      (exfalso; rename_i h; have := (abs_le.1 h).1; linarith) | (rename_i q; revert q; decide) |
      (rename_i q _; revert q; decide) |
      (rename_i q _ _; revert q; decide) | (rename_i q _ _ _; revert q; decide) |
      (rename_i q _ _ _ _ _; revert q; decide)
  | orcf3 q _ _ h =>
    have hne := hin.oF q
    subst q
    filter_upwards [key (f := fun x => 1 / a x ^ 2 - 1 / b x ^ 2 - 1 / c x ^ 2) (k := 0) (w := t) ie
      (by simpa only [sub_zero] using h) (by simpa only [sub_zero] using hne)] with x h1 s' h'
    obtain ⟨h1, h2⟩ := h1
    cases h' <;> first | rfl | (exfalso; linarith) | (rename_i q; revert q; decide) |
      (rename_i q _; revert q; decide) |
      (rename_i q _ _; revert q; decide) | (rename_i q _ _ _; revert q; decide) |
      (rename_i q _ _ _ _ _; revert q; decide)
  | rhl1 q h =>
    subst q
    filter_upwards [lt1 hal h] with x h1 s' h'
    cases h' <;> first | rfl | (exfalso; linarith) | (rename_i q; revert q; decide) |
      (rename_i q _; revert q; decide) |
      (rename_i q _ _; revert q; decide) | (rename_i q _ _ _; revert q; decide) |
      (rename_i q _ _ _ _ _; revert q; decide)
  | rhl2 q h =>
    subst q
    filter_upwards [lt2 hal h] with x h1 s' h'
    cases h' <;> first | rfl | (exfalso; linarith) | (rename_i q; revert q; decide) |
      (rename_i q _; revert q; decide) |
      (rename_i q _ _; revert q; decide) | (rename_i q _ _ _; revert q; decide) |
      (rename_i q _ _ _ _ _; revert q; decide)
  | mclc1 q h =>
    have hkp' := hkp q
    subst q
    filter_upwards [lt2 hkp' h] with x h1 s' h'
    cases h' <;> first | rfl | (exfalso; linarith) |
      (exfalso; rename_i h; have := (abs_le.1 h).2; linarith) | (rename_i q; revert q; decide) |
      (rename_i q _; revert q; decide) |
      (rename_i q _ _; revert q; decide) | (rename_i q _ _ _; revert q; decide) |
      (rename_i q _ _ _ _ _; revert q; decide)
  | mclc2 q h =>
    have hkp' := hkp q
    have hne := (hin.mC q).1
    subst q
    filter_upwards [key hkp' h hne] with x h1 s' h'
    obtain ⟨h1, h2⟩ := h1
    cases h' <;> first | rfl | (exfalso; linarith) | (rename_i q; revert q; decide) |
      (rename_i q _; revert q; decide) |
      (rename_i q _ _; revert q; decide) | (rename_i q _ _ _; revert q; decide) |
      (rename_i q _ _ _ _ _; revert q; decide)
  | mclc3 q h k =>
    have hkp' := hkp q
    subst q
    filter_upwards [lt1 hkp' h, lt1 he k] with x h1 h2 s' h'
    cases h' <;> first | rfl | (exfalso; linarith) |
      (exfalso; rename_i h; have := (abs_le.1 h).1; linarith) | (rename_i q; revert q; decide) |
      (rename_i q _; revert q; decide) |
      (rename_i q _ _; revert q; decide) | (rename_i q _ _ _; revert q; decide) |
      (rename_i q _ _ _ _ _; revert q; decide)
  | mclc4 q h k =>
    have hkp' := hkp q
    have hne := (hin.mC q).2
    subst q
    filter_upwards [lt1 hkp' h, key he k hne] with x h1 h2 s' h'
    obtain ⟨h2, h3⟩ := h2
    cases h' <;> first | rfl | (exfalso; linarith) |
      (exfalso; rename_i h; have := (abs_le.1 h).1; linarith) | (rename_i q; revert q; decide) |
      (rename_i q _; revert q; decide) |
      (rename_i q _ _; revert q; decide) | (rename_i q _ _ _; revert q; decide) |
      (rename_i q _ _ _ _ _; revert q; decide)
  | mclc5 q h k =>
    have hkp' := hkp q
    subst q
    filter_upwards [lt1 hkp' h, lt2 he k] with x h1 h2 s' h'
    cases h' <;> first | rfl | (exfalso; linarith) |
      (exfalso; rename_i h; have := (abs_le.1 h).1; linarith) |
      (exfalso; rename_i h; have := (abs_le.1 h).2; linarith) | (rename_i q; revert q; decide) |
      (rename_i q _; revert q; decide) |
      (rename_i q _ _; revert q; decide) | (rename_i q _ _ _; revert q; decide) |
      (rename_i q _ _ _ _ _; revert q; decide)
  | tri1a q h1 h2 h3 =>
    obtain ⟨c1, c2, c3⟩ := hk q
    subst q
    filter_upwards [lt2 c1 h1, lt2 c2 h2, lt2 c3 h3] with x k1 k2 k3 s' h'
    cases h' <;> first | rfl | (exfalso; linarith) |
      (exfalso; rename_i h; have := (abs_le.1 h).2; linarith) | (rename_i q; revert q; decide) |
      (rename_i q _; revert q; decide) |
      (rename_i q _ _; revert q; decide) | (rename_i q _ _ _; revert q; decide) |
      (rename_i q _ _ _ _ _; revert q; decide)
  | tri1b q h1 h2 h3 =>
    obtain ⟨c1, c2, c3⟩ := hk q
    subst q
    filter_upwards [lt1 c1 h1, lt1 c2 h2, lt1 c3 h3] with x k1 k2 k3 s' h'
    cases h' <;> first | rfl | (exfalso; linarith) |
      (exfalso; rename_i h; have := (abs_le.1 h).1; linarith) | (rename_i q; revert q; decide) |
      (rename_i q _; revert q; decide) |
      (rename_i q _ _; revert q; decide) | (rename_i q _ _ _; revert q; decide) |
      (rename_i q _ _ _ _ _; revert q; decide)
  | tri2a q h1 h2 h3 =>
    obtain ⟨c1, c2, c3⟩ := hk q
    have hne := hin.aP q
    subst q
    filter_upwards [lt2 c1 h1, lt2 c2 h2, key c3 h3 hne] with x k1 k2 k3 s' h'
    obtain ⟨k3, k4⟩ := k3
    cases h' <;> first | rfl | (exfalso; linarith) | (rename_i q; revert q; decide) |
      (rename_i q _; revert q; decide) |
      (rename_i q _ _; revert q; decide) | (rename_i q _ _ _; revert q; decide) |
      (rename_i q _ _ _ _ _; revert q; decide)
  | tri2b q h1 h2 h3 =>
    obtain ⟨c1, c2, c3⟩ := hk q
    have hne := hin.aP q
    subst q
    filter_upwards [lt1 c1 h1, lt1 c2 h2, key c3 h3 hne] with x k1 k2 k3 s' h'
    obtain ⟨k3, k4⟩ := k3
    cases h' <;> first | rfl | (exfalso; linarith) | (rename_i q; revert q; decide) |
      (rename_i q _; revert q; decide) |
      (rename_i q _ _; revert q; decide) | (rename_i q _ _ _; revert q; decide) |
      (rename_i q _ _ _ _ _; revert q; decide)

end

end Wulfric
