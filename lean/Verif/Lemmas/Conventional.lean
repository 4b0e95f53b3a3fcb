import Verif.Model.Conventional
import Verif.Lemmas.Params
import Verif.Lemmas.LatticeEquiv
import Verif.Lemmas.Numerical
import Verif.Props.C02_Reciprocal

/-! # Signed permutations of the vectors of a cell, angles and their signs -/

namespace Wulfric
open Matrix Spec

theorem applyT_row (m : Matrix (Fin 3) (Fin 3) ℤ) (c : Cell ℝ) (i : Fin 3) :
    applyT m c i = fun j => (m 0 i : ℝ) * c 0 j + (m 1 i : ℝ) * c 1 j + (m 2 i : ℝ) * c 2 j := by
  ext j
  simp [applyT, Matrix.mul_apply, Fin.sum_univ_three]

theorem applyT_one (c : Cell ℝ) : applyT 1 c = c := by simp [applyT]

theorem map_mul_int (m n : Matrix (Fin 3) (Fin 3) ℤ) :
    (m * n).map (Int.cast : ℤ → ℝ) = m.map (Int.cast : ℤ → ℝ) * n.map (Int.cast : ℤ → ℝ) :=
  Matrix.map_mul (f := Int.castRingHom ℝ)

theorem applyT_applyT (m n : Matrix (Fin 3) (Fin 3) ℤ) (c : Cell ℝ) :
    applyT n (applyT m c) = applyT (m * n) c := by
  unfold applyT
  rw [← Matrix.mul_assoc, transpose_mul, map_mul_int]

theorem det_applyT (m : Matrix (Fin 3) (Fin 3) ℤ) (c : Cell ℝ) :
    (applyT m c).det = m.det * c.det := by
  rw [applyT, det_mul, det_map_intCast, det_transpose]

theorem _root_.Spec.AngleDeg.comm {u v : Vec ℝ} {t : ℝ} (h : AngleDeg u v t) : AngleDeg v u t := by
  refine ⟨h.1, h.2.1, ?_⟩
  rw [dot_comm', h.2.2]; ring

theorem _root_.Spec.AngleDeg.neg {u v u' : Vec ℝ} {t : ℝ} (h : AngleDeg u v t) (hu : ∀ j, u' j = -u j) :
    AngleDeg u' v (180 - t) := by
  refine ⟨by linarith [h.2.1], by linarith [h.1], ?_⟩
  have e1 : dot u' v = -dot u v := by simp only [dot, hu]; ring
  have e2 : dot u' u' = dot u u := by simp only [dot, hu]; ring
  have e3 : (180 - t) * (Real.pi / 180) = Real.pi - t * (Real.pi / 180) := by ring
  rw [e1, e2, e3, Real.cos_pi_sub, h.2.2]; ring

theorem _root_.Spec.AngleDeg.neg_right {u v v' : Vec ℝ} {t : ℝ} (h : AngleDeg u v t) (hv : ∀ j, v' j = -v j) :
    AngleDeg u v' (180 - t) := (h.comm.neg hv).comm

theorem _root_.Spec.AngleDeg.congr {u v u' v' : Vec ℝ} {t : ℝ} (h : AngleDeg u v t) (hu : ∀ j, u' j = u j)
    (hv : ∀ j, v' j = v j) : AngleDeg u' v' t := by
  rw [show u' = u from funext hu, show v' = v from funext hv]; exact h

theorem _root_.Spec.AngleDeg.neg_neg {u v u' v' : Vec ℝ} {t : ℝ} (h : AngleDeg u v t) (hu : ∀ j, u' j = -u j)
    (hv : ∀ j, v' j = -v j) : AngleDeg u' v' t := by
  have := (h.neg hu).neg_right hv
  rwa [sub_sub_cancel] at this

theorem cos_deg_pos_iff {t : ℝ} (h : 0 ≤ t ∧ t ≤ 180) :
    0 < Real.cos (t * (Real.pi / 180)) ↔ t < 90 := by
  have hp := Real.pi_pos
  constructor
  · intro hc
    by_contra hn
    push Not at hn
    have : Real.cos (t * (Real.pi / 180)) ≤ 0 :=
      Real.cos_nonpos_of_pi_div_two_le_of_le (by nlinarith) (by nlinarith)
    linarith
  · intro ht
    exact Real.cos_pos_of_mem_Ioo ⟨by nlinarith, by nlinarith⟩

theorem cos_deg_neg_iff {t : ℝ} (h : 0 ≤ t ∧ t ≤ 180) :
    Real.cos (t * (Real.pi / 180)) < 0 ↔ 90 < t := by
  have := cos_deg_pos_iff (t := 180 - t) ⟨by linarith, by linarith⟩
  rw [show (180 - t) * (Real.pi / 180) = Real.pi - t * (Real.pi / 180) by ring,
    Real.cos_pi_sub] at this
  constructor
  · intro hc; have := this.1 (by linarith); linarith
  · intro hc; have := this.2 (by linarith); linarith

theorem _root_.Spec.AngleDeg.lt_iff {u v : Vec ℝ} {t : ℝ} (h : AngleDeg u v t) (hu : 0 < dot u u)
    (hv : 0 < dot v v) : t < 90 ↔ 0 < dot u v := by
  rw [← cos_deg_pos_iff ⟨h.1, h.2.1⟩, h.2.2]
  have := mul_pos (Real.sqrt_pos.2 hu) (Real.sqrt_pos.2 hv)
  exact (mul_pos_iff_of_pos_left this).symm

theorem _root_.Spec.AngleDeg.gt_iff {u v : Vec ℝ} {t : ℝ} (h : AngleDeg u v t) (hu : 0 < dot u u)
    (hv : 0 < dot v v) : 90 < t ↔ dot u v < 0 := by
  rw [← cos_deg_neg_iff ⟨h.1, h.2.1⟩, h.2.2]
  have := mul_pos (Real.sqrt_pos.2 hu) (Real.sqrt_pos.2 hv)
  constructor
  · intro h; exact mul_neg_of_pos_of_neg this h
  · intro h; exact neg_of_mul_neg_right h this.le

theorem _root_.Spec.AngleDeg.unique {u v : Vec ℝ} {s t : ℝ} (h : AngleDeg u v s) (h' : AngleDeg u v t)
    (hu : 0 < dot u u) (hv : 0 < dot v v) : s = t := by
  have hp := Real.pi_pos
  have k := mul_pos (Real.sqrt_pos.2 hu) (Real.sqrt_pos.2 hv)
  have e : Real.cos (s * (Real.pi / 180)) = Real.cos (t * (Real.pi / 180)) :=
    mul_left_cancel₀ k.ne' (h.2.2.symm.trans h'.2.2)
  have := Real.injOn_cos ⟨by nlinarith [h.1], by nlinarith [h.2.1]⟩
    ⟨by nlinarith [h'.1], by nlinarith [h'.2.1]⟩ e
  have hk : Real.pi / 180 ≠ 0 := by positivity
  exact mul_right_cancel₀ hk this

/-- Every cell without zero vectors has lengths and angles. -/
theorem exists_params {c : Cell ℝ} (h : ∀ i, npNorm (c i) ≠ 0) :
    ∃ al be ga, HasParams c (npNorm (c 0)) (npNorm (c 1)) (npNorm (c 2)) al be ga :=
  ⟨_, _, _, npNorm_nonneg _, npNorm_nonneg _, npNorm_nonneg _, (npNorm_sq _).symm,
    (npNorm_sq _).symm, (npNorm_sq _).symm, angle_spec_val (h 1) (h 2), angle_spec_val (h 0) (h 2),
    angle_spec_val (h 0) (h 1)⟩

theorem norm_pos_of_det {c : Cell ℝ} (h : c.det ≠ 0) (i : Fin 3) : npNorm (c i) ≠ 0 := by
  rw [npNorm_eq]; exact (Real.sqrt_pos.2 (row_ne h i)).ne'

/-- Lengths and angles of a cell are determined. -/
theorem _root_.Spec.HasParams.unique {c : Cell ℝ} {a b d al be ga a' b' d' al' be' ga' : ℝ}
    (h : HasParams c a b d al be ga) (h' : HasParams c a' b' d' al' be' ga') (ha : 0 < a)
    (hb : 0 < b) (hd : 0 < d) :
    a = a' ∧ b = b' ∧ d = d' ∧ al = al' ∧ be = be' ∧ ga = ga' := by
  have p0 : 0 < dot (c 0) (c 0) := by rw [h.aa]; positivity
  have p1 : 0 < dot (c 1) (c 1) := by rw [h.bb]; positivity
  have p2 : 0 < dot (c 2) (c 2) := by rw [h.cc]; positivity
  refine ⟨?_, ?_, ?_, h.alpha.unique h'.alpha p1 p2, h.beta.unique h'.beta p0 p2,
    h.gamma.unique h'.gamma p0 p1⟩
  · exact (sq_eq_sq₀ h.a_nonneg h'.a_nonneg).1 (h.aa.symm.trans h'.aa)
  · exact (sq_eq_sq₀ h.b_nonneg h'.b_nonneg).1 (h.bb.symm.trans h'.bb)
  · exact (sq_eq_sq₀ h.c_nonneg h'.c_nonneg).1 (h.cc.symm.trans h'.cc)

/-! ## Lengths and angles after a signed permutation -/

section
variable {c : Cell ℝ} {x y z al be ga : ℝ}

private theorem dd {u v : Vec ℝ} (h : (∀ j, u j = v j) ∨ ∀ j, u j = -v j) : dot u u = dot v v := by
  rcases h with h | h <;> (simp only [dot, h]; try ring)

theorem _root_.Spec.HasParams.diag12 (h : HasParams c x y z al be ga) :
    HasParams (applyT !![-1, 0, 0; 0, -1, 0; 0, 0, 1] c) x y z (180 - al) (180 - be) ga := by
  have r0 : ∀ j, applyT !![-1, 0, 0; 0, -1, 0; 0, 0, 1] c 0 j = -c 0 j := by
    intro j; rw [applyT_row]; simp
  have r1 : ∀ j, applyT !![-1, 0, 0; 0, -1, 0; 0, 0, 1] c 1 j = -c 1 j := by
    intro j; rw [applyT_row]; simp
  have r2 : ∀ j, applyT !![-1, 0, 0; 0, -1, 0; 0, 0, 1] c 2 j = c 2 j := by
    intro j; rw [applyT_row]; simp
  exact ⟨h.1, h.2, h.3, (dd (.inr r0)).trans h.aa, (dd (.inr r1)).trans h.bb,
    (dd (.inl r2)).trans h.cc, (h.alpha.neg r1).congr (fun _ => rfl) r2,
    (h.beta.neg r0).congr (fun _ => rfl) r2, h.gamma.neg_neg r0 r1⟩

theorem _root_.Spec.HasParams.diag13 (h : HasParams c x y z al be ga) :
    HasParams (applyT !![-1, 0, 0; 0, 1, 0; 0, 0, -1] c) x y z (180 - al) be (180 - ga) := by
  have r0 : ∀ j, applyT !![-1, 0, 0; 0, 1, 0; 0, 0, -1] c 0 j = -c 0 j := by
    intro j; rw [applyT_row]; simp
  have r1 : ∀ j, applyT !![-1, 0, 0; 0, 1, 0; 0, 0, -1] c 1 j = c 1 j := by
    intro j; rw [applyT_row]; simp
  have r2 : ∀ j, applyT !![-1, 0, 0; 0, 1, 0; 0, 0, -1] c 2 j = -c 2 j := by
    intro j; rw [applyT_row]; simp
  exact ⟨h.1, h.2, h.3, (dd (.inr r0)).trans h.aa, (dd (.inl r1)).trans h.bb,
    (dd (.inr r2)).trans h.cc, (h.alpha.neg_right r2).congr r1 (fun _ => rfl),
    h.beta.neg_neg r0 r2, (h.gamma.neg r0).congr (fun _ => rfl) r1⟩

theorem _root_.Spec.HasParams.diag23 (h : HasParams c x y z al be ga) :
    HasParams (applyT !![1, 0, 0; 0, -1, 0; 0, 0, -1] c) x y z al (180 - be) (180 - ga) := by
  have r0 : ∀ j, applyT !![1, 0, 0; 0, -1, 0; 0, 0, -1] c 0 j = c 0 j := by
    intro j; rw [applyT_row]; simp
  have r1 : ∀ j, applyT !![1, 0, 0; 0, -1, 0; 0, 0, -1] c 1 j = -c 1 j := by
    intro j; rw [applyT_row]; simp
  have r2 : ∀ j, applyT !![1, 0, 0; 0, -1, 0; 0, 0, -1] c 2 j = -c 2 j := by
    intro j; rw [applyT_row]; simp
  exact ⟨h.1, h.2, h.3, (dd (.inl r0)).trans h.aa, (dd (.inr r1)).trans h.bb,
    (dd (.inr r2)).trans h.cc, h.alpha.neg_neg r1 r2,
    (h.beta.neg_right r2).congr r0 (fun _ => rfl), (h.gamma.neg_right r1).congr r0 (fun _ => rfl)⟩

/-- `a1, a2, a3 -> a3, a1, a2` -/
theorem _root_.Spec.HasParams.cyc312 (h : HasParams c x y z al be ga) :
    HasParams (applyT !![0, 1, 0; 0, 0, 1; 1, 0, 0] c) z x y ga al be := by
  have r0 : ∀ j, applyT !![0, 1, 0; 0, 0, 1; 1, 0, 0] c 0 j = c 2 j := by
    intro j; rw [applyT_row]; simp
  have r1 : ∀ j, applyT !![0, 1, 0; 0, 0, 1; 1, 0, 0] c 1 j = c 0 j := by
    intro j; rw [applyT_row]; simp
  have r2 : ∀ j, applyT !![0, 1, 0; 0, 0, 1; 1, 0, 0] c 2 j = c 1 j := by
    intro j; rw [applyT_row]; simp
  exact ⟨h.3, h.1, h.2, (dd (.inl r0)).trans h.cc, (dd (.inl r1)).trans h.aa,
    (dd (.inl r2)).trans h.bb, h.gamma.congr r1 r2, h.alpha.comm.congr r0 r2,
    h.beta.comm.congr r0 r1⟩

/-- `a1, a2, a3 -> a2, a3, a1` -/
theorem _root_.Spec.HasParams.cyc231 (h : HasParams c x y z al be ga) :
    HasParams (applyT !![0, 0, 1; 1, 0, 0; 0, 1, 0] c) y z x be ga al := by
  have r0 : ∀ j, applyT !![0, 0, 1; 1, 0, 0; 0, 1, 0] c 0 j = c 1 j := by
    intro j; rw [applyT_row]; simp
  have r1 : ∀ j, applyT !![0, 0, 1; 1, 0, 0; 0, 1, 0] c 1 j = c 2 j := by
    intro j; rw [applyT_row]; simp
  have r2 : ∀ j, applyT !![0, 0, 1; 1, 0, 0; 0, 1, 0] c 2 j = c 0 j := by
    intro j; rw [applyT_row]; simp
  exact ⟨h.2, h.3, h.1, (dd (.inl r0)).trans h.bb, (dd (.inl r1)).trans h.cc,
    (dd (.inl r2)).trans h.aa, h.beta.comm.congr r1 r2, h.gamma.comm.congr r0 r2,
    h.alpha.congr r0 r1⟩

/-- `a1, a2, a3 -> -a1, -a3, -a2` -/
theorem _root_.Spec.HasParams.negswap23 (h : HasParams c x y z al be ga) :
    HasParams (applyT !![-1, 0, 0; 0, 0, -1; 0, -1, 0] c) x z y al ga be := by
  have r0 : ∀ j, applyT !![-1, 0, 0; 0, 0, -1; 0, -1, 0] c 0 j = -c 0 j := by
    intro j; rw [applyT_row]; simp
  have r1 : ∀ j, applyT !![-1, 0, 0; 0, 0, -1; 0, -1, 0] c 1 j = -c 2 j := by
    intro j; rw [applyT_row]; simp
  have r2 : ∀ j, applyT !![-1, 0, 0; 0, 0, -1; 0, -1, 0] c 2 j = -c 1 j := by
    intro j; rw [applyT_row]; simp
  exact ⟨h.1, h.3, h.2, (dd (.inr r0)).trans h.aa, (dd (.inr r1)).trans h.cc,
    (dd (.inr r2)).trans h.bb, h.alpha.comm.neg_neg r1 r2, h.gamma.neg_neg r0 r2,
    h.beta.neg_neg r0 r1⟩

/-- `a1, a2, a3 -> -a2, -a1, -a3` -/
theorem _root_.Spec.HasParams.negswap12 (h : HasParams c x y z al be ga) :
    HasParams (applyT !![0, -1, 0; -1, 0, 0; 0, 0, -1] c) y x z be al ga := by
  have r0 : ∀ j, applyT !![0, -1, 0; -1, 0, 0; 0, 0, -1] c 0 j = -c 1 j := by
    intro j; rw [applyT_row]; simp
  have r1 : ∀ j, applyT !![0, -1, 0; -1, 0, 0; 0, 0, -1] c 1 j = -c 0 j := by
    intro j; rw [applyT_row]; simp
  have r2 : ∀ j, applyT !![0, -1, 0; -1, 0, 0; 0, 0, -1] c 2 j = -c 2 j := by
    intro j; rw [applyT_row]; simp
  exact ⟨h.2, h.1, h.3, (dd (.inr r0)).trans h.bb, (dd (.inr r1)).trans h.aa,
    (dd (.inr r2)).trans h.cc, h.beta.neg_neg r1 r2, h.alpha.neg_neg r0 r2,
    h.gamma.comm.neg_neg r0 r1⟩

/-- `a1, a2, a3 -> -a3, -a2, -a1` -/
theorem _root_.Spec.HasParams.negswap13 (h : HasParams c x y z al be ga) :
    HasParams (applyT !![0, 0, -1; 0, -1, 0; -1, 0, 0] c) z y x ga be al := by
  have r0 : ∀ j, applyT !![0, 0, -1; 0, -1, 0; -1, 0, 0] c 0 j = -c 2 j := by
    intro j; rw [applyT_row]; simp
  have r1 : ∀ j, applyT !![0, 0, -1; 0, -1, 0; -1, 0, 0] c 1 j = -c 1 j := by
    intro j; rw [applyT_row]; simp
  have r2 : ∀ j, applyT !![0, 0, -1; 0, -1, 0; -1, 0, 0] c 2 j = -c 0 j := by
    intro j; rw [applyT_row]; simp
  exact ⟨h.3, h.2, h.1, (dd (.inr r0)).trans h.cc, (dd (.inr r1)).trans h.bb,
    (dd (.inr r2)).trans h.aa, h.gamma.comm.neg_neg r1 r2, h.beta.comm.neg_neg r0 r2,
    h.alpha.comm.neg_neg r0 r1⟩

/-- `a1, a2, a3 -> a2, -a1, a3` -/
theorem _root_.Spec.HasParams.rot12 (h : HasParams c x y z al be ga) :
    HasParams (applyT !![0, -1, 0; 1, 0, 0; 0, 0, 1] c) y x z (180 - be) al (180 - ga) := by
  have r0 : ∀ j, applyT !![0, -1, 0; 1, 0, 0; 0, 0, 1] c 0 j = c 1 j := by
    intro j; rw [applyT_row]; simp
  have r1 : ∀ j, applyT !![0, -1, 0; 1, 0, 0; 0, 0, 1] c 1 j = -c 0 j := by
    intro j; rw [applyT_row]; simp
  have r2 : ∀ j, applyT !![0, -1, 0; 1, 0, 0; 0, 0, 1] c 2 j = c 2 j := by
    intro j; rw [applyT_row]; simp
  exact ⟨h.2, h.1, h.3, (dd (.inl r0)).trans h.bb, (dd (.inr r1)).trans h.aa,
    (dd (.inl r2)).trans h.cc, (h.beta.neg r1).congr (fun _ => rfl) r2, h.alpha.congr r0 r2,
    (h.gamma.comm.neg_right r1).congr r0 (fun _ => rfl)⟩

/-- `a1, a2, a3 -> -a1, a3, a2` -/
theorem _root_.Spec.HasParams.flip1swap23 (h : HasParams c x y z al be ga) :
    HasParams (applyT !![-1, 0, 0; 0, 0, 1; 0, 1, 0] c) x z y al (180 - ga) (180 - be) := by
  have r0 : ∀ j, applyT !![-1, 0, 0; 0, 0, 1; 0, 1, 0] c 0 j = -c 0 j := by
    intro j; rw [applyT_row]; simp
  have r1 : ∀ j, applyT !![-1, 0, 0; 0, 0, 1; 0, 1, 0] c 1 j = c 2 j := by
    intro j; rw [applyT_row]; simp
  have r2 : ∀ j, applyT !![-1, 0, 0; 0, 0, 1; 0, 1, 0] c 2 j = c 1 j := by
    intro j; rw [applyT_row]; simp
  exact ⟨h.1, h.3, h.2, (dd (.inr r0)).trans h.aa, (dd (.inl r1)).trans h.cc,
    (dd (.inl r2)).trans h.bb, h.alpha.comm.congr r1 r2, (h.gamma.neg r0).congr (fun _ => rfl) r2,
    (h.beta.neg r0).congr (fun _ => rfl) r1⟩

end

/-- The reciprocal cell follows an orthogonal integer change of basis. -/
theorem recip_applyT (m : Matrix (Fin 3) (Fin 3) ℤ) (hm : m * m.transpose = 1) (c r : Cell ℝ)
    (h : getReciprocal c = .ok r) : getReciprocal (applyT m c) = .ok (applyT m r) := by
  have hm' : (m.map (Int.cast : ℤ → ℝ)) * (m.transpose.map (Int.cast : ℤ → ℝ)) = 1 := by
    rw [← map_mul_int, hm]; simp
  have hd : (m.transpose.map (Int.cast : ℤ → ℝ)).det ≠ 0 := by
    intro h0
    have := congrArg Matrix.det hm'
    rw [det_mul, h0] at this; simp at this
  have hinv : (m.transpose.map (Int.cast : ℤ → ℝ))⁻¹ = m.map (Int.cast : ℤ → ℝ) :=
    Matrix.inv_eq_left_inv hm'
  unfold applyT
  rw [C03_change_of_basis _ c r hd h, hinv]
  rfl

end Wulfric
