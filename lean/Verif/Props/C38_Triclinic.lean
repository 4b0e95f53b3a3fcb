import Verif.Props.C37_Orthorhombic

/-! # C38: triclinic conventional cells -/

namespace Wulfric
open Matrix _root_.Spec

/-- The sign step never fails and makes the angles of one kind. -/
theorem sign_step {c : Cell ℝ} {x y z al be ga : ℝ} (h : HasParams c x y z al be ga) :
    ∃ m al' be' ga', signMatrix al be ga = .ok m ∧
      HasParams (applyT m c) x y z al' be' ga' ∧ OneKind al' be' ga' ∧
      (∀ i j, |dot (applyT m c i) (applyT m c j)| = |dot (c i) (c j)|) := by
  unfold signMatrix
  have habs : ∀ s : Fin 3 → ℤ, (∀ i, s i = 1 ∨ s i = -1) → ∀ m : Matrix (Fin 3) (Fin 3) ℤ,
      (∀ i j, m i j = if i = j then s i else 0) →
      ∀ i j, |dot (applyT m c i) (applyT m c j)| = |dot (c i) (c j)| := by
    intro s hs m hm
    have row : ∀ i k, applyT m c i k = (s i : ℝ) * c i k := by
      intro i k
      rw [applyT_row]
      simp only [hm]
      obtain rfl | rfl | rfl : i = 0 ∨ i = 1 ∨ i = 2 := by fin_cases i <;> simp
      all_goals simp
    intro i j
    have : dot (applyT m c i) (applyT m c j) = (s i * s j : ℤ) * dot (c i) (c j) := by
      simp only [dot, row]; push_cast; ring
    rw [this, abs_mul]
    rcases hs i with h1 | h1 <;> rcases hs j with h2 | h2 <;> simp [h1, h2]
  have a0 := habs (fun _ => 1) (by simp) 1 (by intro i j; fin_cases i <;> fin_cases j <;> rfl)
  have a12 := habs ![-1, -1, 1] (by decide) !![-1, 0, 0; 0, -1, 0; 0, 0, 1]
    (by intro i j; fin_cases i <;> fin_cases j <;> rfl)
  have a13 := habs ![-1, 1, -1] (by decide) !![-1, 0, 0; 0, 1, 0; 0, 0, -1]
    (by intro i j; fin_cases i <;> fin_cases j <;> rfl)
  have a23 := habs ![1, -1, -1] (by decide) !![1, 0, 0; 0, -1, 0; 0, 0, -1]
    (by intro i j; fin_cases i <;> fin_cases j <;> rfl)
  by_cases q1 : (al < 90 ∧ be < 90 ∧ ga < 90) ∨ (90 ≤ al ∧ 90 ≤ be ∧ 90 ≤ ga)
  · rw [if_pos q1]
    exact ⟨1, al, be, ga, rfl, by rw [applyT_one]; exact h, q1, a0⟩
  · rw [if_neg q1]
    by_cases q2 : (90 < al ∧ 90 < be ∧ ga < 90) ∨ (al ≤ 90 ∧ be ≤ 90 ∧ 90 ≤ ga)
    · rw [if_pos q2]
      refine ⟨_, _, _, _, rfl, h.diag12, ?_, a12⟩
      rcases q2 with ⟨h1, h2, h3⟩ | ⟨h1, h2, h3⟩
      · exact .inl ⟨by linarith, by linarith, h3⟩
      · exact .inr ⟨by linarith, by linarith, h3⟩
    · rw [if_neg q2]
      by_cases q3 : (90 < al ∧ be < 90 ∧ 90 < ga) ∨ (al ≤ 90 ∧ 90 ≤ be ∧ ga ≤ 90)
      · rw [if_pos q3]
        refine ⟨_, _, _, _, rfl, h.diag13, ?_, a13⟩
        rcases q3 with ⟨h1, h2, h3⟩ | ⟨h1, h2, h3⟩
        · exact .inl ⟨by linarith, h2, by linarith⟩
        · exact .inr ⟨by linarith, h2, by linarith⟩
      · rw [if_neg q3]
        by_cases q4 : (al < 90 ∧ 90 < be ∧ 90 < ga) ∨ (90 ≤ al ∧ be ≤ 90 ∧ ga ≤ 90)
        · rw [if_pos q4]
          refine ⟨_, _, _, _, rfl, h.diag23, ?_, a23⟩
          rcases q4 with ⟨h1, h2, h3⟩ | ⟨h1, h2, h3⟩
          · exact .inl ⟨h1, by linarith, by linarith⟩
          · exact .inr ⟨h1, by linarith, by linarith⟩
        · exfalso
          simp only [not_or, not_and, not_lt, not_le] at q1 q2 q3 q4
          obtain ⟨q1a, q1b⟩ := q1
          obtain ⟨q2a, q2b⟩ := q2
          obtain ⟨q3a, q3b⟩ := q3
          obtain ⟨q4a, q4b⟩ := q4
          rcases lt_trichotomy al 90 with k1 | k1 | k1 <;>
          rcases lt_trichotomy be 90 with k2 | k2 | k2 <;>
          rcases lt_trichotomy ga 90 with k3 | k3 | k3 <;>
          first
            | exact absurd (q1a k1 k2) (not_le.2 k3)
            | exact absurd (q1b (by linarith) (by linarith)) (not_lt.2 (by linarith))
            | exact absurd (q2a k1 k2) (not_le.2 k3)
            | exact absurd (q2b (by linarith) (by linarith)) (not_lt.2 (by linarith))
            | exact absurd (q3a k1 k2) (not_le.2 k3)
            | exact absurd (q3b (by linarith) (by linarith)) (not_lt.2 (by linarith))
            | exact absurd (q4a k1 k2) (not_le.2 k3)
            | exact absurd (q4b (by linarith) (by linarith)) (not_lt.2 (by linarith))

/-- The reciprocal angle `ga` is the extreme one, within the tolerance: the largest if not
above a right angle, or the smallest if not below. -/
def _root_.Spec.GammaExtreme (tol al be ga : ℝ) : Prop :=
  (al ≤ ga ∧ be ≤ ga ∧ ga ≤ 90 + tol) ∨ (ga ≤ al ∧ ga ≤ be ∧ 90 - tol ≤ ga)

theorem extreme_step {c : Cell ℝ} {x y z al be ga tol : ℝ} (ht : 0 ≤ tol)
    (h : HasParams c x y z al be ga) (hk : OneKind al be ga) :
    ∃ m x' y' z' al' be' ga', extremeMatrix al be ga tol = .ok m ∧
      HasParams (applyT m c) x' y' z' al' be' ga' ∧ [x', y', z'].Perm [x, y, z] ∧
      OneKind al' be' ga' ∧ GammaExtreme tol al' be' ga' := by
  simp only [extremeMatrix, cwt_ge, cwt_le, not_lt]
  have lo : ∀ t, t = min al (min be ga) → t ≤ al ∧ t ≤ be ∧ t ≤ ga := by
    rintro t rfl
    exact ⟨min_le_left _ _, (min_le_right _ _).trans (min_le_left _ _),
      (min_le_right _ _).trans (min_le_right _ _)⟩
  have hi : ∀ t, t = max al (max be ga) → al ≤ t ∧ be ≤ t ∧ ga ≤ t := by
    rintro t rfl
    exact ⟨le_max_left _ _, (le_max_left _ _).trans (le_max_right _ _),
      (le_max_right _ _).trans (le_max_right _ _)⟩
  by_cases q1 : (ga = min al (min be ga) ∧ 90 - tol ≤ ga) ∨ (ga = max al (max be ga) ∧ ga - tol ≤ 90)
  · rw [if_pos q1]
    refine ⟨1, x, y, z, al, be, ga, rfl, by rw [applyT_one]; exact h, .refl _, hk, ?_⟩
    rcases q1 with ⟨q, q'⟩ | ⟨q, q'⟩
    · exact .inr ⟨(lo _ q).1, (lo _ q).2.1, q'⟩
    · exact .inl ⟨(hi _ q).1, (hi _ q).2.1, by linarith⟩
  · rw [if_neg q1]
    by_cases q2 : (be = min al (min be ga) ∧ 90 - tol ≤ be) ∨ (be = max al (max be ga) ∧ be - tol ≤ 90)
    · rw [if_pos q2]
      refine ⟨_, z, x, y, ga, al, be, rfl, h.cyc312,
        (List.perm_append_comm (l₁ := [z]) (l₂ := [x, y])), ?_, ?_⟩
      · rcases hk with ⟨h1, h2, h3⟩ | ⟨h1, h2, h3⟩
        · exact .inl ⟨h3, h1, h2⟩
        · exact .inr ⟨h3, h1, h2⟩
      · rcases q2 with ⟨q, q'⟩ | ⟨q, q'⟩
        · exact .inr ⟨(lo _ q).2.2, (lo _ q).1, q'⟩
        · exact .inl ⟨(hi _ q).2.2, (hi _ q).1, by linarith⟩
    · rw [if_neg q2]
      by_cases q3 : (al = min al (min be ga) ∧ 90 - tol ≤ al) ∨ (al = max al (max be ga) ∧ al - tol ≤ 90)
      · rw [if_pos q3]
        refine ⟨_, y, z, x, be, ga, al, rfl, h.cyc231,
          (List.perm_append_comm (l₁ := [y, z]) (l₂ := [x])), ?_, ?_⟩
        · rcases hk with ⟨h1, h2, h3⟩ | ⟨h1, h2, h3⟩
          · exact .inl ⟨h2, h3, h1⟩
          · exact .inr ⟨h2, h3, h1⟩
        · rcases q3 with ⟨q, q'⟩ | ⟨q, q'⟩
          · exact .inr ⟨(lo _ q).2.1, (lo _ q).2.2, q'⟩
          · exact .inl ⟨(hi _ q).2.1, (hi _ q).2.2, by linarith⟩
      · exfalso
        simp only [not_or, not_and, not_le] at q1 q2 q3
        rcases hk with ⟨h1, h2, h3⟩ | ⟨h1, h2, h3⟩
        · have : al = max al (max be ga) ∨ be = max al (max be ga) ∨ ga = max al (max be ga) := by
            rcases max_choice al (max be ga) with e | e
            · exact .inl e.symm
            · rcases max_choice be ga with e' | e'
              · rw [e']at e; exact .inr (.inl (by rw [e', e]))
              · rw [e'] at e; exact .inr (.inr (by rw [e', e]))
          rcases this with e | e | e
          · have := q3.2 e; linarith
          · have := q2.2 e; linarith
          · have := q1.2 e; linarith
        · have : al = min al (min be ga) ∨ be = min al (min be ga) ∨ ga = min al (min be ga) := by
            rcases min_choice al (min be ga) with e | e
            · exact .inl e.symm
            · rcases min_choice be ga with e' | e'
              · rw [e']at e; exact .inr (.inl (by rw [e', e]))
              · rw [e'] at e; exact .inr (.inr (by rw [e', e]))
          rcases this with e | e | e
          · have := q3.1 e; linarith
          · have := q2.1 e; linarith
          · have := q1.1 e; linarith

/-- C38, SC: for every cell with reciprocal vectors longer than the machine epsilon the call
succeeds; the reciprocal angles of the result are all acute or none is, and the third one is
the extreme one (within the angle tolerance). -/
theorem C38_sc (cell r : Cell ℝ) (tol : ℝ) (ht : 0 ≤ tol) (centring : String)
    (hr : getReciprocal cell = .ok r) (hlen : ∀ i, machineEps < npNorm (r i)) :
    ∃ d r' a b c al be ga, scConventionalNoHR cell "a" centring tol = .ok d ∧
      getReciprocal d = .ok r' ∧ HasParams r' a b c al be ga ∧ OneKind al be ga ∧
      GammaExtreme tol al be ga := by
  have e : scConventionalNoHR cell "a" centring tol = scConventionalA cell tol := by
    unfold scConventionalNoHR
    rw [if_neg (by simp), if_neg (by decide), if_neg (by decide), if_pos rfl]
  rw [e]
  obtain ⟨al, be, ga, hp⟩ := exists_params (c := r) fun i => (machineEps_pos.trans (hlen i)).ne'
  obtain ⟨m1, al1, be1, ga1, hm1, hp1, hk1, -⟩ := sign_step hp
  obtain ⟨m2, x', y', z', al2, be2, ga2, hm2, hp2, hperm, hk2, hg2⟩ := extreme_step ht hp1 hk1
  have e1 := recip_applyT m1 (signMatrix_det hm1).2 cell r hr
  obtain ⟨hd, -⟩ := recip_ok e1
  obtain ⟨r', e2, -, e3⟩ := C03_involution _ hd
  rw [e1] at e2
  cases e2
  have e4 := recip_applyT m2 (extremeMatrix_det hm2).2 _ _ e1
  refine ⟨_, _, x', y', z', al2, be2, ga2, ?_, e4, hp2, hk2, hg2⟩
  unfold scConventionalA
  simp only [hr, bind, Except.bind, pure, Except.pure]
  rw [params_pos hp (hlen 0) (hlen 1) (hlen 2)]
  simp only [hm1]
  rw [params_pos hp1 (hlen 0) (hlen 1) (hlen 2)]
  simp only [hm2, e3]

theorem dot_step (bc ac ab : ℝ) :
    ∃ m, dotMatrix bc ac ab = .ok m ∧
      ((m = !![0, 0, 1; 1, 0, 0; 0, 1, 0] ∧ bc ≤ ac ∧ bc ≤ ab) ∨
       (m = !![0, 1, 0; 0, 0, 1; 1, 0, 0] ∧ ac ≤ bc ∧ ac ≤ ab) ∨ (m = 1 ∧ ab ≤ ac ∧ ab ≤ bc)) := by
  unfold dotMatrix
  by_cases q1 : bc ≤ ac ∧ bc ≤ ab
  · rw [if_pos q1]; exact ⟨_, rfl, .inl ⟨rfl, q1.1, q1.2⟩⟩
  · rw [if_neg q1]
    by_cases q2 : ac ≤ bc ∧ ac ≤ ab
    · rw [if_pos q2]; exact ⟨_, rfl, .inr (.inl ⟨rfl, q2.1, q2.2⟩)⟩
    · rw [if_neg q2]
      have q3 : ab ≤ ac ∧ ab ≤ bc := by
        rw [not_and_or, not_le, not_le] at q1 q2
        constructor
        · rcases q2 with h | h
          · rcases q1 with h' | h'
            · exact absurd (h.trans h') (lt_irrefl _)
            · exact (h'.trans h).le
          · exact h.le
        · rcases q1 with h | h
          · rcases q2 with h' | h'
            · exact absurd (h.trans h') (lt_irrefl _)
            · exact (h'.trans h).le
          · exact h.le
      rw [if_pos q3]; exact ⟨_, rfl, .inr (.inr ⟨rfl, q3.1, q3.2⟩)⟩

/-- C38, HPKOT: whenever the Niggli reduction of the reciprocal cell returns a cell (with
non-zero volume and vectors longer than the machine epsilon), the call succeeds; the reciprocal
angles are all acute or none is, and `|a*·b*|` is the smallest of the three products. -/
theorem C38_hpkot (niggli : Cell ℝ → Except Err (Cell ℝ)) (cell r r1 : Cell ℝ)
    (hr : getReciprocal cell = .ok r) (hn : niggli r = .ok r1) (hdet : r1.det ≠ 0)
    (hlen : ∀ i, machineEps < npNorm (r1 i)) :
    ∃ d r' a b c al be ga, hpkotConventionalA niggli cell = .ok d ∧
      getReciprocal d = .ok r' ∧ HasParams r' a b c al be ga ∧ OneKind al be ga ∧
      |dot (r' 0) (r' 1)| ≤ |dot (r' 0) (r' 2)| ∧ |dot (r' 0) (r' 1)| ≤ |dot (r' 1) (r' 2)| := by
  obtain ⟨c1, hc1, -, hc1r⟩ := C03_involution r1 hdet
  obtain ⟨al0, be0, ga0, hp0⟩ := exists_params (c := r1) fun i => (machineEps_pos.trans (hlen i)).ne'
  obtain ⟨m2, hm2, hcase⟩ := dot_step |npDot (r1 1) (r1 2)| |npDot (r1 0) (r1 2)| |npDot (r1 0) (r1 1)|
  simp only [npDot_eq] at hcase
  -- the permuted reciprocal cell
  obtain ⟨a, b, c, al, be, ga, hp, l1, l2, l3, d1, d2⟩ : ∃ a b c al be ga,
      HasParams (applyT m2 r1) a b c al be ga ∧ machineEps < a ∧ machineEps < b ∧ machineEps < c ∧
      |dot (applyT m2 r1 0) (applyT m2 r1 1)| ≤ |dot (applyT m2 r1 0) (applyT m2 r1 2)| ∧
      |dot (applyT m2 r1 0) (applyT m2 r1 1)| ≤ |dot (applyT m2 r1 1) (applyT m2 r1 2)| := by
    rcases hcase with ⟨rfl, k1, k2⟩ | ⟨rfl, k1, k2⟩ | ⟨rfl, k1, k2⟩
    · have r0 : applyT !![0, 0, 1; 1, 0, 0; 0, 1, 0] r1 0 = r1 1 := by
        ext j; rw [applyT_row]; simp
      have r1' : applyT !![0, 0, 1; 1, 0, 0; 0, 1, 0] r1 1 = r1 2 := by
        ext j; rw [applyT_row]; simp
      have r2 : applyT !![0, 0, 1; 1, 0, 0; 0, 1, 0] r1 2 = r1 0 := by
        ext j; rw [applyT_row]; simp
      refine ⟨_, _, _, _, _, _, hp0.cyc231, hlen 1, hlen 2, hlen 0, ?_⟩
      rw [r0, r1', r2, dot_comm' (r1 1) (r1 0), dot_comm' (r1 2) (r1 0)]
      exact ⟨k2, k1⟩
    · have r0 : applyT !![0, 1, 0; 0, 0, 1; 1, 0, 0] r1 0 = r1 2 := by
        ext j; rw [applyT_row]; simp
      have r1' : applyT !![0, 1, 0; 0, 0, 1; 1, 0, 0] r1 1 = r1 0 := by
        ext j; rw [applyT_row]; simp
      have r2 : applyT !![0, 1, 0; 0, 0, 1; 1, 0, 0] r1 2 = r1 1 := by
        ext j; rw [applyT_row]; simp
      refine ⟨_, _, _, _, _, _, hp0.cyc312, hlen 2, hlen 0, hlen 1, ?_⟩
      rw [r0, r1', r2, dot_comm' (r1 2) (r1 0), dot_comm' (r1 2) (r1 1)]
      exact ⟨k1, k2⟩
    · rw [applyT_one]
      exact ⟨_, _, _, _, _, _, hp0, hlen 0, hlen 1, hlen 2, k1, k2⟩
  obtain ⟨m3, al', be', ga', hm3, hp3, hk3, hab⟩ := sign_step hp
  have e2 := recip_applyT m2 (dotMatrix_det hm2).2 _ _ hc1r
  have e3 := recip_applyT m3 (signMatrix_det hm3).2 _ _ e2
  refine ⟨_, _, _, _, _, al', be', ga', ?_, e3, hp3, hk3, ?_, ?_⟩
  · unfold hpkotConventionalA
    simp only [hr, hn, hc1, hm2, e2, bind, Except.bind, pure, Except.pure]
    rw [params_pos hp l1 l2 l3]
    simp only [hm3]
  · rw [hab, hab]; exact d1
  · rw [hab, hab]; exact d2

/-- The hypotheses of both theorems are met by an oblique cell. -/
theorem oblique_recip : getReciprocal !![1, 0, 0; 1, 1, 0; 0, 0, 1] =
      .ok ((2 * Real.pi) • !![1, -1, 0; 0, 1, 0; 0, 0, 1]) ∧
    (∀ i, machineEps < npNorm (((2 * Real.pi) • !![1, -1, 0; 0, 1, 0; 0, 0, 1] : Cell ℝ) i)) ∧
    ((2 * Real.pi) • !![1, -1, 0; 0, 1, 0; 0, 0, 1] : Cell ℝ).det ≠ 0 := by
  have hd : (!![1, 0, 0; 1, 1, 0; 0, 0, 1] : Cell ℝ).det ≠ 0 := by simp [det_fin_three]
  have hpi := Real.two_le_pi
  refine ⟨?_, ?_, ?_⟩
  · obtain ⟨r, hr, -, hu⟩ := C02_dual_unique _ hd
    rw [hr]
    congr 1
    symm
    apply hu
    rw [isDual_iff]
    ext i j
    fin_cases i <;> fin_cases j <;>
      simp [Matrix.mul_apply, Fin.sum_univ_three, Matrix.smul_apply]
  · intro i
    rw [npNorm_eq]
    apply eps_lt
    rw [Real.one_le_sqrt]
    fin_cases i <;> simp [dot, Matrix.smul_apply] <;> nlinarith
  · rw [det_smul]
    simp [det_fin_three]

example : ∃ d r' a b c al be ga,
    scConventionalNoHR !![1, 0, 0; 1, 1, 0; 0, 0, 1] "a" "P" (1 / 10 ^ 4) = .ok d ∧
      getReciprocal d = .ok r' ∧ HasParams r' a b c al be ga ∧ OneKind al be ga ∧
      GammaExtreme (1 / 10 ^ 4) al be ga :=
  C38_sc _ _ _ (by norm_num) "P" oblique_recip.1 oblique_recip.2.1

example : ∃ d, hpkotConventionalA (fun r => .ok r) !![1, 0, 0; 1, 1, 0; 0, 0, 1] = .ok d := by
  obtain ⟨d, r', a, b, c, al, be, ga, h, -⟩ := C38_hpkot (fun r => .ok r) _ _ _ oblique_recip.1 rfl
    oblique_recip.2.2 oblique_recip.2.1
  exact ⟨d, h⟩

end Wulfric
