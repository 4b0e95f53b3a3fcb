import Verif.Lemmas.ZoneHpkot

/-! # Triclinic cells: the reciprocal cell stays reduced -/

namespace Wulfric

open Matrix _root_.Spec Wulfric.Spec

theorem _root_.Spec.PairReduced.cyc231 {r : Cell ℝ} (h : PairReduced r) :
    PairReduced (applyT !![0, 0, 1; 1, 0, 0; 0, 1, 0] r) := by
  have r0 : applyT !![0, 0, 1; 1, 0, 0; 0, 1, 0] r 0 = r 1 := by
    ext j; rw [applyT_row]; simp
  have r1 : applyT !![0, 0, 1; 1, 0, 0; 0, 1, 0] r 1 = r 2 := by
    ext j; rw [applyT_row]; simp
  have r2 : applyT !![0, 0, 1; 1, 0, 0; 0, 1, 0] r 2 = r 0 := by
    ext j; rw [applyT_row]; simp
  intro i j hij
  fin_cases i <;> fin_cases j <;>
    simp only [Fin.zero_eta, Fin.mk_one, Fin.reduceFinMk, r0, r1, r2, ne_eq, not_true_eq_false]
      at hij ⊢ <;> exact h _ _ (by decide)

theorem _root_.Spec.PairReduced.cyc312 {r : Cell ℝ} (h : PairReduced r) :
    PairReduced (applyT !![0, 1, 0; 0, 0, 1; 1, 0, 0] r) := by
  have r0 : applyT !![0, 1, 0; 0, 0, 1; 1, 0, 0] r 0 = r 2 := by
    ext j; rw [applyT_row]; simp
  have r1 : applyT !![0, 1, 0; 0, 0, 1; 1, 0, 0] r 1 = r 0 := by
    ext j; rw [applyT_row]; simp
  have r2 : applyT !![0, 1, 0; 0, 0, 1; 1, 0, 0] r 2 = r 1 := by
    ext j; rw [applyT_row]; simp
  intro i j hij
  fin_cases i <;> fin_cases j <;>
    simp only [Fin.zero_eta, Fin.mk_one, Fin.reduceFinMk, r0, r1, r2, ne_eq, not_true_eq_false]
      at hij ⊢ <;> exact h _ _ (by decide)

theorem _root_.Spec.PairReduced.abs {r r' : Cell ℝ} (h : PairReduced r)
    (e : ∀ i j, |dot (r' i) (r' j)| = |dot (r i) (r j)|) : PairReduced r' := by
  intro i j hij
  have := h i j hij
  have p : ∀ v : Vec ℝ, 0 ≤ dot v v := fun v => by
    simp only [dot]; nlinarith [mul_self_nonneg (v 0), mul_self_nonneg (v 1), mul_self_nonneg (v 2)]
  rw [e, ← abs_of_nonneg (p (r' i)), e, abs_of_nonneg (p (r i))]
  exact this

/-- The HPKOT cell of a triclinic lattice whose reciprocal Niggli cell is reduced. -/
theorem hpkotA_zone {niggli : Cell ℝ → Except Err (Cell ℝ)} {c d : Cell ℝ}
    (h : hpkotConventionalA niggli c = .ok d)
    (hred : ∀ r r1, getReciprocal c = .ok r → niggli r = .ok r1 → PairReduced r1) :
    ∃ r, getReciprocal d = .ok r ∧ PairReduced r ∧
      |dot (r 0) (r 1)| ≤ |dot (r 0) (r 2)| ∧ |dot (r 0) (r 1)| ≤ |dot (r 1) (r 2)| := by
  unfold hpkotConventionalA at h
  cases hr : getReciprocal c with
  | error e => rw [hr] at h; cases h
  | ok r =>
  simp only [hr, bind, Except.bind, pure, Except.pure] at h
  cases hn : niggli r with
  | error e => rw [hn] at h; cases h
  | ok r1 =>
  simp only [hn] at h
  have red := hred r r1 hr hn
  cases hr1 : getReciprocal r1 with
  | error e => rw [hr1] at h; cases h
  | ok c1 =>
  simp only [hr1] at h
  obtain ⟨c1', hc1, -, hc1r⟩ := C03_involution r1 (recip_ok hr1).1
  rw [hr1] at hc1
  cases hc1
  obtain ⟨m2, hm2, hcase⟩ := dot_step |npDot (r1 1) (r1 2)| |npDot (r1 0) (r1 2)| |npDot (r1 0) (r1 1)|
  simp only [hm2] at h
  have e2 := recip_applyT m2 (dotMatrix_det hm2).2 _ _ hc1r
  simp only [e2] at h
  cases hp : getParams (applyT m2 r1) with
  | error e => rw [hp] at h; cases h
  | ok p =>
  obtain ⟨x, y, z, al, be, ga⟩ := p
  simp only [hp] at h
  obtain ⟨hpp, -, -, -⟩ := getParams_ok hp
  obtain ⟨m3, al', be', ga', hm3, hp3, hk3, hab⟩ := sign_step hpp
  have e3 := recip_applyT m3 (signMatrix_det hm3).2 _ _ e2
  simp only [hm3] at h
  cases h
  simp only [npDot_eq] at hcase
  refine ⟨_, e3, ?_⟩
  rw [hab, hab, hab]
  refine ⟨Spec.PairReduced.abs ?_ hab, ?_⟩
  · rcases hcase with ⟨rfl, k1, k2⟩ | ⟨rfl, k1, k2⟩ | ⟨rfl, k1, k2⟩
    · exact red.cyc231
    · exact red.cyc312
    · rw [applyT_one]; exact red
  · rcases hcase with ⟨rfl, k1, k2⟩ | ⟨rfl, k1, k2⟩ | ⟨rfl, k1, k2⟩
    · have r0 : applyT !![0, 0, 1; 1, 0, 0; 0, 1, 0] r1 0 = r1 1 := by
        ext j; rw [applyT_row]; simp
      have r1' : applyT !![0, 0, 1; 1, 0, 0; 0, 1, 0] r1 1 = r1 2 := by
        ext j; rw [applyT_row]; simp
      have r2 : applyT !![0, 0, 1; 1, 0, 0; 0, 1, 0] r1 2 = r1 0 := by
        ext j; rw [applyT_row]; simp
      rw [r0, r1', r2, dot_comm' (r1 1) (r1 0), dot_comm' (r1 2) (r1 0)]
      exact ⟨k2, k1⟩
    · have r0 : applyT !![0, 1, 0; 0, 0, 1; 1, 0, 0] r1 0 = r1 2 := by
        ext j; rw [applyT_row]; simp
      have r1' : applyT !![0, 1, 0; 0, 0, 1; 1, 0, 0] r1 1 = r1 0 := by
        ext j; rw [applyT_row]; simp
      have r2 : applyT !![0, 1, 0; 0, 0, 1; 1, 0, 0] r1 2 = r1 1 := by
        ext j; rw [applyT_row]; simp
      rw [r0, r1', r2, dot_comm' (r1 2) (r1 0), dot_comm' (r1 2) (r1 1)]
      exact ⟨k1, k2⟩
    · rw [applyT_one]
      exact ⟨k1, k2⟩

/-- The SC cell of a triclinic lattice whose reciprocal cell is reduced. -/
theorem scA_zone {c d : Cell ℝ} {tol : ℝ} (ht : 0 ≤ tol) (h : scConventionalA c tol = .ok d)
    {r0 : Cell ℝ} (h0 : getReciprocal c = .ok r0) (red : PairReduced r0) :
    ∃ r, getReciprocal d = .ok r ∧ PairReduced r := by
  unfold scConventionalA at h
  simp only [h0, bind, Except.bind, pure, Except.pure] at h
  cases hp : getParams r0 with
  | error e => rw [hp] at h; cases h
  | ok p =>
  obtain ⟨x, y, z, al, be, ga⟩ := p
  simp only [hp] at h
  obtain ⟨hpp, e1, e2, e3⟩ := getParams_ok hp
  obtain ⟨m1, al1, be1, ga1, hm1, hp1, hk1, hab⟩ := sign_step hpp
  simp only [hm1, getParams_of_spec hp1 e1 e2 e3] at h
  have red1 : PairReduced (applyT m1 r0) := red.abs hab
  have q1 := recip_applyT m1 (signMatrix_det hm1).2 c r0 h0
  obtain ⟨hd, -⟩ := recip_ok q1
  obtain ⟨r', q2, -, q3⟩ := C03_involution _ hd
  rw [q1] at q2
  cases q2
  cases hm : extremeMatrix al1 be1 ga1 tol with
  | error e => rw [hm] at h; cases h
  | ok m2 =>
  simp only [hm, q3] at h
  cases h
  refine ⟨_, recip_applyT m2 (extremeMatrix_det hm).2 _ _ q1, ?_⟩
  simp only [extremeMatrix] at hm
  split_ifs at hm <;> cases hm
  · rw [applyT_one]; exact red1
  · exact red1.cyc312
  · exact red1.cyc231

theorem one_literal : (!![1, 0, 0; 0, 1, 0; 0, 0, 1] : Cell ℝ) = 1 := by
  ext i j; fin_cases i <;> fin_cases j <;> rfl

/-- The signs of the scalar products, from the angles. -/
theorem params_signs {r : Cell ℝ} {x y z ra rb rg : ℝ} (hd : r.det ≠ 0)
    (h : HasParams r x y z ra rb rg) :
    (ra < 90 ↔ 0 < dot (r 1) (r 2)) ∧ (rb < 90 ↔ 0 < dot (r 0) (r 2)) ∧
      (rg < 90 ↔ 0 < dot (r 0) (r 1)) := by
  obtain ⟨⟨p1, p2, p3⟩, -⟩ := HasParams.strict hd h
  have a0 : 0 < dot (r 0) (r 0) := by rw [h.aa]; positivity
  have a1 : 0 < dot (r 1) (r 1) := by rw [h.bb]; positivity
  have a2 : 0 < dot (r 2) (r 2) := by rw [h.cc]; positivity
  exact ⟨h.alpha.lt_iff a1 a2, h.beta.lt_iff a0 a2, h.gamma.lt_iff a0 a1⟩

theorem _root_.Spec.PairReduced.two {r : Cell ℝ} (h : PairReduced r) {i j : Fin 3} (hij : i ≠ j) :
    2 * dot (r i) (r j) ≤ dot (r i) (r i) ∧ -(dot (r i) (r i)) ≤ 2 * dot (r i) (r j) ∧
      2 * dot (r i) (r j) ≤ dot (r j) (r j) ∧ -(dot (r j) (r j)) ≤ 2 * dot (r i) (r j) := by
  have h1 := h i j hij
  have h2 := h j i hij.symm
  rw [dot_comm' (r j) (r i)] at h2
  have := abs_le.1 (le_refl |dot (r i) (r j)|)
  refine ⟨?_, ?_, ?_, ?_⟩ <;> linarith [this.1, this.2]

theorem hpkot_place_aP {conv rprim : Cell ℝ} {a b c be : ℝ} {n : ℤ} {ra rb rg : ℝ} {s : String}
    {raw : PyDict String (Vec ℝ)} {bl : String} (hbl : bl = "aP")
    (hr : getReciprocal conv = .ok rprim) (red : PairReduced rprim)
    (m1 : |dot (rprim 0) (rprim 1)| ≤ |dot (rprim 0) (rprim 2)|)
    (m2 : |dot (rprim 0) (rprim 1)| ≤ |dot (rprim 1) (rprim 2)|) {x y z : ℝ}
    (hp : HasParams rprim x y z ra rb rg)
    (hs : HpkotSymbol bl n a b c be ra rb rg s) (hraw : hpkotPointsOf a b c be bl s = .ok raw) :
    ∀ x ∈ raw, (x.1 = "Z" ∧ x.2 = ![0, 0, 0]) ∨ PointPlace rprim x := by
  subst hbl
  obtain ⟨s1, s2, s3⟩ := params_signs (recip_det hr) hp
  obtain ⟨t1, t2, t3, t4⟩ := PairReduced.two red (i := 0) (j := 1) (by decide)
  obtain ⟨u1, u2, u3, u4⟩ := PairReduced.two red (i := 0) (j := 2) (by decide)
  obtain ⟨v1, v2, v3, v4⟩ := PairReduced.two red (i := 1) (j := 2) (by decide)
  cases hs with
  | aP2 q0 q1 q2 q3 =>
    have hraw' : hpkotPointsOf a b c be "aP" "aP2" = .ok hpkotTable91 := by simp [hpkotPointsOf]
    rw [hraw'] at hraw
    cases hraw
    have k1 := not_lt.1 (mt s1.2 (not_lt.2 q1))
    have k2 := not_lt.1 (mt s2.2 (not_lt.2 q2))
    have k3 := not_lt.1 (mt s3.2 (not_lt.2 q3))
    intro p hp
    rcases zone_aP2 (A := dot (rprim 0) (rprim 0)) (B := dot (rprim 1) (rprim 1))
      (C := dot (rprim 2) (rprim 2)) k1 k2 k3 (by linarith) (by linarith) (by linarith) p hp with h | h
    · refine .inl ⟨h, ?_⟩
      have key : ∀ q ∈ hpkotTable91, q.1 = "Z" → q.2 = ![0, 0, 0] := by
        simp [hpkotTable91]
      exact key p hp h
    · exact .inr ((form_tri hr).place hr h)
  | aP3 q0 q1 q2 q3 =>
    have hraw' : hpkotPointsOf a b c be "aP" "aP3" = .ok hpkotTable92 := by simp [hpkotPointsOf]
    rw [hraw'] at hraw
    cases hraw
    have k1 := (s1.1 q1).le
    have k2 := (s2.1 q2).le
    have k3 := (s3.1 q3).le
    rw [abs_of_nonneg k3, abs_of_nonneg k2] at m1
    rw [abs_of_nonneg k3, abs_of_nonneg k1] at m2
    exact fun p hp => .inr ((form_tri hr).place hr
      (zone_aP3Z k1 k2 k3 t1 t3 u1 u3 v1 v3 m2 m1 p hp))
  | _ q => exact absurd q (by decide)

end Wulfric
