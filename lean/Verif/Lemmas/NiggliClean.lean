import Verif.Lemmas.NiggliMetric
import Mathlib.Algebra.Group.Subgroup.ZPowers.Basic
import Mathlib.Tactic.Positivity

/-!
Under "clean" hypotheses (the six numbers are integer multiples of a spacing larger than
the tolerances) every tolerant comparison made by the loop is the exact comparison.
-/

namespace Wulfric
open Matrix Spec

set_option linter.unusedSectionVars false

variable {K : Type*} [Field K] [LinearOrder K] [IsStrictOrderedRing K]

/-- The tolerances are below the spacing. -/
structure TolOK (sp eps e4 : K) : Prop where
  sp_pos : 0 < sp
  eps_nonneg : 0 ≤ eps
  eps_lt : eps < sp
  eps_lt3 : eps < sp ^ 3
  e4_nonneg : 0 ≤ e4
  e4_lt : e4 < sp

/-- The set of integer multiples of `sp`. -/
abbrev Zs (sp : K) : AddSubgroup K := AddSubgroup.zmultiples sp

theorem mem_Zs {sp v : K} : v ∈ Zs sp ↔ ∃ n : ℤ, v = n * sp := by
  rw [AddSubgroup.mem_zmultiples_iff]
  constructor
  · rintro ⟨n, rfl⟩; exact ⟨n, by simp⟩
  · rintro ⟨n, rfl⟩; exact ⟨n, by simp⟩

/-- The six numbers are multiples of the spacing. -/
structure Clean (sp : K) (s : NState K) : Prop where
  A : s.A ∈ Zs sp
  B : s.B ∈ Zs sp
  C : s.C ∈ Zs sp
  xi : s.xi ∈ Zs sp
  eta : s.eta ∈ Zs sp
  zeta : s.zeta ∈ Zs sp

theorem Zs_abs {sp v : K} (h : v ∈ Zs sp) : |v| ∈ Zs sp := by
  rcases abs_choice v with h' | h' <;> rw [h']
  · exact h
  · exact neg_mem h

theorem Zs_two {sp v : K} (h : v ∈ Zs sp) : 2 * v ∈ Zs sp := by
  rw [two_mul]; exact add_mem h h

theorem Zs_int {sp v : K} (h : v ∈ Zs sp) (g : ℤ) : v * (g : K) ∈ Zs sp := by
  rw [mem_Zs] at *; obtain ⟨n, rfl⟩ := h; exact ⟨n * g, by push_cast; ring⟩

theorem Zs_gap {sp v : K} (hs : 0 < sp) (h : v ∈ Zs sp) (hv : 0 < v) : sp ≤ v := by
  rw [mem_Zs] at h
  obtain ⟨n, rfl⟩ := h
  have hn : (0 : K) < n := by
    by_contra hc
    exact absurd hv (not_lt.2 (mul_nonpos_of_nonpos_of_nonneg (not_lt.1 hc) hs.le))
  have : (1 : K) ≤ n := by
    have : (0 : ℤ) < n := by exact_mod_cast hn
    exact_mod_cast this
  nlinarith

theorem lt_sub_iff {sp eps x y : K} (hs : 0 < sp) (h0 : 0 ≤ eps) (h1 : eps < sp)
    (hx : x ∈ Zs sp) (hy : y ∈ Zs sp) : x < y - eps ↔ x < y - 0 := by
  constructor
  · intro h; linarith
  · intro h
    have := Zs_gap hs (sub_mem hy hx) (by linarith)
    linarith

theorem cwt_clean {sp eps x y : K} (hs : 0 < sp) (h0 : 0 ≤ eps) (h1 : eps < sp)
    (hx : x ∈ Zs sp) (hy : y ∈ Zs sp) (c : Cond) : cwt x c y eps = cwt x c y 0 := by
  have e1 := lt_sub_iff hs h0 h1 hx hy
  have e2 := lt_sub_iff hs h0 h1 hy hx
  cases c <;> simp only [cwt, e1, e2]

theorem prod_mem {sp x y z : K} (hx : x ∈ Zs sp) (hy : y ∈ Zs sp) (hz : z ∈ Zs sp) :
    x * y * z ∈ Zs (sp ^ 3) := by
  rw [mem_Zs] at *
  obtain ⟨a, rfl⟩ := hx
  obtain ⟨b, rfl⟩ := hy
  obtain ⟨c, rfl⟩ := hz
  exact ⟨a * b * c, by push_cast; ring⟩

section steps
variable {sp eps e4 : K} {s : NState K}

theorem step1_clean (t : TolOK sp eps e4) (h : Clean sp s) :
    niggliStep1 eps s = niggliStep1 0 s := by
  unfold niggliStep1
  simp only [cwt_clean t.sp_pos t.eps_nonneg t.eps_lt h.A h.B,
    cwt_clean t.sp_pos t.eps_nonneg t.eps_lt (Zs_abs h.xi) (Zs_abs h.eta)]

theorem step2_clean (t : TolOK sp eps e4) (h : Clean sp s) :
    niggliStep2 eps s = niggliStep2 0 s := by
  unfold niggliStep2
  simp only [cwt_clean t.sp_pos t.eps_nonneg t.eps_lt h.B h.C,
    cwt_clean t.sp_pos t.eps_nonneg t.eps_lt (Zs_abs h.eta) (Zs_abs h.zeta)]

theorem step3_clean (t : TolOK sp eps e4) (h : Clean sp s) :
    niggliStep3 eps s = niggliStep3 0 s := by
  unfold niggliStep3
  have hs3 : (0 : K) < sp ^ 3 := pow_pos t.sp_pos 3
  simp only [cwt_clean hs3 t.eps_nonneg t.eps_lt3 (prod_mem h.xi h.eta h.zeta) (zero_mem _),
    cwt_clean t.sp_pos t.eps_nonneg t.eps_lt h.xi (zero_mem _),
    cwt_clean t.sp_pos t.eps_nonneg t.eps_lt h.eta (zero_mem _),
    cwt_clean t.sp_pos t.eps_nonneg t.eps_lt h.zeta (zero_mem _)]

theorem step4_clean (t : TolOK sp eps e4) (h : Clean sp s) :
    niggliStep4 eps e4 s = niggliStep4 0 0 s := by
  unfold niggliStep4 step4Signs step4Sign
  have hs3 : (0 : K) < sp ^ 3 := pow_pos t.sp_pos 3
  simp only [cwt_clean hs3 t.eps_nonneg t.eps_lt3 (prod_mem h.xi h.eta h.zeta) (zero_mem _),
    cwt_clean t.sp_pos t.e4_nonneg t.e4_lt h.xi (zero_mem _),
    cwt_clean t.sp_pos t.e4_nonneg t.e4_lt h.eta (zero_mem _),
    cwt_clean t.sp_pos t.e4_nonneg t.e4_lt h.zeta (zero_mem _)]

theorem step5_clean (t : TolOK sp eps e4) (h : Clean sp s) :
    niggliStep5 eps s = niggliStep5 0 s := by
  unfold niggliStep5
  have c := fun {x y : K} (hx : x ∈ Zs sp) (hy : y ∈ Zs sp) =>
    cwt_clean t.sp_pos t.eps_nonneg t.eps_lt hx hy
  simp only [c (Zs_abs h.xi) h.B, c h.xi h.B, c (Zs_two h.eta) h.zeta, c h.xi (neg_mem h.B),
    c h.zeta (zero_mem _)]

theorem step6_clean (t : TolOK sp eps e4) (h : Clean sp s) :
    niggliStep6 eps s = niggliStep6 0 s := by
  unfold niggliStep6
  have c := fun {x y : K} (hx : x ∈ Zs sp) (hy : y ∈ Zs sp) =>
    cwt_clean t.sp_pos t.eps_nonneg t.eps_lt hx hy
  simp only [c (Zs_abs h.eta) h.A, c h.eta h.A, c (Zs_two h.xi) h.zeta, c h.eta (neg_mem h.A),
    c h.zeta (zero_mem _)]

theorem step7_clean (t : TolOK sp eps e4) (h : Clean sp s) :
    niggliStep7 eps s = niggliStep7 0 s := by
  unfold niggliStep7
  have c := fun {x y : K} (hx : x ∈ Zs sp) (hy : y ∈ Zs sp) =>
    cwt_clean t.sp_pos t.eps_nonneg t.eps_lt hx hy
  simp only [c (Zs_abs h.zeta) h.A, c h.zeta h.A, c (Zs_two h.xi) h.eta, c h.zeta (neg_mem h.A),
    c h.eta (zero_mem _)]

theorem step8_clean (t : TolOK sp eps e4) (h : Clean sp s) :
    niggliStep8 eps s = niggliStep8 0 s := by
  unfold niggliStep8
  have c := fun {x y : K} (hx : x ∈ Zs sp) (hy : y ∈ Zs sp) =>
    cwt_clean t.sp_pos t.eps_nonneg t.eps_lt hx hy
  have hsum := add_mem (add_mem (add_mem (add_mem h.xi h.eta) h.zeta) h.A) h.B
  have h2 := add_mem (Zs_two (add_mem h.A h.eta)) h.zeta
  simp only [c hsum (zero_mem _), c h2 (zero_mem _)]

theorem Clean.step1 (h : Clean sp s) (e : K) : Clean sp (niggliStep1 e s).2 := by
  unfold niggliStep1; dsimp only; split
  · exact ⟨h.B, h.A, h.C, h.eta, h.xi, h.zeta⟩
  · exact h

theorem Clean.step2 (h : Clean sp s) (e : K) : Clean sp (niggliStep2 e s).2 := by
  unfold niggliStep2; dsimp only; split
  · exact ⟨h.A, h.C, h.B, h.xi, h.zeta, h.eta⟩
  · exact h

theorem Clean.step3 (h : Clean sp s) (e : K) : Clean sp (niggliStep3 e s).2 := by
  unfold niggliStep3; dsimp only; split
  · exact ⟨h.A, h.B, h.C, Zs_abs h.xi, Zs_abs h.eta, Zs_abs h.zeta⟩
  · exact h

theorem Clean.step4 (h : Clean sp s) (e e' : K) : Clean sp (niggliStep4 e e' s).2 := by
  unfold niggliStep4; dsimp only; split
  · exact ⟨h.A, h.B, h.C, neg_mem (Zs_abs h.xi), neg_mem (Zs_abs h.eta), neg_mem (Zs_abs h.zeta)⟩
  · exact h

theorem Clean.step5 (h : Clean sp s) (e : K) : Clean sp (niggliStep5 e s).2 := by
  unfold niggliStep5; dsimp only; split
  · exact ⟨h.A, h.B, sub_mem (add_mem h.B h.C) (Zs_int h.xi _),
      sub_mem h.xi (Zs_int (Zs_two h.B) _), sub_mem h.eta (Zs_int h.zeta _), h.zeta⟩
  · exact h

theorem Clean.step6 (h : Clean sp s) (e : K) : Clean sp (niggliStep6 e s).2 := by
  unfold niggliStep6; dsimp only; split
  · exact ⟨h.A, h.B, sub_mem (add_mem h.A h.C) (Zs_int h.eta _),
      sub_mem h.xi (Zs_int h.zeta _), sub_mem h.eta (Zs_int (Zs_two h.A) _), h.zeta⟩
  · exact h

theorem Clean.step7 (h : Clean sp s) (e : K) : Clean sp (niggliStep7 e s).2 := by
  unfold niggliStep7; dsimp only; split
  · exact ⟨h.A, sub_mem (add_mem h.A h.B) (Zs_int h.zeta _), h.C,
      sub_mem h.xi (Zs_int h.eta _), h.eta, sub_mem h.zeta (Zs_int (Zs_two h.A) _)⟩
  · exact h

theorem Clean.step8 (h : Clean sp s) (e : K) : Clean sp (niggliStep8 e s).2 := by
  unfold niggliStep8; dsimp only; split
  · exact ⟨h.A, h.B, add_mem (add_mem (add_mem (add_mem (add_mem h.A h.B) h.C) h.xi) h.eta) h.zeta,
      add_mem (add_mem (Zs_two h.B) h.xi) h.zeta, add_mem (add_mem (Zs_two h.A) h.eta) h.zeta,
      h.zeta⟩
  · exact h

theorem Clean.pass (h : Clean sp s) (e e' : K) : Clean sp (niggliPass e e' s).2 := by
  unfold niggliPass; dsimp only
  have h2 := (h.step1 e).step2 e
  split
  · exact h2
  have h5 := ((h2.step3 e).step4 e e').step5 e
  split
  · exact h5
  have h6 := h5.step6 e
  split
  · exact h6
  have h7 := h6.step7 e
  split
  · exact h7
  have h8 := h7.step8 e
  split <;> exact h8

theorem pass_clean (t : TolOK sp eps e4) (h : Clean sp s) :
    niggliPass eps e4 s = niggliPass 0 0 s := by
  unfold niggliPass; dsimp only
  have h1 := h.step1 0
  rw [step1_clean t h, step2_clean t h1]
  have h2 := h1.step2 0
  split
  · rfl
  rw [step3_clean t h2]
  have h3 := h2.step3 0
  rw [step4_clean t h3]
  have h4 := h3.step4 0 0
  rw [step5_clean t h4]
  have h5 := h4.step5 0
  split
  · rfl
  rw [step6_clean t h5]
  have h6 := h5.step6 0
  split
  · rfl
  rw [step7_clean t h6]
  have h7 := h6.step7 0
  split
  · rfl
  rw [step8_clean t h7]

theorem loop_clean (t : TolOK sp eps e4) (fuel : ℕ) (s : NState K) (h : Clean sp s) :
    niggliLoop eps e4 fuel s = niggliLoop 0 0 fuel s := by
  induction fuel generalizing s with
  | zero => rfl
  | succ n ih =>
    unfold niggliLoop; dsimp only
    rw [pass_clean t h]
    split
    · exact ih _ (h.pass 0 0)
    · rfl

end steps

theorem clean_init {sp : K} {cell : Cell K} (h : Commensurate sp cell) :
    Clean sp (niggliInit cell) := by
  constructor <;> rw [mem_Zs]
  · obtain ⟨n, hn⟩ := h 0 0; exact ⟨n, by simpa [niggliInit, dot, Matrix.mul_apply, Fin.sum_univ_three] using hn⟩
  · obtain ⟨n, hn⟩ := h 1 1; exact ⟨n, by simpa [niggliInit, dot, Matrix.mul_apply, Fin.sum_univ_three] using hn⟩
  · obtain ⟨n, hn⟩ := h 2 2; exact ⟨n, by simpa [niggliInit, dot, Matrix.mul_apply, Fin.sum_univ_three] using hn⟩
  · obtain ⟨n, hn⟩ := h 1 2; exact ⟨n, by simpa [niggliInit, dot, Matrix.mul_apply, Fin.sum_univ_three] using hn⟩
  · obtain ⟨n, hn⟩ := h 0 2; exact ⟨n, by simpa [niggliInit, dot, Matrix.mul_apply, Fin.sum_univ_three] using hn⟩
  · obtain ⟨n, hn⟩ := h 0 1; exact ⟨n, by simpa [niggliInit, dot, Matrix.mul_apply, Fin.sum_univ_three] using hn⟩

end Wulfric
