import Verif.Lemmas.NiggliPass
import Verif.Lemmas.NiggliMinima

/-! Reduced cells are fixed points of the loop; reduced lengths are lattice invariants;
a state with a negative "squared length" never leaves the loop. -/

namespace Wulfric
open Matrix Spec

set_option linter.unusedSectionVars false

variable {K : Type*} [Field K] [LinearOrder K] [IsStrictOrderedRing K]

theorem stepN_eq_of_not {α : Type*} {c : Bool} {x y : α} (h : ¬ c = true) :
    (if c = true then (true, x) else (false, y)) = (false, y) := by
  rw [if_neg h]

theorem step1_of_not {s : NState K} (h : ¬ c1 s) : niggliStep1 0 s = (false, s) := by
  rw [← step1_fst] at h; unfold niggliStep1 at *; dsimp only at *
  rw [ite_fst] at h; exact if_neg h
theorem step2_of_not {s : NState K} (h : ¬ c2 s) : niggliStep2 0 s = (false, s) := by
  rw [← step2_fst] at h; unfold niggliStep2 at *; dsimp only at *
  rw [ite_fst] at h; exact if_neg h
theorem step5_of_not {s : NState K} (h : ¬ c5 s) : niggliStep5 0 s = (false, s) := by
  rw [← step5_fst] at h; unfold niggliStep5 at *; dsimp only at *
  rw [ite_fst] at h; exact if_neg h
theorem step6_of_not {s : NState K} (h : ¬ c6 s) : niggliStep6 0 s = (false, s) := by
  rw [← step6_fst] at h; unfold niggliStep6 at *; dsimp only at *
  rw [ite_fst] at h; exact if_neg h
theorem step7_of_not {s : NState K} (h : ¬ c7 s) : niggliStep7 0 s = (false, s) := by
  rw [← step7_fst] at h; unfold niggliStep7 at *; dsimp only at *
  rw [ite_fst] at h; exact if_neg h
theorem step8_of_not {s : NState K} (h : ¬ c8 s) : niggliStep8 0 s = (false, s) := by
  rw [← step8_fst] at h; unfold niggliStep8 at *; dsimp only at *
  rw [ite_fst] at h; exact if_neg h

theorem one_diag : (!![1, 0, 0; 0, 1, 0; 0, 0, 1] : Matrix (Fin 3) (Fin 3) ℤ) = 1 := by
  ext i j; fin_cases i <;> fin_cases j <;> rfl

theorem step34_fixed {s : NState K} (h : Typed s) :
    (niggliStep4 0 0 (niggliStep3 0 s).2).2 = s := by
  rcases h with ⟨hx, hy, hz⟩ | ⟨hx, hy, hz⟩
  · have hp : 0 < s.xi * s.eta * s.zeta := by positivity
    have e3 : (niggliStep3 0 s).2 = s := by
      unfold niggliStep3
      simp only [cwt_gt0, hp, hx, hy, hz, if_true, abs_of_pos, one_diag, Matrix.mul_one]
    rw [e3]
    unfold niggliStep4; dsimp only
    rw [if_neg (by simp [hp])]
  · have hp : ¬ 0 < s.xi * s.eta * s.zeta :=
      not_lt.2 (mul_nonpos_of_nonneg_of_nonpos (mul_nonneg_of_nonpos_of_nonpos hx hy) hz)
    have e3 : (niggliStep3 0 s).2 = s := by
      unfold niggliStep3; simp only [cwt_gt0, hp, if_false]
    rw [e3]
    have e : step4Signs 0 s.xi s.eta s.zeta = (1, 1, 1) := by
      unfold step4Signs step4Sign
      simp only [cwt_gt0, not_lt.2 hx, not_lt.2 hy, not_lt.2 hz, if_false]
      split <;> split <;> split <;> simp
    unfold niggliStep4; dsimp only
    rw [if_pos (by simpa using not_lt.1 hp), e]
    simp only [one_diag, Matrix.mul_one, abs_of_nonpos hx, abs_of_nonpos hy, abs_of_nonpos hz,
      neg_neg]

/-- A state with reduced numbers is left unchanged by a pass, which ends with `break`. -/
theorem pass_fixed {s : NState K} (h : NiggliNumbers s.A s.B s.C s.xi s.eta s.zeta) :
    niggliPass 0 0 s = (false, s) := by
  have n1 : ¬ c1 s := by
    rintro (h1 | ⟨h1, h2⟩)
    · exact absurd h1 (not_lt.2 h.ab)
    · exact absurd h2 (not_lt.2 (h.ab_tie h1))
  have n2 : ¬ c2 s := by
    rintro (h1 | ⟨h1, h2⟩)
    · exact absurd h1 (not_lt.2 h.bc)
    · exact absurd h2 (not_lt.2 (h.bc_tie h1))
  have n5 : ¬ c5 s := by
    rintro (h1 | ⟨h1, h2⟩ | ⟨h1, h2⟩)
    · exact absurd h1 (not_lt.2 h.xi_le)
    · exact absurd h2 (not_lt.2 (h.xi_eq h1))
    · rw [h.xi_eq_neg h1] at h2; exact lt_irrefl _ h2
  have n6 : ¬ c6 s := by
    rintro (h1 | ⟨h1, h2⟩ | ⟨h1, h2⟩)
    · exact absurd h1 (not_lt.2 h.eta_le)
    · exact absurd h2 (not_lt.2 (h.eta_eq h1))
    · rw [h.eta_eq_neg h1] at h2; exact lt_irrefl _ h2
  have n7 : ¬ c7 s := by
    rintro (h1 | ⟨h1, h2⟩ | ⟨h1, h2⟩)
    · exact absurd h1 (not_lt.2 h.zeta_le)
    · exact absurd h2 (not_lt.2 (h.zeta_eq h1))
    · rw [h.zeta_eq_neg h1] at h2; exact lt_irrefl _ h2
  have n8 : ¬ c8 s := by
    rintro (h1 | ⟨h1, h2⟩)
    · exact absurd h1 (not_lt.2 h.sum_nonneg)
    · exact absurd h2 (not_lt.2 (h.sum_tie h1))
  unfold niggliPass
  simp only [step1_of_not n1, step2_of_not n2, Bool.false_eq_true, if_false]
  rw [step34_fixed h.type]
  simp only [step5_of_not n5, step6_of_not n6, step7_of_not n7, step8_of_not n8,
    Bool.false_eq_true, if_false]

theorem core_fixed {cell : Cell K} (h : IsNiggli cell) (m : ℤ) (hm : 0 ≤ m) :
    niggliCore cell 0 0 m = .ok cell := by
  have e : NiggliNumbers (niggliInit cell).A (niggliInit cell).B (niggliInit cell).C
      (niggliInit cell).xi (niggliInit cell).eta (niggliInit cell).zeta := by
    have t := tracks_init cell
    have hc : cur cell (niggliInit cell).T = cell := by simp [cur, niggliInit]
    rw [t.A, t.B, t.C, t.xi, t.eta, t.zeta, hc]
    exact h
  unfold niggliCore
  obtain ⟨k, hk⟩ : ∃ k, (m + 1).toNat = k + 1 := ⟨m.toNat, by omega⟩
  rw [hk]
  unfold niggliLoop
  simp only [pass_fixed e, Bool.false_eq_true, if_false]
  simp [niggliInit]

/-! ### Reduced lengths depend on the lattice only -/

theorem dot_comb (c : Cell K) (n : Fin 3 → ℤ) :
    dot (fun j => ∑ i, (n i : K) * c i j) (fun j => ∑ i, (n i : K) * c i j) =
      qform (dot (c 0) (c 0)) (dot (c 1) (c 1)) (dot (c 2) (c 2))
        (2 * dot (c 1) (c 2)) (2 * dot (c 0) (c 2)) (2 * dot (c 0) (c 1)) (n 0) (n 1) (n 2) := by
  simp only [dot, qform, Fin.sum_univ_three]; ring

theorem row_mem (c : Cell K) (i : Fin 3) : c i ∈ latticePoints c := by
  refine ⟨Pi.single i 1, ?_⟩
  ext j; fin_cases i <;> simp [Pi.single_apply]

/-- One direction of the invariance of the reduced lengths. -/
theorem lengths_le {c d : Cell K} (hd : c.det ≠ 0) (hs : latticePoints c ⊆ latticePoints d)
    (hc : IsNiggli c) (hdn : IsNiggli d) :
    dot (d 0) (d 0) ≤ dot (c 0) (c 0) ∧ dot (d 1) (d 1) ≤ dot (c 1) (c 1) ∧
      dot (d 2) (d 2) ≤ dot (c 2) (c 2) := by
  choose n hn using fun i => hs (row_mem c i)
  have hA := dot_self_nonneg (d 0)
  have e : ∀ i, dot (c i) (c i) = qform (dot (d 0) (d 0)) (dot (d 1) (d 1)) (dot (d 2) (d 2))
        (2 * dot (d 1) (d 2)) (2 * dot (d 0) (d 2)) (2 * dot (d 0) (d 1)) (n i 0) (n i 1) (n i 2) := by
    intro i; rw [← dot_comb, ← hn i]
  have ab := hc.ab
  have bc := hc.bc
  -- the integer matrix has non-zero determinant
  have hN : (Matrix.of fun i j => n i j).det ≠ 0 := by
    intro h0
    apply hd
    have : c = (Matrix.of fun i j => n i j).map (Int.cast : ℤ → K) * d := by
      ext i j; rw [hn i]; simp [Matrix.mul_apply]
    rw [this, det_mul, det_map_intCast, h0]; simp
  rw [det_fin_three] at hN
  simp only [of_apply] at hN
  refine ⟨?_, ?_, ?_⟩
  · rw [e 0]; refine first_min hdn hA _ _ _ ?_
    by_contra hcon; push Not at hcon
    obtain ⟨h0, h1, h2⟩ := hcon
    apply hN; rw [h0, h1, h2]; ring
  · by_cases h : n 1 1 ≠ 0 ∨ n 1 2 ≠ 0
    · rw [e 1]; exact second_min hdn hA _ _ _ h
    · by_cases h' : n 0 1 ≠ 0 ∨ n 0 2 ≠ 0
      · refine le_trans ?_ ab
        rw [e 0]; exact second_min hdn hA _ _ _ h'
      · exfalso
        push Not at h h'
        apply hN; rw [h.1, h.2, h'.1, h'.2]; ring
  · by_cases h : n 2 2 ≠ 0
    · rw [e 2]; exact third_min hdn hA _ _ _ h
    · by_cases h' : n 1 2 ≠ 0
      · refine le_trans ?_ bc
        rw [e 1]; exact third_min hdn hA _ _ _ h'
      · by_cases h'' : n 0 2 ≠ 0
        · refine le_trans ?_ (ab.trans bc)
          rw [e 0]; exact third_min hdn hA _ _ _ h''
        · exfalso
          push Not at h h' h''
          apply hN; rw [h, h', h'']; ring

/-! ### Divergence -/

/-- Tolerances below the spacing for the linear comparisons only. -/
structure TolLin (sp eps : K) : Prop where
  sp_pos : 0 < sp
  eps_nonneg : 0 ≤ eps
  eps_lt : eps < sp

theorem neg_pass {sp eps e4 : K} (t : TolLin sp eps) {s : NState K} (h : Clean sp s)
    (hA : s.A < 0) : (niggliPass eps e4 s).1 = true ∧ Clean sp (niggliPass eps e4 s).2 ∧
      (niggliPass eps e4 s).2.A < 0 := by
  refine ⟨?_, h.pass _ _, ?_⟩
  all_goals
    have a1 : (niggliStep1 eps s).2.A < 0 := by
      unfold niggliStep1; dsimp only
      rw [cwt_clean t.sp_pos t.eps_nonneg t.eps_lt h.A h.B,
        cwt_clean t.sp_pos t.eps_nonneg t.eps_lt h.A h.B]
      split
      · rename_i hc
        simp only [Bool.or_eq_true, Bool.and_eq_true, cwt_gt0, cwt_eq0] at hc
        dsimp only
        rcases hc with hc | ⟨hc, _⟩
        · exact hc.trans hA
        · rw [← hc]; exact hA
      · exact hA
    have a2 : (niggliStep2 eps (niggliStep1 eps s).2).2.A < 0 := by
      unfold niggliStep2; dsimp only; split
      · exact a1
      · exact a1
    have a3 : (niggliStep3 eps (niggliStep2 eps (niggliStep1 eps s).2).2).2.A < 0 := by
      unfold niggliStep3; dsimp only; split <;> exact a2
    have a4 : (niggliStep4 eps e4 (niggliStep3 eps
        (niggliStep2 eps (niggliStep1 eps s).2).2).2).2.A < 0 := by
      unfold niggliStep4; dsimp only; split <;> exact a3
    have k4 := (((h.step1 eps).step2 eps).step3 eps).step4 eps e4
  · unfold niggliPass; dsimp only
    split
    · rfl
    generalize (niggliStep4 eps e4 (niggliStep3 eps
        (niggliStep2 eps (niggliStep1 eps s).2).2).2).2 = s4 at *
    have a5 : (niggliStep5 eps s4).2.A < 0 := by
      unfold niggliStep5; dsimp only; split <;> exact a4
    have k5 := k4.step5 eps
    split
    · rfl
    generalize (niggliStep5 eps s4).2 = s5 at *
    have : (niggliStep6 eps s5).1 = true := by
      unfold niggliStep6; dsimp only; rw [ite_fst]
      rw [cwt_clean t.sp_pos t.eps_nonneg t.eps_lt (Zs_abs k5.eta) k5.A]
      simp only [Bool.or_eq_true, Bool.and_eq_true, cwt_gt0]
      left; left; exact lt_of_lt_of_le a5 (abs_nonneg _)
    rw [if_pos this]
  · unfold niggliPass; dsimp only
    split
    · exact a2
    generalize (niggliStep4 eps e4 (niggliStep3 eps
        (niggliStep2 eps (niggliStep1 eps s).2).2).2).2 = s4 at *
    have a5 : (niggliStep5 eps s4).2.A < 0 := by
      unfold niggliStep5; dsimp only; split <;> exact a4
    split
    · exact a5
    generalize (niggliStep5 eps s4).2 = s5 at *
    have a6 : (niggliStep6 eps s5).2.A < 0 := by
      unfold niggliStep6; dsimp only; split <;> exact a5
    split
    · exact a6
    generalize (niggliStep6 eps s5).2 = s6 at *
    have a7 : (niggliStep7 eps s6).2.A < 0 := by
      unfold niggliStep7; dsimp only; split <;> exact a6
    split
    · exact a7
    generalize (niggliStep7 eps s6).2 = s7 at *
    have a8 : (niggliStep8 eps s7).2.A < 0 := by
      unfold niggliStep8; dsimp only; split <;> exact a7
    split <;> exact a8

theorem neg_loop {sp eps e4 : K} (t : TolLin sp eps) (fuel : ℕ) : ∀ s : NState K, Clean sp s →
    s.A < 0 → niggliLoop eps e4 fuel s = .error .niggliReductionFailed := by
  induction fuel with
  | zero => intro s _ _; rfl
  | succ n ih =>
    intro s h hA
    obtain ⟨h1, h2, h3⟩ := neg_pass (e4 := e4) t h hA
    unfold niggliLoop; dsimp only
    rw [if_pos h1]
    exact ih _ h2 h3

end Wulfric
