import Verif.Lemmas.NiggliPass

/-! For a fixed cell, small enough tolerances do not influence the loop. -/

namespace Wulfric
open Matrix Spec

set_option linter.unusedSectionVars false

variable {K : Type*} [Field K] [LinearOrder K] [IsStrictOrderedRing K]

/-- `P eps e4` holds for all small enough tolerances. -/
def Small (P : K → K → Prop) : Prop :=
  ∃ δ > 0, ∀ eps e4, 0 ≤ eps → eps < δ → 0 ≤ e4 → e4 < δ → P eps e4

theorem Small.and {P Q : K → K → Prop} (hP : Small P) (hQ : Small Q) :
    Small fun a b => P a b ∧ Q a b := by
  obtain ⟨d, hd, h⟩ := hP
  obtain ⟨d', hd', h'⟩ := hQ
  exact ⟨min d d', lt_min hd hd', fun a b h1 h2 h3 h4 =>
    ⟨h a b h1 (h2.trans_le (min_le_left _ _)) h3 (h4.trans_le (min_le_left _ _)),
     h' a b h1 (h2.trans_le (min_le_right _ _)) h3 (h4.trans_le (min_le_right _ _))⟩⟩

theorem Small.mono {P Q : K → K → Prop} (hP : Small P) (h : ∀ a b, P a b → Q a b) : Small Q := by
  obtain ⟨d, hd, h'⟩ := hP
  exact ⟨d, hd, fun a b h1 h2 h3 h4 => h a b (h' a b h1 h2 h3 h4)⟩

theorem lt_small (x y : K) : ∃ δ > 0, ∀ e, 0 ≤ e → e < δ → (x < y - e ↔ x < y - 0) := by
  by_cases h : x < y
  · refine ⟨y - x, by linarith, fun e h0 h1 => ?_⟩
    constructor <;> intro <;> linarith
  · refine ⟨1, one_pos, fun e h0 _ => ?_⟩
    constructor <;> intro <;> linarith

theorem cwt_small (x : K) (c : Cond) (y : K) :
    ∃ δ > 0, ∀ e, 0 ≤ e → e < δ → cwt x c y e = cwt x c y 0 := by
  obtain ⟨d, hd, h⟩ := lt_small x y
  obtain ⟨d', hd', h'⟩ := lt_small y x
  refine ⟨min d d', lt_min hd hd', fun e h0 h1 => ?_⟩
  have e1 := h e h0 (h1.trans_le (min_le_left _ _))
  have e2 := h' e h0 (h1.trans_le (min_le_right _ _))
  cases c <;> simp only [cwt, e1, e2]

theorem small1 (x : K) (c : Cond) (y : K) : Small fun eps _ => cwt x c y eps = cwt x c y 0 := by
  obtain ⟨d, hd, h⟩ := cwt_small x c y
  exact ⟨d, hd, fun a b h0 h1 _ _ => h a h0 h1⟩

theorem small2 (x : K) (c : Cond) (y : K) : Small fun _ e4 => cwt x c y e4 = cwt x c y 0 := by
  obtain ⟨d, hd, h⟩ := cwt_small x c y
  exact ⟨d, hd, fun a b _ _ h0 h1 => h b h0 h1⟩

theorem small_step1 (s : NState K) : Small fun eps _ => niggliStep1 eps s = niggliStep1 0 s := by
  refine (((small1 s.A .gt s.B).and (small1 s.A .eq s.B)).and
    (small1 |s.xi| .gt |s.eta|)).mono ?_
  rintro a b ⟨⟨h1, h2⟩, h3⟩
  unfold niggliStep1; rw [h1, h2, h3]

theorem small_step2 (s : NState K) : Small fun eps _ => niggliStep2 eps s = niggliStep2 0 s := by
  refine (((small1 s.B .gt s.C).and (small1 s.B .eq s.C)).and
    (small1 |s.eta| .gt |s.zeta|)).mono ?_
  rintro a b ⟨⟨h1, h2⟩, h3⟩
  unfold niggliStep2; rw [h1, h2, h3]

theorem small_step3 (s : NState K) : Small fun eps _ => niggliStep3 eps s = niggliStep3 0 s := by
  refine ((((small1 (s.xi * s.eta * s.zeta) .gt 0).and (small1 s.xi .gt 0)).and
    (small1 s.eta .gt 0)).and (small1 s.zeta .gt 0)).mono ?_
  rintro a b ⟨⟨⟨h1, h2⟩, h3⟩, h4⟩
  unfold niggliStep3; rw [h1, h2, h3, h4]

theorem small_step4 (s : NState K) :
    Small fun eps e4 => niggliStep4 eps e4 s = niggliStep4 0 0 s := by
  refine (((((small1 (s.xi * s.eta * s.zeta) .le 0).and (small2 s.xi .gt 0)).and
    (small2 s.eta .gt 0)).and (small2 s.zeta .gt 0)).and (((small2 s.xi .lt 0).and
    (small2 s.eta .lt 0)).and (small2 s.zeta .lt 0))).mono ?_
  rintro a b ⟨⟨⟨⟨h1, h2⟩, h3⟩, h4⟩, ⟨⟨h5, h6⟩, h7⟩⟩
  unfold niggliStep4 step4Signs step4Sign; simp only [h1, h2, h3, h4, h5, h6, h7]

theorem small_step5 (s : NState K) : Small fun eps _ => niggliStep5 eps s = niggliStep5 0 s := by
  refine ((((small1 |s.xi| .gt s.B).and (small1 s.xi .eq s.B)).and
    (small1 (2 * s.eta) .lt s.zeta)).and ((small1 s.xi .eq (-s.B)).and (small1 s.zeta .lt 0))).mono ?_
  rintro a b ⟨⟨⟨h1, h2⟩, h3⟩, h4, h5⟩
  unfold niggliStep5; rw [h1, h2, h3, h4, h5]

theorem small_step6 (s : NState K) : Small fun eps _ => niggliStep6 eps s = niggliStep6 0 s := by
  refine ((((small1 |s.eta| .gt s.A).and (small1 s.eta .eq s.A)).and
    (small1 (2 * s.xi) .lt s.zeta)).and ((small1 s.eta .eq (-s.A)).and (small1 s.zeta .lt 0))).mono ?_
  rintro a b ⟨⟨⟨h1, h2⟩, h3⟩, h4, h5⟩
  unfold niggliStep6; rw [h1, h2, h3, h4, h5]

theorem small_step7 (s : NState K) : Small fun eps _ => niggliStep7 eps s = niggliStep7 0 s := by
  refine ((((small1 |s.zeta| .gt s.A).and (small1 s.zeta .eq s.A)).and
    (small1 (2 * s.xi) .lt s.eta)).and ((small1 s.zeta .eq (-s.A)).and (small1 s.eta .lt 0))).mono ?_
  rintro a b ⟨⟨⟨h1, h2⟩, h3⟩, h4, h5⟩
  unfold niggliStep7; rw [h1, h2, h3, h4, h5]

theorem small_step8 (s : NState K) : Small fun eps _ => niggliStep8 eps s = niggliStep8 0 s := by
  refine (((small1 (s.xi + s.eta + s.zeta + s.A + s.B) .lt 0).and
    (small1 (s.xi + s.eta + s.zeta + s.A + s.B) .eq 0)).and
    (small1 (2 * (s.A + s.eta) + s.zeta) .gt 0)).mono ?_
  rintro a b ⟨⟨h1, h2⟩, h3⟩
  unfold niggliStep8; rw [h1, h2, h3]

theorem small_pass (s : NState K) :
    Small fun eps e4 => niggliPass eps e4 s = niggliPass 0 0 s := by
  let s1 := (niggliStep1 0 s).2
  let s2 := (niggliStep2 0 s1).2
  let s3 := (niggliStep3 0 s2).2
  let s4 := (niggliStep4 0 0 s3).2
  let s5 := (niggliStep5 0 s4).2
  let s6 := (niggliStep6 0 s5).2
  let s7 := (niggliStep7 0 s6).2
  refine ((((small_step1 s).and (small_step2 s1)).and ((small_step3 s2).and (small_step4 s3))).and
    (((small_step5 s4).and (small_step6 s5)).and ((small_step7 s6).and (small_step8 s7)))).mono ?_
  rintro a b ⟨⟨⟨h1, h2⟩, h3, h4⟩, ⟨h5, h6⟩, h7, h8⟩
  simp only [s1, s2, s3, s4, s5, s6, s7] at h1 h2 h3 h4 h5 h6 h7 h8
  unfold niggliPass
  simp only [h1, h2, h3, h4, h5, h6, h7, h8]

theorem small_loop (fuel : ℕ) : ∀ s : NState K,
    Small fun eps e4 => niggliLoop eps e4 fuel s = niggliLoop 0 0 fuel s := by
  induction fuel with
  | zero => intro s; exact ⟨1, one_pos, fun _ _ _ _ _ _ => rfl⟩
  | succ n ih =>
    intro s
    refine ((small_pass s).and (ih (niggliPass 0 0 s).2)).mono ?_
    rintro a b ⟨h1, h2⟩
    unfold niggliLoop
    simp only [h1, h2]

end Wulfric
