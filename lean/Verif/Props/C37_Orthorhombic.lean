import Verif.Props.C36_Conventional

/-! # C37, C39: orthorhombic, monoclinic and rhombohedral cells of the SC convention -/

namespace Wulfric
open Matrix _root_.Spec

theorem params_pos {cell : Cell ℝ} {x y z al be ga : ℝ} (h : HasParams cell x y z al be ga)
    (hx : machineEps < x) (hy : machineEps < y) (hz : machineEps < z) :
    getParams cell = .ok (x, y, z, al, be, ga) := getParams_of_spec h hx hy hz

/-- C37: orthorhombic cells with the centring P, F or I. For distinct lengths the result has
the same lengths in increasing order and right angles; otherwise `PotentialBugError`. -/
theorem C37_orthorhombic (cell : Cell ℝ) (x y z tol : ℝ) (h : HasParams cell x y z 90 90 90)
    (hx : machineEps < x) (hy : machineEps < y) (hz : machineEps < z) (centring : String)
    (hc : centring = "P" ∨ centring = "F" ∨ centring = "I") :
    (x ≠ y → x ≠ z → y ≠ z → ∃ d a b c, scConventionalNoHR cell "o" centring tol = .ok d ∧
      HasParams d a b c 90 90 90 ∧ [a, b, c].Perm [x, y, z] ∧ a < b ∧ b < c) ∧
    (x = y ∨ x = z ∨ y = z →
      scConventionalNoHR cell "o" centring tol = .error .potentialBug) := by
  have e : scConventionalNoHR cell "o" centring tol = scConventionalOPFI cell := by
    unfold scConventionalNoHR
    rw [if_neg (by simp), if_pos rfl, if_pos hc]
  have hp := params_pos h hx hy hz
  rw [e]
  unfold scConventionalOPFI
  rw [hp]
  simp only [bind, Except.bind, pure, Except.pure]
  constructor
  · intro n1 n2 n3
    rcases lt_or_gt_of_ne n1 with l1 | l1 <;> rcases lt_or_gt_of_ne n2 with l2 | l2 <;>
      rcases lt_or_gt_of_ne n3 with l3 | l3
    · rw [if_pos ⟨l1, l3⟩, applyT_one]
      exact ⟨_, x, y, z, rfl, h, List.Perm.refl _, l1, l3⟩
    · rw [if_neg (fun hh => absurd hh.2 (not_lt.2 l3.le)), if_pos ⟨l2, l3⟩]
      exact ⟨_, x, z, y, rfl, h.negswap23, List.Perm.cons _ (List.Perm.swap _ _ _), l2, l3⟩
    · exact absurd (l1.trans l3) (not_lt.2 l2.le)
    · rw [if_neg (fun hh => absurd hh.2 (not_lt.2 l3.le)), if_neg (fun hh => absurd hh.1 (not_lt.2 l2.le)),
        if_neg (fun hh => absurd hh.1 (not_lt.2 l1.le)), if_neg (fun hh => absurd hh.1 (not_lt.2 l3.le)),
        if_pos ⟨l2, l1⟩]
      exact ⟨_, z, x, y, rfl, h.cyc312, (List.perm_append_comm (l₁ := [z]) (l₂ := [x, y])), l2, l1⟩
    · rw [if_neg (fun hh => absurd hh.1 (not_lt.2 l1.le)), if_neg (fun hh => absurd hh.2 (not_lt.2 l3.le)),
        if_pos ⟨l1, l2⟩]
      exact ⟨_, y, x, z, rfl, h.negswap12, List.Perm.swap _ _ _, l1, l2⟩
    · exact absurd (l2.trans (l3.trans l1)) (lt_irrefl _)
    · rw [if_neg (fun hh => absurd hh.1 (not_lt.2 l1.le)), if_neg (fun hh => absurd hh.1 (not_lt.2 l2.le)),
        if_neg (fun hh => absurd hh.2 (not_lt.2 l2.le)), if_pos ⟨l3, l2⟩]
      exact ⟨_, y, z, x, rfl, h.cyc231,
        (List.perm_append_comm (l₁ := [y, z]) (l₂ := [x])), l3, l2⟩
    · rw [if_neg (fun hh => absurd hh.1 (not_lt.2 l1.le)), if_neg (fun hh => absurd hh.1 (not_lt.2 l2.le)),
        if_neg (fun hh => absurd hh.2 (not_lt.2 l2.le)), if_neg (fun hh => absurd hh.1 (not_lt.2 l3.le)),
        if_neg (fun hh => absurd hh.2 (not_lt.2 l1.le)), if_pos ⟨l3, l1⟩]
      refine ⟨_, z, y, x, rfl, h.negswap13, ?_, l3, l1⟩
      exact (List.reverse_perm [x, y, z])
  · intro ht
    rw [if_neg, if_neg, if_neg, if_neg, if_neg, if_neg] <;> rintro ⟨l1, l2⟩ <;>
      rcases ht with rfl | rfl | rfl <;> linarith

/-- C37: orthorhombic cells with the centring C or A. The two vectors of the centred face are
ordered, `a < b`; the third one is the one normal to that face. Equal lengths give
`PotentialBugError`. -/
theorem C37_base_centred (cell : Cell ℝ) (x y z tol : ℝ) (h : HasParams cell x y z 90 90 90)
    (hx : machineEps < x) (hy : machineEps < y) (hz : machineEps < z) :
    (x ≠ y → ∃ d a b, scConventionalNoHR cell "o" "C" tol = .ok d ∧
      HasParams d a b z 90 90 90 ∧ [a, b].Perm [x, y] ∧ a < b) ∧
    (x = y → scConventionalNoHR cell "o" "C" tol = .error .potentialBug) ∧
    (y ≠ z → ∃ d a b, scConventionalNoHR cell "o" "A" tol = .ok d ∧
      HasParams d a b x 90 90 90 ∧ [a, b].Perm [y, z] ∧ a < b) ∧
    (y = z → scConventionalNoHR cell "o" "A" tol = .error .potentialBug) := by
  have key : ∀ (c : Cell ℝ) (x y z : ℝ), HasParams c x y z 90 90 90 → machineEps < x →
      machineEps < y → machineEps < z →
      (x ≠ y → ∃ d a b, scConventionalOC c = .ok d ∧ HasParams d a b z 90 90 90 ∧
        [a, b].Perm [x, y] ∧ a < b) ∧ (x = y → scConventionalOC c = .error .potentialBug) := by
    intro c x y z h hx hy hz
    have hp := params_pos h hx hy hz
    unfold scConventionalOC
    rw [hp]
    simp only [bind, Except.bind, pure, Except.pure]
    constructor
    · intro n
      rcases lt_or_gt_of_ne n with l | l
      · rw [if_pos l, applyT_one]
        exact ⟨_, x, y, rfl, h, List.Perm.refl _, l⟩
      · rw [if_neg (not_lt.2 l.le), if_pos l]
        have := h.rot12
        norm_num at this
        exact ⟨_, y, x, rfl, this, List.Perm.swap _ _ _, l⟩
    · rintro rfl
      simp
  have eC : scConventionalNoHR cell "o" "C" tol = scConventionalOC cell := by
    unfold scConventionalNoHR
    rw [if_neg (by decide), if_pos rfl, if_neg (by decide), if_pos rfl]
  have eA : scConventionalNoHR cell "o" "A" tol =
      scConventionalOC (applyT !![0, 0, 1; 1, 0, 0; 0, 1, 0] cell) := by
    unfold scConventionalNoHR
    rw [if_neg (by decide), if_pos rfl, if_neg (by decide), if_neg (by decide), if_pos rfl]
  rw [eC, eA]
  obtain ⟨k1, k2⟩ := key cell x y z h hx hy hz
  obtain ⟨k3, k4⟩ := key _ y z x h.cyc231 hy hz hx
  exact ⟨k1, k2, k3, k4⟩

theorem cwt_eq_iff {x y t : ℝ} : cwt x .eq y t = true ↔ |x - y| ≤ t := by
  rw [abs_le]
  simp only [cwt, Bool.not_eq_true', Bool.or_eq_false_iff, decide_eq_false_iff_not, not_lt]
  constructor <;> rintro ⟨h1, h2⟩ <;> constructor <;> linarith

/-- C37: monoclinic cells. If two angles are right (within the tolerance; for the centring C
not the first two only), the result has right `beta` and `gamma` within the tolerance,
`alpha` not above a right angle by more than it, and `b ≤ c` for the centring P. -/
theorem C37_monoclinic (cell : Cell ℝ) (x y z al be ga tol : ℝ) (ht : 0 ≤ tol)
    (h : HasParams cell x y z al be ga)
    (hx : machineEps < x) (hy : machineEps < y) (hz : machineEps < z) (centring : String)
    (hang : (|be - 90| ≤ tol ∧ |ga - 90| ≤ tol) ∨ (|al - 90| ≤ tol ∧ |ga - 90| ≤ tol) ∨
      (|al - 90| ≤ tol ∧ |be - 90| ≤ tol ∧ centring ≠ "C")) :
    ∃ d a b c al' be' ga', scConventionalNoHR cell "m" centring tol = .ok d ∧
      HasParams d a b c al' be' ga' ∧ [a, b, c].Perm [x, y, z] ∧
      |be' - 90| ≤ tol ∧ |ga' - 90| ≤ tol ∧ al' ≤ 90 + tol ∧ (centring ≠ "C" → b ≤ c) := by
  have e : scConventionalNoHR cell "m" centring tol = scConventionalM cell centring tol := by
    unfold scConventionalNoHR
    rw [if_neg (by simp), if_neg (by decide), if_pos rfl]
  rw [e]
  have flip : ∀ t : ℝ, |t - 90| ≤ tol → |180 - t - 90| ≤ tol := by
    intro t h
    rw [show 180 - t - 90 = -(t - 90) by ring, abs_neg]; exact h
  -- step 1
  obtain ⟨m1, a1, b1, c1, al1, be1, ga1, hm1, hp1, hperm1, hb1, hg1, ea, eb, ec⟩ :
      ∃ m1 a1 b1 c1 al1 be1 ga1, monoclinicStep1 al be ga centring tol = .ok m1 ∧
        HasParams (applyT m1 cell) a1 b1 c1 al1 be1 ga1 ∧ [a1, b1, c1].Perm [x, y, z] ∧
        |be1 - 90| ≤ tol ∧ |ga1 - 90| ≤ tol ∧ machineEps < a1 ∧ machineEps < b1 ∧
        machineEps < c1 := by
    unfold monoclinicStep1
    simp only [Bool.and_eq_true, cwt_eq_iff]
    by_cases q1 : |be - 90| ≤ tol ∧ |ga - 90| ≤ tol
    · rw [if_pos q1]
      exact ⟨1, x, y, z, al, be, ga, rfl, by rw [applyT_one]; exact h, .refl _, q1.1, q1.2,
        hx, hy, hz⟩
    · rw [if_neg q1]
      by_cases q2 : |al - 90| ≤ tol ∧ |be - 90| ≤ tol
      · rw [if_pos q2]
        have hC : centring ≠ "C" := by
          rcases hang with h1 | h1 | h1
          · exact absurd h1 q1
          · exact absurd ⟨q2.2, h1.2⟩ q1
          · exact h1.2.2
        rw [if_neg hC]
        exact ⟨_, z, x, y, ga, al, be, rfl, h.cyc312,
          (List.perm_append_comm (l₁ := [z]) (l₂ := [x, y])), q2.1, q2.2, hz, hx, hy⟩
      · rw [if_neg q2]
        have q3 : |al - 90| ≤ tol ∧ |ga - 90| ≤ tol := by
          rcases hang with h1 | h1 | h1
          · exact absurd h1 q1
          · exact h1
          · exact absurd ⟨h1.1, h1.2.1⟩ q2
        rw [if_pos q3]
        exact ⟨_, y, x, z, 180 - be, al, 180 - ga, rfl, h.rot12, .swap _ _ _, q3.1,
          flip _ q3.2, hy, hx, hz⟩
  -- step 2
  obtain ⟨c2, a2, b2, d2, al2, be2, ga2, hc2, hp2, hperm2, hb2, hg2, hle, ea2, eb2, ec2⟩ :
      ∃ c2 a2 b2 d2 al2 be2 ga2,
        (if b1 ≤ c1 ∨ centring = "C" then applyT 1 (applyT m1 cell)
          else applyT !![-1, 0, 0; 0, 0, 1; 0, 1, 0] (applyT m1 cell)) = c2 ∧
        HasParams c2 a2 b2 d2 al2 be2 ga2 ∧ [a2, b2, d2].Perm [x, y, z] ∧
        |be2 - 90| ≤ tol ∧ |ga2 - 90| ≤ tol ∧ (centring ≠ "C" → b2 ≤ d2) ∧ machineEps < a2 ∧
        machineEps < b2 ∧ machineEps < d2 := by
    by_cases q : b1 ≤ c1 ∨ centring = "C"
    · rw [if_pos q, applyT_one]
      exact ⟨_, a1, b1, c1, al1, be1, ga1, rfl, hp1, hperm1, hb1, hg1,
        fun hC => q.resolve_right hC, ea, eb, ec⟩
    · rw [if_neg q]
      rw [not_or, not_le] at q
      exact ⟨_, a1, c1, b1, al1, 180 - ga1, 180 - be1, rfl, hp1.flip1swap23,
        (List.Perm.cons _ (.swap _ _ _)).trans hperm1, flip _ hg1, flip _ hb1,
        fun _ => q.1.le, ea, ec, eb⟩
  -- step 3
  unfold scConventionalM
  rw [params_pos h hx hy hz]
  simp only [bind, Except.bind, pure, Except.pure, hm1]
  rw [params_pos hp1 ea eb ec]
  simp only [hc2]
  rw [params_pos hp2 ea2 eb2 ec2]
  simp only
  by_cases q : cwt al2 .le 90 tol = true
  · rw [if_pos q, applyT_one]
    refine ⟨_, a2, b2, d2, al2, be2, ga2, rfl, hp2, hperm2, hb2, hg2, ?_, hle⟩
    simp only [cwt, Bool.not_eq_true', decide_eq_false_iff_not, not_lt] at q
    linarith
  · rw [if_neg q]
    refine ⟨_, a2, b2, d2, 180 - al2, 180 - be2, ga2, rfl, hp2.diag12, hperm2, flip _ hb2, hg2,
      ?_, hle⟩
    simp only [cwt, Bool.not_eq_true', decide_eq_false_iff_not, not_lt, not_le] at q
    linarith

/-- C37: with fewer than two right angles `PotentialBugError`. -/
theorem C37_monoclinic_error (cell : Cell ℝ) (x y z al be ga tol : ℝ)
    (h : HasParams cell x y z al be ga)
    (hx : machineEps < x) (hy : machineEps < y) (hz : machineEps < z) (centring : String)
    (h1 : ¬ (|be - 90| ≤ tol ∧ |ga - 90| ≤ tol)) (h2 : ¬ (|al - 90| ≤ tol ∧ |ga - 90| ≤ tol))
    (h3 : ¬ (|al - 90| ≤ tol ∧ |be - 90| ≤ tol ∧ centring ≠ "C")) :
    scConventionalNoHR cell "m" centring tol = .error .potentialBug := by
  unfold scConventionalNoHR
  rw [if_neg (by simp), if_neg (by decide), if_pos rfl]
  unfold scConventionalM
  rw [params_pos h hx hy hz]
  simp only [bind, Except.bind, pure, Except.pure]
  have : monoclinicStep1 al be ga centring tol = .error .potentialBug := by
    unfold monoclinicStep1
    simp only [Bool.and_eq_true, cwt_eq_iff]
    rw [if_neg h1]
    by_cases q : |al - 90| ≤ tol ∧ |be - 90| ≤ tol
    · rw [if_pos q, if_pos]
      by_contra hC
      exact h3 ⟨q.1, q.2, hC⟩
    · rw [if_neg q, if_neg h2]
  rw [this]

/-! ## C39 -/

theorem cwt_ne_iff {x y t : ℝ} : cwt x .ne y t = true ↔ t < |x - y| := by
  rw [lt_abs]
  simp only [cwt, Bool.or_eq_true, decide_eq_true_eq]
  constructor
  · rintro (h | h)
    · right; linarith
    · left; linarith
  · rintro (h | h)
    · right; linarith
    · left; linarith

theorem hR_eq (cell : Cell ℝ) (x y z al be ga angTol distTol : ℝ)
    (h : HasParams cell x y z al be ga)
    (hx : machineEps < x) (hy : machineEps < y) (hz : machineEps < z)
    (h1 : |x - y| ≤ distTol) (h2 : |x - z| ≤ distTol) (h3 : |y - z| ≤ distTol) :
    scConventionalHR cell angTol distTol =
      if |al - be| ≤ angTol ∧ |al - ga| ≤ angTol then .ok (applyT 1 cell)
      else if |180 - al - be| ≤ angTol ∧ |be - ga| ≤ angTol then
        .ok (applyT !![1, 0, 0; 0, -1, 0; 0, 0, -1] cell)
      else if |al - (180 - be)| ≤ angTol ∧ |be - ga| ≤ angTol then
        .ok (applyT !![-1, 0, 0; 0, 1, 0; 0, 0, -1] cell)
      else if |al - be| ≤ angTol ∧ |be - (180 - ga)| ≤ angTol then
        .ok (applyT !![-1, 0, 0; 0, -1, 0; 0, 0, 1] cell)
      else .error .potentialBug := by
  unfold scConventionalHR
  rw [params_pos h hx hy hz]
  simp only [bind, Except.bind, pure, Except.pure, Bool.or_eq_true, Bool.and_eq_true,
    cwt_eq_iff, cwt_ne_iff]
  rw [if_neg]
  simp only [not_or, not_lt]
  exact ⟨⟨h1, h2⟩, h3⟩

/-- C39: three of the four sign patterns `(t, t, t)`, `(t, 180-t, 180-t)`, `(180-t, 180-t, t)`
give a cell with three equal angles. The full statement, for every pattern, is false:
`C39_raises`. -/
theorem C39_equal_angles_partial (cell : Cell ℝ) (x t angTol distTol al be ga : ℝ)
    (ha : 0 ≤ angTol) (hd : 0 ≤ distTol)
    (h : HasParams cell x x x al be ga) (hx : machineEps < x)
    (hpat : (al = t ∧ be = t ∧ ga = t) ∨ (al = t ∧ be = 180 - t ∧ ga = 180 - t) ∨
      (al = 180 - t ∧ be = 180 - t ∧ ga = t)) :
    ∃ d s1 s2 s3, scConventionalHR cell angTol distTol = .ok d ∧ HasParams d x x x s1 s2 s3 ∧
      (s1 = t ∧ s2 = t ∧ s3 = t ∨
        |s1 - s2| ≤ angTol ∧ |s1 - s3| ≤ angTol ∧ |180 - 2 * t| ≤ angTol) := by
  have z0 : |x - x| ≤ distTol := by simpa using hd
  rw [hR_eq cell x x x al be ga angTol distTol h hx hx hx z0 z0 z0]
  by_cases q1 : |al - be| ≤ angTol ∧ |al - ga| ≤ angTol
  · rw [if_pos q1, applyT_one]
    refine ⟨_, al, be, ga, rfl, h, ?_⟩
    rcases hpat with ⟨rfl, rfl, rfl⟩ | ⟨rfl, rfl, rfl⟩ | ⟨rfl, rfl, rfl⟩
    · exact .inl ⟨rfl, rfl, rfl⟩
    · refine .inr ⟨q1.1, q1.2, ?_⟩
      have := q1.1
      rwa [show al - (180 - al) = -(180 - 2 * al) by ring, abs_neg] at this
    · refine .inr ⟨q1.1, q1.2, ?_⟩
      have := q1.2
      rwa [show 180 - ga - ga = 180 - 2 * ga by ring] at this
  · rw [if_neg q1]
    rcases hpat with ⟨rfl, rfl, rfl⟩ | ⟨rfl, rfl, rfl⟩ | ⟨rfl, rfl, rfl⟩
    · exact absurd (by simpa using ha) q1
    · rw [if_pos (by simpa using ha)]
      have := h.diag23
      rw [sub_sub_cancel] at this
      exact ⟨_, al, al, al, rfl, this, .inl ⟨rfl, rfl, rfl⟩⟩
    · have q2 : ¬ (|180 - (180 - ga) - (180 - ga)| ≤ angTol ∧ |180 - ga - ga| ≤ angTol) := by
        rintro ⟨-, hh⟩
        exact q1 ⟨by simpa using ha, hh⟩
      have q3 : ¬ (|180 - ga - (180 - (180 - ga))| ≤ angTol ∧ |180 - ga - ga| ≤ angTol) := by
        rintro ⟨-, hh⟩
        exact q1 ⟨by simpa using ha, hh⟩
      rw [if_neg q2, if_neg q3, if_pos (by simpa using ha)]
      have := h.diag12
      rw [sub_sub_cancel] at this
      exact ⟨_, ga, ga, ga, rfl, this, .inl ⟨rfl, rfl, rfl⟩⟩

/-- C39: the pattern `(180-t, t, 180-t)` raises `PotentialBugError` although reversing the
first and the third vector makes the angles equal: the condition of the third branch repeats
that of the second one. -/
theorem C39_raises (cell : Cell ℝ) (x t angTol distTol : ℝ) (hd : 0 ≤ distTol)
    (h : HasParams cell x x x (180 - t) t (180 - t)) (hx : machineEps < x)
    (ht : angTol < |180 - 2 * t|) :
    scConventionalHR cell angTol distTol = .error .potentialBug ∧
    HasParams (applyT !![-1, 0, 0; 0, 1, 0; 0, 0, -1] cell) x x x t t t := by
  constructor
  · have z0 : |x - x| ≤ distTol := by simpa using hd
    rw [hR_eq cell x x x _ _ _ angTol distTol h hx hx hx z0 z0 z0]
    have k : ¬ (|t - (180 - t)| ≤ angTol) := by
      rw [not_le, show t - (180 - t) = -(180 - 2 * t) by ring, abs_neg]; exact ht
    have k2 : ¬ (|180 - t - t| ≤ angTol) := by
      rw [not_le, show 180 - t - t = 180 - 2 * t by ring]; exact ht
    rw [if_neg (fun hh => k2 hh.1), if_neg (fun hh => k hh.2), if_neg (fun hh => k hh.2),
      if_neg (fun hh => k2 hh.1)]
  · have := h.diag13
    rwa [sub_sub_cancel] at this

/-- C39: the third branch is never taken: the second one has the same condition. -/
theorem C39_third_branch (al be ga angTol : ℝ)
    (h : ¬ (|180 - al - be| ≤ angTol ∧ |be - ga| ≤ angTol)) :
    ¬ (|al - (180 - be)| ≤ angTol ∧ |be - ga| ≤ angTol) := by
  rwa [show al - (180 - be) = -(180 - al - be) by ring, abs_neg]

/-- C39: different lengths raise `PotentialBugError`. -/
theorem C39_lengths (cell : Cell ℝ) (x y z al be ga angTol distTol : ℝ)
    (h : HasParams cell x y z al be ga)
    (hx : machineEps < x) (hy : machineEps < y) (hz : machineEps < z)
    (hne : distTol < |x - y| ∨ distTol < |x - z| ∨ distTol < |y - z|) :
    scConventionalHR cell angTol distTol = .error .potentialBug := by
  unfold scConventionalHR
  rw [params_pos h hx hy hz]
  simp only [bind, Except.bind, pure, Except.pure, Bool.or_eq_true, Bool.and_eq_true,
    cwt_eq_iff, cwt_ne_iff]
  rw [if_pos]
  tauto

/-! ## Cases that meet the hypotheses -/

theorem cos_90 : Real.cos (90 * (Real.pi / 180)) = 0 := by
  rw [show 90 * (Real.pi / 180) = Real.pi / 2 by ring, Real.cos_pi_div_two]

theorem cos_60 : Real.cos (60 * (Real.pi / 180)) = 1 / 2 := by
  rw [show 60 * (Real.pi / 180) = Real.pi / 3 by ring, Real.cos_pi_div_three]

theorem cos_120 : Real.cos (120 * (Real.pi / 180)) = -(1 / 2) := by
  rw [show 120 * (Real.pi / 180) = Real.pi - 60 * (Real.pi / 180) by ring, Real.cos_pi_sub, cos_60]

theorem hasParams_box {a b c : ℝ} (ha : 0 ≤ a) (hb : 0 ≤ b) (hc : 0 ≤ c) :
    HasParams !![a, 0, 0; 0, b, 0; 0, 0, c] a b c 90 90 90 := by
  refine ⟨ha, hb, hc, ?_, ?_, ?_, ⟨by norm_num, by norm_num, ?_⟩, ⟨by norm_num, by norm_num, ?_⟩,
    ⟨by norm_num, by norm_num, ?_⟩⟩
  all_goals simp [dot, cos_90, sq]

theorem machineEps_lt_one : machineEps < 1 := by unfold machineEps; norm_num

theorem eps_lt {x : ℝ} (h : 1 ≤ x) : machineEps < x := machineEps_lt_one.trans_le h

/-- C37 on the cell with lengths 2, 1, 3. -/
example : ∃ d a b c, scConventionalNoHR !![2, 0, 0; 0, 1, 0; 0, 0, 3] "o" "F" 0 = .ok d ∧
    HasParams d a b c 90 90 90 ∧ [a, b, c].Perm [2, 1, 3] ∧ a < b ∧ b < c :=
  (C37_orthorhombic _ 2 1 3 0 (hasParams_box (by norm_num) (by norm_num) (by norm_num))
    (eps_lt (by norm_num)) (eps_lt (by norm_num)) (eps_lt (by norm_num)) "F" (by decide)).1
    (by norm_num) (by norm_num) (by norm_num)

/-- A face-centred cubic primitive cell with the second vector reversed. -/
theorem hasParams_reversed : HasParams !![1, 1, 0; 0, -1, -1; 1, 0, 1]
    (Real.sqrt 2) (Real.sqrt 2) (Real.sqrt 2) (180 - 60) 60 (180 - 60) := by
  have h2 : Real.sqrt 2 ^ 2 = 2 := Real.sq_sqrt (by norm_num)
  have h3 : Real.sqrt 2 * Real.sqrt 2 = 2 := Real.mul_self_sqrt (by norm_num)
  have e : (180 - 60 : ℝ) = 120 := by norm_num
  rw [e]
  refine ⟨Real.sqrt_nonneg _, Real.sqrt_nonneg _, Real.sqrt_nonneg _, ?_, ?_, ?_,
    ⟨by norm_num, by norm_num, ?_⟩, ⟨by norm_num, by norm_num, ?_⟩, ⟨by norm_num, by norm_num, ?_⟩⟩
  · rw [h2]; simp [dot]; norm_num
  · rw [h2]; simp [dot]; norm_num
  · rw [h2]; simp [dot]; norm_num
  · rw [cos_120]
    simp [dot]
    norm_num [h3]
  · rw [cos_60]
    simp [dot]
    norm_num [h3]
  · rw [cos_120]
    simp [dot]
    norm_num [h3]

/-- C39: a concrete primitive cell of a rhombohedral lattice for which the call raises. -/
theorem C39_witness :
    scConventionalHR !![1, 1, 0; 0, -1, -1; 1, 0, 1] (1 / 10 ^ 4) (1 / 10 ^ 5) =
      .error .potentialBug := by
  refine (C39_raises _ (Real.sqrt 2) 60 _ _ (by norm_num) hasParams_reversed ?_ ?_).1
  · apply eps_lt
    rw [Real.one_le_sqrt]; norm_num
  · norm_num

theorem cos_45 : Real.cos (45 * (Real.pi / 180)) = Real.sqrt 2 / 2 := by
  rw [show 45 * (Real.pi / 180) = Real.pi / 4 by ring, Real.cos_pi_div_four]

/-- C37 on a monoclinic cell whose right angles are the first two: the vectors are permuted. -/
example : HasParams !![1, 1, 0; 1, 0, 0; 0, 0, 2] (Real.sqrt 2) 1 2 90 90 45 ∧
    ∃ d a b c al be ga, scConventionalNoHR !![1, 1, 0; 1, 0, 0; 0, 0, 2] "m" "P" (1 / 10 ^ 4) = .ok d ∧
      HasParams d a b c al be ga ∧ [a, b, c].Perm [Real.sqrt 2, 1, 2] ∧
      |be - 90| ≤ 1 / 10 ^ 4 ∧ |ga - 90| ≤ 1 / 10 ^ 4 ∧ al ≤ 90 + 1 / 10 ^ 4 ∧
      (("P" : String) ≠ "C" → b ≤ c) := by
  have h2 : Real.sqrt 2 ^ 2 = 2 := Real.sq_sqrt (by norm_num)
  have h3 : Real.sqrt 2 * Real.sqrt 2 = 2 := Real.mul_self_sqrt (by norm_num)
  have h : HasParams !![1, 1, 0; 1, 0, 0; 0, 0, 2] (Real.sqrt 2) 1 2 90 90 45 := by
    refine ⟨Real.sqrt_nonneg _, by norm_num, by norm_num, ?_, ?_, ?_,
      ⟨by norm_num, by norm_num, ?_⟩, ⟨by norm_num, by norm_num, ?_⟩,
      ⟨by norm_num, by norm_num, ?_⟩⟩
    · rw [h2]; simp [dot]; norm_num
    · simp [dot]
    · simp [dot]; norm_num
    · simp [dot, cos_90]
    · simp [dot, cos_90]
    · rw [cos_45]; simp [dot]; norm_num; linarith
  refine ⟨h, C37_monoclinic _ _ _ _ 90 90 45 (1 / 10 ^ 4) (by norm_num) h ?_ (eps_lt (by norm_num))
    (eps_lt (by norm_num)) "P" (.inr (.inr ⟨by norm_num, by norm_num, by decide⟩))⟩
  apply eps_lt
  rw [Real.one_le_sqrt]; norm_num

/-- An orthorhombic crystal with the lengths 2, 1, 3 and two atoms. -/
noncomputable def sampleData : SpglibData :=
  { original := { cell := !![2, 0, 0; 0, 1, 0; 0, 0, 3],
                  positions := [![0, 0, 0], ![1 / 2, 0, 0]], types := [1, 1] },
    spaceGroupNumber := 47, crystalFamily := "o", centringType := "P",
    conventionalCell := !![2, 0, 0; 0, 1, 0; 0, 0, 3],
    conventionalPositions := [![0, 0, 0], ![1 / 2, 0, 0]], conventionalTypes := [1, 1],
    primitiveCell := !![2, 0, 0; 0, 1, 0; 0, 0, 3],
    primitivePositions := [![0, 0, 0], ![1 / 2, 0, 0]], primitiveTypes := [1, 1],
    symprec := 1 / 10 ^ 5, angleTolerance := -1 }

/-- The atoms of `sampleData`. -/
noncomputable def sampleAtoms : Atoms ℝ :=
  { names := some ["Fe1", "Fe2"], positions := some [![0, 0, 0], ![1 / 2, 0, 0]] }

theorem sample_resolve :
    resolveData id (fun _ _ => .ok sampleData) sampleData.original.cell sampleAtoms none =
      .ok sampleData := by
  have hv : validateAtoms sampleAtoms.toDict ["positions"] true = .ok true := by
    simp only [Atoms.toDict, sampleAtoms]
    decide +kernel
  unfold resolveData
  rw [hv]
  rfl

/-- The hypotheses of the theorems of C36 are met: the crystal is brought to the SC
convention. -/
example : ∃ conv atoms', getConventional id (fun _ _ => .ok sampleData) (fun c => .ok c)
    sampleData.original.cell sampleAtoms "sc" none = .ok (conv, atoms') := by
  obtain ⟨d, a, b, c, hd, -⟩ := (C37_orthorhombic !![2, 0, 0; 0, 1, 0; 0, 0, 3] 2 1 3 (1 / 10 ^ 4)
    (hasParams_box (by norm_num) (by norm_num) (by norm_num))
    (eps_lt (by norm_num)) (eps_lt (by norm_num)) (eps_lt (by norm_num)) "P" (by decide)).1
    (by norm_num) (by norm_num) (by norm_num)
  have hdet : d.det ≠ 0 := by
    rw [(noHR_proper hd).sameLattice.2]; simp [det_fin_three]
  refine ⟨d, ?_⟩
  refine C36_defined id _ _ _ _ "sc" none sampleData d
    ([![0, 0, 0], ![1 / 2, 0, 0]].map fun p => vecMat (vecMat p !![2, 0, 0; 0, 1, 0; 0, 0, 3]) d⁻¹)
    [1, 1] sample_resolve ?_ ?_ ?_ ?_ ?_
  · have ht : angleTol sampleData = 1 / 10 ^ 4 := by norm_num [angleTol, sampleData]
    show conventionalParts _ "sc" _ = _
    unfold conventionalParts
    rw [if_neg (by decide), if_pos rfl, if_neg (by decide), ht]
    simp only [sampleData]
    rw [hd]
    simp [bind, Except.bind, pure, Except.pure, rebase, npInv, hdet]
  · simp [sampleData]
  · intro l hl; cases hl; rfl
  · intro l hl; cases hl
  · intro l hl; cases hl

end Wulfric
