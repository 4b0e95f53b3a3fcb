import Verif.Lemmas.NiggliCand
import Verif.Props.C58_LepageMonoclinic

/-! # The indices of a twofold axis in a Niggli-reduced basis -/

namespace Wulfric

open Matrix _root_.Spec _root_.Spec.Reduced

/-- The integers `2 (c i · b) / (b · b)` of a twofold axis `b`. -/
theorem turn_indices {c : Cell ℝ} (hd : c.det ≠ 0) {u : Fin 3 → ℤ} (hp : primZ u = true)
    (ht : TwofoldAxis c (latticeVec c u)) :
    ∃ h : Fin 3 → ℤ, (∀ i, dot (c i) (latticeVec c u) =
      dot (latticeVec c u) (latticeVec c u) / 2 * h i) ∧ intDot u h = 2 := by
  set b := latticeVec c u with hb
  have hu : u ≠ 0 := by rintro rfl; simp [primZ] at hp
  have hbb : 0 < dot b b := vdot_self_pos (latticeVec_ne hd hu)
  obtain ⟨w, hw⟩ := bezout hp
  have key : ∀ i, ∃ k : ℤ, dot (c i) b = dot b b / 2 * k := by
    intro i
    have hv : latticeVec c (Pi.single i 1) = c i := by
      funext j
      fin_cases i <;> simp [latticeVec, Pi.single_apply]
    obtain ⟨n, hn⟩ := ht.2 (c i) ⟨Pi.single i 1, hv.symm⟩
    set s : ℝ := 2 * (dot (c i) b / dot b b) with hs
    have hco : ∀ j, (n j : ℝ) + (Pi.single i 1 : Fin 3 → ℤ) j = s * u j := by
      have : (fun j => (n j : ℝ) + (Pi.single i 1 : Fin 3 → ℤ) j) = fun j => s * u j := by
        apply index_ext hd
        intro j
        have h1 := congrFun hn j
        have h2 := congrFun hv j
        simp only [halfTurn] at h1
        rw [← hs, ← h2, hb] at h1
        simp only [latticeVec, Fin.sum_univ_three] at h1 ⊢
        linear_combination -h1
      exact fun j => congrFun this j
    refine ⟨intDot w (n + Pi.single i 1), ?_⟩
    have e : s = ((intDot w (n + Pi.single i 1) : ℤ) : ℝ) := by
      have h0 := hco 0
      have h1 := hco 1
      have h2 := hco 2
      have hw' : (w 0 : ℝ) * u 0 + w 1 * u 1 + w 2 * u 2 = 1 := by
        have := congrArg (fun z : ℤ => (z : ℝ)) hw
        simpa [intDot] using this
      simp only [intDot, Pi.add_apply]
      push_cast
      linear_combination (-s) * hw' - w 0 * h0 - w 1 * h1 - w 2 * h2
    rw [← e, hs]
    field_simp
  choose h hh using key
  refine ⟨h, hh, ?_⟩
  have e : dot b b = dot b b / 2 * (intDot u h : ℝ) := by
    have := dot_normal (c := c) (u := u) (lam := dot b b / 2) (h := h) hh u
    exact this
  have : (intDot u h : ℝ) = 2 := by
    have h3 : dot b b * ((intDot u h : ℝ) - 2) = 0 := by linear_combination -2 * e
    have := (mul_eq_zero.1 h3).resolve_left hbb.ne'
    linarith
  exact_mod_cast this

/-- The square of the length of a lattice vector. -/
noncomputable def len2 (c : Cell ℝ) (x : Fin 3 → ℤ) : ℝ := dot (latticeVec c x) (latticeVec c x)

theorem len2_qform (c : Cell ℝ) (x : Fin 3 → ℤ) :
    len2 c x = qform (dot (c 0) (c 0)) (dot (c 1) (c 1)) (dot (c 2) (c 2))
      (2 * dot (c 1) (c 2)) (2 * dot (c 0) (c 2)) (2 * dot (c 0) (c 1)) (x 0) (x 1) (x 2) := by
  simp only [len2, dot, latticeVec, qform, Fin.sum_univ_three]
  ring

theorem len2_pos {c : Cell ℝ} (hd : c.det ≠ 0) {x : Fin 3 → ℤ} (hx : x ≠ 0) : 0 < len2 c x :=
  vdot_self_pos (latticeVec_ne hd hx)

theorem len2_single (c : Cell ℝ) (i : Fin 3) : len2 c (Pi.single i 1) = dot (c i) (c i) := by
  have hv : latticeVec c (Pi.single i 1) = c i := by
    funext j
    fin_cases i <;> simp [latticeVec, Pi.single_apply]
  rw [len2, hv]

section
variable {c : Cell ℝ} (hd : c.det ≠ 0) (hn : IsNiggli c)
include hd hn

omit hn in
theorem row_pos (i : Fin 3) : 0 < dot (c i) (c i) := by
  rw [← len2_single]
  apply len2_pos hd
  intro e
  have := congrFun e i
  simp at this

theorem len2_third {x : Fin 3 → ℤ} (h : x 2 ≠ 0) : dot (c 2) (c 2) ≤ len2 c x := by
  rw [len2_qform]; exact third_min hn (row_pos hd 0).le _ _ _ h

theorem len2_second {x : Fin 3 → ℤ} (h : x 1 ≠ 0 ∨ x 2 ≠ 0) : dot (c 1) (c 1) ≤ len2 c x := by
  rw [len2_qform]; exact second_min hn (row_pos hd 0).le _ _ _ h

theorem len2_first {x : Fin 3 → ℤ} (h : x ≠ 0) : dot (c 0) (c 0) ≤ len2 c x := by
  rw [len2_qform]
  refine first_min hn (row_pos hd 0).le _ _ _ ?_
  by_contra hc
  push Not at hc
  apply h
  funext i
  fin_cases i <;> simp [hc]

omit hd in
theorem of_type : ∃ t, OfType t (2 * dot (c 1) (c 2)) (2 * dot (c 0) (c 2)) (2 * dot (c 0) (c 1)) := by
  rcases hn.type with h | h
  · exact ⟨true, by simpa [OfType] using h⟩
  · exact ⟨false, by simpa [OfType] using h⟩

omit hd hn in
theorem cand_small : ∀ t, ∀ x ∈ cand t, |x.1| ≤ 1 ∧ |x.2.1| ≤ 1 ∧ |x.2.2| ≤ 1 := by
  decide +kernel

omit hd hn in
theorem all_small {x : Fin 3 → ℤ} (h : |x 0| ≤ 1 ∧ |x 1| ≤ 1 ∧ |x 2| ≤ 1) (i : Fin 3) : |x i| ≤ 1 := by
  fin_cases i
  · exact h.1
  · exact h.2.1
  · exact h.2.2

/-- The vectors outside the plane of the first two that are not longer than the third one. -/
theorem small_third {x : Fin 3 → ℤ} (h : x 2 ≠ 0) (hx : len2 c x ≤ dot (c 2) (c 2)) (i : Fin 3) :
    |x i| ≤ 1 := by
  obtain ⟨t, ht⟩ := of_type hn
  have hA := row_pos hd 0
  rw [len2_qform] at hx
  apply all_small
  rcases lt_or_gt_of_ne h with g | g
  · rw [← qform_neg] at hx
    have := cand_small t _ (cand_third hn hA ht _ _ _ (by omega) hx)
    simpa using this
  · exact cand_small t _ (cand_third hn hA ht _ _ _ g hx)

theorem small_second {x : Fin 3 → ℤ} (h2 : x 2 = 0) (h : x 1 ≠ 0) (hx : len2 c x ≤ dot (c 1) (c 1))
    (i : Fin 3) : |x i| ≤ 1 := by
  obtain ⟨t, ht⟩ := of_type hn
  have hA := row_pos hd 0
  rw [len2_qform, h2] at hx
  apply all_small
  rcases lt_or_gt_of_ne h with g | g
  · rw [← qform_neg, neg_zero] at hx
    have := cand_small t _ (cand_second hn hA ht _ _ (by omega) hx)
    rw [h2]
    simpa using this
  · have := cand_small t _ (cand_second hn hA ht _ _ g hx)
    rw [h2]
    simpa using this

end

section
variable {c : Cell ℝ} {u h : Fin 3 → ℤ}
  (hl : ∀ i, dot (c i) (latticeVec c u) = len2 c u / 2 * h i)
include hl

/-- The lengths of `c i - k b`. -/
theorem len2_shift (i : Fin 3) (k : ℤ) : len2 c (Pi.single i 1 - k • u) =
    dot (c i) (c i) - k * h i * len2 c u + k ^ 2 * len2 c u := by
  have hv : latticeVec c (Pi.single i 1) = c i := by
    funext j
    fin_cases i <;> simp [latticeVec, Pi.single_apply]
  have e : latticeVec c (Pi.single i 1 - k • u) = c i - (k : ℝ) • latticeVec c u := by
    rw [← hv]
    funext j
    simp only [latticeVec, Fin.sum_univ_three, Pi.sub_apply, Pi.smul_apply, smul_eq_mul]
    push_cast
    ring
  have e2 : dot (c i - (k : ℝ) • latticeVec c u) (c i - (k : ℝ) • latticeVec c u) =
      dot (c i) (c i) - 2 * k * dot (c i) (latticeVec c u) +
        k ^ 2 * dot (latticeVec c u) (latticeVec c u) := by
    simp only [dot, Pi.sub_apply, Pi.smul_apply, smul_eq_mul]; ring
  rw [len2, e, e2, hl i, len2]
  ring

variable (hd : c.det ≠ 0) (hn : IsNiggli c) (hu : u ≠ 0) (hi : intDot u h = 2)
include hd hn hu

/-- If a plane index is 2 or more, the axis is along that vector of the basis. -/
theorem axis_of_two (i : Fin 3) (h2 : 2 ≤ |h i|) : u = Pi.single i 1 ∨ u = -Pi.single i 1 := by
  have hb := len2_pos hd hu
  obtain ⟨s, hs, hsh⟩ : ∃ s : ℤ, (s = 1 ∨ s = -1) ∧ s * h i = |h i| := by
    rcases abs_choice (h i) with e | e
    · exact ⟨1, Or.inl rfl, by rw [e, one_mul]⟩
    · exact ⟨-1, Or.inr rfl, by rw [e]; ring⟩
  have hss : s * s = 1 := by rcases hs with rfl | rfl <;> rfl
  have e := len2_shift hl i s
  have e1 : ((s : ℝ) * h i) = (|h i| : ℤ) := by exact_mod_cast hsh
  have e2 : ((s : ℝ) ^ 2) = 1 := by
    rw [sq]; exact_mod_cast hss
  rw [e1, e2] at e
  have h2' : (2 : ℝ) ≤ ((|h i| : ℤ) : ℝ) := by exact_mod_cast h2
  have lt : len2 c (Pi.single i 1 - s • u) < dot (c i) (c i) := by nlinarith
  have fin : Pi.single i 1 - s • u = 0 → u = Pi.single i 1 ∨ u = -Pi.single i 1 := by
    intro g
    have g' : (Pi.single i 1 : Fin 3 → ℤ) = s • u := sub_eq_zero.1 g
    rcases hs with rfl | rfl
    · left; rw [g', one_smul]
    · right; rw [g', neg_smul, one_smul, neg_neg]
  -- a nonzero difference would be shorter than `b`
  have close : dot (c i) (c i) ≤ len2 c u → u = Pi.single i 1 ∨ u = -Pi.single i 1 := by
    intro hle
    apply fin
    by_contra hne
    have := len2_pos hd hne
    nlinarith
  fin_cases i
  · apply fin
    by_contra hne
    exact absurd (len2_first hd hn hne) (not_le.2 lt)
  · by_cases g : ((Pi.single 1 1 : Fin 3 → ℤ) - s • u) 1 ≠ 0 ∨ ((Pi.single 1 1 : Fin 3 → ℤ) - s • u) 2 ≠ 0
    · exact absurd (len2_second hd hn g) (not_le.2 lt)
    · push Not at g
      have g1 : s * u 1 = 1 := by have := g.1; simp at this; omega
      apply close
      apply len2_second hd hn
      left
      rintro e
      rw [e] at g1
      simp at g1
  · by_cases g : ((Pi.single 2 1 : Fin 3 → ℤ) - s • u) 2 ≠ 0
    · exact absurd (len2_third hd hn g) (not_le.2 lt)
    · push Not at g
      have g1 : s * u 2 = 1 := by simp at g; omega
      apply close
      apply len2_third hd hn
      rintro e
      rw [e] at g1
      simp at g1

include hi

/-- The indices of the axis. -/
theorem axis_bound (i : Fin 3) : |u i| ≤ 2 := by
  have single : ∀ j, (u = Pi.single j 1 ∨ u = -Pi.single j 1) → |u i| ≤ 2 := by
    rintro j (rfl | rfl)
    · fin_cases i <;> fin_cases j <;> simp
    · fin_cases i <;> fin_cases j <;> simp
  by_cases hbig : ∃ j, 2 ≤ |h j|
  · obtain ⟨j, hj⟩ := hbig
    exact single j (axis_of_two hl hd hn hu j hj)
  push Not at hbig
  have h0 := abs_lt.1 (hbig 0)
  have h1 := abs_lt.1 (hbig 1)
  have h2 := abs_lt.1 (hbig 2)
  have hab := hn.ab
  have hbc := hn.bc
  have img : ∀ j, (h j = 1 ∨ h j = -1) → len2 c (Pi.single j 1 - h j • u) = dot (c j) (c j) := by
    intro j hj
    rw [len2_shift hl]
    have : (h j : ℝ) * h j = 1 := by rcases hj with e | e <;> rw [e] <;> norm_num
    have t2 : (h j : ℝ) ^ 2 = 1 := by rw [sq, this]
    rw [this, t2]
    ring
  have back : ∀ j, (h j = 1 ∨ h j = -1) → (∀ k, |((Pi.single j 1 : Fin 3 → ℤ) - h j • u) k| ≤ 1) → |u i| ≤ 2 := by
    intro j hj hk
    have := hk i
    have s : |(Pi.single j 1 : Fin 3 → ℤ) i| ≤ 1 := by
      fin_cases i <;> fin_cases j <;> simp
    have hj' : |h j * u i| = |u i| := by rcases hj with e | e <;> rw [e] <;> simp
    have e : ((Pi.single j 1 : Fin 3 → ℤ) - h j • u) i = (Pi.single j 1 : Fin 3 → ℤ) i - h j * u i := by simp
    rw [e] at this
    rw [← hj']
    rw [abs_le] at *
    omega
  simp only [intDot] at hi
  by_cases z0 : h 0 = 0
  · by_cases z1 : h 1 = 0
    · have o2 : h 2 = 1 ∨ h 2 = -1 := by
        by_contra hc
        have : h 2 = 0 := by omega
        rw [z0, z1, this] at hi
        omega
      refine back 2 o2 (small_third hd hn ?_ (img 2 o2).le)
      simp
      rcases o2 with e | e <;> rw [z0, z1, e] at hi <;> rw [e] <;> omega
    · have o1 : h 1 = 1 ∨ h 1 = -1 := by omega
      by_cases x2 : u 2 = 0
      · refine back 1 o1 (small_second hd hn ?_ ?_ (img 1 o1).le)
        · simp [x2]
        · simp
          rcases o1 with e | e <;> rw [z0, x2, e] at hi <;> rw [e] <;> omega
      · refine back 1 o1 (small_third hd hn ?_ ((img 1 o1).le.trans hbc))
        simp
        rcases o1 with e | e <;> rw [e] <;> omega
  · have o0 : h 0 = 1 ∨ h 0 = -1 := by omega
    by_cases x2 : u 2 = 0
    · by_cases x1 : u 1 = 0
      · have : |u 0| = 2 := by
          rw [x1, x2] at hi
          rcases o0 with e | e <;> rw [e] at hi
          · rw [show u 0 = 2 by omega]; rfl
          · rw [show u 0 = -2 by omega]; rfl
        fin_cases i
        · exact this.le
        · simp [x1]
        · simp [x2]
      · refine back 0 o0 (small_second hd hn ?_ ?_ ((img 0 o0).le.trans hab))
        · simp [x2]
        · simp
          rcases o0 with e | e <;> rw [e] <;> omega
    · refine back 0 o0 (small_third hd hn ?_ ((img 0 o0).le.trans (hab.trans hbc)))
      simp
      rcases o0 with e | e <;> rw [e] <;> omega

end

end Wulfric
