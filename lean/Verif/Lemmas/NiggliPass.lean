import Verif.Lemmas.NiggliTerm
import Mathlib.Order.WellFoundedSet
import Mathlib.Order.Interval.Finset.Fin
import Mathlib.Order.Interval.Finset.Basic
import Mathlib.Order.Interval.Set.Infinite
import Mathlib.Algebra.Order.Archimedean.Basic

/-! A whole pass of the exact loop; termination of the exact loop for every cell. -/

namespace Wulfric
open Matrix Spec

set_option linter.unusedSectionVars false

variable {K : Type*} [Field K] [LinearOrder K] [IsStrictOrderedRing K]

theorem not_c1_step1 (s : NState K) : ¬ c1 (niggliStep1 0 s).2 := by
  by_cases h : c1 s
  · have hc := (step1_fst s).2 h
    unfold niggliStep1 at *; dsimp only at *; rw [ite_fst] at hc; rw [if_pos hc]
    unfold c1; dsimp only
    rintro (h1 | ⟨h1, h2⟩) <;> rcases h with h | ⟨h, h'⟩
    · exact lt_asymm h h1
    · rw [h] at h1; exact lt_irrefl _ h1
    · rw [h1] at h; exact lt_irrefl _ h
    · exact lt_asymm h' h2
  · have : (niggliStep1 0 s).1 = false := by
      rw [← Bool.not_eq_true]; exact fun hc => h ((step1_fst s).1 hc)
    rwa [step1_false 0 s this]

theorem SameKey.c1 {s s' : NState K} (h : SameKey s s') : c1 s' ↔ c1 s := by
  obtain ⟨h1, h2, h3, h4, h5, h6⟩ := h
  unfold Wulfric.c1; rw [h1, h2, h4, h5]

theorem SameKey.c2 {s s' : NState K} (h : SameKey s s') : c2 s' ↔ c2 s := by
  obtain ⟨h1, h2, h3, h4, h5, h6⟩ := h
  unfold Wulfric.c2; rw [h2, h3, h5, h6]

/-- The state in which steps 5-8 are tested. -/
def mid (s : NState K) : NState K :=
  (niggliStep4 0 0 (niggliStep3 0 (niggliStep1 0 s).2).2).2

theorem mid_key (s : NState K) : SameKey (niggliStep1 0 s).2 (mid s) :=
  (step3_key _ _).trans (step4_key _ _ _)

/-- Case description of an exact pass. -/
theorem pass_cases (s : NState K) :
    (c2 (niggliStep1 0 s).2 ∧ niggliPass 0 0 s = (true, (niggliStep2 0 (niggliStep1 0 s).2).2)) ∨
    (¬ c2 (niggliStep1 0 s).2 ∧
      ((c5 (mid s) ∧ niggliPass 0 0 s = (true, (niggliStep5 0 (mid s)).2)) ∨
       (¬ c5 (mid s) ∧ c6 (mid s) ∧ niggliPass 0 0 s = (true, (niggliStep6 0 (mid s)).2)) ∨
       (¬ c5 (mid s) ∧ ¬ c6 (mid s) ∧ c7 (mid s) ∧
          niggliPass 0 0 s = (true, (niggliStep7 0 (mid s)).2)) ∨
       (¬ c5 (mid s) ∧ ¬ c6 (mid s) ∧ ¬ c7 (mid s) ∧ c8 (mid s) ∧
          niggliPass 0 0 s = (true, (niggliStep8 0 (mid s)).2)) ∨
       (¬ c5 (mid s) ∧ ¬ c6 (mid s) ∧ ¬ c7 (mid s) ∧ ¬ c8 (mid s) ∧
          niggliPass 0 0 s = (false, mid s)))) := by
  have f : ∀ {b : Bool} {p : Prop}, (b = true ↔ p) → ¬ p → b = false := by
    intro b p h hp; rw [← Bool.not_eq_true]; exact fun hb => hp (h.1 hb)
  unfold niggliPass; dsimp only
  by_cases h2 : c2 (niggliStep1 0 s).2
  · left; refine ⟨h2, ?_⟩; rw [if_pos ((step2_fst _).2 h2)]
  right; refine ⟨h2, ?_⟩
  have b2 := f (step2_fst _) h2
  have e2 := step2_false _ _ b2
  rw [b2, e2]
  simp only [Bool.false_eq_true, if_false]
  change _ ∨ _
  rw [show (niggliStep4 0 0 (niggliStep3 0 (niggliStep1 0 s).2).2).2 = mid s from rfl]
  by_cases h5 : c5 (mid s)
  · left; refine ⟨h5, ?_⟩; rw [if_pos ((step5_fst _).2 h5)]
  right
  have b5 := f (step5_fst _) h5
  have e5 := step5_false _ _ b5
  rw [b5, e5]
  simp only [Bool.false_eq_true, if_false]
  by_cases h6 : c6 (mid s)
  · left; refine ⟨h5, h6, ?_⟩; rw [if_pos ((step6_fst _).2 h6)]
  right
  have b6 := f (step6_fst _) h6
  have e6 := step6_false _ _ b6
  rw [b6, e6]
  simp only [Bool.false_eq_true, if_false]
  by_cases h7 : c7 (mid s)
  · left; refine ⟨h5, h6, h7, ?_⟩; rw [if_pos ((step7_fst _).2 h7)]
  right
  have b7 := f (step7_fst _) h7
  have e7 := step7_false _ _ b7
  rw [b7, e7]
  simp only [Bool.false_eq_true, if_false]
  by_cases h8 : c8 (mid s)
  · left; refine ⟨h5, h6, h7, h8, ?_⟩; rw [if_pos ((step8_fst _).2 h8)]
  right
  have b8 := f (step8_fst _) h8
  have e8 := step8_false _ _ b8
  rw [b8, e8]
  exact ⟨h5, h6, h7, h8, by simp⟩

theorem LexLt.after_step1 {s s' : NState K} (h : LexLt s' (niggliStep1 0 s).2) : LexLt s' s := by
  by_cases hc : c1 s
  · exact h.trans (step1_lex hc)
  · have : (niggliStep1 0 s).1 = false := by
      rw [← Bool.not_eq_true]; exact fun hc' => hc ((step1_fst s).1 hc')
    rwa [step1_false 0 s this] at h

variable {cell : Cell K} {s : NState K}

theorem good_mid (h : Good cell s) : Good cell (mid s) :=
  good_step4 (good_step3 (good_step1 0 h))

theorem typed_mid (s : NState K) : Typed (mid s) := typed_34 _

/-- The invariant is kept by every pass. -/
theorem good_pass (hd : cell.det ≠ 0) (h : Good cell s) : Good cell (niggliPass 0 0 s).2 := by
  rcases pass_cases s with ⟨_, e⟩ | ⟨_, ⟨_, e⟩ | ⟨_, _, e⟩ | ⟨_, _, _, e⟩ | ⟨_, _, _, _, e⟩ |
    ⟨_, _, _, _, e⟩⟩ <;> rw [e]
  · exact good_step2 0 (good_step1 0 h)
  · exact good_step5 hd (good_mid h)
  · exact good_step6 hd (good_mid h)
  · exact good_step7 hd (good_mid h)
  · exact good_step8 (good_mid h)
  · exact good_mid h

/-- A pass that ends with `continue` decreases the measure. -/
theorem pass_lex (hd : cell.det ≠ 0) (h : Good cell s) (hc : (niggliPass 0 0 s).1 = true) :
    LexLt (niggliPass 0 0 s).2 s := by
  have hg := good_mid h
  have ht := typed_mid s
  have k : ∀ {s'}, LexLt s' (mid s) → LexLt s' s := fun h =>
    (LexLt.of_sameKey_left (mid_key s) h).after_step1
  rcases pass_cases s with ⟨c, e⟩ | ⟨_, ⟨c, e⟩ | ⟨_, c, e⟩ | ⟨_, _, c, e⟩ | ⟨_, _, _, c, e⟩ |
    ⟨_, _, _, _, e⟩⟩ <;> rw [e] at hc ⊢
  · exact (step2_lex c).after_step1
  · exact k (step5_lex (hg.B_pos hd) ht c)
  · exact k (step6_lex (hg.A_pos hd) ht c)
  · exact k (step7_lex (hg.A_pos hd) ht c)
  · exact k (step8_lex (hg.A_pos hd) (hg.B_pos hd) ht c)
  · exact absurd hc (by simp)

/-- A pass that ends with `break` leaves numbers satisfying the Niggli conditions. -/
theorem pass_exit (hd : cell.det ≠ 0) (h : Good cell s) (hc : (niggliPass 0 0 s).1 = false) :
    let r := (niggliPass 0 0 s).2
    NiggliNumbers r.A r.B r.C r.xi r.eta r.zeta := by
  have hg := good_mid h
  have hA := hg.A_pos hd
  have hB := hg.B_pos hd
  have ht := typed_mid s
  rcases pass_cases s with ⟨c, e⟩ | ⟨n2, ⟨c, e⟩ | ⟨_, c, e⟩ | ⟨_, _, c, e⟩ | ⟨_, _, _, c, e⟩ |
    ⟨n5, n6, n7, n8, e⟩⟩ <;> rw [e] at hc ⊢
  · exact absurd hc (by simp)
  · exact absurd hc (by simp)
  · exact absurd hc (by simp)
  · exact absurd hc (by simp)
  · exact absurd hc (by simp)
  dsimp only
  have n1 : ¬ c1 (mid s) := by rw [(mid_key s).c1]; exact not_c1_step1 s
  have n2 : ¬ c2 (mid s) := by rw [(mid_key s).c2]; exact n2
  generalize mid s = r at *
  unfold c1 at n1; unfold c2 at n2; unfold c5 at n5; unfold c6 at n6; unfold c7 at n7
  unfold c8 at n8
  push Not at n1 n2 n5 n6 n7 n8
  refine ⟨n1.1, n2.1, n1.2, n2.2, ht, n5.1, n6.1, n7.1, n8.1, n5.2.1, n6.2.1, n7.2.1, ?_, ?_, ?_,
    n8.2⟩
  · intro hx
    have := n5.2.2 hx
    rcases ht with ht | ht
    · linarith [ht.1]
    · exact le_antisymm ht.2.2 this
  · intro hx
    have := n6.2.2 hx
    rcases ht with ht | ht
    · linarith [ht.2.1]
    · exact le_antisymm ht.2.2 this
  · intro hx
    have := n7.2.2 hx
    rcases ht with ht | ht
    · linarith [ht.2.2]
    · exact le_antisymm ht.2.1 this

/-! ### Termination -/

theorem LexLt.irrefl (s : NState K) : ¬ LexLt s s := by
  unfold LexLt; simp

theorem LexLt.sum_le {s s' : NState K} (h : LexLt s' s) :
    s'.A + s'.B + s'.C ≤ s.A + s.B + s.C := by
  rcases h with h | ⟨h, _⟩
  · exact h.le
  · exact h.le

/-- The state described by a transformation matrix. -/
def stateOf (cell : Cell K) (T : Matrix (Fin 3) (Fin 3) ℤ) : NState K where
  A := dot (cur cell T 0) (cur cell T 0)
  B := dot (cur cell T 1) (cur cell T 1)
  C := dot (cur cell T 2) (cur cell T 2)
  xi := 2 * dot (cur cell T 1) (cur cell T 2)
  eta := 2 * dot (cur cell T 0) (cur cell T 2)
  zeta := 2 * dot (cur cell T 0) (cur cell T 1)
  T := T

theorem Tracks.eq_stateOf (h : Tracks cell s) : s = stateOf cell s.T := by
  obtain ⟨⟨A, B, C, xi, eta, zeta⟩, T⟩ := s
  obtain ⟨h1, h2, h3, h4, h5, h6⟩ := h
  dsimp only at *
  unfold stateOf
  rw [h1, h2, h3, h4, h5, h6]

theorem comp_le (v : Fin 3 → K) (S : K) (h : dot v v ≤ S) (k : Fin 3) : |v k| ≤ 1 + S := by
  have h0 := mul_self_nonneg (v 0)
  have h1 := mul_self_nonneg (v 1)
  have h2 := mul_self_nonneg (v 2)
  unfold dot at h
  have hk : v k * v k ≤ S := by fin_cases k <;> dsimp <;> linarith
  rw [abs_le]
  constructor <;> nlinarith [mul_self_nonneg (v k + 1), mul_self_nonneg (v k - 1)]

theorem T_eq (hd : cell.det ≠ 0) (T : Matrix (Fin 3) (Fin 3) ℤ) :
    T.transpose.map (Int.cast : ℤ → K) = cur cell T * cell⁻¹ := by
  unfold cur
  rw [Matrix.mul_assoc, mul_nonsing_inv _ (Ne.isUnit hd), Matrix.mul_one]

theorem finite_bounded [Archimedean K] (hd : cell.det ≠ 0) (S : K) :
    {T : Matrix (Fin 3) (Fin 3) ℤ | (stateOf cell T).A + (stateOf cell T).B + (stateOf cell T).C ≤ S
      }.Finite := by
  obtain ⟨N, hN⟩ := exists_nat_gt ((1 + S) * ∑ i, ∑ j, |cell⁻¹ i j|)
  have hb : ∀ T : Matrix (Fin 3) (Fin 3) ℤ,
      (stateOf cell T).A + (stateOf cell T).B + (stateOf cell T).C ≤ S → ∀ i j, |T i j| ≤ N := by
    intro T hT i j
    have hS : ∀ l, dot (cur cell T l) (cur cell T l) ≤ S := by
      intro l
      have h0 := dot_self_nonneg (cur cell T 0)
      have h1 := dot_self_nonneg (cur cell T 1)
      have h2 := dot_self_nonneg (cur cell T 2)
      simp only [stateOf] at hT
      fin_cases l <;> dsimp <;> linarith
    have hS0 : 0 ≤ 1 + S := by
      have := dot_self_nonneg (cur cell T 0)
      have := hS 0
      linarith
    have e := congrFun (congrFun (T_eq hd T) j) i
    rw [Matrix.map_apply, Matrix.transpose_apply, Matrix.mul_apply] at e
    have : |(T i j : K)| < N := by
      refine lt_of_le_of_lt ?_ hN
      rw [e]
      refine (Finset.abs_sum_le_sum_abs _ _).trans ?_
      rw [Finset.mul_sum]
      refine Finset.sum_le_sum (fun k _ => ?_)
      rw [abs_mul]
      refine mul_le_mul (comp_le _ _ (hS j) k) ?_ (abs_nonneg _) hS0
      exact Finset.single_le_sum (f := fun j => |cell⁻¹ k j|) (fun _ _ => abs_nonneg _)
        (Finset.mem_univ i)
    have : |T i j| < N := by exact_mod_cast this
    exact this.le
  have hf : (Set.pi Set.univ fun _ : Fin 3 => Set.pi Set.univ fun _ : Fin 3 =>
      Set.Icc (-(N : ℤ)) N).Finite :=
    Set.Finite.pi fun _ => Set.Finite.pi fun _ => Set.finite_Icc _ _
  refine hf.subset ?_
  intro T hT i _ j _
  exact abs_le.1 (hb T hT i j)

/-- The exact loop ends from every good state. -/
theorem loop_terminates [Archimedean K] (hd : cell.det ≠ 0) (s : NState K) (h : Good cell s) :
    ∃ N r, niggliLoop 0 0 N s = .ok r := by
  set S := s.A + s.B + s.C with hS
  let r : Matrix (Fin 3) (Fin 3) ℤ → Matrix (Fin 3) (Fin 3) ℤ → Prop :=
    fun T' T => LexLt (stateOf cell T') (stateOf cell T)
  have : IsStrictOrder _ r :=
    { irrefl := fun T => LexLt.irrefl _, trans := fun _ _ _ h h' => h.trans h' }
  have wf := (finite_bounded hd S).wellFoundedOn (r := r)
  have main : ∀ T, T ∈ {T : Matrix (Fin 3) (Fin 3) ℤ |
      (stateOf cell T).A + (stateOf cell T).B + (stateOf cell T).C ≤ S} →
      ∀ s : NState K, Good cell s → s.T = T → ∃ N r, niggliLoop 0 0 N s = .ok r := by
    intro T hT
    refine wf.induction (P := fun T => ∀ s : NState K, Good cell s → s.T = T →
      ∃ N r, niggliLoop 0 0 N s = .ok r) hT ?_
    intro T hT ih s hs hsT
    by_cases hc : (niggliPass 0 0 s).1 = true
    · have hl := pass_lex hd hs hc
      have hg := good_pass hd hs
      have e1 := hg.tr.eq_stateOf
      have e0 := hs.tr.eq_stateOf
      have hl' : LexLt (stateOf cell (niggliPass 0 0 s).2.T) (stateOf cell T) := by
        rw [← e1, ← hsT, ← e0]; exact hl
      obtain ⟨N, q, hq⟩ := ih _ (le_trans hl'.sum_le hT) hl'
        (niggliPass 0 0 s).2 hg rfl
      exact ⟨N + 1, q, by unfold niggliLoop; simp only [hc, if_true]; exact hq⟩
    · exact ⟨1, (niggliPass 0 0 s).2, by unfold niggliLoop; simp only [hc]; rfl⟩
  refine main s.T ?_ s h rfl
  change _ ≤ _
  rw [← h.tr.eq_stateOf]

/-- What the exact loop returns. -/
theorem loop_result (hd : cell.det ≠ 0) (fuel : ℕ) : ∀ (s r : NState K), Good cell s →
    niggliLoop 0 0 fuel s = .ok r →
    Good cell r ∧ NiggliNumbers r.A r.B r.C r.xi r.eta r.zeta := by
  induction fuel with
  | zero => intro s r _ h; simp [niggliLoop] at h
  | succ n ih =>
    intro s r hs h
    unfold niggliLoop at h; dsimp only at h
    by_cases hc : (niggliPass 0 0 s).1 = true
    · rw [if_pos hc] at h; exact ih _ _ (good_pass hd hs) h
    · rw [if_neg hc] at h
      cases h
      exact ⟨good_pass hd hs, pass_exit hd hs (by simpa using hc)⟩

/-- More fuel does not change a successful result. -/
theorem loop_mono (eps e4 : K) (n : ℕ) : ∀ (m : ℕ) (s r : NState K), n ≤ m →
    niggliLoop eps e4 n s = .ok r → niggliLoop eps e4 m s = .ok r := by
  induction n with
  | zero => intro m s r _ h; simp [niggliLoop] at h
  | succ n ih =>
    intro m s r hm h
    obtain ⟨m, rfl⟩ : ∃ k, m = k + 1 := ⟨m - 1, by omega⟩
    unfold niggliLoop at h ⊢; dsimp only at h ⊢
    by_cases hc : (niggliPass eps e4 s).1 = true
    · rw [if_pos hc] at h ⊢; exact ih _ _ _ (by omega) h
    · rw [if_neg hc] at h ⊢; exact h

theorem good_init (cell : Cell K) : Good cell (niggliInit cell) :=
  ⟨tracks_init cell, by simp [niggliInit]⟩

end Wulfric
