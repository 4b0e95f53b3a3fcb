import Verif.Lemmas.NiggliExact

/-! Decreasing measure and exit conditions of the exact loop. -/

namespace Wulfric
open Matrix Spec

set_option linter.unusedSectionVars false
set_option linter.unusedSimpArgs false

variable {K : Type*} [Field K] [LinearOrder K] [IsStrictOrderedRing K]

theorem dot_self_nonneg (v : Fin 3 → K) : 0 ≤ dot v v := by
  unfold dot; nlinarith [mul_self_nonneg (v 0), mul_self_nonneg (v 1), mul_self_nonneg (v 2)]

theorem dot_self_pos {v : Fin 3 → K} (h : v ≠ 0) : 0 < dot v v := by
  rcases (dot_self_nonneg v).lt_or_eq with h' | h'
  · exact h'
  · exfalso; apply h
    have h0 := mul_self_nonneg (v 0)
    have h1 := mul_self_nonneg (v 1)
    have h2 := mul_self_nonneg (v 2)
    unfold dot at h'
    have e0 : v 0 = 0 := mul_self_eq_zero.1 (by linarith)
    have e1 : v 1 = 0 := mul_self_eq_zero.1 (by linarith)
    have e2 : v 2 = 0 := mul_self_eq_zero.1 (by linarith)
    ext i; fin_cases i <;> assumption

theorem abs_two_dot_le (u v : Fin 3 → K) : |2 * dot u v| ≤ dot u u + dot v v := by
  rw [abs_le]
  have h1 := dot_self_nonneg (fun i => u i + v i)
  have h2 := dot_self_nonneg (fun i => u i - v i)
  unfold dot at *
  constructor <;> nlinarith

theorem det_cur (cell : Cell K) (T : Matrix (Fin 3) (Fin 3) ℤ) :
    (cur cell T).det = T.det * cell.det := by
  unfold cur; rw [det_mul, det_map_intCast, det_transpose]

theorem row_ne_zero {c : Cell K} (h : c.det ≠ 0) (i : Fin 3) : c i ≠ 0 := by
  intro h0; exact h (det_eq_zero_of_row_eq_zero i (fun j => congrFun h0 j))

section good
variable {cell : Cell K} {s : NState K}

theorem Good.curdet (hd : cell.det ≠ 0) (h : Good cell s) : (cur cell s.T).det ≠ 0 := by
  rw [det_cur, h.det]; simpa using hd

theorem Good.A_pos (hd : cell.det ≠ 0) (h : Good cell s) : 0 < s.A := by
  rw [h.tr.A]; exact dot_self_pos (row_ne_zero (h.curdet hd) 0)
theorem Good.B_pos (hd : cell.det ≠ 0) (h : Good cell s) : 0 < s.B := by
  rw [h.tr.B]; exact dot_self_pos (row_ne_zero (h.curdet hd) 1)
theorem Good.C_pos (hd : cell.det ≠ 0) (h : Good cell s) : 0 < s.C := by
  rw [h.tr.C]; exact dot_self_pos (row_ne_zero (h.curdet hd) 2)

theorem Good.zeta_le (h : Good cell s) : |s.zeta| ≤ s.A + s.B := by
  rw [h.tr.zeta, h.tr.A, h.tr.B]; exact abs_two_dot_le _ _
theorem Good.eta_le (h : Good cell s) : |s.eta| ≤ s.A + s.C := by
  rw [h.tr.eta, h.tr.A, h.tr.C]; exact abs_two_dot_le _ _
theorem Good.xi_le (h : Good cell s) : |s.xi| ≤ s.B + s.C := by
  rw [h.tr.xi, h.tr.B, h.tr.C]; exact abs_two_dot_le _ _

end good

/-- Conditions tested by the steps, with exact comparisons. -/
def c1 (s : NState K) : Prop := s.B < s.A ∨ (s.A = s.B ∧ |s.eta| < |s.xi|)
def c2 (s : NState K) : Prop := s.C < s.B ∨ (s.B = s.C ∧ |s.zeta| < |s.eta|)
def c5 (s : NState K) : Prop :=
  s.B < |s.xi| ∨ (s.xi = s.B ∧ 2 * s.eta < s.zeta) ∨ (s.xi = -s.B ∧ s.zeta < 0)
def c6 (s : NState K) : Prop :=
  s.A < |s.eta| ∨ (s.eta = s.A ∧ 2 * s.xi < s.zeta) ∨ (s.eta = -s.A ∧ s.zeta < 0)
def c7 (s : NState K) : Prop :=
  s.A < |s.zeta| ∨ (s.zeta = s.A ∧ 2 * s.xi < s.eta) ∨ (s.zeta = -s.A ∧ s.eta < 0)
def c8 (s : NState K) : Prop :=
  s.xi + s.eta + s.zeta + s.A + s.B < 0 ∨
    (s.xi + s.eta + s.zeta + s.A + s.B = 0 ∧ 0 < 2 * (s.A + s.eta) + s.zeta)

theorem cwt_eq0 (x y : K) : cwt x .eq y 0 = true ↔ x = y := by
  rw [cwt_eq, sub_zero, sub_zero, not_lt, not_lt]
  constructor
  · rintro ⟨h1, h2⟩; exact le_antisymm h2 h1
  · rintro rfl; exact ⟨le_rfl, le_rfl⟩
theorem cwt_lt0 (x y : K) : cwt x .lt y 0 = true ↔ x < y := by rw [cwt_lt, sub_zero]
theorem cwt_gt0 (x y : K) : cwt x .gt y 0 = true ↔ y < x := by rw [cwt_gt, sub_zero]

theorem ite_fst {α : Type*} (c : Bool) (x y : α) :
    (if c = true then (true, x) else (false, y)).1 = true ↔ c = true := by
  cases c <;> simp

theorem step1_fst (s : NState K) : (niggliStep1 0 s).1 = true ↔ c1 s := by
  unfold niggliStep1 c1; dsimp only
  rw [ite_fst]
  simp only [Bool.or_eq_true, Bool.and_eq_true, cwt_gt0, cwt_lt0, cwt_eq0, or_assoc]
theorem step2_fst (s : NState K) : (niggliStep2 0 s).1 = true ↔ c2 s := by
  unfold niggliStep2 c2; dsimp only
  rw [ite_fst]
  simp only [Bool.or_eq_true, Bool.and_eq_true, cwt_gt0, cwt_lt0, cwt_eq0, or_assoc]
theorem step5_fst (s : NState K) : (niggliStep5 0 s).1 = true ↔ c5 s := by
  unfold niggliStep5 c5; dsimp only
  rw [ite_fst]
  simp only [Bool.or_eq_true, Bool.and_eq_true, cwt_gt0, cwt_lt0, cwt_eq0, or_assoc]
theorem step6_fst (s : NState K) : (niggliStep6 0 s).1 = true ↔ c6 s := by
  unfold niggliStep6 c6; dsimp only
  rw [ite_fst]
  simp only [Bool.or_eq_true, Bool.and_eq_true, cwt_gt0, cwt_lt0, cwt_eq0, or_assoc]
theorem step7_fst (s : NState K) : (niggliStep7 0 s).1 = true ↔ c7 s := by
  unfold niggliStep7 c7; dsimp only
  rw [ite_fst]
  simp only [Bool.or_eq_true, Bool.and_eq_true, cwt_gt0, cwt_lt0, cwt_eq0, or_assoc]
theorem step8_fst (s : NState K) : (niggliStep8 0 s).1 = true ↔ c8 s := by
  unfold niggliStep8 c8; dsimp only
  rw [ite_fst]
  simp only [Bool.or_eq_true, Bool.and_eq_true, cwt_gt0, cwt_lt0, cwt_eq0, or_assoc]

theorem ite_false_snd {α : Type*} (c : Bool) (x y : α)
    (h : (if c = true then (true, x) else (false, y)).1 = false) :
    (if c = true then (true, x) else (false, y)).2 = y := by
  cases c <;> simp_all

theorem step1_false (e : K) (s : NState K) (h : (niggliStep1 e s).1 = false) :
    (niggliStep1 e s).2 = s := by
  unfold niggliStep1 at *; exact ite_false_snd _ _ _ h
theorem step2_false (e : K) (s : NState K) (h : (niggliStep2 e s).1 = false) :
    (niggliStep2 e s).2 = s := by
  unfold niggliStep2 at *; exact ite_false_snd _ _ _ h
theorem step5_false (e : K) (s : NState K) (h : (niggliStep5 e s).1 = false) :
    (niggliStep5 e s).2 = s := by
  unfold niggliStep5 at *; exact ite_false_snd _ _ _ h
theorem step6_false (e : K) (s : NState K) (h : (niggliStep6 e s).1 = false) :
    (niggliStep6 e s).2 = s := by
  unfold niggliStep6 at *; exact ite_false_snd _ _ _ h
theorem step7_false (e : K) (s : NState K) (h : (niggliStep7 e s).1 = false) :
    (niggliStep7 e s).2 = s := by
  unfold niggliStep7 at *; exact ite_false_snd _ _ _ h
theorem step8_false (e : K) (s : NState K) (h : (niggliStep8 e s).1 = false) :
    (niggliStep8 e s).2 = s := by
  unfold niggliStep8 at *; exact ite_false_snd _ _ _ h

/-- Sign pattern after steps 3 and 4. -/
def Typed (s : NState K) : Prop :=
  (0 < s.xi ∧ 0 < s.eta ∧ 0 < s.zeta) ∨ (s.xi ≤ 0 ∧ s.eta ≤ 0 ∧ s.zeta ≤ 0)

/-- The quantities compared by the measure. -/
def SameKey (s s' : NState K) : Prop :=
  s'.A = s.A ∧ s'.B = s.B ∧ s'.C = s.C ∧ |s'.xi| = |s.xi| ∧ |s'.eta| = |s.eta| ∧ |s'.zeta| = |s.zeta|

/-- Lexicographic decrease of `(A+B+C, A, B, -|zeta|, -|eta|, -|xi|)`. -/
def LexLt (s' s : NState K) : Prop :=
  s'.A + s'.B + s'.C < s.A + s.B + s.C ∨ (s'.A + s'.B + s'.C = s.A + s.B + s.C ∧
   (s'.A < s.A ∨ (s'.A = s.A ∧ (s'.B < s.B ∨ (s'.B = s.B ∧
     (|s.zeta| < |s'.zeta| ∨ (|s'.zeta| = |s.zeta| ∧
       (|s.eta| < |s'.eta| ∨ (|s'.eta| = |s.eta| ∧ |s.xi| < |s'.xi|)))))))))

theorem LexLt.of_sameKey_left {s s1 s2 : NState K} (h : SameKey s s1) (h' : LexLt s2 s1) :
    LexLt s2 s := by
  obtain ⟨h1, h2, h3, h4, h5, h6⟩ := h
  unfold LexLt at *
  rwa [h1, h2, h3, h4, h5, h6] at h'

theorem LexLt.trans {s s1 s2 : NState K} (h : LexLt s2 s1) (h' : LexLt s1 s) : LexLt s2 s := by
  unfold LexLt at *
  rcases h with h | ⟨e, h⟩ <;> rcases h' with h' | ⟨e', h'⟩
  · left; exact h.trans h'
  · left; rwa [← e']
  · left; rwa [e]
  · right; refine ⟨e.trans e', ?_⟩
    clear e e'
    rcases h with h | ⟨e, h⟩ <;> rcases h' with h' | ⟨e', h'⟩
    · left; exact h.trans h'
    · left; rwa [← e']
    · left; rwa [e]
    · right; refine ⟨e.trans e', ?_⟩
      clear e e'
      rcases h with h | ⟨e, h⟩ <;> rcases h' with h' | ⟨e', h'⟩
      · left; exact h.trans h'
      · left; rwa [← e']
      · left; rwa [e]
      · right; refine ⟨e.trans e', ?_⟩
        clear e e'
        rcases h with h | ⟨e, h⟩ <;> rcases h' with h' | ⟨e', h'⟩
        · left; exact h'.trans h
        · left; rwa [← e']
        · left; rwa [e]
        · right; refine ⟨e.trans e', ?_⟩
          clear e e'
          rcases h with h | ⟨e, h⟩ <;> rcases h' with h' | ⟨e', h'⟩
          · left; exact h'.trans h
          · left; rwa [← e']
          · left; rwa [e]
          · right; exact ⟨e.trans e', h'.trans h⟩

theorem SameKey.refl (s : NState K) : SameKey s s := ⟨rfl, rfl, rfl, rfl, rfl, rfl⟩
theorem SameKey.trans {s s1 s2 : NState K} (h : SameKey s s1) (h' : SameKey s1 s2) : SameKey s s2 := by
  obtain ⟨h1, h2, h3, h4, h5, h6⟩ := h
  obtain ⟨k1, k2, k3, k4, k5, k6⟩ := h'
  exact ⟨k1.trans h1, k2.trans h2, k3.trans h3, k4.trans h4, k5.trans h5, k6.trans h6⟩

theorem step1_lex {s : NState K} (h : c1 s) : LexLt (niggliStep1 0 s).2 s := by
  have hc := (step1_fst s).2 h
  unfold niggliStep1 at *; dsimp only at *; rw [ite_fst] at hc; rw [if_pos hc]
  unfold LexLt; dsimp only
  right; refine ⟨by ring, ?_⟩
  rcases h with h | ⟨h, h'⟩
  · left; exact h
  · right; refine ⟨h.symm, Or.inr ⟨h, Or.inr ⟨rfl, Or.inl h'⟩⟩⟩

theorem step2_lex {s : NState K} (h : c2 s) : LexLt (niggliStep2 0 s).2 s := by
  have hc := (step2_fst s).2 h
  unfold niggliStep2 at *; dsimp only at *; rw [ite_fst] at hc; rw [if_pos hc]
  unfold LexLt; dsimp only
  right; refine ⟨by ring, Or.inr ⟨rfl, ?_⟩⟩
  rcases h with h | ⟨h, h'⟩
  · left; exact h
  · right; exact ⟨h.symm, Or.inl h'⟩

theorem step3_key (s : NState K) (e : K) : SameKey s (niggliStep3 e s).2 := by
  unfold niggliStep3; dsimp only; split
  · simp [SameKey]
  · exact SameKey.refl s

theorem step4_key (s : NState K) (e e' : K) : SameKey s (niggliStep4 e e' s).2 := by
  unfold niggliStep4; dsimp only; split
  · simp [SameKey]
  · exact SameKey.refl s

theorem typed_34 (s : NState K) : Typed (niggliStep4 0 0 (niggliStep3 0 s).2).2 := by
  by_cases h : 0 < s.xi * s.eta * s.zeta
  · have e3 : (niggliStep3 0 s).2.xi = |s.xi| ∧ (niggliStep3 0 s).2.eta = |s.eta| ∧
        (niggliStep3 0 s).2.zeta = |s.zeta| := by
      unfold niggliStep3; simp [h]
    obtain ⟨e1, e2, e3⟩ := e3
    have hx : s.xi ≠ 0 := by rintro h0; simp [h0] at h
    have hy : s.eta ≠ 0 := by rintro h0; simp [h0] at h
    have hz : s.zeta ≠ 0 := by rintro h0; simp [h0] at h
    generalize (niggliStep3 0 s).2 = t at *
    have hp : 0 < t.xi * t.eta * t.zeta := by rw [e1, e2, e3]; positivity
    unfold niggliStep4; dsimp only
    rw [if_neg (by simp [hp])]
    left; rw [e1, e2, e3]; exact ⟨abs_pos.2 hx, abs_pos.2 hy, abs_pos.2 hz⟩
  · have e3 : (niggliStep3 0 s).2 = s := by unfold niggliStep3; simp [h]
    rw [e3]
    right
    unfold niggliStep4; dsimp only
    rw [if_pos (by simpa using not_lt.1 h)]
    simp

section lex58
variable {cell : Cell K} {s : NState K}

theorem c5_ne (hB : 0 < s.B) (h : c5 s) : s.xi ≠ 0 := by
  rintro h0
  rcases h with h | ⟨h, _⟩ | ⟨h, _⟩
  · rw [h0, abs_zero] at h; exact absurd h hB.le.not_gt
  · linarith
  · linarith
theorem c6_ne (hA : 0 < s.A) (h : c6 s) : s.eta ≠ 0 := by
  rintro h0
  rcases h with h | ⟨h, _⟩ | ⟨h, _⟩
  · rw [h0, abs_zero] at h; exact absurd h hA.le.not_gt
  · linarith
  · linarith
theorem c7_ne (hA : 0 < s.A) (h : c7 s) : s.zeta ≠ 0 := by
  rintro h0
  rcases h with h | ⟨h, _⟩ | ⟨h, _⟩
  · rw [h0, abs_zero] at h; exact absurd h hA.le.not_gt
  · linarith
  · linarith

theorem npSign_pos {x : K} (h : 0 < x) : npSign x = 1 := by simp [npSign, h]
theorem npSign_neg {x : K} (h : x < 0) : npSign x = -1 := by simp [npSign, h, not_lt.2 h.le]

theorem step5_lex (hB : 0 < s.B) (ht : Typed s) (h : c5 s) : LexLt (niggliStep5 0 s).2 s := by
  have hc := (step5_fst s).2 h
  unfold niggliStep5 at *; dsimp only at *; rw [ite_fst] at hc; rw [if_pos hc]
  unfold LexLt; dsimp only
  rw [mul_npSign]
  rcases h with h | ⟨h, h'⟩ | ⟨h, h'⟩
  · left; linarith
  · have hx : 0 < s.xi := by rw [h]; exact hB
    rw [npSign_pos hx, abs_of_pos hx]
    obtain ⟨_, he, hz⟩ : 0 < s.xi ∧ 0 < s.eta ∧ 0 < s.zeta := by
      rcases ht with ht | ht
      · exact ht
      · exact absurd hx (not_lt.2 ht.1)
    right; refine ⟨by rw [h]; ring, Or.inr ⟨rfl, Or.inr ⟨rfl, Or.inr ⟨rfl, Or.inl ?_⟩⟩⟩⟩
    rw [abs_of_pos he, Int.cast_one, mul_one, abs_of_neg (by linarith)]; linarith
  · have hx : s.xi < 0 := by rw [h]; linarith
    rw [npSign_neg hx, abs_of_neg hx]
    obtain ⟨_, he, hz⟩ : s.xi ≤ 0 ∧ s.eta ≤ 0 ∧ s.zeta ≤ 0 := by
      rcases ht with ht | ht
      · exact absurd hx (not_lt.2 ht.1.le)
      · exact ht
    right; refine ⟨by rw [h]; ring, Or.inr ⟨rfl, Or.inr ⟨rfl, Or.inr ⟨rfl, Or.inl ?_⟩⟩⟩⟩
    rw [abs_of_nonpos he]
    push_cast
    rw [abs_of_neg (by linarith)]; linarith

theorem step6_lex (hA : 0 < s.A) (ht : Typed s) (h : c6 s) : LexLt (niggliStep6 0 s).2 s := by
  have hc := (step6_fst s).2 h
  unfold niggliStep6 at *; dsimp only at *; rw [ite_fst] at hc; rw [if_pos hc]
  unfold LexLt; dsimp only
  rw [mul_npSign]
  rcases h with h | ⟨h, h'⟩ | ⟨h, h'⟩
  · left; linarith
  · have hx : 0 < s.eta := by rw [h]; exact hA
    rw [npSign_pos hx, abs_of_pos hx]
    obtain ⟨he, _, hz⟩ : 0 < s.xi ∧ 0 < s.eta ∧ 0 < s.zeta := by
      rcases ht with ht | ht
      · exact ht
      · exact absurd hx (not_lt.2 ht.2.1)
    right; refine ⟨by rw [h]; ring, Or.inr ⟨rfl, Or.inr ⟨rfl, Or.inr ⟨rfl, Or.inr ⟨?_, ?_⟩⟩⟩⟩⟩
    · push_cast; rw [abs_of_neg (by linarith)]; linarith
    · push_cast; rw [abs_of_pos he, abs_of_neg (by linarith)]; linarith
  · have hx : s.eta < 0 := by rw [h]; linarith
    rw [npSign_neg hx, abs_of_neg hx]
    obtain ⟨he, _, hz⟩ : s.xi ≤ 0 ∧ s.eta ≤ 0 ∧ s.zeta ≤ 0 := by
      rcases ht with ht | ht
      · exact absurd hx (not_lt.2 ht.2.1.le)
      · exact ht
    right; refine ⟨by rw [h]; ring, Or.inr ⟨rfl, Or.inr ⟨rfl, Or.inr ⟨rfl, Or.inr ⟨?_, ?_⟩⟩⟩⟩⟩
    · push_cast; rw [abs_of_pos (by linarith)]; linarith
    · push_cast; rw [abs_of_nonpos he, abs_of_neg (by linarith)]; linarith

theorem step7_lex (hA : 0 < s.A) (ht : Typed s) (h : c7 s) : LexLt (niggliStep7 0 s).2 s := by
  have hc := (step7_fst s).2 h
  unfold niggliStep7 at *; dsimp only at *; rw [ite_fst] at hc; rw [if_pos hc]
  unfold LexLt; dsimp only
  rw [mul_npSign]
  rcases h with h | ⟨h, h'⟩ | ⟨h, h'⟩
  · left; linarith
  · have hx : 0 < s.zeta := by rw [h]; exact hA
    rw [npSign_pos hx, abs_of_pos hx]
    obtain ⟨he, hz, _⟩ : 0 < s.xi ∧ 0 < s.eta ∧ 0 < s.zeta := by
      rcases ht with ht | ht
      · exact ht
      · exact absurd hx (not_lt.2 ht.2.2)
    right; refine ⟨by rw [h]; ring, Or.inr ⟨rfl, Or.inr ⟨by rw [h]; ring, Or.inr ⟨?_, Or.inr ⟨rfl, ?_⟩⟩⟩⟩⟩
    · push_cast; rw [abs_of_neg (by linarith)]; linarith
    · push_cast; rw [abs_of_pos he, abs_of_neg (by linarith)]; linarith
  · have hx : s.zeta < 0 := by rw [h]; linarith
    rw [npSign_neg hx, abs_of_neg hx]
    obtain ⟨he, hz, _⟩ : s.xi ≤ 0 ∧ s.eta ≤ 0 ∧ s.zeta ≤ 0 := by
      rcases ht with ht | ht
      · exact absurd hx (not_lt.2 ht.2.2.le)
      · exact ht
    right; refine ⟨by rw [h]; ring, Or.inr ⟨rfl, Or.inr ⟨by rw [h]; ring, Or.inr ⟨?_, Or.inr ⟨rfl, ?_⟩⟩⟩⟩⟩
    · push_cast; rw [abs_of_pos (by linarith)]; linarith
    · push_cast; rw [abs_of_nonpos he, abs_of_neg (by linarith)]; linarith

theorem step8_lex (hA : 0 < s.A) (hB : 0 < s.B) (ht : Typed s) (h : c8 s) :
    LexLt (niggliStep8 0 s).2 s := by
  have hc := (step8_fst s).2 h
  unfold niggliStep8 at *; dsimp only at *; rw [ite_fst] at hc; rw [if_pos hc]
  unfold LexLt; dsimp only
  rcases h with h | ⟨h, h'⟩
  · left; linarith
  · have he : s.eta ≤ 0 := by
      rcases ht with ht | ht
      · exfalso; linarith [ht.1, ht.2.1, ht.2.2]
      · exact ht.2.1
    right
    refine ⟨by linarith, Or.inr ⟨rfl, Or.inr ⟨rfl, Or.inr ⟨rfl, Or.inl ?_⟩⟩⟩⟩
    rw [abs_of_nonpos he]
    exact lt_of_lt_of_le (by linarith) (le_abs_self _)

theorem good_step5 (hd : cell.det ≠ 0) (h : Good cell s) : Good cell (niggliStep5 0 s).2 := by
  refine ⟨tracks_step5 0 cell s h.tr (fun hc => c5_ne (h.B_pos hd) ((step5_fst s).1 hc)), ?_⟩
  unfold niggliStep5; dsimp only; split
  · rw [det_mul, h.det]; simp [det_fin_three]
  · exact h.det
theorem good_step6 (hd : cell.det ≠ 0) (h : Good cell s) : Good cell (niggliStep6 0 s).2 := by
  refine ⟨tracks_step6 0 cell s h.tr (fun hc => c6_ne (h.A_pos hd) ((step6_fst s).1 hc)), ?_⟩
  unfold niggliStep6; dsimp only; split
  · rw [det_mul, h.det]; simp [det_fin_three]
  · exact h.det
theorem good_step7 (hd : cell.det ≠ 0) (h : Good cell s) : Good cell (niggliStep7 0 s).2 := by
  refine ⟨tracks_step7 0 cell s h.tr (fun hc => c7_ne (h.A_pos hd) ((step7_fst s).1 hc)), ?_⟩
  unfold niggliStep7; dsimp only; split
  · rw [det_mul, h.det]; simp [det_fin_three]
  · exact h.det
theorem good_step8 (h : Good cell s) : Good cell (niggliStep8 0 s).2 := by
  refine ⟨tracks_step8 0 cell s h.tr, ?_⟩
  unfold niggliStep8; dsimp only; split
  · rw [det_mul, h.det]; simp [det_fin_three]
  · exact h.det
end lex58

end Wulfric
