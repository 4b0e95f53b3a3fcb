import Verif.Model.Lepage
import Verif.Spec.Lepage
import Verif.Spec.Geometry
import Verif.Props.C02_Reciprocal
import Verif.Lemmas.Params
import Mathlib.Tactic.Linarith
import Mathlib.Tactic.NormNum
import Mathlib.Tactic.FieldSimp
import Mathlib.Data.List.TakeWhile

/-! # Lemmas on the Le Page algorithm -/

set_option linter.unusedSectionVars false

namespace Wulfric

open Matrix _root_.Spec

/-- Axes in the order of their deviations. -/
abbrev Ordered (l : List LAxis) : Prop := l.Pairwise fun a b => a.delta ≤ b.delta

theorem removeWorstRev_eq (a : LAxis) (l : List LAxis)
    (h : (a :: l).Pairwise fun x y => y.delta ≤ x.delta) :
    removeWorstRev (a :: l) = (a :: l).filter fun x => decide (x.delta < a.delta) := by
  induction l generalizing a with
  | nil => simp [removeWorstRev]
  | cons b l ih =>
    rw [List.pairwise_cons] at h
    obtain ⟨h1, h2⟩ := h
    rw [removeWorstRev]
    have hb := h1 b (by simp)
    split_ifs with he
    · rw [ih b h2, List.filter_cons (x := a)]
      simp [he]
    · have hlt : b.delta < a.delta := lt_of_le_of_ne hb (Ne.symm he)
      rw [List.filter_cons (x := a)]
      rw [if_neg (by simp)]
      symm
      rw [List.filter_eq_self]
      intro x hx
      simp only [decide_eq_true_eq]
      rcases List.mem_cons.1 hx with rfl | hx
      · exact hlt
      · exact lt_of_le_of_lt ((List.pairwise_cons.1 h2).1 x hx) hlt

theorem foldl_max_le (l : List LAxis) (m d : ℝ) :
    l.foldl (fun m b => max m b.delta) m ≤ d ↔ m ≤ d ∧ ∀ a ∈ l, a.delta ≤ d := by
  induction l generalizing m with
  | nil => simp
  | cons b l ih =>
    rw [List.foldl_cons, ih, max_le_iff]
    simp only [List.mem_cons, forall_eq_or_imp]
    tauto

theorem worstDelta_le {l : List LAxis} (h : l ≠ []) (d : ℝ) :
    worstDelta l ≤ d ↔ ∀ a ∈ l, a.delta ≤ d := by
  cases l with
  | nil => exact absurd rfl h
  | cons a l => simp [worstDelta, foldl_max_le]

theorem worstDelta_last {l : List LAxis} (h : Ordered l) (a : LAxis) (ha : l.getLast? = some a) :
    worstDelta l = a.delta := by
  have hne : l ≠ [] := by rintro rfl; simp at ha
  have hmem : a ∈ l := List.mem_of_getLast? ha
  apply le_antisymm
  · rw [worstDelta_le hne]
    obtain ⟨i, rfl⟩ : ∃ i, l = i ++ [a] := by
      refine ⟨l.dropLast, ?_⟩
      rw [List.dropLast_append_getLast? a ha]
    intro b hb
    rcases List.mem_append.1 hb with hb | hb
    · exact (List.pairwise_append.1 h).2.2 b hb a (by simp)
    · simp only [List.mem_singleton] at hb; rw [hb]
  · exact (worstDelta_le hne _).1 le_rfl a hmem

theorem removeWorst_eq {l : List LAxis} (h : Ordered l) :
    removeWorst l = l.filter fun x => decide (x.delta < worstDelta l) := by
  unfold removeWorst
  rcases hr : l.reverse with _ | ⟨a, r⟩
  · rw [List.reverse_eq_nil_iff] at hr; subst hr; rfl
  · have hl : l = (a :: r).reverse := by rw [← hr, List.reverse_reverse]
    have hp : (a :: r).Pairwise fun x y => y.delta ≤ x.delta := by
      rw [← hr, List.pairwise_reverse]; exact h
    have hlast : l.getLast? = some a := by
      rw [← List.head?_reverse, hr]; rfl
    rw [removeWorstRev_eq a r hp, worstDelta_last h a hlast, hl, ← List.filter_reverse]

theorem removeWorst_length {l : List LAxis} (h : l ≠ []) :
    (removeWorst l).length < l.length := by
  unfold removeWorst
  rw [List.length_reverse]
  have key : ∀ r : List LAxis, r ≠ [] → (removeWorstRev r).length < r.length := by
    intro r
    induction r with
    | nil => intro h; exact absurd rfl h
    | cons a r ih =>
      intro _
      cases r with
      | nil => simp [removeWorstRev]
      | cons b r =>
        rw [removeWorstRev]
        split_ifs with he
        · exact lt_trans (ih (by simp)) (by simp)
        · simp
  have := key l.reverse (by simpa using h)
  simpa using this

theorem lepageLoop_some (classify : List LAxis → Except Err String) {tol : ℝ} (ht : 0 ≤ tol)
    (fuel : ℕ) (axes : List LAxis) (h : axes.length < fuel) :
    ∃ o, ∀ k, lepageLoop classify tol (fuel + k) axes = some o := by
  induction fuel generalizing axes with
  | zero => simp at h
  | succ n ih =>
    cases hc : classify axes with
    | error e =>
      refine ⟨.error e, fun k => ?_⟩
      rw [show n + 1 + k = (n + k) + 1 by omega, lepageLoop, hc]
    | ok r =>
      by_cases hw : tol < worstDelta axes
      · have hne : axes ≠ [] := by
          rintro rfl
          simp only [worstDelta] at hw
          linarith
        obtain ⟨o, ho⟩ := ih (removeWorst axes) (by have := removeWorst_length hne; omega)
        refine ⟨o.map fun l => r :: l, fun k => ?_⟩
        rw [show n + 1 + k = (n + k) + 1 by omega, lepageLoop, hc]
        simp only [hw, if_true, ho k, Option.map_some]
      · refine ⟨.ok [r], fun k => ?_⟩
        rw [show n + 1 + k = (n + k) + 1 by omega, lepageLoop, hc]
        simp only [hw, if_false]

theorem lepageLoop_last (classify : List LAxis → Except Err String) {tol : ℝ}
    (fuel : ℕ) (axes : List LAxis) (h : Ordered axes) (l : List String)
    (hl : lepageLoop classify tol fuel axes = some (.ok l)) :
    ∃ r, l.getLast? = some r ∧
      classify (axes.filter fun a => decide (a.delta ≤ tol)) = .ok r := by
  induction fuel generalizing axes l with
  | zero => simp [lepageLoop] at hl
  | succ n ih =>
    rw [lepageLoop] at hl
    cases hc : classify axes with
    | error e => rw [hc] at hl; simp at hl
    | ok r =>
      rw [hc] at hl
      simp only at hl
      split_ifs at hl with hw
      · cases hn : lepageLoop classify tol n (removeWorst axes) with
        | none => rw [hn] at hl; simp at hl
        | some o =>
          rw [hn] at hl
          cases o with
          | error e => simp [Except.map] at hl
          | ok l' =>
            simp only [Option.map_some, Except.map, Option.some.injEq, Except.ok.injEq] at hl
            have ho : Ordered (removeWorst axes) := by
              rw [removeWorst_eq h]; exact h.filter _
            obtain ⟨s, hs, hcs⟩ := ih _ ho l' hn
            refine ⟨s, ?_, ?_⟩
            · rw [← hl]
              cases l' with
              | nil => simp at hs
              | cons x l' => rw [List.getLast?_cons_cons]; exact hs
            · rw [← hcs, removeWorst_eq h, List.filter_filter]
              congr 1
              apply List.filter_congr
              intro a _
              rw [Bool.eq_iff_iff]
              simp only [decide_eq_true_eq, Bool.and_eq_true]
              constructor
              · intro ha; exact ⟨ha, lt_of_le_of_lt ha hw⟩
              · exact fun ha => ha.1
      · simp only [Option.some.injEq, Except.ok.injEq] at hl
        refine ⟨r, by rw [← hl]; rfl, ?_⟩
        rw [← hc]
        congr 1
        rw [List.filter_eq_self]
        intro a ha
        have hne : axes ≠ [] := by rintro rfl; simp at ha
        exact decide_eq_true ((worstDelta_le hne tol).1 (not_lt.1 hw) a ha)

theorem lepageLoop_all (classify : List LAxis → Except Err String) {tol : ℝ} (P : String → Prop)
    (hP : ∀ axes r, classify axes = .ok r → P r)
    (fuel : ℕ) (axes : List LAxis) (l : List String)
    (hl : lepageLoop classify tol fuel axes = some (.ok l)) : l ≠ [] ∧ ∀ r ∈ l, P r := by
  induction fuel generalizing axes l with
  | zero => simp [lepageLoop] at hl
  | succ n ih =>
    rw [lepageLoop] at hl
    cases hc : classify axes with
    | error e => rw [hc] at hl; simp at hl
    | ok r =>
      rw [hc] at hl
      simp only at hl
      split_ifs at hl with hw
      · cases hn : lepageLoop classify tol n (removeWorst axes) with
        | none => rw [hn] at hl; simp at hl
        | some o =>
          rw [hn] at hl
          cases o with
          | error e => simp [Except.map] at hl
          | ok l' =>
            simp only [Option.map_some, Except.map, Option.some.injEq, Except.ok.injEq] at hl
            obtain ⟨_, h2⟩ := ih _ l' hn
            rw [← hl]
            refine ⟨by simp, ?_⟩
            intro s hs
            rcases List.mem_cons.1 hs with rfl | hs
            · exact hP _ _ hc
            · exact h2 s hs
      · simp only [Option.some.injEq, Except.ok.injEq] at hl
        rw [← hl]
        refine ⟨by simp, ?_⟩
        intro s hs
        rw [List.mem_singleton.1 hs]
        exact hP _ _ hc

theorem sortAxes_ordered (l : List LAxis) : Ordered (sortAxes l) := by
  have := List.pairwise_mergeSort (le := fun a b : LAxis => decide (a.delta ≤ b.delta))
    (by intro a b c hab hbc; simp only [decide_eq_true_eq] at *; exact le_trans hab hbc)
    (by intro a b; simp only [Bool.or_eq_true, decide_eq_true_eq]; exact le_total _ _) l
  simpa [sortAxes, Ordered] using this

theorem dropTwins_mem {l : List LAxis} {a : LAxis} (h : a ∈ dropTwins l) :
    ∃ b ∈ l, a = { b with U := halveAxis b.U } := by
  induction l with
  | nil => simp [dropTwins] at h
  | cons b l ih =>
    rw [dropTwins] at h
    split_ifs at h with hb
    · obtain ⟨c, hc, he⟩ := ih h
      exact ⟨c, by simp [hc], he⟩
    · rcases List.mem_cons.1 h with rfl | h
      · exact ⟨b, by simp, rfl⟩
      · obtain ⟨c, hc, he⟩ := ih h
        exact ⟨c, by simp [hc], he⟩

/-- The twin that is kept deviates most. -/
theorem dropTwins_worst {l : List LAxis} (ho : Ordered l) {a : LAxis} (h : a ∈ dropTwins l) :
    ∃ b ∈ l, a = { b with U := halveAxis b.U } ∧ ∀ c ∈ l, sameAxis b.U c.U → c.delta ≤ b.delta := by
  induction l with
  | nil => simp [dropTwins] at h
  | cons b l ih =>
    rw [dropTwins] at h
    obtain ⟨h1, h2⟩ := List.pairwise_cons.1 ho
    have old : a ∈ dropTwins l → ∃ b' ∈ b :: l, a = { b' with U := halveAxis b'.U } ∧
        ∀ c ∈ b :: l, sameAxis b'.U c.U → c.delta ≤ b'.delta := by
      intro h
      obtain ⟨c, hc, he, hw⟩ := ih h2 h
      refine ⟨c, by simp [hc], he, ?_⟩
      intro d hd hs
      rcases List.mem_cons.1 hd with rfl | hd
      · exact h1 c hc
      · exact hw d hd hs
    split_ifs at h with hb
    · exact old h
    · rcases List.mem_cons.1 h with rfl | h
      · refine ⟨b, by simp, rfl, ?_⟩
        intro c hc hs
        rcases List.mem_cons.1 hc with rfl | hc
        · exact le_rfl
        · exact absurd (List.any_eq_true.2 ⟨c, hc, hs⟩) hb
      · exact old h

theorem dropTwins_ordered {l : List LAxis} (h : Ordered l) : Ordered (dropTwins l) := by
  induction l with
  | nil => simp [dropTwins]
  | cons b l ih =>
    rw [dropTwins]
    obtain ⟨h1, h2⟩ := List.pairwise_cons.1 h
    split_ifs with hb
    · exact ih h2
    · refine List.pairwise_cons.2 ⟨?_, ih h2⟩
      intro x hx
      obtain ⟨c, hc, rfl⟩ := dropTwins_mem hx
      exact h1 c hc

theorem lepageAxes_ordered {cell : Cell ℝ} {limit : ℝ} {axes : List LAxis}
    (h : lepageAxes cell limit = .ok axes) : Ordered axes := by
  unfold lepageAxes at h
  cases hr : getReciprocal cell with
  | error e => rw [hr] at h; simp [bind, Except.bind] at h
  | ok r =>
    rw [hr] at h
    simp only [bind, Except.bind, pure, Except.pure, Except.ok.injEq] at h
    rw [← h]
    exact dropTwins_ordered (sortAxes_ordered _)

/-! ### Names -/

theorem cubName_types {d : ℤ} {r : String} (h : cubName d = .ok r) : r ∈ bravaisTypes := by
  unfold cubName at h
  split_ifs at h <;> simp at h <;> rw [← h] <;> decide

theorem tetName_types {d : ℤ} {r : String} (h : tetName d = .ok r) : r ∈ bravaisTypes := by
  unfold tetName at h
  split_ifs at h <;> simp at h <;> rw [← h] <;> decide

theorem orcName_types {d : ℤ} {v : Fin 3 → ℤ} {r : String} (h : orcName d v = .ok r) :
    r ∈ bravaisTypes := by
  unfold orcName at h
  split_ifs at h <;> simp at h <;> rw [← h] <;> decide

theorem checkCub_types {angles : ℕ → ℕ → ℝ} {axes : List LAxis} {tol : ℝ} {r : String}
    (h : checkCub angles axes tol = .ok (some r)) : r ∈ bravaisTypes := by
  unfold checkCub at h
  split_ifs at h <;> [skip; simp at h; simp at h]
  simp only [bind, Except.bind] at h
  split at h
  · cases h
  · split at h
    · cases h
    · rename_i hn
      simp only [pure, Except.pure, Except.ok.injEq, Option.some.injEq] at h
      rw [← h]
      exact cubName_types hn

theorem checkTet_types {angles : ℕ → ℕ → ℝ} {axes : List LAxis} {tol : ℝ} {cell : Cell ℝ}
    {r : String} (h : checkTet angles axes tol cell = .ok (some r)) : r ∈ bravaisTypes := by
  unfold checkTet at h
  split_ifs at h <;> [skip; simp at h; simp at h]
  simp only [bind, Except.bind] at h
  split at h
  · cases h
  · split at h
    · cases h
    · split at h
      · cases h
      · rename_i hn
        simp only [pure, Except.pure, Except.ok.injEq, Option.some.injEq] at h
        rw [← h]
        exact tetName_types hn

theorem checkOrc_types {angles : ℕ → ℕ → ℝ} {axes : List LAxis} {tol : ℝ} {r : String}
    (h : checkOrc angles axes tol = .ok (some r)) : r ∈ bravaisTypes := by
  unfold checkOrc at h
  split_ifs at h <;> [skip; simp at h; simp at h]
  simp only [bind, Except.bind] at h
  split at h
  · cases h
  · split at h
    · cases h
    · rename_i hn
      simp only [pure, Except.pure, Except.ok.injEq, Option.some.injEq] at h
      rw [← h]
      exact orcName_types hn

theorem checkMcl_types {axes : List LAxis} {tol : ℝ} {cell : Cell ℝ} {r : String}
    (h : checkMcl axes tol cell = some r) : r ∈ bravaisTypes := by
  unfold checkMcl at h
  split at h
  · simp at h
  · split at h
    · simp only [] at h
      split_ifs at h <;> simp at h <;> rw [← h] <;> decide
    · simp at h

theorem classifyAxes_types {cell : Cell ℝ} {tol : ℝ} {angles : ℕ → ℕ → ℝ} {axes : List LAxis}
    {r : String} (h : classifyAxes cell tol angles axes = .ok r) : r ∈ bravaisTypes := by
  unfold classifyAxes at h
  cases h1 : checkCub angles axes tol with
  | error e => rw [h1] at h; simp [bind, Except.bind] at h
  | ok o =>
    rw [h1] at h
    cases o with
    | some s => simp [bind, Except.bind, pure, Except.pure] at h; rw [← h]; exact checkCub_types h1
    | none =>
      simp only [bind, Except.bind] at h
      cases h2 : checkHex angles axes tol with
      | some s =>
        rw [h2] at h; simp only [pure, Except.pure, Except.ok.injEq] at h; rw [← h]
        unfold checkHex at h2; split_ifs at h2; simp at h2; rw [← h2]; decide
      | none =>
        rw [h2] at h
        cases h3 : checkTet angles axes tol cell with
        | error e => rw [h3] at h; simp at h
        | ok o =>
          rw [h3] at h
          cases o with
          | some s =>
            simp only [pure, Except.pure, Except.ok.injEq] at h; rw [← h]; exact checkTet_types h3
          | none =>
            simp only at h
            cases h4 : checkRhl angles axes tol with
            | some s =>
              rw [h4] at h; simp only [pure, Except.pure, Except.ok.injEq] at h; rw [← h]
              unfold checkRhl at h4; split_ifs at h4; simp at h4; rw [← h4]; decide
            | none =>
              rw [h4] at h
              cases h5 : checkOrc angles axes tol with
              | error e => rw [h5] at h; simp at h
              | ok o =>
                rw [h5] at h
                cases o with
                | some s =>
                  simp only [pure, Except.pure, Except.ok.injEq] at h; rw [← h]
                  exact checkOrc_types h5
                | none =>
                  simp only at h
                  cases h6 : checkMcl axes tol cell with
                  | some s =>
                    rw [h6] at h; simp only [pure, Except.pure, Except.ok.injEq] at h; rw [← h]
                    exact checkMcl_types h6
                  | none =>
                    rw [h6] at h; simp only [pure, Except.pure, Except.ok.injEq] at h; rw [← h]
                    decide

/-! ### Directions -/

theorem mem_potentialAxes {cell rcell : Cell ℝ} {limit : ℝ} {a : LAxis} :
    a ∈ potentialAxes cell rcell limit ↔
      ∃ u ∈ millerIndices 2, ∃ h ∈ millerIndices 2, |intDot u h| = 2 ∧
        lepageDelta (intMat u cell) (intMat h rcell) < limit ∧
        a = ⟨u, npNormalize (intMat u cell), lepageDelta (intMat u cell) (intMat h rcell)⟩ := by
  unfold potentialAxes
  simp only [List.mem_flatMap, List.mem_filterMap]
  constructor
  · rintro ⟨u, hu, h, hh, he⟩
    split_ifs at he with h1 h2
    simp only [Option.some.injEq] at he
    exact ⟨u, hu, h, hh, h1, h2, he.symm⟩
  · rintro ⟨u, hu, h, hh, h1, h2, he⟩
    refine ⟨u, hu, h, hh, ?_⟩
    rw [if_pos h1, if_pos h2, he]

theorem npDot_eq_dot (u v : Vec ℝ) : npDot u v = dot u v := by
  simp [npDot, dot, Fin.sum_univ_three]

theorem lepageAxes_mem {cell : Cell ℝ} {limit : ℝ} {axes : List LAxis}
    (h : lepageAxes cell limit = .ok axes) {a : LAxis} (ha : a ∈ axes) :
    ∃ r u k, getReciprocal cell = .ok r ∧ |intDot u k| = 2 ∧ a.U = halveAxis u ∧
      a.dir = npNormalize (intMat u cell) ∧ a.delta = lepageDelta (intMat u cell) (intMat k r) ∧
      a.delta < limit := by
  unfold lepageAxes at h
  cases hr : getReciprocal cell with
  | error e => rw [hr] at h; simp [bind, Except.bind] at h
  | ok r =>
    rw [hr] at h
    simp only [bind, Except.bind, pure, Except.pure, Except.ok.injEq] at h
    rw [← h] at ha
    obtain ⟨b, hb, rfl⟩ := dropTwins_mem ha
    rw [sortAxes, List.mem_mergeSort] at hb
    obtain ⟨u, _, k, _, h1, h2, rfl⟩ := mem_potentialAxes.1 hb
    exact ⟨r, u, k, rfl, h1, rfl, rfl, rfl, h2⟩

theorem recip_dual {cell r : Cell ℝ} (h : getReciprocal cell = .ok r) : IsDual r cell := by
  obtain ⟨r', h1, h2, _⟩ := C02_dual_unique cell (recip_ok h).1
  rw [h] at h1
  simp only [Except.ok.injEq] at h1
  rw [h1]; exact h2

theorem dual_dot {cell r : Cell ℝ} (h : getReciprocal cell = .ok r) (u k : Fin 3 → ℤ) :
    dot (intMat u cell) (intMat k r) = 2 * Real.pi * (intDot u k : ℝ) := by
  have e := recip_dual h
  have e00 := e 0 0
  have e01 := e 0 1
  have e02 := e 0 2
  have e10 := e 1 0
  have e11 := e 1 1
  have e12 := e 1 2
  have e20 := e 2 0
  have e21 := e 2 1
  have e22 := e 2 2
  simp only [dot] at e00 e01 e02 e10 e11 e12 e20 e21 e22
  norm_num [Fin.ext_iff] at e00 e01 e02 e10 e11 e12 e20 e21 e22
  simp only [dot, intMat, vecMat, intDot, Int.cast_add, Int.cast_mul]
  linear_combination (u 0 * k 0 : ℝ) * e00 + (u 1 * k 0 : ℝ) * e01 + (u 2 * k 0 : ℝ) * e02 +
    (u 0 * k 1 : ℝ) * e10 + (u 1 * k 1 : ℝ) * e11 + (u 2 * k 1 : ℝ) * e12 +
    (u 0 * k 2 : ℝ) * e20 + (u 1 * k 2 : ℝ) * e21 + (u 2 * k 2 : ℝ) * e22

theorem vdot_self_nonneg (v : Vec ℝ) : 0 ≤ dot v v := by
  simp only [dot]
  nlinarith [mul_self_nonneg (v 0), mul_self_nonneg (v 1), mul_self_nonneg (v 2)]

theorem vdot_self_pos {v : Vec ℝ} (h : v ≠ 0) : 0 < dot v v := by
  rcases (vdot_self_nonneg v).lt_or_eq with hp | he
  · exact hp
  · exfalso
    apply h
    simp only [dot] at he
    have h0 := mul_self_nonneg (v 0)
    have h1 := mul_self_nonneg (v 1)
    have h2 := mul_self_nonneg (v 2)
    have k0 : v 0 = 0 := mul_self_eq_zero.1 (by linarith)
    have k1 : v 1 = 0 := mul_self_eq_zero.1 (by linarith)
    have k2 : v 2 = 0 := mul_self_eq_zero.1 (by linarith)
    funext i
    fin_cases i
    · exact k0
    · exact k1
    · exact k2

theorem cross_sq (t s : Vec ℝ) :
    npNorm (crossProduct t s) ^ 2 = dot t t * dot s s - dot t s ^ 2 := by
  rw [npNorm_sq]
  simp only [dot, cross_apply, cons_val_zero, cons_val_one, cons_val]
  ring

/-- Parallel vectors. -/
theorem parallel_of_delta {t s : Vec ℝ} (h : lepageDelta t s = 0) (hts : dot t s ≠ 0) (x : Vec ℝ) :
    dot x s * dot t t = dot x t * dot t s := by
  have h1 : npNorm (crossProduct t s) = 0 := by
    unfold lepageDelta at h
    have hd : toDegrees ≠ 0 := by unfold toDegrees; positivity
    rcases mul_eq_zero.1 h with h | h
    · rw [Real.arctan_eq_zero_iff] at h
      rcases div_eq_zero_iff.1 h with h | h
      · exact h
      · rw [npDot_eq_dot] at h; exact absurd (abs_eq_zero.1 h) hts
    · exact absurd h hd
  have h2 : crossProduct t s = 0 := by
    by_contra hne
    have := vdot_self_pos hne
    rw [← npNorm_sq, h1] at this
    norm_num at this
  have c0 := congrFun h2 0
  have c1 := congrFun h2 1
  have c2 := congrFun h2 2
  simp only [cross_apply, cons_val_zero, cons_val_one, cons_val, Pi.zero_apply] at c0 c1 c2
  simp only [dot]
  linear_combination -(x 1 * t 2 - x 2 * t 1) * c0 - (x 2 * t 0 - x 0 * t 2) * c1 -
    (x 0 * t 1 - x 1 * t 0) * c2

theorem halfTurn_smul {d : Vec ℝ} {c : ℝ} (hc : c ≠ 0) (x : Vec ℝ) :
    halfTurn (fun i => d i / c) x = halfTurn d x := by
  funext i
  simp only [halfTurn, dot]
  by_cases hd : d 0 * d 0 + d 1 * d 1 + d 2 * d 2 = 0
  · have : d 0 / c * (d 0 / c) + d 1 / c * (d 1 / c) + d 2 / c * (d 2 / c) = 0 := by
      field_simp
      linear_combination hd
    rw [hd, this]; simp
  · have e : d 0 / c * (d 0 / c) + d 1 / c * (d 1 / c) + d 2 / c * (d 2 / c) =
      (d 0 * d 0 + d 1 * d 1 + d 2 * d 2) / c ^ 2 := by field_simp
    rw [e]
    field_simp

theorem twofold_of_delta {cell r : Cell ℝ} (hr : getReciprocal cell = .ok r) {u k : Fin 3 → ℤ}
    (huk : |intDot u k| = 2) (h : lepageDelta (intMat u cell) (intMat k r) = 0) :
    TwofoldAxis cell (npNormalize (intMat u cell)) := by
  have hd := dual_dot hr u k
  have hI : (intDot u k : ℝ) ≠ 0 := by
    have : intDot u k ≠ 0 := by rintro e; rw [e] at huk; simp at huk
    exact_mod_cast this
  have hts : dot (intMat u cell) (intMat k r) ≠ 0 := by
    rw [hd]; exact mul_ne_zero two_pi_ne hI
  have hne : intMat u cell ≠ 0 := by
    intro e; apply hts; rw [e]; simp [dot]
  have htt := vdot_self_pos hne
  have hn : npNorm (intMat u cell) ≠ 0 := by
    intro e
    have := npNorm_sq (intMat u cell)
    rw [e] at this; norm_num at this; linarith
  refine ⟨?_, ?_⟩
  · intro e
    apply hne
    funext i
    have := congrFun e i
    simp only [npNormalize, Pi.zero_apply] at this
    simpa [hn] using this
  · rintro x ⟨n, hx⟩
    have hx' : x = intMat n cell := by
      rw [hx]; funext j; simp [intMat, vecMat, Fin.sum_univ_three]
    unfold npNormalize
    rw [halfTurn_smul hn]
    have hp := parallel_of_delta h hts x
    have hxk : dot x (intMat k r) = 2 * Real.pi * (intDot n k : ℝ) := by rw [hx', dual_dot hr]
    obtain ⟨m, hm⟩ : ∃ m : ℤ, 2 * (dot x (intMat u cell) / dot (intMat u cell) (intMat u cell)) = m := by
      have e : 2 * (dot x (intMat u cell) / dot (intMat u cell) (intMat u cell)) * (intDot u k : ℝ)
          = 2 * (intDot n k : ℝ) := by
        rw [hxk, hd] at hp
        have hpi := two_pi_ne
        field_simp
        have : 2 * Real.pi * ((intDot n k : ℝ) * dot (intMat u cell) (intMat u cell) -
          dot x (intMat u cell) * (intDot u k : ℝ)) = 0 := by linear_combination hp
        rcases mul_eq_zero.1 this with h0 | h0
        · exact absurd h0 hpi
        · linear_combination -h0
      rcases abs_eq (by norm_num : (0 : ℤ) ≤ 2) |>.1 huk with h2 | h2
      · refine ⟨intDot n k, ?_⟩
        rw [h2] at e; push_cast at e; linarith
      · refine ⟨-intDot n k, ?_⟩
        rw [h2] at e; push_cast at e ⊢; linarith
    refine ⟨fun i => m * u i - n i, ?_⟩
    funext j
    simp only [halfTurn]
    rw [hm, hx']
    simp only [intMat, vecMat, Fin.sum_univ_three]
    push_cast
    ring

/-! ### Rotations -/

theorem dot_vecMat {Q : Cell ℝ} (hQ : Q * Q.transpose = 1) (x y : Vec ℝ) :
    dot (vecMat x Q) (vecMat y Q) = dot x y := by
  have e := fun i j => congrFun (congrFun hQ i) j
  simp only [Matrix.mul_apply, Fin.sum_univ_three, transpose_apply] at e
  have e00 := e 0 0
  have e01 := e 0 1
  have e02 := e 0 2
  have e10 := e 1 0
  have e11 := e 1 1
  have e12 := e 1 2
  have e20 := e 2 0
  have e21 := e 2 1
  have e22 := e 2 2
  norm_num [Matrix.one_apply, Fin.ext_iff] at e00 e01 e02 e10 e11 e12 e20 e21 e22
  simp only [dot, vecMat]
  linear_combination (x 0 * y 0) * e00 + (x 0 * y 1) * e01 + (x 0 * y 2) * e02 +
    (x 1 * y 0) * e10 + (x 1 * y 1) * e11 + (x 1 * y 2) * e12 +
    (x 2 * y 0) * e20 + (x 2 * y 1) * e21 + (x 2 * y 2) * e22

theorem npNorm_vecMat {Q : Cell ℝ} (hQ : Q * Q.transpose = 1) (x : Vec ℝ) :
    npNorm (vecMat x Q) = npNorm x := by
  rw [npNorm, npNorm, npDot_eq_dot, npDot_eq_dot, dot_vecMat hQ]

theorem lepageDelta_vecMat {Q : Cell ℝ} (hQ : Q * Q.transpose = 1) (x y : Vec ℝ) :
    lepageDelta (vecMat x Q) (vecMat y Q) = lepageDelta x y := by
  unfold lepageDelta
  have h : npNorm (crossProduct (vecMat x Q) (vecMat y Q)) = npNorm (crossProduct x y) := by
    have h0 : ∀ v, 0 ≤ npNorm v := fun v => Real.sqrt_nonneg _
    rw [← abs_of_nonneg (h0 (crossProduct (vecMat x Q) (vecMat y Q))),
      ← abs_of_nonneg (h0 (crossProduct x y)), ← sq_eq_sq_iff_abs_eq_abs, cross_sq, cross_sq,
      dot_vecMat hQ, dot_vecMat hQ, dot_vecMat hQ]
  rw [h, npDot_eq_dot, npDot_eq_dot, dot_vecMat hQ]

theorem intMat_mul (u : Fin 3 → ℤ) (cell Q : Cell ℝ) :
    intMat u (cell * Q) = vecMat (intMat u cell) Q := by
  funext j
  simp only [intMat, vecMat, Matrix.mul_apply, Fin.sum_univ_three]
  ring

/-- The axis with its direction turned. -/
noncomputable def LAxis.turn (Q : Cell ℝ) (a : LAxis) : LAxis := { a with dir := vecMat a.dir Q }

theorem npNormalize_vecMat {Q : Cell ℝ} (hQ : Q * Q.transpose = 1) (x : Vec ℝ) :
    npNormalize (vecMat x Q) = vecMat (npNormalize x) Q := by
  funext j
  simp only [npNormalize, vecMat]
  rw [npNorm_vecMat hQ]
  ring

theorem potentialAxes_turn {Q : Cell ℝ} (hQ : Q * Q.transpose = 1) (cell r : Cell ℝ) (limit : ℝ) :
    potentialAxes (cell * Q) (r * Q) limit = (potentialAxes cell r limit).map (LAxis.turn Q) := by
  unfold potentialAxes
  rw [List.map_flatMap]
  congr 1
  funext u
  rw [List.map_filterMap]
  congr 1
  funext h
  simp only [intMat_mul, lepageDelta_vecMat hQ, npNormalize_vecMat hQ]
  split_ifs <;> rfl

theorem dropTwins_turn (Q : Cell ℝ) (l : List LAxis) :
    dropTwins (l.map (LAxis.turn Q)) = (dropTwins l).map (LAxis.turn Q) := by
  induction l with
  | nil => rfl
  | cons a l ih =>
    simp only [List.map_cons, dropTwins, ih, List.any_map]
    have : (l.any ((fun b => sameAxis (LAxis.turn Q a).U b.U) ∘ LAxis.turn Q)) =
      (l.any fun b => sameAxis a.U b.U) := rfl
    rw [this]
    split_ifs
    · rfl
    · rfl

theorem sortAxes_turn (Q : Cell ℝ) (l : List LAxis) :
    sortAxes (l.map (LAxis.turn Q)) = (sortAxes l).map (LAxis.turn Q) := by
  unfold sortAxes
  rw [List.map_mergeSort]
  intro a _ b _
  rfl

theorem recip_turn {Q : Cell ℝ} (hQ : Q * Q.transpose = 1) {cell r : Cell ℝ}
    (h : getReciprocal cell = .ok r) : getReciprocal (cell * Q) = .ok (r * Q) := by
  obtain ⟨hd, _⟩ := recip_ok h
  have hdq : Q.det ≠ 0 := by
    intro e
    have := congrArg Matrix.det hQ
    rw [det_mul, e] at this
    simp at this
  have hd' : (cell * Q).det ≠ 0 := by rw [det_mul]; exact mul_ne_zero hd hdq
  obtain ⟨r', h1, _, h3⟩ := C02_dual_unique (cell * Q) hd'
  rw [h1, ← h3 (r * Q)]
  rw [isDual_iff, transpose_mul, ← Matrix.mul_assoc, Matrix.mul_assoc r, hQ, Matrix.mul_one]
  exact (isDual_iff r cell).1 (recip_dual h)

theorem lepageAxes_turn {Q : Cell ℝ} (hQ : Q * Q.transpose = 1) {cell : Cell ℝ} {limit : ℝ}
    {axes : List LAxis} (h : lepageAxes cell limit = .ok axes) :
    lepageAxes (cell * Q) limit = .ok (axes.map (LAxis.turn Q)) := by
  unfold lepageAxes at h ⊢
  cases hr : getReciprocal cell with
  | error e => rw [hr] at h; simp [bind, Except.bind] at h
  | ok r =>
    rw [hr] at h
    simp only [bind, Except.bind, pure, Except.pure, Except.ok.injEq] at h
    rw [recip_turn hQ hr]
    simp only [bind, Except.bind, pure, Except.pure, Except.ok.injEq]
    rw [← h, potentialAxes_turn hQ, sortAxes_turn, dropTwins_turn]

theorem axisAngle_turn {Q : Cell ℝ} (hQ : Q * Q.transpose = 1) (x y : Vec ℝ) :
    axisAngle (vecMat x Q) (vecMat y Q) = axisAngle x y := by
  unfold axisAngle
  rw [npDot_eq_dot, npDot_eq_dot, dot_vecMat hQ]

theorem angleMatrix_turn {Q : Cell ℝ} (hQ : Q * Q.transpose = 1) (axes : List LAxis) :
    angleMatrix (axes.map (LAxis.turn Q)) = angleMatrix axes := by
  funext i j
  have e : ∀ k : ℕ, ((axes.map (LAxis.turn Q)).map LAxis.dir).getD k 0 =
      vecMat ((axes.map LAxis.dir).getD k 0) Q := by
    intro k
    simp only [List.getD_eq_getElem?_getD, List.getElem?_map]
    cases axes[k]? with
    | none => funext j; simp [vecMat]
    | some a => rfl
  simp only [angleMatrix, e, axisAngle_turn hQ]

theorem filter_turn (Q : Cell ℝ) (p : ℕ → Bool) (l : List LAxis) (m : ℕ) :
    (((l.map (LAxis.turn Q)).take m).zipIdx.filter fun x => p x.2).map (fun x => x.1.U) =
      ((l.take m).zipIdx.filter fun x => p x.2).map fun x => x.1.U := by
  rw [← List.map_take, List.zipIdx_map, List.filter_map, List.map_map]
  rfl

theorem classifyAxes_turn {Q : Cell ℝ} (hQ : Q * Q.transpose = 1) (cell : Cell ℝ) (tol : ℝ)
    (angles : ℕ → ℕ → ℝ) (axes : List LAxis) :
    classifyAxes (cell * Q) tol angles (axes.map (LAxis.turn Q)) =
      classifyAxes cell tol angles axes := by
  have n : ∀ u, npNorm (intMat u (cell * Q)) = npNorm (intMat u cell) := by
    intro u; rw [intMat_mul, npNorm_vecMat hQ]
  have hcub : checkCub angles (axes.map (LAxis.turn Q)) tol = checkCub angles axes tol := by
    unfold checkCub
    rw [List.length_map]
    simp only [filter_turn Q (fun i => closeSorted (angleRow angles 9 i)
      [0, 45, 45, 45, 45, 90, 90, 90, 90] tol)]
  have htet : checkTet angles (axes.map (LAxis.turn Q)) tol (cell * Q) =
      checkTet angles axes tol cell := by
    unfold checkTet
    rw [List.length_map]
    simp only [n, filter_turn Q (fun i => closeSorted (angleRow angles 5 i)
      [0, 90, 90, 90, 90] tol), filter_turn Q (fun i => !closeSorted (angleRow angles 5 i)
      [0, 90, 90, 90, 90] tol)]
  have horc : checkOrc angles (axes.map (LAxis.turn Q)) tol = checkOrc angles axes tol := by
    unfold checkOrc
    rw [List.length_map, ← List.map_take, List.map_map]
    rfl
  have hhex : checkHex angles (axes.map (LAxis.turn Q)) tol = checkHex angles axes tol := by
    unfold checkHex; rw [List.length_map]
  have hrhl : checkRhl angles (axes.map (LAxis.turn Q)) tol = checkRhl angles axes tol := by
    unfold checkRhl; rw [List.length_map]
  have hperp : ∀ v, perpAxes v (cell * Q) tol = perpAxes v cell tol := by
    intro v
    unfold perpAxes
    simp only [n]
    simp only [intMat_mul, npDot_eq_dot, dot_vecMat hQ]
  have hmcl : checkMcl (axes.map (LAxis.turn Q)) tol (cell * Q) = checkMcl axes tol cell := by
    cases axes with
    | nil => rfl
    | cons a l =>
      simp only [checkMcl, List.map_cons, hperp]
      rfl
  unfold classifyAxes
  rw [hcub, htet, horc, hhex, hrhl, hmcl]

theorem removeWorst_turn (Q : Cell ℝ) (l : List LAxis) :
    removeWorst (l.map (LAxis.turn Q)) = (removeWorst l).map (LAxis.turn Q) := by
  unfold removeWorst
  rw [← List.map_reverse]
  have key : ∀ r : List LAxis, removeWorstRev (r.map (LAxis.turn Q)) =
      (removeWorstRev r).map (LAxis.turn Q) := by
    intro r
    induction r with
    | nil => rfl
    | cons a r ih =>
      cases r with
      | nil => rfl
      | cons b r =>
        simp only [List.map_cons, removeWorstRev] at ih ⊢
        rw [ih]
        have : (LAxis.turn Q a).delta = a.delta := rfl
        have : (LAxis.turn Q b).delta = b.delta := rfl
        simp only [*]
        split_ifs <;> rfl
  rw [key, List.map_reverse]

theorem worstDelta_turn (Q : Cell ℝ) (l : List LAxis) :
    worstDelta (l.map (LAxis.turn Q)) = worstDelta l := by
  cases l with
  | nil => rfl
  | cons a l =>
    simp only [List.map_cons, worstDelta, List.foldl_map]
    rfl

theorem lepageLoop_turn {Q : Cell ℝ} (f g : List LAxis → Except Err String) (tol : ℝ)
    (hfg : ∀ l, f (l.map (LAxis.turn Q)) = g l) (fuel : ℕ) (l : List LAxis) :
    lepageLoop f tol fuel (l.map (LAxis.turn Q)) = lepageLoop g tol fuel l := by
  induction fuel generalizing l with
  | zero => rfl
  | succ k ih => simp only [lepageLoop, hfg, worstDelta_turn, removeWorst_turn, ih]

end Wulfric
