import Verif.Model.Atoms
import Verif.Lemmas.Python
import Mathlib.Order.Bounds.Basic
import Mathlib.Algebra.Order.Round
import Mathlib.Tactic.Linarith
import Mathlib.Tactic.FinCases

/-! # Lemmas about the operations on atoms -/

set_option linter.unusedSectionVars false

namespace Wulfric
variable {K : Type*} [Field K] [LinearOrder K] [IsStrictOrderedRing K]

theorem isLeast_foldl_min (j : Fin 3) (ps : List (Vec K)) (p : Vec K) :
    IsLeast {x | ∃ q ∈ p :: ps, q j = x} (ps.foldl npMinimum p j) := by
  induction ps generalizing p with
  | nil => exact ⟨⟨p, by simp, rfl⟩, by rintro x ⟨q, hq, rfl⟩; simp at hq; simp [hq]⟩
  | cons a ps ih =>
    have h := ih (npMinimum p a)
    simp only [List.foldl_cons]
    constructor
    · obtain ⟨q, hq, e⟩ := h.1
      rw [← e]
      rcases List.mem_cons.1 hq with rfl | hq
      · rcases min_choice (p j) (a j) with hc | hc
        · exact ⟨p, by simp, hc.symm⟩
        · exact ⟨a, by simp, hc.symm⟩
      · exact ⟨q, by simp [hq], rfl⟩
    · rintro x ⟨q, hq, rfl⟩
      have hm : ps.foldl npMinimum (npMinimum p a) j ≤ npMinimum p a j := h.2 ⟨_, by simp, rfl⟩
      rcases List.mem_cons.1 hq with rfl | hq
      · exact hm.trans (min_le_left _ _)
      · rcases List.mem_cons.1 hq with rfl | hq
        · exact hm.trans (min_le_right _ _)
        · exact h.2 ⟨q, by simp [hq], rfl⟩

theorem isGreatest_foldl_max (j : Fin 3) (ps : List (Vec K)) (p : Vec K) :
    IsGreatest {x | ∃ q ∈ p :: ps, q j = x} (ps.foldl npMaximum p j) := by
  induction ps generalizing p with
  | nil => exact ⟨⟨p, by simp, rfl⟩, by rintro x ⟨q, hq, rfl⟩; simp at hq; simp [hq]⟩
  | cons a ps ih =>
    have h := ih (npMaximum p a)
    simp only [List.foldl_cons]
    constructor
    · obtain ⟨q, hq, e⟩ := h.1
      rw [← e]
      rcases List.mem_cons.1 hq with rfl | hq
      · rcases max_choice (p j) (a j) with hc | hc
        · exact ⟨p, by simp, hc.symm⟩
        · exact ⟨a, by simp, hc.symm⟩
      · exact ⟨q, by simp [hq], rfl⟩
    · rintro x ⟨q, hq, rfl⟩
      have hm : npMaximum p a j ≤ ps.foldl npMaximum (npMaximum p a) j := h.2 ⟨_, by simp, rfl⟩
      rcases List.mem_cons.1 hq with rfl | hq
      · exact (le_max_left _ _).trans hm
      · rcases List.mem_cons.1 hq with rfl | hq
        · exact (le_max_right _ _).trans hm
        · exact h.2 ⟨q, by simp [hq], rfl⟩

theorem wrapComponent_eq [FloorRing K] (x : K) : wrapComponent x = Int.fract x := by
  unfold wrapComponent pyInt
  by_cases h : 0 ≤ x
  · simp only [h, if_true]
    have : ¬ (x - (⌊x⌋ : K) < 0) := not_lt.2 (Int.fract_nonneg x)
    simp only [this, if_false]
    rfl
  · simp only [h, if_false]
    push Not at h
    by_cases hc : x - (⌈x⌉ : K) < 0
    · simp only [hc, if_true]
      symm
      rw [Int.fract_eq_iff]
      have := Int.ceil_lt_add_one x
      refine ⟨by linarith, by linarith, ⌈x⌉ - 1, by push_cast; ring⟩
    · simp only [hc, if_false]
      have h1 := Int.le_ceil x
      symm
      rw [Int.fract_eq_iff]
      have := Int.ceil_lt_add_one x
      exact ⟨by linarith, by linarith, ⌈x⌉, by ring⟩

theorem inner_loop (f : K → K) (ps : List (Vec K)) (i : ℕ) :
    (List.finRange 3).foldl (fun acc j => updateComponent f acc i j) ps =
      ps.modify i fun v j => f (v j) := by
  have e : List.finRange 3 = [0, 1, 2] := by decide
  rw [e]
  simp only [List.foldl_cons, List.foldl_nil, updateComponent, List.modify_modify_eq]
  congr 1
  funext v j
  fin_cases j <;> simp [Function.update]

theorem outer_loop (g : Vec K → Vec K) (ps : List (Vec K)) (n : ℕ) (m : ℕ) :
    ((List.range n).foldl (fun acc i => acc.modify i g) ps)[m]? =
      if m < n then ps[m]?.map g else ps[m]? := by
  induction n with
  | zero => simp
  | succ n ih =>
    rw [List.range_succ, List.foldl_append]
    simp only [List.foldl_cons, List.foldl_nil, List.getElem?_modify, ih]
    by_cases h : n = m
    · subst h; simp
    · simp only [h, if_false]
      have : m < n + 1 ↔ m < n := by omega
      simp [this]

theorem ensure_loop (g : Vec K → Vec K) (ps : List (Vec K)) :
    (List.range ps.length).foldl (fun acc i => acc.modify i g) ps = ps.map g := by
  apply List.ext_getElem?
  intro m
  rw [outer_loop, List.getElem?_map]
  split
  · rfl
  · rw [List.getElem?_eq_none (by omega)]; rfl

theorem ensure000_eq [FloorRing K] (atoms : Atoms K) (ps : List (Vec K))
    (h : atoms.positions = some ps) :
    ensure000 atoms = .ok { atoms with positions := some (ps.map fun v j => Int.fract (v j)) } := by
  unfold ensure000 Atoms.getPositions
  simp only [h, inner_loop, ensure_loop]
  simp only [wrapComponent_eq]
  rfl

theorem vecMat_eq (v : Vec K) (m : Cell K) : vecMat v m = Matrix.vecMul v m := by
  funext j
  simp [vecMat, Matrix.vecMul, dotProduct, Fin.sum_univ_three]

end Wulfric
