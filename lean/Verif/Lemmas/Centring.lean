import Verif.Model.Conventions
import Verif.Spec.Centring
import Verif.Lemmas.LatticeEquiv
import Mathlib.Tactic.LinearCombination
import Mathlib.Tactic.NormNum

/-! # Centred lattices and their primitive cells -/

set_option linter.unusedSectionVars false
set_option linter.unusedSimpArgs false

namespace Wulfric
open Spec Matrix

variable {K : Type*} [Field K] [LinearOrder K] [IsStrictOrderedRing K]

/-- What has to be checked to know that the rows of `P * cell` generate a centred lattice. -/
theorem centred_eq (P cell : Cell K) (ts : List (Vec K))
    (h1 : ∀ m : Fin 3 → ℤ, ∃ n : Fin 3 → ℤ, ∃ t ∈ ts, ∀ j, ∑ i, (m i : K) * P i j = n j + t j)
    (h2 : ∀ n : Fin 3 → ℤ, ∀ t ∈ ts, ∃ m : Fin 3 → ℤ, ∀ j, ∑ i, (m i : K) * P i j = n j + t j) :
    latticePoints (P * cell) = centredLattice ts cell := by
  have key : ∀ m : Fin 3 → ℤ, (fun j => ∑ i, (m i : K) * (P * cell) i j) =
      fun j => ∑ i, (∑ k, (m k : K) * P k i) * cell i j := by
    intro m
    ext j
    simp only [Matrix.mul_apply, Fin.sum_univ_three]
    ring
  ext v
  constructor
  · rintro ⟨m, rfl⟩
    obtain ⟨n, t, ht, e⟩ := h1 m
    refine ⟨n, t, ht, ?_⟩
    rw [key m]
    ext j
    simp only [e]
  · rintro ⟨n, t, ht, rfl⟩
    obtain ⟨m, e⟩ := h2 n t ht
    refine ⟨m, ?_⟩
    rw [key m]
    ext j
    simp only [e]

/-- Half-integer coordinates split into an integer and zero or one half. -/
theorem half_split (w : ℤ) : ((w : K) / 2) = ((w / 2 : ℤ) : K) + ((w % 2 : ℤ) : K) / 2 := by
  have h : (w : K) = ((2 * (w / 2) + w % 2 : ℤ) : K) := by rw [Int.mul_ediv_add_emod]
  nth_rewrite 1 [h]
  push_cast
  ring

theorem centred_P (cell : Cell K) :
    latticePoints ((!![1, 0, 0; 0, 1, 0; 0, 0, 1] : Cell K).transpose * cell) =
      centredLattice (translations K 'P') cell := by
  apply centred_eq
  · intro m
    refine ⟨m, ![0, 0, 0], by simp [translations], ?_⟩
    intro j; fin_cases j <;> simp [Fin.sum_univ_three]
  · intro n t ht
    simp only [translations, List.mem_singleton] at ht
    subst ht
    refine ⟨n, ?_⟩
    intro j; fin_cases j <;> simp [Fin.sum_univ_three]

theorem centred_F (cell : Cell K) :
    latticePoints ((!![0, 1 / 2, 1 / 2; 1 / 2, 0, 1 / 2; 1 / 2, 1 / 2, 0] : Cell K).transpose * cell) =
      centredLattice (translations K 'F') cell := by
  apply centred_eq
  · intro m
    let w : Fin 3 → ℤ := ![(0) * m 0 + (1) * m 1 + (1) * m 2, (1) * m 0 + (0) * m 1 + (1) * m 2, (1) * m 0 + (1) * m 1 + (0) * m 2]
    refine ⟨fun j => w j / 2, fun j => ((w j % 2 : ℤ) : K) / 2, ?_, ?_⟩
    · rcases Int.emod_two_eq (w 0) with a | a <;> rcases Int.emod_two_eq (w 1) with b | b <;>
        rcases Int.emod_two_eq (w 2) with c | c <;>
      first
      | (exfalso; simp only [w, cons_val_zero, cons_val_one, cons_val] at a b c; omega)
      | (have e : (fun j => ((w j % 2 : ℤ) : K) / 2) =
            ![((w 0 % 2 : ℤ) : K) / 2, ((w 1 % 2 : ℤ) : K) / 2, ((w 2 % 2 : ℤ) : K) / 2] := by
          ext j; fin_cases j <;> rfl
         rw [e, a, b, c]; simp [translations])
    · intro j
      rw [← half_split]
      fin_cases j <;> simp [Fin.sum_univ_three, w] <;> ring
  · intro n t ht
    simp only [translations, List.mem_cons, List.not_mem_nil, or_false] at ht
    rcases ht with rfl | rfl | rfl | rfl
    · refine ⟨![(-1) * n 0 + (1) * n 1 + (1) * n 2 + (0), (1) * n 0 + (-1) * n 1 + (1) * n 2 + (0), (1) * n 0 + (1) * n 1 + (-1) * n 2 + (0)], ?_⟩
      intro j; fin_cases j <;> simp [Fin.sum_univ_three] <;> ring
    · refine ⟨![(-1) * n 0 + (1) * n 1 + (1) * n 2 + (1), (1) * n 0 + (-1) * n 1 + (1) * n 2 + (0), (1) * n 0 + (1) * n 1 + (-1) * n 2 + (0)], ?_⟩
      intro j; fin_cases j <;> simp [Fin.sum_univ_three] <;> ring
    · refine ⟨![(-1) * n 0 + (1) * n 1 + (1) * n 2 + (0), (1) * n 0 + (-1) * n 1 + (1) * n 2 + (1), (1) * n 0 + (1) * n 1 + (-1) * n 2 + (0)], ?_⟩
      intro j; fin_cases j <;> simp [Fin.sum_univ_three] <;> ring
    · refine ⟨![(-1) * n 0 + (1) * n 1 + (1) * n 2 + (0), (1) * n 0 + (-1) * n 1 + (1) * n 2 + (0), (1) * n 0 + (1) * n 1 + (-1) * n 2 + (1)], ?_⟩
      intro j; fin_cases j <;> simp [Fin.sum_univ_three] <;> ring

theorem centred_I (cell : Cell K) :
    latticePoints ((!![-1 / 2, 1 / 2, 1 / 2; 1 / 2, -1 / 2, 1 / 2; 1 / 2, 1 / 2, -1 / 2] : Cell K).transpose * cell) =
      centredLattice (translations K 'I') cell := by
  apply centred_eq
  · intro m
    let w : Fin 3 → ℤ := ![(-1) * m 0 + (1) * m 1 + (1) * m 2, (1) * m 0 + (-1) * m 1 + (1) * m 2, (1) * m 0 + (1) * m 1 + (-1) * m 2]
    refine ⟨fun j => w j / 2, fun j => ((w j % 2 : ℤ) : K) / 2, ?_, ?_⟩
    · rcases Int.emod_two_eq (w 0) with a | a <;> rcases Int.emod_two_eq (w 1) with b | b <;>
        rcases Int.emod_two_eq (w 2) with c | c <;>
      first
      | (exfalso; simp only [w, cons_val_zero, cons_val_one, cons_val] at a b c; omega)
      | (have e : (fun j => ((w j % 2 : ℤ) : K) / 2) =
            ![((w 0 % 2 : ℤ) : K) / 2, ((w 1 % 2 : ℤ) : K) / 2, ((w 2 % 2 : ℤ) : K) / 2] := by
          ext j; fin_cases j <;> rfl
         rw [e, a, b, c]; simp [translations])
    · intro j
      rw [← half_split]
      fin_cases j <;> simp [Fin.sum_univ_three, w] <;> ring
  · intro n t ht
    simp only [translations, List.mem_cons, List.not_mem_nil, or_false] at ht
    rcases ht with rfl | rfl
    · refine ⟨![(1) * n 1 + (1) * n 2 + (0), (1) * n 0 + (1) * n 2 + (0), (1) * n 0 + (1) * n 1 + (0)], ?_⟩
      intro j; fin_cases j <;> simp [Fin.sum_univ_three] <;> ring
    · refine ⟨![(1) * n 1 + (1) * n 2 + (1), (1) * n 0 + (1) * n 2 + (1), (1) * n 0 + (1) * n 1 + (1)], ?_⟩
      intro j; fin_cases j <;> simp [Fin.sum_univ_three] <;> ring

theorem centred_A (cell : Cell K) :
    latticePoints ((!![0, 0, 1; 1 / 2, 1 / 2, 0; -1 / 2, 1 / 2, 0] : Cell K).transpose * cell) =
      centredLattice (translations K 'A') cell := by
  apply centred_eq
  · intro m
    let w : Fin 3 → ℤ := ![(0) * m 0 + (0) * m 1 + (2) * m 2, (1) * m 0 + (1) * m 1 + (0) * m 2, (-1) * m 0 + (1) * m 1 + (0) * m 2]
    refine ⟨fun j => w j / 2, fun j => ((w j % 2 : ℤ) : K) / 2, ?_, ?_⟩
    · rcases Int.emod_two_eq (w 0) with a | a <;> rcases Int.emod_two_eq (w 1) with b | b <;>
        rcases Int.emod_two_eq (w 2) with c | c <;>
      first
      | (exfalso; simp only [w, cons_val_zero, cons_val_one, cons_val] at a b c; omega)
      | (have e : (fun j => ((w j % 2 : ℤ) : K) / 2) =
            ![((w 0 % 2 : ℤ) : K) / 2, ((w 1 % 2 : ℤ) : K) / 2, ((w 2 % 2 : ℤ) : K) / 2] := by
          ext j; fin_cases j <;> rfl
         rw [e, a, b, c]; simp [translations])
    · intro j
      rw [← half_split]
      fin_cases j <;> simp [Fin.sum_univ_three, w] <;> ring
  · intro n t ht
    simp only [translations, List.mem_cons, List.not_mem_nil, or_false] at ht
    rcases ht with rfl | rfl
    · refine ⟨![(1) * n 1 + (-1) * n 2 + (0), (1) * n 1 + (1) * n 2 + (0), (1) * n 0 + (0)], ?_⟩
      intro j; fin_cases j <;> simp [Fin.sum_univ_three] <;> ring
    · refine ⟨![(1) * n 1 + (-1) * n 2 + (0), (1) * n 1 + (1) * n 2 + (1), (1) * n 0 + (0)], ?_⟩
      intro j; fin_cases j <;> simp [Fin.sum_univ_three] <;> ring

theorem centred_C (cell : Cell K) :
    latticePoints ((!![1 / 2, 1 / 2, 0; -1 / 2, 1 / 2, 0; 0, 0, 1] : Cell K).transpose * cell) =
      centredLattice (translations K 'C') cell := by
  apply centred_eq
  · intro m
    let w : Fin 3 → ℤ := ![(1) * m 0 + (1) * m 1 + (0) * m 2, (-1) * m 0 + (1) * m 1 + (0) * m 2, (0) * m 0 + (0) * m 1 + (2) * m 2]
    refine ⟨fun j => w j / 2, fun j => ((w j % 2 : ℤ) : K) / 2, ?_, ?_⟩
    · rcases Int.emod_two_eq (w 0) with a | a <;> rcases Int.emod_two_eq (w 1) with b | b <;>
        rcases Int.emod_two_eq (w 2) with c | c <;>
      first
      | (exfalso; simp only [w, cons_val_zero, cons_val_one, cons_val] at a b c; omega)
      | (have e : (fun j => ((w j % 2 : ℤ) : K) / 2) =
            ![((w 0 % 2 : ℤ) : K) / 2, ((w 1 % 2 : ℤ) : K) / 2, ((w 2 % 2 : ℤ) : K) / 2] := by
          ext j; fin_cases j <;> rfl
         rw [e, a, b, c]; simp [translations])
    · intro j
      rw [← half_split]
      fin_cases j <;> simp [Fin.sum_univ_three, w] <;> ring
  · intro n t ht
    simp only [translations, List.mem_cons, List.not_mem_nil, or_false] at ht
    rcases ht with rfl | rfl
    · refine ⟨![(1) * n 0 + (-1) * n 1 + (0), (1) * n 0 + (1) * n 1 + (0), (1) * n 2 + (0)], ?_⟩
      intro j; fin_cases j <;> simp [Fin.sum_univ_three] <;> ring
    · refine ⟨![(1) * n 0 + (-1) * n 1 + (0), (1) * n 0 + (1) * n 1 + (1), (1) * n 2 + (0)], ?_⟩
      intro j; fin_cases j <;> simp [Fin.sum_univ_three] <;> ring

theorem centred_Cm (cell : Cell K) :
    latticePoints ((!![1 / 2, -1 / 2, 0; 1 / 2, 1 / 2, 0; 0, 0, 1] : Cell K).transpose * cell) =
      centredLattice (translations K 'C') cell := by
  apply centred_eq
  · intro m
    let w : Fin 3 → ℤ := ![(1) * m 0 + (-1) * m 1 + (0) * m 2, (1) * m 0 + (1) * m 1 + (0) * m 2, (0) * m 0 + (0) * m 1 + (2) * m 2]
    refine ⟨fun j => w j / 2, fun j => ((w j % 2 : ℤ) : K) / 2, ?_, ?_⟩
    · rcases Int.emod_two_eq (w 0) with a | a <;> rcases Int.emod_two_eq (w 1) with b | b <;>
        rcases Int.emod_two_eq (w 2) with c | c <;>
      first
      | (exfalso; simp only [w, cons_val_zero, cons_val_one, cons_val] at a b c; omega)
      | (have e : (fun j => ((w j % 2 : ℤ) : K) / 2) =
            ![((w 0 % 2 : ℤ) : K) / 2, ((w 1 % 2 : ℤ) : K) / 2, ((w 2 % 2 : ℤ) : K) / 2] := by
          ext j; fin_cases j <;> rfl
         rw [e, a, b, c]; simp [translations])
    · intro j
      rw [← half_split]
      fin_cases j <;> simp [Fin.sum_univ_three, w] <;> ring
  · intro n t ht
    simp only [translations, List.mem_cons, List.not_mem_nil, or_false] at ht
    rcases ht with rfl | rfl
    · refine ⟨![(1) * n 0 + (1) * n 1 + (0), (-1) * n 0 + (1) * n 1 + (0), (1) * n 2 + (0)], ?_⟩
      intro j; fin_cases j <;> simp [Fin.sum_univ_three] <;> ring
    · refine ⟨![(1) * n 0 + (1) * n 1 + (1), (-1) * n 0 + (1) * n 1 + (0), (1) * n 2 + (0)], ?_⟩
      intro j; fin_cases j <;> simp [Fin.sum_univ_three] <;> ring

end Wulfric
