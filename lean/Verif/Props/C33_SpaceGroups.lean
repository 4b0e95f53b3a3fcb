import Verif.Model.SpaceGroups
import Verif.Model.Conventions
import Verif.Spec.Centring
import Verif.Lemmas.Python
import Mathlib.Order.Interval.Finset.Basic
import Mathlib.Data.Int.Interval

/-! # C33: space-group tables -/

set_option linter.unusedSectionVars false

namespace Wulfric
open Spec Matrix

theorem table_inside : ∀ n ∈ Finset.Icc (1 : ℤ) 230,
    crystalFamily.get? n = some (family n) ∧ centringType.get? n = some (centring n) ∧
    inversionSymmetry.get? n = some (centrosymmetric n) := by decide +kernel

theorem table_keys : (∀ n ∈ crystalFamily.keys, n ∈ Finset.Icc (1 : ℤ) 230) ∧
    (∀ n ∈ centringType.keys, n ∈ Finset.Icc (1 : ℤ) 230) ∧
    (∀ n ∈ inversionSymmetry.keys, n ∈ Finset.Icc (1 : ℤ) 230) := by decide +kernel

/-- C33: the tables agree with the International Tables for the 230 space groups. -/
theorem C33_values (n : ℤ) (h : 1 ≤ n ∧ n ≤ 230) :
    crystalFamily.getItem n = .ok (family n) ∧ centringType.getItem n = .ok (centring n) ∧
    inversionSymmetry.getItem n = .ok (centrosymmetric n) := by
  obtain ⟨h1, h2, h3⟩ := table_inside n (Finset.mem_Icc.2 h)
  simp [PyDict.getItem, h1, h2, h3]

/-- C33: any other number raises `KeyError`. -/
theorem C33_others (n : ℤ) (h : ¬ (1 ≤ n ∧ n ≤ 230)) :
    crystalFamily.getItem n = .error .keyError ∧ centringType.getItem n = .error .keyError ∧
    inversionSymmetry.getItem n = .error .keyError := by
  have hn : n ∉ Finset.Icc (1 : ℤ) 230 := fun hc => h (Finset.mem_Icc.1 hc)
  have h1 := (PyDict.get?_eq_none crystalFamily n).2 (fun hc => hn (table_keys.1 n hc))
  have h2 := (PyDict.get?_eq_none centringType n).2 (fun hc => hn (table_keys.2.1 n hc))
  have h3 := (PyDict.get?_eq_none inversionSymmetry n).2 (fun hc => hn (table_keys.2.2 n hc))
  simp [PyDict.getItem, h1, h2, h3]

theorem symbols_inside : ∀ n ∈ Finset.Icc (1 : ℤ) 230,
    family n ++ centring n ∈ bravaisLattices := by decide +kernel

/-- C33: family and centring of every space group form a Bravais lattice symbol, both
tables of conventional-to-primitive matrices have exactly these symbols, and every symbol is
the one of some space group. -/
theorem C33_symbols (K : Type*) [Field K] :
    (∀ n : ℤ, ∀ f c, crystalFamily.getItem n = .ok f → centringType.getItem n = .ok c →
      f ++ c ∈ bravaisLattices) ∧
    (hpkotConventionalToPrimitive K).keys = bravaisLattices ∧
    (scConventionalToPrimitive K).keys = bravaisLattices ∧
    scBravaisLatticeShortNames.keys = bravaisLattices ∧
    (∀ s ∈ bravaisLattices, ∃ n : ℤ, ∃ f c, crystalFamily.getItem n = .ok f ∧
      centringType.getItem n = .ok c ∧ s = f ++ c) := by
  refine ⟨?_, rfl, rfl, rfl, ?_⟩
  · intro n f c hf hc
    by_cases h : 1 ≤ n ∧ n ≤ 230
    · obtain ⟨h1, h2, -⟩ := C33_values n h
      rw [h1] at hf; rw [h2] at hc
      cases hf; cases hc
      exact symbols_inside n (Finset.mem_Icc.2 h)
    · rw [(C33_others n h).1] at hf; cases hf
  · have : ∀ s ∈ bravaisLattices, ∃ n ∈ Finset.Icc (1 : ℤ) 230, s = family n ++ centring n := by
      decide +kernel
    intro s hs
    obtain ⟨n, hn, e⟩ := this s hs
    obtain ⟨h1, h2, -⟩ := C33_values n (Finset.mem_Icc.1 hn)
    exact ⟨n, _, _, h1, h2, e⟩

example : crystalFamily.getItem 166 = .ok "h" ∧ centringType.getItem 166 = .ok "R" := by
  decide +kernel

end Wulfric
