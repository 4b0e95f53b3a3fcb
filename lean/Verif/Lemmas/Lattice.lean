import Verif.Spec.Lattice
import Mathlib.Tactic.Ring
import Mathlib.Tactic.FieldSimp

namespace Spec
open Matrix
variable {K : Type*} [Field K]

/-- Integer combination of rows written with `vecMul`. -/
theorem mem_latticePoints (c : Matrix (Fin 3) (Fin 3) K) (v : Fin 3 → K) :
    v ∈ latticePoints c ↔ ∃ n : Fin 3 → ℤ, v = (fun i => (n i : K)) ᵥ* c := by
  simp only [latticePoints, Set.mem_ofPred_eq]
  refine exists_congr fun n => ?_
  constructor <;> intro h <;> rw [h] <;> ext j <;> simp [vecMul, dotProduct]

theorem latticePoints_mul_subset (M : Matrix (Fin 3) (Fin 3) ℤ)
    (c : Matrix (Fin 3) (Fin 3) K) :
    latticePoints (M.map (Int.cast : ℤ → K) * c) ⊆ latticePoints c := by
  intro v hv
  rw [mem_latticePoints] at hv ⊢
  obtain ⟨n, rfl⟩ := hv
  refine ⟨n ᵥ* M, ?_⟩
  rw [← vecMul_vecMul]
  congr 1
  ext j
  simp [vecMul, dotProduct]

/-- A unimodular integer change of basis does not change the lattice. -/
theorem sameLattice_of_unimodular (M : Matrix (Fin 3) (Fin 3) ℤ) (hM : IsUnit M.det)
    (c : Matrix (Fin 3) (Fin 3) K) :
    SameLattice (M.map (Int.cast : ℤ → K) * c) c := by
  refine Set.Subset.antisymm (latticePoints_mul_subset M c) ?_
  have h := latticePoints_mul_subset (K := K) M⁻¹ (M.map (Int.cast : ℤ → K) * c)
  have e : (M⁻¹).map (Int.cast : ℤ → K) * (M.map (Int.cast : ℤ → K) * c) = c := by
    rw [← Matrix.mul_assoc]
    have : (M⁻¹).map (Int.cast : ℤ → K) * M.map (Int.cast : ℤ → K) = 1 := by
      have h1 : (M⁻¹ * M).map (Int.castRingHom K) =
          (M⁻¹).map (Int.castRingHom K) * M.map (Int.castRingHom K) := Matrix.map_mul
      rw [nonsing_inv_mul M hM] at h1
      have h2 : (1 : Matrix (Fin 3) (Fin 3) ℤ).map (Int.castRingHom K) = 1 := by simp
      rw [h2] at h1
      exact h1.symm
    rw [this, Matrix.one_mul]
  rwa [e] at h

theorem det_map_intCast (M : Matrix (Fin 3) (Fin 3) ℤ) :
    (M.map (Int.cast : ℤ → K)).det = (M.det : K) := by
  have := (Int.castRingHom K).map_det M
  simpa using this.symm

theorem SameLattice.symm {c d : Matrix (Fin 3) (Fin 3) K} (h : SameLattice c d) :
    SameLattice d c := Eq.symm h

theorem SameLattice.trans {c d e : Matrix (Fin 3) (Fin 3) K} (h : SameLattice c d)
    (h' : SameLattice d e) : SameLattice c e := Eq.trans h h'

end Spec
