import Verif.Props.C52_Criterion
import Verif.Spec.StandardCell
import Mathlib.LinearAlgebra.Matrix.Determinant.Basic

/-!
# Obtuse superbases and the lattice points that matter for the Wigner-Seitz cell

Four vectors with sum zero, three of them a basis of the lattice, whose mutual scalar products are
not positive (Selling, Delone, Conway). The sums of some of them are enough to cut out the
Wigner-Seitz cell.
-/

namespace Wulfric
open Matrix _root_.Spec

/-- The lattice points with indices up to 10 are enough. -/
def Enough (r : Cell ℝ) : Prop :=
  region (resultPoints (getLatticePoints r (fun _ => 10))) = wignerSeitz r

theorem dotSum_left {ι : Type} (s : Finset ι) (f : ι → Vec ℝ) (x : Vec ℝ) :
    dot (∑ i ∈ s, f i) x = ∑ i ∈ s, dot (f i) x := by
  unfold dot
  simp only [Finset.sum_apply, Finset.sum_mul, ← Finset.sum_add_distrib]

theorem dotComm (x y : Vec ℝ) : dot x y = dot y x := by unfold dot; ring

/-- The sums of some of the vectors of the superbase are enough. -/
theorem superbase_sums (w : Fin 4 → Vec ℝ) (h0 : ∑ i, w i = 0)
    (hob : ∀ i j, i ≠ j → dot (w i) (w j) ≤ 0) (x : Vec ℝ)
    (hx : ∀ A : Finset (Fin 4), 2 * dot x (∑ i ∈ A, w i) ≤ dot (∑ i ∈ A, w i) (∑ i ∈ A, w i))
    (N : ℕ) : ∀ n : Fin 4 → ℕ, ∑ i, n i ≤ N →
      2 * dot x (∑ i, (n i : ℝ) • w i) ≤ dot (∑ i, (n i : ℝ) • w i) (∑ i, (n i : ℝ) • w i) := by
  induction N with
  | zero =>
    intro n hn
    have : ∀ i, n i = 0 := by
      intro i
      have := Finset.single_le_sum (f := n) (fun i _ => Nat.zero_le _) (Finset.mem_univ i)
      omega
    simp [this, dot]
  | succ N ih =>
    intro n hn
    obtain ⟨A, hA⟩ : ∃ A : Finset (Fin 4), A = Finset.univ.filter fun i => 1 ≤ n i := ⟨_, rfl⟩
    have hmem (i) : i ∈ A ↔ 1 ≤ n i := by rw [hA]; simp
    by_cases hne : A = ∅
    · have : ∀ i, n i = 0 := by
        intro i
        have h : i ∉ A := by rw [hne]; simp
        rw [hmem] at h
        omega
      simp [this, dot]
    obtain ⟨S, hS⟩ : ∃ S, S = ∑ i ∈ A, w i := ⟨_, rfl⟩
    obtain ⟨p, hp⟩ : ∃ p : Vec ℝ, p = ∑ i, ((n i - 1 : ℕ) : ℝ) • w i := ⟨_, rfl⟩
    have hsplit : ∑ i, (n i : ℝ) • w i = S + p := by
      rw [hS, hp, ← Finset.sum_subset (Finset.subset_univ A) (f := fun i => (n i : ℝ) • w i),
        ← Finset.sum_subset (Finset.subset_univ A) (f := fun i => ((n i - 1 : ℕ) : ℝ) • w i),
        ← Finset.sum_add_distrib]
      · refine Finset.sum_congr rfl fun i hi => ?_
        have := (hmem i).1 hi
        rw [Nat.cast_sub this]
        module
      · intro i _ hi
        rw [hmem] at hi
        simp [show n i = 0 by omega]
      · intro i _ hi
        rw [hmem] at hi
        simp [show n i = 0 by omega]
    -- the sum makes no obtuse angle with the rest
    have hSw (i) (hi : i ∈ A) : 0 ≤ dot (w i) S := by
      have e : S = -∑ j ∈ Aᶜ, w j := by
        rw [hS, eq_neg_iff_add_eq_zero, Finset.sum_add_sum_compl, h0]
      have e2 : dot (w i) S = -dot (∑ j ∈ Aᶜ, w j) (w i) := by
        rw [e, dotComm]
        simp [dot]
        ring
      rw [e2, dotSum_left, neg_nonneg]
      refine Finset.sum_nonpos fun j hj => hob j i ?_
      rintro rfl
      exact (Finset.mem_compl.1 hj) hi
    have hSp : 0 ≤ dot p S := by
      rw [hp, dotSum_left]
      refine Finset.sum_nonneg fun i _ => ?_
      have e : dot (((n i - 1 : ℕ) : ℝ) • w i) S = ((n i - 1 : ℕ) : ℝ) * dot (w i) S := by
        simp [dot]; ring
      rw [e]
      by_cases hi : i ∈ A
      · exact mul_nonneg (Nat.cast_nonneg _) (hSw i hi)
      · rw [hmem] at hi
        simp [show n i - 1 = 0 by omega]
    have hlt : ∑ i, (n i - 1) ≤ N := by
      obtain ⟨i, hi⟩ := Finset.nonempty_iff_ne_empty.2 hne
      have : ∑ i, (n i - 1) < ∑ i, n i :=
        Finset.sum_lt_sum (fun j _ => Nat.sub_le _ _)
          ⟨i, Finset.mem_univ i, Nat.sub_lt (by have := (hmem i).1 hi; omega) one_pos⟩
      omega
    have h1 := ih (fun i => n i - 1) hlt
    rw [← hp] at h1
    have h2 := hx A
    rw [← hS] at h2
    rw [hsplit]
    have e1 : dot x (S + p) = dot x S + dot x p := by simp [dot]; ring
    have e2 : dot (S + p) (S + p) = dot S S + 2 * dot p S + dot p p := by simp [dot]; ring
    rw [e1, e2]
    linarith

/-- The vector with the given indices. -/
def withIndices (r : Cell ℝ) (m : Fin 3 → ℤ) : Vec ℝ :=
  (m 0 : ℝ) • r 0 + (m 1 : ℝ) • r 1 + (m 2 : ℝ) • r 2

theorem specPoint_indices (r : Cell ℝ) (m : Fin 3 → ℤ) :
    specPoint r false m = withIndices r m := by
  ext j
  simp [specPoint, withIndices]

/-- The scalar product of two vectors given by their indices. -/
theorem dot_indices (r : Cell ℝ) (m n : Fin 3 → ℤ) : dot (withIndices r m) (withIndices r n) =
    m 0 * n 0 * dot (r 0) (r 0) + m 1 * n 1 * dot (r 1) (r 1) + m 2 * n 2 * dot (r 2) (r 2) +
    (m 0 * n 1 + m 1 * n 0) * dot (r 0) (r 1) + (m 0 * n 2 + m 2 * n 0) * dot (r 0) (r 2) +
    (m 1 * n 2 + m 2 * n 1) * dot (r 1) (r 2) := by
  simp only [withIndices, dot, Pi.add_apply, Pi.smul_apply, smul_eq_mul]
  ring

/-- A superbase with small indices: the points with indices up to 10 are enough. -/
theorem superbase_enough (r : Cell ℝ) (W : Matrix (Fin 3) (Fin 3) ℤ) (hdet : W.det = 1 ∨ W.det = -1)
    (hb : ∀ i j, |W i j| ≤ 2) (hb0 : ∀ j, |W 0 j + W 1 j + W 2 j| ≤ 2)
    (h01 : dot (withIndices r (W 0)) (withIndices r (W 1)) ≤ 0)
    (h02 : dot (withIndices r (W 0)) (withIndices r (W 2)) ≤ 0)
    (h12 : dot (withIndices r (W 1)) (withIndices r (W 2)) ≤ 0)
    (h0 : 0 ≤ dot (withIndices r (W 0)) (withIndices r (fun j => W 0 j + W 1 j + W 2 j)))
    (h1 : 0 ≤ dot (withIndices r (W 1)) (withIndices r (fun j => W 0 j + W 1 j + W 2 j)))
    (h2 : 0 ≤ dot (withIndices r (W 2)) (withIndices r (fun j => W 0 j + W 1 j + W 2 j))) :
    Enough r := by
  refine Set.Subset.antisymm (fun x hx => ?_) (fun x hx p hp => ?_)
  swap
  · refine hx p ?_
    obtain ⟨m, -, rfl⟩ := (mem_resultPoints r 10 p).1 hp
    rw [latticePoints_eq]
    exact ⟨m, rfl⟩
  let V : Fin 4 → Fin 3 → ℤ := ![W 0, W 1, W 2, fun j => -(W 0 j + W 1 j + W 2 j)]
  let w : Fin 4 → Vec ℝ := fun i => withIndices r (V i)
  have hwsum (A : Finset (Fin 4)) : ∑ i ∈ A, w i = withIndices r (fun j => ∑ i ∈ A, V i j) := by
    simp only [w, withIndices, Finset.sum_add_distrib, Int.cast_sum, Finset.sum_smul]
  have hw0 : ∑ i, w i = 0 := by
    rw [hwsum]
    ext j
    simp [withIndices, Fin.sum_univ_four, V]
  have hVb (i j) : |V i j| ≤ 2 := by
    fin_cases i
    · exact hb 0 j
    · exact hb 1 j
    · exact hb 2 j
    · change |-(W 0 j + W 1 j + W 2 j)| ≤ 2
      rw [abs_neg]
      exact hb0 j
  have hneg (m n : Fin 3 → ℤ) : dot (withIndices r m) (withIndices r fun j => -n j) =
      -dot (withIndices r m) (withIndices r n) := by
    rw [dot_indices, dot_indices]
    push_cast
    ring
  have hob (i j) (hij : i ≠ j) : dot (w i) (w j) ≤ 0 := by
    have k01 : dot (w 0) (w 1) ≤ 0 := h01
    have k02 : dot (w 0) (w 2) ≤ 0 := h02
    have k12 : dot (w 1) (w 2) ≤ 0 := h12
    have k03 : dot (w 0) (w 3) ≤ 0 := by
      have := hneg (W 0) (fun j => W 0 j + W 1 j + W 2 j)
      change dot (withIndices r (W 0)) (withIndices r fun j => -(W 0 j + W 1 j + W 2 j)) ≤ 0
      linarith
    have k13 : dot (w 1) (w 3) ≤ 0 := by
      have := hneg (W 1) (fun j => W 0 j + W 1 j + W 2 j)
      change dot (withIndices r (W 1)) (withIndices r fun j => -(W 0 j + W 1 j + W 2 j)) ≤ 0
      linarith
    have k23 : dot (w 2) (w 3) ≤ 0 := by
      have := hneg (W 2) (fun j => W 0 j + W 1 j + W 2 j)
      change dot (withIndices r (W 2)) (withIndices r fun j => -(W 0 j + W 1 j + W 2 j)) ≤ 0
      linarith
    have key : ∀ i j : Fin 4, i < j → dot (w i) (w j) ≤ 0 := by
      intro i j h
      fin_cases i <;> fin_cases j <;> first
        | exact k01 | exact k02 | exact k03 | exact k12 | exact k13 | exact k23
        | exact absurd h (by decide)
    rcases lt_or_gt_of_ne hij with h | h
    · exact key i j h
    · rw [dotComm]; exact key j i h
  have hxA (A : Finset (Fin 4)) :
      2 * dot x (∑ i ∈ A, w i) ≤ dot (∑ i ∈ A, w i) (∑ i ∈ A, w i) := by
    rw [← region_iff]
    refine hx _ ((mem_resultPoints r 10 _).2 ⟨fun j => ∑ i ∈ A, V i j, fun j => ?_, ?_⟩)
    · calc |∑ i ∈ A, V i j| ≤ ∑ i ∈ A, |V i j| := Finset.abs_sum_le_sum_abs _ _
        _ ≤ ∑ i ∈ A, 2 := Finset.sum_le_sum fun i _ => hVb i j
        _ ≤ ∑ i : Fin 4, 2 := Finset.sum_le_sum_of_subset_of_nonneg (Finset.subset_univ A)
          (fun _ _ _ => by norm_num)
        _ ≤ _ := by simp
    · rw [specPoint_indices, hwsum]
  intro p hp
  rw [region_iff]
  rw [latticePoints_eq] at hp
  obtain ⟨m, rfl⟩ := hp
  rw [specPoint_indices]
  -- the coefficients with respect to the superbase
  obtain ⟨k, hk⟩ : ∃ k : Fin 3 → ℤ, ∀ j, m j = k 0 * W 0 j + k 1 * W 1 j + k 2 * W 2 j := by
    have hu : IsUnit W.det := by rcases hdet with h | h <;> rw [h] <;> simp
    refine ⟨m ᵥ* W⁻¹, fun j => ?_⟩
    have : (m ᵥ* W⁻¹) ᵥ* W = m := by rw [Matrix.vecMul_vecMul, Matrix.nonsing_inv_mul _ hu, Matrix.vecMul_one]
    have := congrFun this j
    rw [← this]
    simp [Matrix.vecMul, dotProduct, Fin.sum_univ_three]
  obtain ⟨M, hM⟩ : ∃ M : ℕ, ∀ i, 0 ≤ k i + M := by
    refine ⟨(|k 0| + |k 1| + |k 2|).toNat, fun i => ?_⟩
    have n0 := abs_nonneg (k 0)
    have n1 := abs_nonneg (k 1)
    have n2 := abs_nonneg (k 2)
    rw [Int.toNat_of_nonneg (by positivity)]
    have := neg_abs_le (k i)
    fin_cases i <;> simp only [Fin.zero_eta, Fin.mk_one, Fin.reduceFinMk] at this ⊢ <;> linarith
  let n : Fin 4 → ℕ := ![(k 0 + M).toNat, (k 1 + M).toNat, (k 2 + M).toNat, M]
  have hn (i : Fin 3) : (((k i + M).toNat : ℕ) : ℝ) = k i + M := by
    have := Int.toNat_of_nonneg (hM i)
    exact_mod_cast this
  have hpn : withIndices r m = ∑ i, (n i : ℝ) • w i := by
    rw [Fin.sum_univ_four]
    change _ = (((k 0 + M).toNat : ℕ) : ℝ) • withIndices r (W 0) +
      (((k 1 + M).toNat : ℕ) : ℝ) • withIndices r (W 1) +
      (((k 2 + M).toNat : ℕ) : ℝ) • withIndices r (W 2) +
      (M : ℝ) • withIndices r (fun j => -(W 0 j + W 1 j + W 2 j))
    rw [hn, hn, hn]
    simp only [withIndices, hk]
    push_cast
    module
  rw [hpn]
  exact superbase_sums w hw0 hob x hxA _ n le_rfl

end Wulfric
