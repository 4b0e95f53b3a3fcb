import Verif.Props.C52_WignerSeitz
import Verif.Props.C02_Reciprocal
import Mathlib.Data.Fintype.BigOperators
import Mathlib.Algebra.Order.Floor.Ring
import Mathlib.Data.Int.Interval
import Mathlib.Tactic.Positivity

/-! # C52, continued: a criterion for any cell, and the Brillouin zone of a reduced cell -/

namespace Wulfric
open Matrix _root_.Spec

/-- The rows of `dual` are dual to those of `cell`. -/
def Dual (cell dual : Cell ℝ) : Prop := ∀ i j, dot (cell i) (dual j) = if i = j then 1 else 0

theorem dual_mul {cell dual : Cell ℝ} (h : Dual cell dual) : cell * dual.transpose = 1 := by
  ext i j
  rw [Matrix.mul_apply, Fin.sum_univ_three, Matrix.one_apply]
  simp only [Matrix.transpose_apply]
  exact h i j

/-- The coefficients of a lattice point. -/
theorem dot_dual {cell dual : Cell ℝ} (h : Dual cell dual) (m : Fin 3 → ℤ) (i : Fin 3) :
    dot (specPoint cell false m) (dual i) = m i := by
  have e : dot (specPoint cell false m) (dual i) =
      m 0 * dot (cell 0) (dual i) + m 1 * dot (cell 1) (dual i) + m 2 * dot (cell 2) (dual i) := by
    simp only [specPoint, Bool.false_eq_true, if_false, dot]
    ring
  rw [e, h, h, h]
  fin_cases i <;> simp

/-- A vector of the dual basis in terms of the basis. -/
theorem dual_row_eq {cell dual : Cell ℝ} (h : Dual cell dual) (i : Fin 3) (x : Fin 3 → ℝ) :
    dot x (dual i) = dot (dual i) (dual 0) * dot x (cell 0) + dot (dual i) (dual 1) * dot x (cell 1) +
      dot (dual i) (dual 2) * dot x (cell 2) := by
  have h1 : dual.transpose * cell = 1 := mul_eq_one_comm.1 (dual_mul h)
  have h2 (j k : Fin 3) : dual 0 j * cell 0 k + dual 1 j * cell 1 k + dual 2 j * cell 2 k =
      if j = k then 1 else 0 := by
    have := congrFun (congrFun h1 j) k
    rw [Matrix.mul_apply, Fin.sum_univ_three, Matrix.one_apply] at this
    simpa using this
  have h00 := h2 0 0
  have h01 := h2 0 1
  have h02 := h2 0 2
  have h10 := h2 1 0
  have h11 := h2 1 1
  have h12 := h2 1 2
  have h20 := h2 2 0
  have h21 := h2 2 1
  have h22 := h2 2 2
  simp at h00 h01 h02 h10 h11 h12 h20 h21 h22
  unfold dot
  linear_combination -(dual i 0 * x 0 * h00) - dual i 0 * x 1 * h01 - dual i 0 * x 2 * h02 -
    dual i 1 * x 0 * h10 - dual i 1 * x 1 * h11 - dual i 1 * x 2 * h12 -
    dual i 2 * x 0 * h20 - dual i 2 * x 1 * h21 - dual i 2 * x 2 * h22

/-- Squared distance of `x` to a lattice point. -/
noncomputable def distSq (cell : Cell ℝ) (x : Fin 3 → ℝ) (m : Fin 3 → ℤ) : ℝ :=
  dot (fun i => x i - specPoint cell false m i) (fun i => x i - specPoint cell false m i)

theorem dot_cs (x y : Fin 3 → ℝ) : dot x y * dot x y ≤ dot x x * dot y y := by
  unfold dot
  nlinarith [mul_self_nonneg (x 0 * y 1 - x 1 * y 0), mul_self_nonneg (x 0 * y 2 - x 2 * y 0),
    mul_self_nonneg (x 1 * y 2 - x 2 * y 1)]

theorem dot_self_nonneg3 (x : Fin 3 → ℝ) : 0 ≤ dot x x := by
  unfold dot
  nlinarith [mul_self_nonneg (x 0), mul_self_nonneg (x 1), mul_self_nonneg (x 2)]

/-- There is a nearest lattice point. -/
theorem exists_nearest {cell dual : Cell ℝ} (h : Dual cell dual) (x : Fin 3 → ℝ) :
    ∃ m, ∀ k, distSq cell x m ≤ distSq cell x k := by
  classical
  obtain ⟨D, hD⟩ : ∃ D : ℝ, D = dot (dual 0) (dual 0) + dot (dual 1) (dual 1) + dot (dual 2) (dual 2) :=
    ⟨_, rfl⟩
  have hDi (i : Fin 3) : dot (dual i) (dual i) ≤ D := by
    have h0 := dot_self_nonneg3 (dual 0)
    have h1 := dot_self_nonneg3 (dual 1)
    have h2 := dot_self_nonneg3 (dual 2)
    rw [hD]
    fin_cases i <;> simp <;> linarith
  have hD0 : 0 ≤ D := (dot_self_nonneg3 (dual 0)).trans (hDi 0)
  obtain ⟨N, hN⟩ := exists_nat_ge (4 * dot x x * D + 1)
  have hx := dot_self_nonneg3 x
  have hN1 : (1 : ℝ) ≤ N := by nlinarith [mul_nonneg hx hD0]
  -- a lattice point outside of the box is farther than the origin
  have hout : ∀ k : Fin 3 → ℤ, (∃ i, (N : ℤ) < |k i|) → dot x x ≤ distSq cell x k := by
    rintro k ⟨i, hi⟩
    by_contra hlt
    push Not at hlt
    unfold distSq at hlt
    obtain ⟨y, hy⟩ : ∃ y : Fin 3 → ℝ, y = fun i => x i - specPoint cell false k i := ⟨_, rfl⟩
    rw [← hy] at hlt
    have hk : (k i : ℝ) = dot x (dual i) - dot y (dual i) := by
      rw [← dot_dual h k i, hy]
      unfold dot
      ring
    have hkN : (N : ℝ) < |(k i : ℝ)| := by exact_mod_cast hi
    have c1 := dot_cs x (dual i)
    have c2 := dot_cs y (dual i)
    have c3 : dot x x * dot (dual i) (dual i) ≤ dot x x * D := mul_le_mul_of_nonneg_left (hDi i) hx
    have c4 : dot y y * dot (dual i) (dual i) ≤ dot x x * D :=
      mul_le_mul hlt.le (hDi i) (dot_self_nonneg3 _) hx
    have h1 : (k i : ℝ) * k i ≤ 4 * (dot x x * D) := by
      rw [hk]
      nlinarith [mul_self_nonneg (dot x (dual i) + dot y (dual i))]
    have h2 : (N : ℝ) * N < (k i : ℝ) * k i := by
      rw [← abs_mul_abs_self (k i : ℝ)]
      nlinarith
    nlinarith
  obtain ⟨m, -, hm⟩ := Finset.exists_min_image
    (Fintype.piFinset fun _ : Fin 3 => Finset.Icc (-(N : ℤ)) N) (distSq cell x)
    ⟨0, by simp⟩
  have h0 : distSq cell x 0 = dot x x := by
    unfold distSq specPoint
    simp
  refine ⟨m, fun k => ?_⟩
  by_cases hk : ∃ i, (N : ℤ) < |k i|
  · calc distSq cell x m ≤ distSq cell x 0 := hm 0 (by simp)
      _ = dot x x := h0
      _ ≤ _ := hout k hk
  · push Not at hk
    exact hm k (Fintype.mem_piFinset.2 fun i => Finset.mem_Icc.2 (abs_le.1 (hk i)))

theorem dot_zero_sub (x : Fin 3 → ℝ) (p : Fin 3 → ℝ) : dot x (fun j => -p j) = -dot x p := by
  unfold dot; ring

/-- Points that are not beyond the planes of the six vectors `±cell j` have bounded coefficients. -/
theorem coeff_bound {cell dual : Cell ℝ} (h : Dual cell dual) (b : ℝ) (i : Fin 3)
    (hb : |dot (dual i) (dual 0)| * dot (cell 0) (cell 0) +
      |dot (dual i) (dual 1)| * dot (cell 1) (cell 1) +
      |dot (dual i) (dual 2)| * dot (cell 2) (cell 2) ≤ b) (x : Fin 3 → ℝ)
    (hx : ∀ j, |2 * dot x (cell j)| ≤ dot (cell j) (cell j)) : |2 * dot x (dual i)| ≤ b := by
  rw [dual_row_eq h i x]
  have key (j : Fin 3) : |dot (dual i) (dual j) * (2 * dot x (cell j))| ≤
      |dot (dual i) (dual j)| * dot (cell j) (cell j) := by
    rw [abs_mul]
    exact mul_le_mul_of_nonneg_left (hx j) (abs_nonneg _)
  have e : 2 * (dot (dual i) (dual 0) * dot x (cell 0) + dot (dual i) (dual 1) * dot x (cell 1) +
      dot (dual i) (dual 2) * dot x (cell 2)) = dot (dual i) (dual 0) * (2 * dot x (cell 0)) +
      dot (dual i) (dual 1) * (2 * dot x (cell 1)) + dot (dual i) (dual 2) * (2 * dot x (cell 2)) := by
    ring
  rw [e]
  calc _ ≤ |dot (dual i) (dual 0) * (2 * dot x (cell 0)) + dot (dual i) (dual 1) * (2 * dot x (cell 1))| +
        |dot (dual i) (dual 2) * (2 * dot x (cell 2))| := abs_add_le _ _
    _ ≤ |dot (dual i) (dual 0) * (2 * dot x (cell 0))| + |dot (dual i) (dual 1) * (2 * dot x (cell 1))| +
        |dot (dual i) (dual 2) * (2 * dot x (cell 2))| := by
      linarith [abs_add_le (dot (dual i) (dual 0) * (2 * dot x (cell 0)))
        (dot (dual i) (dual 1) * (2 * dot x (cell 1)))]
    _ ≤ _ := by linarith [key 0, key 1, key 2]

/-- The unit vector of an axis, as indices. -/
def axisIndex (s : ℤ) (j : Fin 3) : Fin 3 → ℤ := fun i => if i = j then s else 0

theorem specPoint_axis (cell : Cell ℝ) (s : ℤ) (j : Fin 3) :
    specPoint cell false (axisIndex s j) = fun k => (s : ℝ) * cell j k := by
  funext k
  fin_cases j <;> simp [specPoint, axisIndex]

/-- C52, a criterion for every cell: the points with indices up to `n` cut out exactly the
Wigner-Seitz cell of the infinite lattice if, for every vector `d i` of the dual basis,
`Σⱼ |dᵢ·dⱼ| |aⱼ|² ≤ n`. (The sum is 1 for an orthogonal cell and grows with the skewness.) -/
theorem C52_criterion (cell dual : Cell ℝ) (h : Dual cell dual) (n : ℕ) (hn : 1 ≤ n)
    (hskew : ∀ i, |dot (dual i) (dual 0)| * dot (cell 0) (cell 0) +
      |dot (dual i) (dual 1)| * dot (cell 1) (cell 1) +
      |dot (dual i) (dual 2)| * dot (cell 2) (cell 2) ≤ n) :
    region (resultPoints (getLatticePoints cell (fun _ => n))) = wignerSeitz cell := by
  have hplanes : ∀ x ∈ region (resultPoints (getLatticePoints cell (fun _ => n))),
      ∀ j, |2 * dot x (cell j)| ≤ dot (cell j) (cell j) := by
    intro x hx j
    have mem (s : ℤ) (hs : |s| ≤ 1) : specPoint cell false (axisIndex s j) ∈
        resultPoints (getLatticePoints cell (fun _ => n)) := by
      rw [mem_resultPoints]
      refine ⟨_, fun i => ?_, rfl⟩
      have : (1 : ℤ) ≤ n := by exact_mod_cast hn
      unfold axisIndex
      split
      · linarith
      · simp
    have h1 := hx _ (mem 1 (by simp))
    have h2 := hx _ (mem (-1) (by simp))
    rw [region_iff] at h1 h2
    rw [specPoint_axis] at h1 h2
    rw [abs_le]
    have e1 : dot x (fun k => ((1 : ℤ) : ℝ) * cell j k) = dot x (cell j) := by
      unfold dot; push_cast; ring
    have e2 : dot (fun k => ((1 : ℤ) : ℝ) * cell j k) (fun k => ((1 : ℤ) : ℝ) * cell j k) =
        dot (cell j) (cell j) := by
      unfold dot; push_cast; ring
    have e3 : dot x (fun k => ((-1 : ℤ) : ℝ) * cell j k) = -dot x (cell j) := by
      unfold dot; push_cast; ring
    have e4 : dot (fun k => ((-1 : ℤ) : ℝ) * cell j k) (fun k => ((-1 : ℤ) : ℝ) * cell j k) =
        dot (cell j) (cell j) := by
      unfold dot; push_cast; ring
    rw [e1, e2] at h1
    rw [e3, e4] at h2
    constructor <;> linarith
  have hsub : wignerSeitz cell ⊆ region (resultPoints (getLatticePoints cell (fun _ => n))) := by
    intro x hx p hp
    apply hx p
    rw [mem_resultPoints] at hp
    obtain ⟨m, -, rfl⟩ := hp
    rw [latticePoints_eq]
    exact ⟨m, rfl⟩
  refine Set.Subset.antisymm (fun x hx => ?_) hsub
  obtain ⟨m, hm⟩ := exists_nearest h x
  -- the remainder is in the Wigner-Seitz cell
  have hy : (fun i => x i - specPoint cell false m i) ∈ wignerSeitz cell := by
    intro p hp
    rw [latticePoints_eq] at hp
    obtain ⟨k, rfl⟩ := hp
    have := hm (fun i => m i + k i)
    unfold distSq at this
    refine this.trans (le_of_eq ?_)
    have e : (fun i => x i - specPoint cell false (fun i => m i + k i) i) =
        fun i => x i - specPoint cell false m i - specPoint cell false k i := by
      funext i
      simp only [specPoint, Bool.false_eq_true, if_false]
      push_cast
      ring
    rw [e]
  have hbx := fun i => coeff_bound h n i (hskew i) x (hplanes x hx)
  have hby := fun i => coeff_bound h n i (hskew i) _ (hplanes _ (hsub hy))
  have hmem : specPoint cell false m ∈ resultPoints (getLatticePoints cell (fun _ => n)) := by
    rw [mem_resultPoints]
    refine ⟨m, fun i => ?_, rfl⟩
    have e : (m i : ℝ) = dot x (dual i) -
        dot (fun i => x i - specPoint cell false m i) (dual i) := by
      rw [← dot_dual h m i]
      unfold dot
      ring
    have h1 := abs_le.1 (hbx i)
    have h2 := abs_le.1 (hby i)
    have h3 : |(m i : ℝ)| ≤ (n : ℝ) := by
      rw [abs_le, e]
      constructor <;> linarith
    exact_mod_cast h3
  intro p hp
  rw [latticePoints_eq] at hp
  obtain ⟨k, rfl⟩ := hp
  exact (hx _ hmem).trans (hm k)

/-! ### The reciprocal of a reduced cell -/

/-- The square of the volume of a reduced cell is at least a quarter of that of a box with the same
edges. -/
theorem niggli_volume {A B C xi eta zeta : ℝ} (h : NiggliNumbers A B C xi eta zeta) (hA : 0 < A) :
    A * B * C / 4 ≤ A * B * C + (xi * eta * zeta - A * xi ^ 2 - B * eta ^ 2 - C * zeta ^ 2) / 4 := by
  have ab := h.ab
  have bc := h.bc
  have hB : 0 < B := hA.trans_le ab
  have hC : 0 < C := hB.trans_le bc
  have hxi := abs_le.1 h.xi_le
  have heta := abs_le.1 h.eta_le
  have hzeta := abs_le.1 h.zeta_le
  have k1 : A * B * B ≤ A * B * C := mul_le_mul_of_nonneg_left bc (by positivity)
  have k2 : A * A * B ≤ A * B * B := by nlinarith [mul_pos hA hB]
  have k3 : A * A * C ≤ A * B * C := by nlinarith [mul_pos hA hC]
  rcases h.type with ⟨t1, t2, t3⟩ | ⟨t1, t2, t3⟩
  · have q1 : xi ^ 2 ≤ B * B := by nlinarith
    have q2 : eta ^ 2 ≤ A * A := by nlinarith
    have q3 : zeta ^ 2 ≤ A * A := by nlinarith
    have q4 : 0 ≤ xi * eta * zeta := by positivity
    nlinarith [mul_le_mul_of_nonneg_left q1 hA.le, mul_le_mul_of_nonneg_left q2 hB.le,
      mul_le_mul_of_nonneg_left q3 hC.le]
  · have hs := h.sum_nonneg
    have q1 : xi ^ 2 ≤ B * (-xi) := by nlinarith
    have q2 : eta ^ 2 ≤ A * (-eta) := by nlinarith
    have q3 : zeta ^ 2 ≤ A * (-zeta) := by nlinarith
    have p1 : A * xi ^ 2 ≤ A * C * (-xi) := by
      nlinarith [mul_le_mul_of_nonneg_left q1 hA.le, mul_nonneg hA.le (neg_nonneg.2 t1),
        mul_nonneg (mul_nonneg hA.le (neg_nonneg.2 t1)) (sub_nonneg.2 bc)]
    have p2 : B * eta ^ 2 ≤ A * C * (-eta) := by
      nlinarith [mul_le_mul_of_nonneg_left q2 hB.le,
        mul_nonneg (mul_nonneg hA.le (neg_nonneg.2 t2)) (sub_nonneg.2 bc)]
    have p3 : C * zeta ^ 2 ≤ A * C * (-zeta) := by
      nlinarith [mul_le_mul_of_nonneg_left q3 hC.le]
    have p4 : A * C * (-xi - eta - zeta) ≤ A * C * (A + B) :=
      mul_le_mul_of_nonneg_left (by linarith) (by positivity)
    have p5 : -(xi * eta * zeta) ≤ B * A * A := by
      have e1 : (-xi) * (-eta) ≤ B * A :=
        mul_le_mul (by linarith) (by linarith) (by linarith) hB.le
      have e2 : (-xi) * (-eta) * (-zeta) ≤ B * A * A :=
        mul_le_mul e1 (by linarith) (by linarith) (by positivity)
      linarith [e2, (by ring : (-xi) * (-eta) * (-zeta) = -(xi * eta * zeta))]
    nlinarith

/-- C52: for a Niggli-reduced cell the reciprocal lattice points with indices up to 10 cut out
exactly the Brillouin zone, although the reciprocal cell need not be reduced. -/
theorem C52_brillouin (cell r : Cell ℝ) (h : IsNiggli cell) (hr : getReciprocal cell = .ok r) :
    region (resultPoints (getLatticePoints r (fun _ => 10))) = wignerSeitz r := by
  obtain ⟨hdet, hre⟩ := recip_ok hr
  have hpi : (2 * Real.pi) ≠ 0 := two_pi_ne
  -- the dual basis of the reciprocal cell
  have hdual : IsDual r cell := by
    obtain ⟨r', hr', hd, -⟩ := C02_dual_unique cell hdet
    rw [hr] at hr'
    simp only [Except.ok.injEq] at hr'
    rw [hr']
    exact hd
  have hD : Dual r ((2 * Real.pi)⁻¹ • cell) := by
    intro i j
    have := hdual i j
    have e : dot (r i) (((2 * Real.pi)⁻¹ • cell) j) = (2 * Real.pi)⁻¹ * dot (r i) (cell j) := by
      simp only [dot, Matrix.smul_apply, smul_eq_mul]
      ring
    rw [e, this]
    split
    · field_simp
    · simp
  refine C52_criterion r _ hD 10 (by norm_num) ?_
  -- the Gram matrix and its inverse
  have hAp : 0 < dot (cell 0) (cell 0) := by
    refine lt_of_le_of_ne (dot_self_nonneg3 _) fun h0 => hdet ?_
    have hz (j : Fin 3) : cell 0 j = 0 := by
      simp only [dot] at h0
      have := mul_self_nonneg (cell 0 0)
      have := mul_self_nonneg (cell 0 1)
      have := mul_self_nonneg (cell 0 2)
      fin_cases j <;>
        exact mul_self_eq_zero.1 (by simp only [Fin.zero_eta, Fin.mk_one, Fin.reduceFinMk]; linarith)
    exact Matrix.det_eq_zero_of_row_eq_zero 0 hz
  have hvol := niggli_volume h hAp
  have hab := h.ab
  have hbc := h.bc
  have hxi := h.xi_le
  have heta := h.eta_le
  have hzeta := h.zeta_le
  have hdd : cell.det ^ 2 = dot (cell 0) (cell 0) * dot (cell 1) (cell 1) * dot (cell 2) (cell 2) +
      ((2 * dot (cell 1) (cell 2)) * (2 * dot (cell 0) (cell 2)) * (2 * dot (cell 0) (cell 1)) -
        dot (cell 0) (cell 0) * (2 * dot (cell 1) (cell 2)) ^ 2 -
        dot (cell 1) (cell 1) * (2 * dot (cell 0) (cell 2)) ^ 2 -
        dot (cell 2) (cell 2) * (2 * dot (cell 0) (cell 1)) ^ 2) / 4 := by
    rw [Matrix.det_fin_three]
    unfold dot
    ring
  rw [← hdd] at hvol
  have hdetpos : 0 < cell.det ^ 2 := by positivity
  -- the squared lengths of the reciprocal vectors
  have hrow (j : Fin 3) : dot (r j) (r j) * cell.det ^ 2 = (2 * Real.pi) ^ 2 *
      (dot (cell (j + 1)) (cell (j + 1)) * dot (cell (j + 2)) (cell (j + 2)) -
        dot (cell (j + 1)) (cell (j + 2)) ^ 2) := by
    have hinv : cell⁻¹ = (cell.det)⁻¹ • cell.adjugate := by
      rw [Matrix.inv_def, Ring.inverse_eq_inv']
    rw [hre, hinv]
    have hcell : cell = !![cell 0 0, cell 0 1, cell 0 2; cell 1 0, cell 1 1, cell 1 2;
        cell 2 0, cell 2 1, cell 2 2] := by
      ext i j; fin_cases i <;> fin_cases j <;> rfl
    have hadj := Matrix.adjugate_fin_three cell
    rw [hadj]
    have hd := hdet
    fin_cases j <;>
      · simp [dot, Matrix.smul_apply, Matrix.transpose_apply]
        field_simp
        ring
  -- a term of the sum
  have hterm (i j : Fin 3) (b : ℝ) (hb : 0 ≤ b)
      (hij : |dot (cell i) (cell j)| ≤ b * dot (cell j) (cell j))
      (hprod : dot (cell j) (cell j) * (dot (cell (j + 1)) (cell (j + 1)) *
        dot (cell (j + 2)) (cell (j + 2))) = dot (cell 0) (cell 0) * dot (cell 1) (cell 1) *
          dot (cell 2) (cell 2)) :
      |dot (((2 * Real.pi)⁻¹ • cell) i) (((2 * Real.pi)⁻¹ • cell) j)| * dot (r j) (r j) ≤ 4 * b := by
    have e : dot (((2 * Real.pi)⁻¹ • cell) i) (((2 * Real.pi)⁻¹ • cell) j) =
        ((2 * Real.pi) ^ 2)⁻¹ * dot (cell i) (cell j) := by
      simp only [dot, Matrix.smul_apply, smul_eq_mul]
      field_simp
    have hq : dot (r j) (r j) = (2 * Real.pi) ^ 2 *
      (dot (cell (j + 1)) (cell (j + 1)) * dot (cell (j + 2)) (cell (j + 2)) -
        dot (cell (j + 1)) (cell (j + 2)) ^ 2) / cell.det ^ 2 := by
      rw [eq_div_iff hdetpos.ne', hrow j]
    rw [e, hq, abs_mul, abs_of_pos (by positivity : 0 < ((2 * Real.pi) ^ 2)⁻¹)]
    have e2 (u v : ℝ) : ((2 * Real.pi) ^ 2)⁻¹ * u * ((2 * Real.pi) ^ 2 * v / cell.det ^ 2) =
        u * v / cell.det ^ 2 := by
      field_simp
    rw [e2, div_le_iff₀ hdetpos]
    have m1 : 0 ≤ dot (cell (j + 1)) (cell (j + 1)) * dot (cell (j + 2)) (cell (j + 2)) :=
      mul_nonneg (dot_self_nonneg3 _) (dot_self_nonneg3 _)
    have m2 := mul_le_mul_of_nonneg_right hij m1
    have m3 : 0 ≤ |dot (cell i) (cell j)| * dot (cell (j + 1)) (cell (j + 2)) ^ 2 := by positivity
    have m4 := mul_le_mul_of_nonneg_left hvol hb
    rw [mul_assoc b, hprod] at m2
    rw [mul_sub]
    linarith
  have hsymm (u v : Fin 3 → ℝ) : dot u v = dot v u := by unfold dot; ring
  have hself (i : Fin 3) : |dot (cell i) (cell i)| = dot (cell i) (cell i) :=
    abs_of_nonneg (dot_self_nonneg3 _)
  have h2 (x : ℝ) : |2 * x| = 2 * |x| := by rw [abs_mul]; norm_num
  rw [h2] at hxi heta hzeta
  have p0 : dot (cell 0) (cell 0) * (dot (cell (0 + 1)) (cell (0 + 1)) *
      dot (cell (0 + 2)) (cell (0 + 2))) = dot (cell 0) (cell 0) * dot (cell 1) (cell 1) *
      dot (cell 2) (cell 2) := by
    simp only [Fin.isValue, zero_add]; ring
  have p1 : dot (cell 1) (cell 1) * (dot (cell (1 + 1)) (cell (1 + 1)) *
      dot (cell (1 + 2)) (cell (1 + 2))) = dot (cell 0) (cell 0) * dot (cell 1) (cell 1) *
      dot (cell 2) (cell 2) := by
    simp only [Fin.isValue, show (1 : Fin 3) + 1 = 2 from rfl, show (1 : Fin 3) + 2 = 0 from rfl]; ring
  have p2 : dot (cell 2) (cell 2) * (dot (cell (2 + 1)) (cell (2 + 1)) *
      dot (cell (2 + 2)) (cell (2 + 2))) = dot (cell 0) (cell 0) * dot (cell 1) (cell 1) *
      dot (cell 2) (cell 2) := by
    simp only [Fin.isValue, show (2 : Fin 3) + 1 = 0 from rfl, show (2 : Fin 3) + 2 = 1 from rfl]; ring
  have bound (i j : Fin 3) (hne : i ≠ j) : |dot (cell i) (cell j)| ≤ 1 / 2 * dot (cell j) (cell j) := by
    fin_cases i <;> fin_cases j <;> simp only [ne_eq, not_true_eq_false, Fin.zero_eta, Fin.mk_one,
      Fin.reduceFinMk] at hne ⊢ <;>
    first
      | exact absurd rfl hne
      | linarith
      | (rw [hsymm]; linarith)
  intro i
  push_cast
  fin_cases i <;> simp only [Fin.zero_eta, Fin.mk_one, Fin.reduceFinMk]
  · have t0 := hterm 0 0 1 zero_le_one (by rw [hself]; linarith) p0
    have t1 := hterm 0 1 (1 / 2) (by norm_num) (bound 0 1 (by decide)) p1
    have t2 := hterm 0 2 (1 / 2) (by norm_num) (bound 0 2 (by decide)) p2
    linarith
  · have t0 := hterm 1 0 (1 / 2) (by norm_num) (bound 1 0 (by decide)) p0
    have t1 := hterm 1 1 1 zero_le_one (by rw [hself]; linarith) p1
    have t2 := hterm 1 2 (1 / 2) (by norm_num) (bound 1 2 (by decide)) p2
    linarith
  · have t0 := hterm 2 0 (1 / 2) (by norm_num) (bound 2 0 (by decide)) p0
    have t1 := hterm 2 1 (1 / 2) (by norm_num) (bound 2 1 (by decide)) p1
    have t2 := hterm 2 2 1 zero_le_one (by rw [hself]; linarith) p2
    linarith

end Wulfric
