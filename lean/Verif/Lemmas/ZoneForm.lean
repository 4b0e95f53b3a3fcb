import Verif.Lemmas.Zone
import Verif.Lemmas.Extension

/-!
# The quadratic form of the reciprocal lattice of a primitive cell

`p * pᵀ` is known from the lattice parameters of the conventional cell; the matrix of the
reciprocal cell is proportional to its inverse.
-/

namespace Wulfric

open Matrix _root_.Spec Wulfric.Spec

/-- The symmetric matrix of a quadratic form. -/
def formMatrix (q11 q22 q33 q12 q13 q23 : ℝ) : Cell ℝ :=
  !![q11, q12, q13; q12, q22, q23; q13, q23, q33]

/-- The form is proportional to the inverse of `p * pᵀ`. -/
def HasForm (p : Cell ℝ) (q11 q22 q33 q12 q13 q23 : ℝ) : Prop :=
  ∃ t : ℝ, 0 < t ∧ formMatrix q11 q22 q33 q12 q13 q23 * (p * p.transpose) = t • (1 : Cell ℝ)

theorem recip_gram {p r : Cell ℝ} (hr : getReciprocal p = .ok r) :
    (p * p.transpose) * (r * r.transpose) = (2 * Real.pi) ^ 2 • (1 : Cell ℝ) := by
  obtain ⟨hd, rfl⟩ := recip_ok hr
  have hu : IsUnit p.det := isUnit_iff_ne_zero.2 hd
  have h1 : p.transpose * p⁻¹.transpose = 1 := by
    rw [← transpose_mul, nonsing_inv_mul _ hu, transpose_one]
  have h2 : p * p.transpose * (p⁻¹.transpose * p⁻¹) = 1 := by
    rw [mul_assoc, ← mul_assoc p.transpose, h1, one_mul, mul_nonsing_inv _ hu]
  rw [transpose_smul, transpose_transpose, smul_mul_assoc, mul_smul_comm, mul_smul_comm,
    mul_smul_comm, h2, smul_smul, sq]

theorem HasForm.gram {p r : Cell ℝ} {q11 q22 q33 q12 q13 q23 : ℝ}
    (h : HasForm p q11 q22 q33 q12 q13 q23) (hr : getReciprocal p = .ok r) :
    ∃ s : ℝ, 0 < s ∧ r * r.transpose = s • formMatrix q11 q22 q33 q12 q13 q23 := by
  obtain ⟨t, ht, e⟩ := h
  refine ⟨(2 * Real.pi) ^ 2 / t, by positivity, ?_⟩
  have h1 : t • (r * r.transpose) =
      (2 * Real.pi) ^ 2 • formMatrix q11 q22 q33 q12 q13 q23 := by
    rw [← one_mul (r * r.transpose), ← smul_mul_assoc, ← e, mul_assoc, recip_gram hr,
      mul_smul_comm, mul_one]
  rw [div_eq_inv_mul, mul_smul, ← h1, smul_smul, inv_mul_cancel₀ ht.ne', one_smul]

theorem gram_entry (r : Cell ℝ) (i j : Fin 3) : (r * r.transpose) i j = dot (r i) (r j) := by
  simp [Matrix.mul_apply, dot, Fin.sum_univ_three]

/-- Where a point of the tables lies. -/
def PointPlace (r : Cell ℝ) (p : String × Vec ℝ) : Prop :=
  (p.1 = "GAMMA" ∧ p.2 = ![0, 0, 0]) ∨ OnZoneBoundary r (vecMat p.2 r)

theorem vecMat_row (u : Vec ℝ) (m : Cell ℝ) : vecMat u m = u ᵥ* m := by
  funext j
  simp [vecMat, vecMul, dotProduct, Fin.sum_univ_three]

theorem recip_det {p r : Cell ℝ} (hr : getReciprocal p = .ok r) : r.det ≠ 0 := by
  obtain ⟨r', h1, h2, -⟩ := C03_involution p (recip_ok hr).1
  rw [hr] at h1
  cases h1
  exact h2

theorem HasForm.dots {p r : Cell ℝ} {q11 q22 q33 q12 q13 q23 : ℝ}
    (h : HasForm p q11 q22 q33 q12 q13 q23) (hr : getReciprocal p = .ok r) :
    ∃ s : ℝ, 0 < s ∧ dot (r 0) (r 0) = s * q11 ∧ dot (r 1) (r 1) = s * q22 ∧
      dot (r 2) (r 2) = s * q33 ∧ dot (r 0) (r 1) = s * q12 ∧ dot (r 0) (r 2) = s * q13 ∧
      dot (r 1) (r 2) = s * q23 := by
  obtain ⟨s, hs, e⟩ := h.gram hr
  refine ⟨s, hs, ?_, ?_, ?_, ?_, ?_, ?_⟩ <;> rw [← gram_entry, e] <;>
    simp [formMatrix]

theorem HasForm.place {p r : Cell ℝ} {q11 q22 q33 q12 q13 q23 : ℝ}
    (h : HasForm p q11 q22 q33 q12 q13 q23) (hr : getReciprocal p = .ok r)
    {x : String × Vec ℝ} (hx : GoodPoint q11 q22 q33 q12 q13 q23 x) : PointPlace r x := by
  obtain ⟨s, hs, h11, h22, h33, h12, h13, h23⟩ := h.dots hr
  rcases hx with hx | ⟨a, b, c, e, hx⟩
  · exact .inl hx
  · right
    rw [vecMat_row, e]
    exact onZone_boundary hs.le h11 h22 h33 h12 h13 h23 (recip_det hr) hx

/-- The scalar products of a cell with given parameters. -/
theorem gram_params {cell : Cell ℝ} {a b c al be ga : ℝ} (h : HasParams cell a b c al be ga) :
    cell * cell.transpose =
      !![a ^ 2, a * b * Real.cos (ga * (Real.pi / 180)), a * c * Real.cos (be * (Real.pi / 180));
        a * b * Real.cos (ga * (Real.pi / 180)), b ^ 2, b * c * Real.cos (al * (Real.pi / 180));
        a * c * Real.cos (be * (Real.pi / 180)), b * c * Real.cos (al * (Real.pi / 180)), c ^ 2] := by
  obtain ⟨-, -, h1⟩ := h.alpha
  obtain ⟨-, -, h2⟩ := h.beta
  obtain ⟨-, -, h3⟩ := h.gamma
  rw [h.bb, h.cc, Real.sqrt_sq h.b_nonneg, Real.sqrt_sq h.c_nonneg] at h1
  rw [h.aa, h.cc, Real.sqrt_sq h.a_nonneg, Real.sqrt_sq h.c_nonneg] at h2
  rw [h.aa, h.bb, Real.sqrt_sq h.a_nonneg, Real.sqrt_sq h.b_nonneg] at h3
  have comm : ∀ u v : Vec ℝ, dot u v = dot v u := by
    intro u v; simp only [dot]; ring
  ext i j
  rw [gram_entry]
  fin_cases i <;> fin_cases j
  · exact h.aa
  · exact h3
  · exact h2
  · exact (comm _ _).trans h3
  · exact h.bb
  · exact h1
  · exact (comm _ _).trans h2
  · exact (comm _ _).trans h1
  · exact h.cc

theorem gram_basis (m c : Cell ℝ) : (m.transpose * c) * (m.transpose * c).transpose =
    m.transpose * (c * c.transpose) * m := by
  rw [transpose_mul, transpose_transpose, mul_assoc, mul_assoc, mul_assoc]

/-- Closes `HasForm (mᵀ * c) …` after the scalar products of `c` and `t` were given. -/
macro "form_tac" : tactic => `(tactic| (
  ext i j
  fin_cases i <;> fin_cases j <;>
    simp [formMatrix, Matrix.mul_apply, Fin.sum_univ_three, Matrix.smul_apply] <;>
    first | done | (field_simp; done) | (field_simp; ring1) | ring1))

theorem form_P {cell : Cell ℝ} {a b c : ℝ} (ha : a ≠ 0) (hb : b ≠ 0) (hc : c ≠ 0)
    (h : HasParams cell a b c 90 90 90) :
    HasForm ((!![1, 0, 0; 0, 1, 0; 0, 0, 1] : Cell ℝ).transpose * cell)
      (1 / a ^ 2) (1 / b ^ 2) (1 / c ^ 2) 0 0 0 := by
  refine ⟨1, by norm_num, ?_⟩
  rw [gram_basis, gram_params h, cos_90]
  form_tac

theorem form_F {cell : Cell ℝ} {a b c : ℝ} (ha : a ≠ 0) (hb : b ≠ 0) (hc : c ≠ 0)
    (h : HasParams cell a b c 90 90 90) {A B C : ℝ} (hA : A = 1 / a ^ 2) (hB : B = 1 / b ^ 2)
    (hC : C = 1 / c ^ 2) :
    HasForm ((!![0, 1 / 2, 1 / 2; 1 / 2, 0, 1 / 2; 1 / 2, 1 / 2, 0] : Cell ℝ).transpose * cell)
      (A + B + C) (A + B + C) (A + B + C) (-A - B + C) (-A + B - C) (A - B - C) := by
  refine ⟨1, by norm_num, ?_⟩
  rw [gram_basis, gram_params h, cos_90, hA, hB, hC]
  form_tac

theorem form_I {cell : Cell ℝ} {a b c : ℝ} (ha : a ≠ 0) (hb : b ≠ 0) (hc : c ≠ 0)
    (h : HasParams cell a b c 90 90 90) {A B C : ℝ} (hA : A = 1 / a ^ 2) (hB : B = 1 / b ^ 2)
    (hC : C = 1 / c ^ 2) :
    HasForm ((!![-1 / 2, 1 / 2, 1 / 2; 1 / 2, -1 / 2, 1 / 2; 1 / 2, 1 / 2, -1 / 2] :
      Cell ℝ).transpose * cell) (B + C) (A + C) (A + B) C B A := by
  refine ⟨1, by norm_num, ?_⟩
  rw [gram_basis, gram_params h, cos_90, hA, hB, hC]
  form_tac

theorem form_C {cell : Cell ℝ} {a b c : ℝ} (ha : a ≠ 0) (hb : b ≠ 0) (hc : c ≠ 0)
    (h : HasParams cell a b c 90 90 90) {A B C : ℝ} (hA : A = 1 / a ^ 2) (hB : B = 1 / b ^ 2)
    (hC : C = 1 / c ^ 2) :
    HasForm ((!![1 / 2, 1 / 2, 0; -1 / 2, 1 / 2, 0; 0, 0, 1] : Cell ℝ).transpose * cell)
      (A + B) (A + B) C (A - B) 0 0 := by
  refine ⟨1, by norm_num, ?_⟩
  rw [gram_basis, gram_params h, cos_90, hA, hB, hC]
  form_tac

theorem form_A {cell : Cell ℝ} {a b c : ℝ} (ha : a ≠ 0) (hb : b ≠ 0) (hc : c ≠ 0)
    (h : HasParams cell a b c 90 90 90) {A B C : ℝ} (hA : A = 1 / a ^ 2) (hB : B = 1 / b ^ 2)
    (hC : C = 1 / c ^ 2) :
    HasForm ((!![0, 0, 1; 1 / 2, 1 / 2, 0; -1 / 2, 1 / 2, 0] : Cell ℝ).transpose * cell)
      (B + C) (B + C) A (B - C) 0 0 := by
  refine ⟨1, by norm_num, ?_⟩
  rw [gram_basis, gram_params h, cos_90, hA, hB, hC]
  form_tac

theorem form_hP {cell : Cell ℝ} {a c : ℝ} (ha : a ≠ 0) (hc : c ≠ 0)
    (h : HasParams cell a a c 90 90 120) :
    HasForm ((!![1, 0, 0; 0, 1, 0; 0, 0, 1] : Cell ℝ).transpose * cell)
      (2 * (2 / (3 * a ^ 2))) (2 * (2 / (3 * a ^ 2))) (1 / c ^ 2) (2 / (3 * a ^ 2)) 0 0 := by
  refine ⟨1, by norm_num, ?_⟩
  rw [gram_basis, gram_params h, cos_90, cos_120]
  form_tac

theorem form_hR {cell : Cell ℝ} {a c : ℝ} (ha : a ≠ 0) (hc : c ≠ 0)
    (h : HasParams cell a a c 90 90 120) {A C : ℝ} (hA : A = 2 / (3 * a ^ 2))
    (hC : C = 1 / c ^ 2) :
    HasForm ((!![1, -1 / 2, -1 / 2; 1 / 2, 1 / 2, -1; 1 / 2, 1 / 2, 1 / 2] :
      Cell ℝ).transpose * cell) (2 * A + C) (2 * A + C) (2 * A + C) (-A + C) (-A + C) (-A + C) := by
  refine ⟨9 / 4, by norm_num, ?_⟩
  rw [gram_basis, gram_params h, cos_90, cos_120, hA, hC]
  form_tac

/-- Monoclinic, unique axis `b`. -/
theorem form_mP {cell : Cell ℝ} {a b c be cb : ℝ} (ha : a ≠ 0) (hb : b ≠ 0) (hc : c ≠ 0)
    (hcb : Real.cos (be * (Real.pi / 180)) = cb) (hs : 0 < 1 - cb ^ 2)
    (h : HasParams cell a b c 90 be 90) :
    HasForm ((!![1, 0, 0; 0, 1, 0; 0, 0, 1] : Cell ℝ).transpose * cell)
      (1 / a ^ 2) ((1 - cb ^ 2) / b ^ 2) (1 / c ^ 2) 0 (-cb / (a * c)) 0 := by
  refine ⟨1 - cb ^ 2, hs, ?_⟩
  rw [gram_basis, gram_params h, cos_90, hcb]
  form_tac

theorem form_mC {cell : Cell ℝ} {a b c be cb : ℝ} (ha : a ≠ 0) (hb : b ≠ 0) (hc : c ≠ 0)
    (hcb : Real.cos (be * (Real.pi / 180)) = cb) (hs : 0 < 1 - cb ^ 2)
    (h : HasParams cell a b c 90 be 90) {X Y Z W : ℝ} (hX : X = 1 / a ^ 2)
    (hY : Y = (1 - cb ^ 2) / b ^ 2) (hZ : Z = 1 / c ^ 2) (hW : W = -cb / (a * c)) :
    HasForm ((!![1 / 2, -1 / 2, 0; 1 / 2, 1 / 2, 0; 0, 0, 1] : Cell ℝ).transpose * cell)
      (X + Y) (X + Y) Z (-X + Y) W (-W) := by
  refine ⟨1 - cb ^ 2, hs, ?_⟩
  rw [gram_basis, gram_params h, cos_90, hcb, hX, hY, hZ, hW]
  form_tac

/-- Monoclinic, unique axis `a`. -/
theorem form_MCL {cell : Cell ℝ} {a b c al ca : ℝ} (ha : a ≠ 0) (hb : b ≠ 0) (hc : c ≠ 0)
    (hca : Real.cos (al * (Real.pi / 180)) = ca) (hs : 0 < 1 - ca ^ 2)
    (h : HasParams cell a b c al 90 90) :
    HasForm ((!![1, 0, 0; 0, 1, 0; 0, 0, 1] : Cell ℝ).transpose * cell)
      ((1 - ca ^ 2) / a ^ 2) (1 / b ^ 2) (1 / c ^ 2) 0 0 (-(ca / (b * c))) := by
  refine ⟨1 - ca ^ 2, hs, ?_⟩
  rw [gram_basis, gram_params h, cos_90, hca]
  form_tac

theorem form_MCLC {cell : Cell ℝ} {a b c al ca : ℝ} (ha : a ≠ 0) (hb : b ≠ 0) (hc : c ≠ 0)
    (hca : Real.cos (al * (Real.pi / 180)) = ca) (hs : 0 < 1 - ca ^ 2)
    (h : HasParams cell a b c al 90 90) {X Y Z W : ℝ} (hX : X = (1 - ca ^ 2) / a ^ 2)
    (hY : Y = 1 / b ^ 2) (hZ : Z = 1 / c ^ 2) (hW : W = ca / (b * c)) :
    HasForm ((!![1 / 2, -1 / 2, 0; 1 / 2, 1 / 2, 0; 0, 0, 1] : Cell ℝ).transpose * cell)
      (X + Y) (X + Y) Z (-X + Y) (-W) (-W) := by
  refine ⟨1 - ca ^ 2, hs, ?_⟩
  rw [gram_basis, gram_params h, cos_90, hca, hX, hY, hZ, hW]
  form_tac

theorem form_RHL {cell : Cell ℝ} {a al ca : ℝ} (ha : a ≠ 0)
    (hca : Real.cos (al * (Real.pi / 180)) = ca) (h1 : 0 < 1 - ca) (h2 : 0 < 1 + 2 * ca)
    (h : HasParams cell a a a al al al) :
    HasForm ((!![1, 0, 0; 0, 1, 0; 0, 0, 1] : Cell ℝ).transpose * cell)
      (1 + ca) (1 + ca) (1 + ca) (-ca) (-ca) (-ca) := by
  refine ⟨a ^ 2 * ((1 - ca) * (1 + 2 * ca)), by positivity, ?_⟩
  rw [gram_basis, gram_params h, hca]
  form_tac

/-- Triclinic: the form of the reciprocal cell itself. -/
theorem form_tri {cell r : Cell ℝ} (hr : getReciprocal cell = .ok r) :
    HasForm cell (dot (r 0) (r 0)) (dot (r 1) (r 1)) (dot (r 2) (r 2)) (dot (r 0) (r 1))
      (dot (r 0) (r 2)) (dot (r 1) (r 2)) := by
  have hm : formMatrix (dot (r 0) (r 0)) (dot (r 1) (r 1)) (dot (r 2) (r 2)) (dot (r 0) (r 1))
      (dot (r 0) (r 2)) (dot (r 1) (r 2)) = r * r.transpose := by
    have comm : ∀ u v : Vec ℝ, dot u v = dot v u := by
      intro u v; simp only [dot]; ring
    ext i j
    rw [gram_entry]
    fin_cases i <;> fin_cases j <;> first | rfl | exact comm _ _
  refine ⟨(2 * Real.pi) ^ 2, by positivity, ?_⟩
  rw [hm]
  have h := congrArg Matrix.transpose (recip_gram hr)
  simpa [transpose_mul] using h

end Wulfric
