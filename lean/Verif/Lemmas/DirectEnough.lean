import Verif.Lemmas.ZoneEnough

/-!
# The lattice points with indices up to 10 are enough for the Wigner-Seitz cell of the primitive cells

The quadratic form is now that of the primitive cell itself. For triclinic lattices the cell is, up
to the signs and the order of its vectors, reduced or the reciprocal of a reduced cell.
-/

namespace Wulfric

open Matrix _root_.Spec Wulfric.Spec

/-- A cell is the reciprocal of its reciprocal. -/
theorem direct_form {p r : Cell ℝ} {q11 q22 q33 q12 q13 q23 : ℝ} (hr : getReciprocal p = .ok r)
    (h : p * p.transpose = formMatrix q11 q22 q33 q12 q13 q23) :
    HasForm r q11 q22 q33 q12 q13 q23 :=
  ⟨(2 * Real.pi) ^ 2, by positivity, by rw [← h]; exact recip_gram hr⟩

/-- The scalar products of the vectors of a primitive cell. -/
macro "dgram_tac" : tactic => `(tactic| (
  ext i j
  fin_cases i <;> fin_cases j <;>
    simp [formMatrix, Matrix.mul_apply, Fin.sum_univ_three] <;> ring))

section
variable {p r : Cell ℝ} {A B C X Y Z V : ℝ}

theorem enough_hP' (h : HasForm p (2 * A) (2 * A) C (-A) 0 0) (hr : getReciprocal p = .ok r)
    (hA : 0 ≤ A) (hC : 0 ≤ C) : Enough r := by
  refine form_enough h hr !![1, 0, 0; 0, 1, 0; 0, 0, 1] ?_ ?_ ?_ ?_ ?_ ?_ ?_ ?_ ?_ <;>
    superbase_tac

theorem enough_mP' (h : HasForm p X Y Z 0 (-V) 0) (hr : getReciprocal p = .ok r) (hY : 0 ≤ Y)
    (hV : 0 ≤ V) (h1 : V ≤ X) (h2 : V ≤ Z) : Enough r := by
  refine form_enough h hr !![1, 0, 0; 0, 1, 0; 0, 0, 1] ?_ ?_ ?_ ?_ ?_ ?_ ?_ ?_ ?_ <;>
    superbase_tac

theorem enough_MCL' (h : HasForm p X Y Z 0 0 V) (hr : getReciprocal p = .ok r) (hX : 0 ≤ X)
    (hV : 0 ≤ V) (h1 : V ≤ Y) (h2 : V ≤ Z) : Enough r := by
  refine form_enough h hr !![1, 0, 0; 0, 1, 0; 0, 0, -1] ?_ ?_ ?_ ?_ ?_ ?_ ?_ ?_ ?_ <;>
    superbase_tac

theorem enough_mC' (h : HasForm p (X + Y) (X + Y) Z (-X + Y) (-V) V)
    (hr : getReciprocal p = .ok r) (hY : 0 ≤ Y) (hV : 0 ≤ V) (h1 : V ≤ X) (h2 : 2 * V ≤ Z) :
    Enough r := by
  by_cases h3 : X ≤ Y
  · refine form_enough h hr !![1, 0, 0; 0, -1, 0; 0, 0, 1] ?_ ?_ ?_ ?_ ?_ ?_ ?_ ?_ ?_ <;>
      superbase_tac
  by_cases h4 : Y + V ≤ X
  · refine form_enough h hr !![1, 1, 0; 0, -1, 0; 0, 0, 1] ?_ ?_ ?_ ?_ ?_ ?_ ?_ ?_ ?_ <;>
      superbase_tac
  · refine form_enough h hr !![1, 0, 0; 0, 1, 0; -1, 0, -1] ?_ ?_ ?_ ?_ ?_ ?_ ?_ ?_ ?_ <;>
      superbase_tac

theorem enough_MCLC' (h : HasForm p (X + Y) (X + Y) Z (-X + Y) V V)
    (hr : getReciprocal p = .ok r)
    (hX : 0 ≤ X) (hV : 0 ≤ V) (h1 : V ≤ Y) (h2 : 2 * V ≤ Z) : Enough r := by
  by_cases h3 : Y ≤ X
  · refine form_enough h hr !![1, 0, 0; 0, 1, 0; 0, 0, -1] ?_ ?_ ?_ ?_ ?_ ?_ ?_ ?_ ?_ <;>
      superbase_tac
  by_cases h4 : X + V ≤ Y
  · refine form_enough h hr !![1, -1, 0; 0, 1, 0; 0, 0, -1] ?_ ?_ ?_ ?_ ?_ ?_ ?_ ?_ ?_ <;>
      superbase_tac
  · refine form_enough h hr !![1, 0, 0; 0, -1, 0; -1, 0, 1] ?_ ?_ ?_ ?_ ?_ ?_ ?_ ?_ ?_ <;>
      superbase_tac

end

/-! ## The scalar products -/

section
variable {cell : Cell ℝ} {a b c al be cb : ℝ}

theorem dgram_P (h : HasParams cell a b c 90 90 90) :
    ((!![1, 0, 0; 0, 1, 0; 0, 0, 1] : Cell ℝ).transpose * cell) *
      ((!![1, 0, 0; 0, 1, 0; 0, 0, 1] : Cell ℝ).transpose * cell).transpose =
    formMatrix (a ^ 2) (b ^ 2) (c ^ 2) 0 0 0 := by
  rw [gram_basis, gram_params h, cos_90]
  dgram_tac

theorem dgram_F (h : HasParams cell a b c 90 90 90) :
    ((!![0, 1 / 2, 1 / 2; 1 / 2, 0, 1 / 2; 1 / 2, 1 / 2, 0] : Cell ℝ).transpose * cell) *
      ((!![0, 1 / 2, 1 / 2; 1 / 2, 0, 1 / 2; 1 / 2, 1 / 2, 0] : Cell ℝ).transpose * cell).transpose =
    formMatrix (b ^ 2 / 4 + c ^ 2 / 4) (a ^ 2 / 4 + c ^ 2 / 4) (a ^ 2 / 4 + b ^ 2 / 4) (c ^ 2 / 4) (b ^ 2 / 4) (a ^ 2 / 4) := by
  rw [gram_basis, gram_params h, cos_90]
  dgram_tac

theorem dgram_I (h : HasParams cell a b c 90 90 90) :
    ((!![-1 / 2, 1 / 2, 1 / 2; 1 / 2, -1 / 2, 1 / 2; 1 / 2, 1 / 2, -1 / 2] : Cell ℝ).transpose * cell) *
      ((!![-1 / 2, 1 / 2, 1 / 2; 1 / 2, -1 / 2, 1 / 2; 1 / 2, 1 / 2, -1 / 2] : Cell ℝ).transpose * cell).transpose =
    formMatrix (a ^ 2 / 4 + b ^ 2 / 4 + c ^ 2 / 4) (a ^ 2 / 4 + b ^ 2 / 4 + c ^ 2 / 4) (a ^ 2 / 4 + b ^ 2 / 4 + c ^ 2 / 4)
      (-(a ^ 2 / 4) - b ^ 2 / 4 + c ^ 2 / 4) (-(a ^ 2 / 4) + b ^ 2 / 4 - c ^ 2 / 4) (a ^ 2 / 4 - b ^ 2 / 4 - c ^ 2 / 4) := by
  rw [gram_basis, gram_params h, cos_90]
  dgram_tac

theorem dgram_C (h : HasParams cell a b c 90 90 90) :
    ((!![1 / 2, 1 / 2, 0; -1 / 2, 1 / 2, 0; 0, 0, 1] : Cell ℝ).transpose * cell) *
      ((!![1 / 2, 1 / 2, 0; -1 / 2, 1 / 2, 0; 0, 0, 1] : Cell ℝ).transpose * cell).transpose =
    formMatrix (a ^ 2 / 4 + b ^ 2 / 4) (a ^ 2 / 4 + b ^ 2 / 4) (c ^ 2) (a ^ 2 / 4 - b ^ 2 / 4) 0 0 := by
  rw [gram_basis, gram_params h, cos_90]
  dgram_tac

theorem dgram_A (h : HasParams cell a b c 90 90 90) :
    ((!![0, 0, 1; 1 / 2, 1 / 2, 0; -1 / 2, 1 / 2, 0] : Cell ℝ).transpose * cell) *
      ((!![0, 0, 1; 1 / 2, 1 / 2, 0; -1 / 2, 1 / 2, 0] : Cell ℝ).transpose * cell).transpose =
    formMatrix (b ^ 2 / 4 + c ^ 2 / 4) (b ^ 2 / 4 + c ^ 2 / 4) (a ^ 2) (b ^ 2 / 4 - c ^ 2 / 4) 0 0 := by
  rw [gram_basis, gram_params h, cos_90]
  dgram_tac

theorem dgram_hP (h : HasParams cell a a c 90 90 120) :
    ((!![1, 0, 0; 0, 1, 0; 0, 0, 1] : Cell ℝ).transpose * cell) *
      ((!![1, 0, 0; 0, 1, 0; 0, 0, 1] : Cell ℝ).transpose * cell).transpose =
    formMatrix (2 * (a ^ 2 / 2)) (2 * (a ^ 2 / 2)) (c ^ 2) (-(a ^ 2 / 2)) 0 0 := by
  rw [gram_basis, gram_params h, cos_90, cos_120]
  dgram_tac

theorem dgram_hR (h : HasParams cell a a c 90 90 120) :
    ((!![1, -1 / 2, -1 / 2; 1 / 2, 1 / 2, -1; 1 / 2, 1 / 2, 1 / 2] : Cell ℝ).transpose * cell) *
      ((!![1, -1 / 2, -1 / 2; 1 / 2, 1 / 2, -1; 1 / 2, 1 / 2, 1 / 2] : Cell ℝ).transpose * cell).transpose =
    formMatrix (3 / 4 * a ^ 2 + c ^ 2 / 4) (3 / 4 * a ^ 2 + c ^ 2 / 4) (3 / 4 * a ^ 2 + c ^ 2 / 4)
      (-(3 / 8) * a ^ 2 + c ^ 2 / 4) (-(3 / 8) * a ^ 2 + c ^ 2 / 4) (-(3 / 8) * a ^ 2 + c ^ 2 / 4) := by
  rw [gram_basis, gram_params h, cos_90, cos_120]
  dgram_tac

theorem dgram_RHL (h : HasParams cell a a a al al al) (hcos : Real.cos (al * (Real.pi / 180)) = cb) :
    ((!![1, 0, 0; 0, 1, 0; 0, 0, 1] : Cell ℝ).transpose * cell) *
      ((!![1, 0, 0; 0, 1, 0; 0, 0, 1] : Cell ℝ).transpose * cell).transpose =
    formMatrix (a ^ 2) (a ^ 2) (a ^ 2) (a * a * cb) (a * a * cb) (a * a * cb) := by
  rw [gram_basis, gram_params h, hcos]
  dgram_tac

theorem dgram_mP (h : HasParams cell a b c 90 be 90) (hcos : Real.cos (be * (Real.pi / 180)) = cb) :
    ((!![1, 0, 0; 0, 1, 0; 0, 0, 1] : Cell ℝ).transpose * cell) *
      ((!![1, 0, 0; 0, 1, 0; 0, 0, 1] : Cell ℝ).transpose * cell).transpose =
    formMatrix (a ^ 2) (b ^ 2) (c ^ 2) 0 (-(a * c * -cb)) 0 := by
  rw [gram_basis, gram_params h, cos_90, hcos]
  dgram_tac

theorem dgram_mC (h : HasParams cell a b c 90 be 90) (hcos : Real.cos (be * (Real.pi / 180)) = cb) :
    ((!![1 / 2, -1 / 2, 0; 1 / 2, 1 / 2, 0; 0, 0, 1] : Cell ℝ).transpose * cell) *
      ((!![1 / 2, -1 / 2, 0; 1 / 2, 1 / 2, 0; 0, 0, 1] : Cell ℝ).transpose * cell).transpose =
    formMatrix (a ^ 2 / 4 + b ^ 2 / 4) (a ^ 2 / 4 + b ^ 2 / 4) (c ^ 2) (-(a ^ 2 / 4) + b ^ 2 / 4)
      (-(a * c * -cb / 2)) (a * c * -cb / 2) := by
  rw [gram_basis, gram_params h, cos_90, hcos]
  dgram_tac

theorem dgram_MCL (h : HasParams cell a b c al 90 90) (hcos : Real.cos (al * (Real.pi / 180)) = cb) :
    ((!![1, 0, 0; 0, 1, 0; 0, 0, 1] : Cell ℝ).transpose * cell) *
      ((!![1, 0, 0; 0, 1, 0; 0, 0, 1] : Cell ℝ).transpose * cell).transpose =
    formMatrix (a ^ 2) (b ^ 2) (c ^ 2) 0 0 (b * c * cb) := by
  rw [gram_basis, gram_params h, cos_90, hcos]
  dgram_tac

theorem dgram_MCLC (h : HasParams cell a b c al 90 90) (hcos : Real.cos (al * (Real.pi / 180)) = cb) :
    ((!![1 / 2, -1 / 2, 0; 1 / 2, 1 / 2, 0; 0, 0, 1] : Cell ℝ).transpose * cell) *
      ((!![1 / 2, -1 / 2, 0; 1 / 2, 1 / 2, 0; 0, 0, 1] : Cell ℝ).transpose * cell).transpose =
    formMatrix (a ^ 2 / 4 + b ^ 2 / 4) (a ^ 2 / 4 + b ^ 2 / 4) (c ^ 2) (-(a ^ 2 / 4) + b ^ 2 / 4)
      (b * c * cb / 2) (b * c * cb / 2) := by
  rw [gram_basis, gram_params h, cos_90, hcos]
  dgram_tac

end

/-! ## The primitive cells -/

section
variable {bl : String} {conv prim r matrix : Cell ℝ}

/-- HPKOT: the primitive cell of every lattice but the triclinic one. -/
theorem hpkot_direct (hbl : bl ∈ bravaisLattices) (haP : bl ≠ "aP") (hstd : StandardCell bl conv)
    (hm : (hpkotConventionalToPrimitive ℝ).get? bl = some matrix)
    (hprim : prim = matrix.transpose * conv) (hd : prim.det ≠ 0) : Enough prim := by
  subst hprim
  obtain ⟨r, hr, -, hr'⟩ := C03_involution _ hd
  have hdet : conv.det ≠ 0 := by
    have := hd
    rw [det_mul] at this
    exact right_ne_zero_of_mul this
  simp only [bravaisLattices, List.mem_cons, List.not_mem_nil, or_false] at hbl
  rcases hbl with rfl | rfl | rfl | rfl | rfl | rfl | rfl | rfl | rfl | rfl | rfl | rfl | rfl | rfl |
    rfl
  · obtain ⟨a, h⟩ := std_cubic hstd (by simp)
    obtain ⟨⟨ha, hb, hc⟩, -⟩ := HasParams.strict hdet h
    obtain rfl : !![1, 0, 0; 0, 1, 0; 0, 0, 1] = matrix := Option.some.inj hm
    exact enough_P (direct_form hr (dgram_P h)) hr' (by positivity) (by positivity) (by positivity)
  · obtain ⟨a, h⟩ := std_cubic hstd (by simp)
    obtain ⟨⟨ha, hb, hc⟩, -⟩ := HasParams.strict hdet h
    obtain rfl : !![0, 1 / 2, 1 / 2; 1 / 2, 0, 1 / 2; 1 / 2, 1 / 2, 0] = matrix := Option.some.inj hm
    exact enough_I (direct_form hr (dgram_F h)) hr' (by positivity) (by positivity) (by positivity)
  · obtain ⟨a, h⟩ := std_cubic hstd (by simp)
    obtain ⟨⟨ha, hb, hc⟩, -⟩ := HasParams.strict hdet h
    obtain rfl : !![-1 / 2, 1 / 2, 1 / 2; 1 / 2, -1 / 2, 1 / 2; 1 / 2, 1 / 2, -1 / 2] = matrix := Option.some.inj hm
    exact enough_F (direct_form hr (dgram_I h)) hr' (by positivity) (by positivity) (by positivity)
  · obtain ⟨a, c, h⟩ := std_tetragonal hstd (by simp)
    obtain ⟨⟨ha, hb, hc⟩, -⟩ := HasParams.strict hdet h
    obtain rfl : !![1, 0, 0; 0, 1, 0; 0, 0, 1] = matrix := Option.some.inj hm
    exact enough_P (direct_form hr (dgram_P h)) hr' (by positivity) (by positivity) (by positivity)
  · obtain ⟨a, c, h⟩ := std_tetragonal hstd (by simp)
    obtain ⟨⟨ha, hb, hc⟩, -⟩ := HasParams.strict hdet h
    obtain rfl : !![-1 / 2, 1 / 2, 1 / 2; 1 / 2, -1 / 2, 1 / 2; 1 / 2, 1 / 2, -1 / 2] = matrix := Option.some.inj hm
    exact enough_F (direct_form hr (dgram_I h)) hr' (by positivity) (by positivity) (by positivity)
  · obtain ⟨a, b, c, h⟩ := std_orthorhombic hstd (by simp)
    obtain ⟨⟨ha, hb, hc⟩, -⟩ := HasParams.strict hdet h
    obtain rfl : !![1, 0, 0; 0, 1, 0; 0, 0, 1] = matrix := Option.some.inj hm
    exact enough_P (direct_form hr (dgram_P h)) hr' (by positivity) (by positivity) (by positivity)
  · obtain ⟨a, b, c, h, -⟩ := std_oF hstd rfl
    obtain ⟨⟨ha, hb, hc⟩, -⟩ := HasParams.strict hdet h
    obtain rfl : !![0, 1 / 2, 1 / 2; 1 / 2, 0, 1 / 2; 1 / 2, 1 / 2, 0] = matrix := Option.some.inj hm
    exact enough_I (direct_form hr (dgram_F h)) hr' (by positivity) (by positivity) (by positivity)
  · obtain ⟨a, b, c, h⟩ := std_orthorhombic hstd (by simp)
    obtain ⟨⟨ha, hb, hc⟩, -⟩ := HasParams.strict hdet h
    obtain rfl : !![-1 / 2, 1 / 2, 1 / 2; 1 / 2, -1 / 2, 1 / 2; 1 / 2, 1 / 2, -1 / 2] = matrix := Option.some.inj hm
    exact enough_F (direct_form hr (dgram_I h)) hr' (by positivity) (by positivity) (by positivity)
  · obtain ⟨a, b, c, h⟩ := std_orthorhombic hstd (by simp)
    obtain ⟨⟨ha, hb, hc⟩, -⟩ := HasParams.strict hdet h
    obtain rfl : !![0, 0, 1; 1 / 2, 1 / 2, 0; -1 / 2, 1 / 2, 0] = matrix := Option.some.inj hm
    exact enough_C (direct_form hr (dgram_A h)) hr' (by positivity) (by positivity) (by positivity)
  · obtain ⟨a, b, c, h⟩ := std_orthorhombic hstd (by simp)
    obtain ⟨⟨ha, hb, hc⟩, -⟩ := HasParams.strict hdet h
    obtain rfl : !![1 / 2, 1 / 2, 0; -1 / 2, 1 / 2, 0; 0, 0, 1] = matrix := Option.some.inj hm
    exact enough_C (direct_form hr (dgram_C h)) hr' (by positivity) (by positivity) (by positivity)
  · obtain ⟨a, c, h⟩ := std_hexagonal hstd (by simp)
    obtain ⟨⟨ha, hb, hc⟩, -⟩ := HasParams.strict hdet h
    obtain rfl : !![1, 0, 0; 0, 1, 0; 0, 0, 1] = matrix := Option.some.inj hm
    exact enough_hP' (direct_form hr (dgram_hP h)) hr' (by positivity) (by positivity)
  · obtain ⟨a, c, h⟩ := std_hexagonal hstd (by simp)
    obtain ⟨⟨ha, hb, hc⟩, -⟩ := HasParams.strict hdet h
    obtain rfl : !![1, -1 / 2, -1 / 2; 1 / 2, 1 / 2, -1; 1 / 2, 1 / 2, 1 / 2] = matrix := Option.some.inj hm
    have h1 : 0 < a ^ 2 := by positivity
    have h2 : 0 < c ^ 2 := by positivity
    exact enough_R (direct_form hr (dgram_hR h)) hr' (by linarith) (by linarith)
  · obtain ⟨a, b, c, be, h, h90, k1, k2⟩ := std_mP hstd rfl
    obtain ⟨⟨ha, hb, hc⟩, hst⟩ := HasParams.strict hdet h
    have hs0 := cos_deg_strict hst.hbe.1 hst.hbe.2
    have hcb := cos_deg_nonpos h90 hst.hbe.2.le
    obtain ⟨cb, hcos⟩ : ∃ cb, Real.cos (be * (Real.pi / 180)) = cb := ⟨_, rfl⟩
    rw [hcos] at hs0 hcb k1 k2
    obtain rfl : !![1, 0, 0; 0, 1, 0; 0, 0, 1] = matrix := Option.some.inj hm
    have h1 : 0 ≤ a * c * -cb := mul_nonneg (by positivity) (by linarith)
    exact enough_mP' (direct_form hr (dgram_mP h hcos)) hr' (by positivity) h1 (by nlinarith)
      (by nlinarith)
  · obtain ⟨a, b, c, be, h, h90, k1, k2⟩ := std_mC hstd rfl
    obtain ⟨⟨ha, hb, hc⟩, hst⟩ := HasParams.strict hdet h
    have hs0 := cos_deg_strict hst.hbe.1 hst.hbe.2
    have hcb := cos_deg_nonpos h90 hst.hbe.2.le
    obtain ⟨cb, hcos⟩ : ∃ cb, Real.cos (be * (Real.pi / 180)) = cb := ⟨_, rfl⟩
    rw [hcos] at hs0 hcb k1 k2
    obtain rfl : !![1 / 2, -1 / 2, 0; 1 / 2, 1 / 2, 0; 0, 0, 1] = matrix := Option.some.inj hm
    have h1 : 0 ≤ a * c * -cb := mul_nonneg (by positivity) (by linarith)
    exact enough_mC' (direct_form hr (dgram_mC h hcos)) hr' (by positivity) (by linarith)
      (by nlinarith) (by nlinarith)
  · exact absurd rfl haP

/-- SC: the primitive cell of every lattice but the triclinic one. -/
theorem sc_direct (hbl : bl ∈ bravaisLattices) (haP : bl ≠ "aP") (hcell : ScCell bl conv)
    (hm : (scConventionalToPrimitive ℝ).get? bl = some matrix)
    (hprim : prim = matrix.transpose * conv) (hd : prim.det ≠ 0) : Enough prim := by
  subst hprim
  obtain ⟨r, hr, -, hr'⟩ := C03_involution _ hd
  have hdet : conv.det ≠ 0 := by
    have := hd
    rw [det_mul] at this
    exact right_ne_zero_of_mul this
  simp only [bravaisLattices, List.mem_cons, List.not_mem_nil, or_false] at hbl
  rcases hbl with rfl | rfl | rfl | rfl | rfl | rfl | rfl | rfl | rfl | rfl | rfl | rfl | rfl | rfl |
    rfl
  · obtain ⟨a, h⟩ := scCell_cubic hcell (by simp)
    obtain ⟨⟨ha, hb, hc⟩, -⟩ := HasParams.strict hdet h
    obtain rfl : !![1, 0, 0; 0, 1, 0; 0, 0, 1] = matrix := Option.some.inj hm
    exact enough_P (direct_form hr (dgram_P h)) hr' (by positivity) (by positivity) (by positivity)
  · obtain ⟨a, h⟩ := scCell_cubic hcell (by simp)
    obtain ⟨⟨ha, hb, hc⟩, -⟩ := HasParams.strict hdet h
    obtain rfl : !![0, 1 / 2, 1 / 2; 1 / 2, 0, 1 / 2; 1 / 2, 1 / 2, 0] = matrix := Option.some.inj hm
    exact enough_I (direct_form hr (dgram_F h)) hr' (by positivity) (by positivity) (by positivity)
  · obtain ⟨a, h⟩ := scCell_cubic hcell (by simp)
    obtain ⟨⟨ha, hb, hc⟩, -⟩ := HasParams.strict hdet h
    obtain rfl : !![-1 / 2, 1 / 2, 1 / 2; 1 / 2, -1 / 2, 1 / 2; 1 / 2, 1 / 2, -1 / 2] = matrix := Option.some.inj hm
    exact enough_F (direct_form hr (dgram_I h)) hr' (by positivity) (by positivity) (by positivity)
  · obtain ⟨a, c, h⟩ := scCell_tetragonal hcell (by simp)
    obtain ⟨⟨ha, hb, hc⟩, -⟩ := HasParams.strict hdet h
    obtain rfl : !![1, 0, 0; 0, 1, 0; 0, 0, 1] = matrix := Option.some.inj hm
    exact enough_P (direct_form hr (dgram_P h)) hr' (by positivity) (by positivity) (by positivity)
  · obtain ⟨a, c, h⟩ := scCell_tetragonal hcell (by simp)
    obtain ⟨⟨ha, hb, hc⟩, -⟩ := HasParams.strict hdet h
    obtain rfl : !![-1 / 2, 1 / 2, 1 / 2; 1 / 2, -1 / 2, 1 / 2; 1 / 2, 1 / 2, -1 / 2] = matrix := Option.some.inj hm
    exact enough_F (direct_form hr (dgram_I h)) hr' (by positivity) (by positivity) (by positivity)
  · obtain ⟨a, b, c, h⟩ := scCell_orthorhombic hcell (by simp)
    obtain ⟨⟨ha, hb, hc⟩, -⟩ := HasParams.strict hdet h
    obtain rfl : !![1, 0, 0; 0, 1, 0; 0, 0, 1] = matrix := Option.some.inj hm
    exact enough_P (direct_form hr (dgram_P h)) hr' (by positivity) (by positivity) (by positivity)
  · obtain ⟨a, b, c, h⟩ := scCell_orthorhombic hcell (by simp)
    obtain ⟨⟨ha, hb, hc⟩, -⟩ := HasParams.strict hdet h
    obtain rfl : !![0, 1 / 2, 1 / 2; 1 / 2, 0, 1 / 2; 1 / 2, 1 / 2, 0] = matrix := Option.some.inj hm
    exact enough_I (direct_form hr (dgram_F h)) hr' (by positivity) (by positivity) (by positivity)
  · obtain ⟨a, b, c, h, -, -⟩ := scCell_bodyCentred hcell (by simp)
    obtain ⟨⟨ha, hb, hc⟩, -⟩ := HasParams.strict hdet h
    obtain rfl : !![-1 / 2, 1 / 2, 1 / 2; 1 / 2, -1 / 2, 1 / 2; 1 / 2, 1 / 2, -1 / 2] = matrix := Option.some.inj hm
    exact enough_F (direct_form hr (dgram_I h)) hr' (by positivity) (by positivity) (by positivity)
  · obtain ⟨a, b, c, h, -⟩ := scCell_baseCentred hcell (by simp)
    obtain ⟨⟨ha, hb, hc⟩, -⟩ := HasParams.strict hdet h
    obtain rfl : !![1 / 2, 1 / 2, 0; -1 / 2, 1 / 2, 0; 0, 0, 1] = matrix := Option.some.inj hm
    exact enough_C (direct_form hr (dgram_C h)) hr' (by positivity) (by positivity) (by positivity)
  · obtain ⟨a, b, c, h, -⟩ := scCell_baseCentred hcell (by simp)
    obtain ⟨⟨ha, hb, hc⟩, -⟩ := HasParams.strict hdet h
    obtain rfl : !![1 / 2, 1 / 2, 0; -1 / 2, 1 / 2, 0; 0, 0, 1] = matrix := Option.some.inj hm
    exact enough_C (direct_form hr (dgram_C h)) hr' (by positivity) (by positivity) (by positivity)
  · obtain ⟨a, c, h⟩ := scCell_hexagonal hcell (by simp)
    obtain ⟨⟨ha, hb, hc⟩, -⟩ := HasParams.strict hdet h
    obtain rfl : !![1, 0, 0; 0, 1, 0; 0, 0, 1] = matrix := Option.some.inj hm
    exact enough_hP' (direct_form hr (dgram_hP h)) hr' (by positivity) (by positivity)
  · obtain ⟨a, al, h⟩ := scCell_rhombohedral hcell (by simp)
    obtain ⟨⟨ha, hb, hc⟩, hst⟩ := HasParams.strict hdet h
    have h120 : al < 120 := by linarith [hst.sum]
    obtain ⟨ca, hcos⟩ : ∃ ca, Real.cos (al * (Real.pi / 180)) = ca := ⟨_, rfl⟩
    have hca1 : ca < 1 := by
      rw [← hcos, ← Real.cos_zero]
      exact Real.cos_lt_cos_of_nonneg_of_le_pi le_rfl (by nlinarith [Real.pi_pos, hst.hal.2])
        (mul_pos hst.hal.1 (by positivity))
    have hca2 : -(1 / 2) < ca := by
      rw [← hcos, ← cos_120]
      exact Real.cos_lt_cos_of_nonneg_of_le_pi (mul_nonneg hst.hal.1.le (by positivity))
        (by nlinarith [Real.pi_pos]) (by nlinarith [Real.pi_pos])
    obtain rfl : !![1, 0, 0; 0, 1, 0; 0, 0, 1] = matrix := Option.some.inj hm
    have h1 : 0 < a * a := by positivity
    exact enough_R (direct_form hr (dgram_RHL h hcos)) hr' (by nlinarith) (by nlinarith)
  · obtain ⟨a, b, c, al, h, h90, k1, k2⟩ := scCell_monoclinic hcell (by simp)
    obtain ⟨⟨ha, hb, hc⟩, hst⟩ := HasParams.strict hdet h
    have hs0 := cos_deg_strict hst.hal.1 hst.hal.2
    have hca := cos_deg_nonneg hst.hal.1.le h90
    obtain ⟨ca, hcos⟩ : ∃ ca, Real.cos (al * (Real.pi / 180)) = ca := ⟨_, rfl⟩
    rw [hcos] at hs0 hca k1 k2
    obtain rfl : !![1, 0, 0; 0, 1, 0; 0, 0, 1] = matrix := Option.some.inj hm
    have h1 : 0 ≤ b * c * ca := by positivity
    exact enough_MCL' (direct_form hr (dgram_MCL h hcos)) hr' (by positivity) h1 (by nlinarith)
      (by nlinarith)
  · obtain ⟨a, b, c, al, h, h90, k1, k2⟩ := scCell_monoclinicC hcell (by simp)
    obtain ⟨⟨ha, hb, hc⟩, hst⟩ := HasParams.strict hdet h
    have hs0 := cos_deg_strict hst.hal.1 hst.hal.2
    have hca := cos_deg_nonneg hst.hal.1.le h90
    obtain ⟨ca, hcos⟩ : ∃ ca, Real.cos (al * (Real.pi / 180)) = ca := ⟨_, rfl⟩
    rw [hcos] at hs0 hca k1 k2
    obtain rfl : !![1 / 2, -1 / 2, 0; 1 / 2, 1 / 2, 0; 0, 0, 1] = matrix := Option.some.inj hm
    have h1 : 0 ≤ b * c * ca := by positivity
    exact enough_MCLC' (direct_form hr (dgram_MCLC h hcos)) hr' (by positivity) (by linarith)
      (by nlinarith) (by nlinarith)
  · exact absurd rfl haP

end

end Wulfric
