import Verif.Lemmas.Superbase
import Verif.Lemmas.ZoneSc

/-!
# The lattice points with indices up to 10 are enough for the cells that the package produces

For every lattice an obtuse superbase of the reciprocal lattice of the primitive cell is given, its
indices being at most 2.
-/

namespace Wulfric

open Matrix _root_.Spec Wulfric.Spec

/-- The scalar product of two vectors with given indices, by the quadratic form. -/
noncomputable def formProduct (q11 q22 q33 q12 q13 q23 : ℝ) (m n : Fin 3 → ℤ) : ℝ :=
  m 0 * n 0 * q11 + m 1 * n 1 * q22 + m 2 * n 2 * q33 + (m 0 * n 1 + m 1 * n 0) * q12 +
    (m 0 * n 2 + m 2 * n 0) * q13 + (m 1 * n 2 + m 2 * n 1) * q23

/-- A superbase, given by the indices, for a lattice with a given form. -/
theorem form_enough {p r : Cell ℝ} {q11 q22 q33 q12 q13 q23 : ℝ}
    (h : HasForm p q11 q22 q33 q12 q13 q23) (hr : getReciprocal p = .ok r)
    (W : Matrix (Fin 3) (Fin 3) ℤ) (hdet : W.det = 1 ∨ W.det = -1) (hb : ∀ i j, |W i j| ≤ 2)
    (hb0 : ∀ j, |W 0 j + W 1 j + W 2 j| ≤ 2)
    (h01 : formProduct q11 q22 q33 q12 q13 q23 (W 0) (W 1) ≤ 0)
    (h02 : formProduct q11 q22 q33 q12 q13 q23 (W 0) (W 2) ≤ 0)
    (h12 : formProduct q11 q22 q33 q12 q13 q23 (W 1) (W 2) ≤ 0)
    (h0 : 0 ≤ formProduct q11 q22 q33 q12 q13 q23 (W 0) (fun j => W 0 j + W 1 j + W 2 j))
    (h1 : 0 ≤ formProduct q11 q22 q33 q12 q13 q23 (W 1) (fun j => W 0 j + W 1 j + W 2 j))
    (h2 : 0 ≤ formProduct q11 q22 q33 q12 q13 q23 (W 2) (fun j => W 0 j + W 1 j + W 2 j)) :
    Enough r := by
  obtain ⟨s, hs, e11, e22, e33, e12, e13, e23⟩ := h.dots hr
  have e (m n : Fin 3 → ℤ) : dot (withIndices r m) (withIndices r n) =
      s * formProduct q11 q22 q33 q12 q13 q23 m n := by
    rw [dot_indices, e11, e22, e33, e12, e13, e23]
    unfold formProduct
    ring
  refine superbase_enough r W hdet hb hb0 ?_ ?_ ?_ ?_ ?_ ?_ <;> rw [e]
  · exact mul_nonpos_of_nonneg_of_nonpos hs.le h01
  · exact mul_nonpos_of_nonneg_of_nonpos hs.le h02
  · exact mul_nonpos_of_nonneg_of_nonpos hs.le h12
  · exact mul_nonneg hs.le h0
  · exact mul_nonneg hs.le h1
  · exact mul_nonneg hs.le h2

/-- The six inequalities of a superbase with given indices. -/
macro "superbase_tac" : tactic => `(tactic| (
  first
  | (simp only [det_fin_three]; decide)
  | decide
  | (simp [formProduct] <;> linarith)))

theorem min_three (x y z : ℝ) : (x ≤ y ∧ x ≤ z) ∨ (y ≤ x ∧ y ≤ z) ∨ (z ≤ x ∧ z ≤ y) := by
  rcases le_total x y with a | a
  · rcases le_total x z with b | b
    · exact .inl ⟨a, b⟩
    · exact .inr (.inr ⟨b, b.trans a⟩)
  · rcases le_total y z with b | b
    · exact .inr (.inl ⟨a, b⟩)
    · exact .inr (.inr ⟨b.trans a, b⟩)

section
variable {p r : Cell ℝ} {A B C X Y Z V : ℝ}

theorem enough_P (h : HasForm p A B C 0 0 0) (hr : getReciprocal p = .ok r) (hA : 0 ≤ A)
    (hB : 0 ≤ B) (hC : 0 ≤ C) : Enough r := by
  refine form_enough h hr !![1, 0, 0; 0, 1, 0; 0, 0, 1] ?_ ?_ ?_ ?_ ?_ ?_ ?_ ?_ ?_ <;> superbase_tac

theorem enough_F (h : HasForm p (A + B + C) (A + B + C) (A + B + C) (-A - B + C) (-A + B - C)
    (A - B - C)) (hr : getReciprocal p = .ok r) (hA : 0 ≤ A) (hB : 0 ≤ B) (hC : 0 ≤ C) :
    Enough r := by
  by_cases h1 : A + B ≤ C
  · refine form_enough h hr !![0, 1, 1; 1, 0, 1; 0, 0, -1] ?_ ?_ ?_ ?_ ?_ ?_ ?_ ?_ ?_ <;>
      superbase_tac
  by_cases h2 : A + C ≤ B
  · refine form_enough h hr !![0, 1, 1; 1, 1, 0; 0, -1, 0] ?_ ?_ ?_ ?_ ?_ ?_ ?_ ?_ ?_ <;>
      superbase_tac
  by_cases h3 : B + C ≤ A
  · refine form_enough h hr !![1, 0, 1; 1, 1, 0; -1, 0, 0] ?_ ?_ ?_ ?_ ?_ ?_ ?_ ?_ ?_ <;>
      superbase_tac
  · refine form_enough h hr !![1, 0, 0; 0, 1, 0; 0, 0, 1] ?_ ?_ ?_ ?_ ?_ ?_ ?_ ?_ ?_ <;>
      superbase_tac

theorem enough_I (h : HasForm p (B + C) (A + C) (A + B) C B A) (hr : getReciprocal p = .ok r)
    (hA : 0 ≤ A) (hB : 0 ≤ B) (hC : 0 ≤ C) : Enough r := by
  rcases min_three A B C with ⟨h1, h2⟩ | ⟨h1, h2⟩ | ⟨h1, h2⟩
  · refine form_enough h hr !![0, 0, 1; -1, 1, 0; 1, 0, -1] ?_ ?_ ?_ ?_ ?_ ?_ ?_ ?_ ?_ <;>
      superbase_tac
  · refine form_enough h hr !![0, 0, 1; 1, -1, 0; 0, 1, -1] ?_ ?_ ?_ ?_ ?_ ?_ ?_ ?_ ?_ <;>
      superbase_tac
  · refine form_enough h hr !![1, 0, 0; 0, 1, -1; -1, 0, 1] ?_ ?_ ?_ ?_ ?_ ?_ ?_ ?_ ?_ <;>
      superbase_tac

theorem enough_C (h : HasForm p (A + B) (A + B) C (A - B) 0 0) (hr : getReciprocal p = .ok r)
    (hA : 0 ≤ A) (hB : 0 ≤ B) (hC : 0 ≤ C) : Enough r := by
  rcases le_total A B with h1 | h1
  · refine form_enough h hr !![1, 0, 0; 0, 1, 0; 0, 0, 1] ?_ ?_ ?_ ?_ ?_ ?_ ?_ ?_ ?_ <;>
      superbase_tac
  · refine form_enough h hr !![1, 0, 0; 0, -1, 0; 0, 0, 1] ?_ ?_ ?_ ?_ ?_ ?_ ?_ ?_ ?_ <;>
      superbase_tac

theorem enough_hP (h : HasForm p (2 * A) (2 * A) C A 0 0) (hr : getReciprocal p = .ok r)
    (hA : 0 ≤ A) (hC : 0 ≤ C) : Enough r := by
  refine form_enough h hr !![1, 0, 0; 0, -1, 0; 0, 0, 1] ?_ ?_ ?_ ?_ ?_ ?_ ?_ ?_ ?_ <;>
    superbase_tac

/-- Three vectors of the same length at the same angles. -/
theorem enough_R (h : HasForm p A A A V V V) (hr : getReciprocal p = .ok r)
    (h1 : V ≤ A) (h2 : 0 ≤ A + 2 * V) : Enough r := by
  rcases le_total V 0 with h3 | h3
  · refine form_enough h hr !![1, 0, 0; 0, 1, 0; 0, 0, 1] ?_ ?_ ?_ ?_ ?_ ?_ ?_ ?_ ?_ <;>
      superbase_tac
  · refine form_enough h hr !![1, 0, 0; -1, 1, 0; 0, -1, 1] ?_ ?_ ?_ ?_ ?_ ?_ ?_ ?_ ?_ <;>
      superbase_tac

theorem enough_mP (h : HasForm p X Y Z 0 V 0) (hr : getReciprocal p = .ok r) (hY : 0 ≤ Y)
    (hV : 0 ≤ V) (h1 : V ≤ X) (h2 : V ≤ Z) : Enough r := by
  refine form_enough h hr !![1, 0, 0; 0, 1, 0; 0, 0, -1] ?_ ?_ ?_ ?_ ?_ ?_ ?_ ?_ ?_ <;>
    superbase_tac

theorem enough_MCL (h : HasForm p X Y Z 0 0 (-V)) (hr : getReciprocal p = .ok r) (hX : 0 ≤ X)
    (hV : 0 ≤ V) (h1 : V ≤ Y) (h2 : V ≤ Z) : Enough r := by
  refine form_enough h hr !![1, 0, 0; 0, 1, 0; 0, 0, 1] ?_ ?_ ?_ ?_ ?_ ?_ ?_ ?_ ?_ <;>
    superbase_tac

theorem enough_mC (h : HasForm p (X + Y) (X + Y) Z (-X + Y) V (-V)) (hr : getReciprocal p = .ok r)
    (hY : 0 ≤ Y) (hV : 0 ≤ V) (h1 : V ≤ X) (h2 : 2 * V ≤ Z) : Enough r := by
  by_cases h3 : X ≤ Y
  · refine form_enough h hr !![1, 0, 0; 0, -1, 0; 0, 0, -1] ?_ ?_ ?_ ?_ ?_ ?_ ?_ ?_ ?_ <;>
      superbase_tac
  by_cases h4 : Y + V ≤ X
  · refine form_enough h hr !![1, 1, 0; 0, -1, 0; 0, 0, -1] ?_ ?_ ?_ ?_ ?_ ?_ ?_ ?_ ?_ <;>
      superbase_tac
  · refine form_enough h hr !![1, 0, 0; 0, 1, 0; -1, 0, 1] ?_ ?_ ?_ ?_ ?_ ?_ ?_ ?_ ?_ <;>
      superbase_tac

theorem enough_MCLC (h : HasForm p (X + Y) (X + Y) Z (-X + Y) (-V) (-V))
    (hr : getReciprocal p = .ok r)
    (hX : 0 ≤ X) (hV : 0 ≤ V) (h1 : V ≤ Y) (h2 : 2 * V ≤ Z) : Enough r := by
  by_cases h3 : Y ≤ X
  · refine form_enough h hr !![1, 0, 0; 0, 1, 0; 0, 0, 1] ?_ ?_ ?_ ?_ ?_ ?_ ?_ ?_ ?_ <;>
      superbase_tac
  by_cases h4 : X + V ≤ Y
  · refine form_enough h hr !![1, -1, 0; 0, 1, 0; 0, 0, 1] ?_ ?_ ?_ ?_ ?_ ?_ ?_ ?_ ?_ <;>
      superbase_tac
  · refine form_enough h hr !![1, 0, 0; 0, -1, 0; -1, 0, -1] ?_ ?_ ?_ ?_ ?_ ?_ ?_ ?_ ?_ <;>
      superbase_tac

/-- Triclinic: the reciprocal cell is reduced. -/
theorem enough_tri (hr : getReciprocal p = .ok r) (red : PairReduced r) : Enough r := by
  obtain ⟨a1, a2, a3, a4⟩ := red.two (i := 0) (j := 1) (by decide)
  obtain ⟨b1, b2, b3, b4⟩ := red.two (i := 0) (j := 2) (by decide)
  obtain ⟨c1, c2, c3, c4⟩ := red.two (i := 1) (j := 2) (by decide)
  have hf := form_tri hr
  obtain ⟨A, hA⟩ : ∃ A, dot (r 0) (r 0) = A := ⟨_, rfl⟩
  obtain ⟨B, hB⟩ : ∃ A, dot (r 1) (r 1) = A := ⟨_, rfl⟩
  obtain ⟨C, hC⟩ : ∃ A, dot (r 2) (r 2) = A := ⟨_, rfl⟩
  obtain ⟨x, hx⟩ : ∃ A, dot (r 0) (r 1) = A := ⟨_, rfl⟩
  obtain ⟨y, hy⟩ : ∃ A, dot (r 0) (r 2) = A := ⟨_, rfl⟩
  obtain ⟨z, hz⟩ : ∃ A, dot (r 1) (r 2) = A := ⟨_, rfl⟩
  rw [hA, hB, hC, hx, hy, hz] at hf
  simp only [hA, hB, hx] at a1 a2 a3 a4
  simp only [hA, hC, hy] at b1 b2 b3 b4
  simp only [hB, hC, hz] at c1 c2 c3 c4
  clear hA hB hC hx hy hz red
  rcases le_total x 0 with sx | sx <;> rcases le_total y 0 with sy | sy <;> rcases le_total z 0 with sz | sz
  · refine form_enough hf hr !![1, 0, 0; 0, 1, 0; 0, 0, 1] ?_ ?_ ?_ ?_ ?_ ?_ ?_ ?_ ?_ <;>
      superbase_tac
  · rcases min_three (-x) (-y) (z) with ⟨m1, m2⟩ | ⟨m1, m2⟩ | ⟨m1, m2⟩
    · refine form_enough hf hr !![-1, 0, 0; 1, 0, 1; 0, 1, -1] ?_ ?_ ?_ ?_ ?_ ?_ ?_ ?_ ?_ <;>
        superbase_tac
    · refine form_enough hf hr !![-1, 0, 0; 1, 1, 0; 0, -1, 1] ?_ ?_ ?_ ?_ ?_ ?_ ?_ ?_ ?_ <;>
        superbase_tac
    · refine form_enough hf hr !![0, 1, 0; -1, -1, 0; 1, 0, 1] ?_ ?_ ?_ ?_ ?_ ?_ ?_ ?_ ?_ <;>
        superbase_tac
  · rcases min_three (-x) (y) (-z) with ⟨m1, m2⟩ | ⟨m1, m2⟩ | ⟨m1, m2⟩
    · refine form_enough hf hr !![1, 0, 0; -1, 0, 1; 0, -1, -1] ?_ ?_ ?_ ?_ ?_ ?_ ?_ ?_ ?_ <;>
        superbase_tac
    · refine form_enough hf hr !![1, 0, 0; -1, -1, 0; 0, 1, 1] ?_ ?_ ?_ ?_ ?_ ?_ ?_ ?_ ?_ <;>
        superbase_tac
    · refine form_enough hf hr !![0, -1, 0; 1, 1, 0; -1, 0, 1] ?_ ?_ ?_ ?_ ?_ ?_ ?_ ?_ ?_ <;>
        superbase_tac
  · refine form_enough hf hr !![1, 0, 0; 0, 1, 0; 0, 0, -1] ?_ ?_ ?_ ?_ ?_ ?_ ?_ ?_ ?_ <;>
      superbase_tac
  · rcases min_three (x) (-y) (-z) with ⟨m1, m2⟩ | ⟨m1, m2⟩ | ⟨m1, m2⟩
    · refine form_enough hf hr !![1, 0, 0; -1, 0, -1; 0, 1, 1] ?_ ?_ ?_ ?_ ?_ ?_ ?_ ?_ ?_ <;>
        superbase_tac
    · refine form_enough hf hr !![1, 0, 0; -1, 1, 0; 0, -1, -1] ?_ ?_ ?_ ?_ ?_ ?_ ?_ ?_ ?_ <;>
        superbase_tac
    · refine form_enough hf hr !![0, 1, 0; 1, -1, 0; -1, 0, -1] ?_ ?_ ?_ ?_ ?_ ?_ ?_ ?_ ?_ <;>
        superbase_tac
  · refine form_enough hf hr !![1, 0, 0; 0, -1, 0; 0, 0, 1] ?_ ?_ ?_ ?_ ?_ ?_ ?_ ?_ ?_ <;>
      superbase_tac
  · refine form_enough hf hr !![-1, 0, 0; 0, 1, 0; 0, 0, 1] ?_ ?_ ?_ ?_ ?_ ?_ ?_ ?_ ?_ <;>
      superbase_tac
  · rcases min_three (x) (y) (z) with ⟨m1, m2⟩ | ⟨m1, m2⟩ | ⟨m1, m2⟩
    · refine form_enough hf hr !![1, 0, 0; -1, 0, 1; 0, 1, -1] ?_ ?_ ?_ ?_ ?_ ?_ ?_ ?_ ?_ <;>
        superbase_tac
    · refine form_enough hf hr !![1, 0, 0; -1, 1, 0; 0, -1, 1] ?_ ?_ ?_ ?_ ?_ ?_ ?_ ?_ ?_ <;>
        superbase_tac
    · refine form_enough hf hr !![0, 1, 0; 1, -1, 0; -1, 0, 1] ?_ ?_ ?_ ?_ ?_ ?_ ?_ ?_ ?_ <;>
        superbase_tac

end

section
variable {conv prim r matrix : Cell ℝ} {bl : String}

theorem inv_sq_nonneg (a : ℝ) : 0 ≤ 1 / a ^ 2 := by positivity

/-- HPKOT: the primitive cell of every lattice but the triclinic one. -/
theorem hpkot_enough (hbl : bl ∈ bravaisLattices) (haP : bl ≠ "aP") (hstd : StandardCell bl conv)
    (hm : (hpkotConventionalToPrimitive ℝ).get? bl = some matrix)
    (hprim : prim = matrix.transpose * conv) (hr : getReciprocal prim = .ok r) : Enough r := by
  subst hprim
  have hdet : conv.det ≠ 0 := by
    have := (recip_ok hr).1
    rw [det_mul] at this
    exact right_ne_zero_of_mul this
  simp only [bravaisLattices, List.mem_cons, List.not_mem_nil, or_false] at hbl
  rcases hbl with rfl | rfl | rfl | rfl | rfl | rfl | rfl | rfl | rfl | rfl | rfl | rfl | rfl | rfl |
    rfl
  · obtain ⟨a, h⟩ := std_cubic hstd (by simp)
    obtain ⟨⟨ha, hb, hc⟩, -⟩ := HasParams.strict hdet h
    obtain rfl : !![1, 0, 0; 0, 1, 0; 0, 0, 1] = matrix := Option.some.inj hm
    exact enough_P (form_P ha.ne' hb.ne' hc.ne' h) hr (inv_sq_nonneg _) (inv_sq_nonneg _) (inv_sq_nonneg _)
  · obtain ⟨a, h⟩ := std_cubic hstd (by simp)
    obtain ⟨⟨ha, hb, hc⟩, -⟩ := HasParams.strict hdet h
    obtain rfl : !![0, 1 / 2, 1 / 2; 1 / 2, 0, 1 / 2; 1 / 2, 1 / 2, 0] = matrix := Option.some.inj hm
    exact enough_F (form_F ha.ne' hb.ne' hc.ne' h rfl rfl rfl) hr (inv_sq_nonneg _) (inv_sq_nonneg _) (inv_sq_nonneg _)
  · obtain ⟨a, h⟩ := std_cubic hstd (by simp)
    obtain ⟨⟨ha, hb, hc⟩, -⟩ := HasParams.strict hdet h
    obtain rfl : !![-1 / 2, 1 / 2, 1 / 2; 1 / 2, -1 / 2, 1 / 2; 1 / 2, 1 / 2, -1 / 2] = matrix := Option.some.inj hm
    exact enough_I (form_I ha.ne' hb.ne' hc.ne' h rfl rfl rfl) hr (inv_sq_nonneg _) (inv_sq_nonneg _) (inv_sq_nonneg _)
  · obtain ⟨a, c, h⟩ := std_tetragonal hstd (by simp)
    obtain ⟨⟨ha, hb, hc⟩, -⟩ := HasParams.strict hdet h
    obtain rfl : !![1, 0, 0; 0, 1, 0; 0, 0, 1] = matrix := Option.some.inj hm
    exact enough_P (form_P ha.ne' hb.ne' hc.ne' h) hr (inv_sq_nonneg _) (inv_sq_nonneg _) (inv_sq_nonneg _)
  · obtain ⟨a, c, h⟩ := std_tetragonal hstd (by simp)
    obtain ⟨⟨ha, hb, hc⟩, -⟩ := HasParams.strict hdet h
    obtain rfl : !![-1 / 2, 1 / 2, 1 / 2; 1 / 2, -1 / 2, 1 / 2; 1 / 2, 1 / 2, -1 / 2] = matrix := Option.some.inj hm
    exact enough_I (form_I ha.ne' hb.ne' hc.ne' h rfl rfl rfl) hr (inv_sq_nonneg _) (inv_sq_nonneg _) (inv_sq_nonneg _)
  · obtain ⟨a, b, c, h⟩ := std_orthorhombic hstd (by simp)
    obtain ⟨⟨ha, hb, hc⟩, -⟩ := HasParams.strict hdet h
    obtain rfl : !![1, 0, 0; 0, 1, 0; 0, 0, 1] = matrix := Option.some.inj hm
    exact enough_P (form_P ha.ne' hb.ne' hc.ne' h) hr (inv_sq_nonneg _) (inv_sq_nonneg _) (inv_sq_nonneg _)
  · obtain ⟨a, b, c, h, -⟩ := std_oF hstd rfl
    obtain ⟨⟨ha, hb, hc⟩, -⟩ := HasParams.strict hdet h
    obtain rfl : !![0, 1 / 2, 1 / 2; 1 / 2, 0, 1 / 2; 1 / 2, 1 / 2, 0] = matrix := Option.some.inj hm
    exact enough_F (form_F ha.ne' hb.ne' hc.ne' h rfl rfl rfl) hr (inv_sq_nonneg _) (inv_sq_nonneg _) (inv_sq_nonneg _)
  · obtain ⟨a, b, c, h⟩ := std_orthorhombic hstd (by simp)
    obtain ⟨⟨ha, hb, hc⟩, -⟩ := HasParams.strict hdet h
    obtain rfl : !![-1 / 2, 1 / 2, 1 / 2; 1 / 2, -1 / 2, 1 / 2; 1 / 2, 1 / 2, -1 / 2] = matrix := Option.some.inj hm
    exact enough_I (form_I ha.ne' hb.ne' hc.ne' h rfl rfl rfl) hr (inv_sq_nonneg _) (inv_sq_nonneg _) (inv_sq_nonneg _)
  · obtain ⟨a, b, c, h⟩ := std_orthorhombic hstd (by simp)
    obtain ⟨⟨ha, hb, hc⟩, -⟩ := HasParams.strict hdet h
    obtain rfl : !![0, 0, 1; 1 / 2, 1 / 2, 0; -1 / 2, 1 / 2, 0] = matrix := Option.some.inj hm
    exact enough_C (form_A ha.ne' hb.ne' hc.ne' h rfl rfl rfl) hr (inv_sq_nonneg _) (inv_sq_nonneg _) (inv_sq_nonneg _)
  · obtain ⟨a, b, c, h⟩ := std_orthorhombic hstd (by simp)
    obtain ⟨⟨ha, hb, hc⟩, -⟩ := HasParams.strict hdet h
    obtain rfl : !![1 / 2, 1 / 2, 0; -1 / 2, 1 / 2, 0; 0, 0, 1] = matrix := Option.some.inj hm
    exact enough_C (form_C ha.ne' hb.ne' hc.ne' h rfl rfl rfl) hr (inv_sq_nonneg _) (inv_sq_nonneg _) (inv_sq_nonneg _)
  · obtain ⟨a, c, h⟩ := std_hexagonal hstd (by simp)
    obtain ⟨⟨ha, hb, hc⟩, -⟩ := HasParams.strict hdet h
    obtain rfl : !![1, 0, 0; 0, 1, 0; 0, 0, 1] = matrix := Option.some.inj hm
    exact enough_hP (form_hP ha.ne' hc.ne' h) hr (by positivity) (inv_sq_nonneg _)
  · obtain ⟨a, c, h⟩ := std_hexagonal hstd (by simp)
    obtain ⟨⟨ha, hb, hc⟩, -⟩ := HasParams.strict hdet h
    obtain rfl : !![1, -1 / 2, -1 / 2; 1 / 2, 1 / 2, -1; 1 / 2, 1 / 2, 1 / 2] = matrix := Option.some.inj hm
    have h1 : 0 < 2 / (3 * a ^ 2) := by positivity
    have h2 : 0 < 1 / c ^ 2 := by positivity
    exact enough_R (form_hR ha.ne' hc.ne' h rfl rfl) hr (by linarith) (by linarith)
  · obtain ⟨a, b, c, be, h, h90, k1, k2⟩ := std_mP hstd rfl
    obtain ⟨⟨ha, hb, hc⟩, hst⟩ := HasParams.strict hdet h
    have hs0 := cos_deg_strict hst.hbe.1 hst.hbe.2
    have hcb := cos_deg_nonpos h90 hst.hbe.2.le
    obtain ⟨cb, hcos⟩ : ∃ cb, Real.cos (be * (Real.pi / 180)) = cb := ⟨_, rfl⟩
    rw [hcos] at hs0 hcb k1 k2
    obtain ⟨w1, w2, w3, w4⟩ := mono_sizes ha hc (neg_nonneg.2 hcb)
    obtain rfl : !![1, 0, 0; 0, 1, 0; 0, 0, 1] = matrix := Option.some.inj hm
    exact enough_mP (form_mP ha.ne' hb.ne' hc.ne' hcos hs0 h) hr (by positivity) w1
      (w2 (by linarith)) (w3 (by linarith))
  · obtain ⟨a, b, c, be, h, h90, k1, k2⟩ := std_mC hstd rfl
    obtain ⟨⟨ha, hb, hc⟩, hst⟩ := HasParams.strict hdet h
    have hs0 := cos_deg_strict hst.hbe.1 hst.hbe.2
    have hcb := cos_deg_nonpos h90 hst.hbe.2.le
    obtain ⟨cb, hcos⟩ : ∃ cb, Real.cos (be * (Real.pi / 180)) = cb := ⟨_, rfl⟩
    rw [hcos] at hs0 hcb k1 k2
    obtain ⟨w1, w2, w3, w4⟩ := mono_sizes ha hc (neg_nonneg.2 hcb)
    obtain rfl : !![1 / 2, -1 / 2, 0; 1 / 2, 1 / 2, 0; 0, 0, 1] = matrix := Option.some.inj hm
    exact enough_mC (form_mC ha.ne' hb.ne' hc.ne' hcos hs0 h rfl rfl rfl rfl) hr (by positivity) w1
      (w2 (by linarith)) (w4 (by linarith))
  · exact absurd rfl haP

/-- SC: the primitive cell of every lattice but the triclinic one. -/
theorem sc_enough (hbl : bl ∈ bravaisLattices) (haP : bl ≠ "aP") (hcell : ScCell bl conv)
    (hm : (scConventionalToPrimitive ℝ).get? bl = some matrix)
    (hprim : prim = matrix.transpose * conv) (hr : getReciprocal prim = .ok r) : Enough r := by
  subst hprim
  have hdet : conv.det ≠ 0 := by
    have := (recip_ok hr).1
    rw [det_mul] at this
    exact right_ne_zero_of_mul this
  simp only [bravaisLattices, List.mem_cons, List.not_mem_nil, or_false] at hbl
  rcases hbl with rfl | rfl | rfl | rfl | rfl | rfl | rfl | rfl | rfl | rfl | rfl | rfl | rfl | rfl |
    rfl
  · obtain ⟨a, h⟩ := scCell_cubic hcell (by simp)
    obtain ⟨⟨ha, hb, hc⟩, -⟩ := HasParams.strict hdet h
    obtain rfl : !![1, 0, 0; 0, 1, 0; 0, 0, 1] = matrix := Option.some.inj hm
    exact enough_P (form_P ha.ne' hb.ne' hc.ne' h) hr (inv_sq_nonneg _) (inv_sq_nonneg _) (inv_sq_nonneg _)
  · obtain ⟨a, h⟩ := scCell_cubic hcell (by simp)
    obtain ⟨⟨ha, hb, hc⟩, -⟩ := HasParams.strict hdet h
    obtain rfl : !![0, 1 / 2, 1 / 2; 1 / 2, 0, 1 / 2; 1 / 2, 1 / 2, 0] = matrix := Option.some.inj hm
    exact enough_F (form_F ha.ne' hb.ne' hc.ne' h rfl rfl rfl) hr (inv_sq_nonneg _) (inv_sq_nonneg _) (inv_sq_nonneg _)
  · obtain ⟨a, h⟩ := scCell_cubic hcell (by simp)
    obtain ⟨⟨ha, hb, hc⟩, -⟩ := HasParams.strict hdet h
    obtain rfl : !![-1 / 2, 1 / 2, 1 / 2; 1 / 2, -1 / 2, 1 / 2; 1 / 2, 1 / 2, -1 / 2] = matrix := Option.some.inj hm
    exact enough_I (form_I ha.ne' hb.ne' hc.ne' h rfl rfl rfl) hr (inv_sq_nonneg _) (inv_sq_nonneg _) (inv_sq_nonneg _)
  · obtain ⟨a, c, h⟩ := scCell_tetragonal hcell (by simp)
    obtain ⟨⟨ha, hb, hc⟩, -⟩ := HasParams.strict hdet h
    obtain rfl : !![1, 0, 0; 0, 1, 0; 0, 0, 1] = matrix := Option.some.inj hm
    exact enough_P (form_P ha.ne' hb.ne' hc.ne' h) hr (inv_sq_nonneg _) (inv_sq_nonneg _) (inv_sq_nonneg _)
  · obtain ⟨a, c, h⟩ := scCell_tetragonal hcell (by simp)
    obtain ⟨⟨ha, hb, hc⟩, -⟩ := HasParams.strict hdet h
    obtain rfl : !![-1 / 2, 1 / 2, 1 / 2; 1 / 2, -1 / 2, 1 / 2; 1 / 2, 1 / 2, -1 / 2] = matrix := Option.some.inj hm
    exact enough_I (form_I ha.ne' hb.ne' hc.ne' h rfl rfl rfl) hr (inv_sq_nonneg _) (inv_sq_nonneg _) (inv_sq_nonneg _)
  · obtain ⟨a, b, c, h⟩ := scCell_orthorhombic hcell (by simp)
    obtain ⟨⟨ha, hb, hc⟩, -⟩ := HasParams.strict hdet h
    obtain rfl : !![1, 0, 0; 0, 1, 0; 0, 0, 1] = matrix := Option.some.inj hm
    exact enough_P (form_P ha.ne' hb.ne' hc.ne' h) hr (inv_sq_nonneg _) (inv_sq_nonneg _) (inv_sq_nonneg _)
  · obtain ⟨a, b, c, h⟩ := scCell_orthorhombic hcell (by simp)
    obtain ⟨⟨ha, hb, hc⟩, -⟩ := HasParams.strict hdet h
    obtain rfl : !![0, 1 / 2, 1 / 2; 1 / 2, 0, 1 / 2; 1 / 2, 1 / 2, 0] = matrix := Option.some.inj hm
    exact enough_F (form_F ha.ne' hb.ne' hc.ne' h rfl rfl rfl) hr (inv_sq_nonneg _) (inv_sq_nonneg _) (inv_sq_nonneg _)
  · obtain ⟨a, b, c, h, -, -⟩ := scCell_bodyCentred hcell (by simp)
    obtain ⟨⟨ha, hb, hc⟩, -⟩ := HasParams.strict hdet h
    obtain rfl : !![-1 / 2, 1 / 2, 1 / 2; 1 / 2, -1 / 2, 1 / 2; 1 / 2, 1 / 2, -1 / 2] = matrix := Option.some.inj hm
    exact enough_I (form_I ha.ne' hb.ne' hc.ne' h rfl rfl rfl) hr (inv_sq_nonneg _) (inv_sq_nonneg _) (inv_sq_nonneg _)
  · obtain ⟨a, b, c, h, -⟩ := scCell_baseCentred hcell (by simp)
    obtain ⟨⟨ha, hb, hc⟩, -⟩ := HasParams.strict hdet h
    obtain rfl : !![1 / 2, 1 / 2, 0; -1 / 2, 1 / 2, 0; 0, 0, 1] = matrix := Option.some.inj hm
    exact enough_C (form_C ha.ne' hb.ne' hc.ne' h rfl rfl rfl) hr (inv_sq_nonneg _) (inv_sq_nonneg _) (inv_sq_nonneg _)
  · obtain ⟨a, b, c, h, -⟩ := scCell_baseCentred hcell (by simp)
    obtain ⟨⟨ha, hb, hc⟩, -⟩ := HasParams.strict hdet h
    obtain rfl : !![1 / 2, 1 / 2, 0; -1 / 2, 1 / 2, 0; 0, 0, 1] = matrix := Option.some.inj hm
    exact enough_C (form_C ha.ne' hb.ne' hc.ne' h rfl rfl rfl) hr (inv_sq_nonneg _) (inv_sq_nonneg _) (inv_sq_nonneg _)
  · obtain ⟨a, c, h⟩ := scCell_hexagonal hcell (by simp)
    obtain ⟨⟨ha, hb, hc⟩, -⟩ := HasParams.strict hdet h
    obtain rfl : !![1, 0, 0; 0, 1, 0; 0, 0, 1] = matrix := Option.some.inj hm
    exact enough_hP (form_hP ha.ne' hc.ne' h) hr (by positivity) (inv_sq_nonneg _)
  · obtain ⟨a, al, h⟩ := scCell_rhombohedral hcell (by simp)
    obtain ⟨⟨ha, hb, hc⟩, hst⟩ := HasParams.strict hdet h
    have h120 : al < 120 := by linarith [hst.sum]
    obtain ⟨ca, hcos⟩ : ∃ ca, Real.cos (al * (Real.pi / 180)) = ca := ⟨_, rfl⟩
    have hca1 : ca < 1 := by
      rw [← hcos, ← Real.cos_zero]
      exact Real.cos_lt_cos_of_nonneg_of_le_pi le_rfl (by nlinarith [Real.pi_pos, hst.hal.2])
        (mul_pos hst.hal.1 (by positivity))
    have hca2 : -(1 / 2) < ca := by
      rw [← hcos, ← cos_120]
      exact Real.cos_lt_cos_of_nonneg_of_le_pi (mul_nonneg hst.hal.1.le (by positivity))
        (by nlinarith [Real.pi_pos]) (by nlinarith [Real.pi_pos])
    obtain rfl : !![1, 0, 0; 0, 1, 0; 0, 0, 1] = matrix := Option.some.inj hm
    exact enough_R (form_RHL ha.ne' hcos (by linarith) (by linarith) h) hr (by linarith)
      (by linarith)
  · obtain ⟨a, b, c, al, h, h90, k1, k2⟩ := scCell_monoclinic hcell (by simp)
    obtain ⟨⟨ha, hb, hc⟩, hst⟩ := HasParams.strict hdet h
    have hs0 := cos_deg_strict hst.hal.1 hst.hal.2
    have hca := cos_deg_nonneg hst.hal.1.le h90
    obtain ⟨ca, hcos⟩ : ∃ ca, Real.cos (al * (Real.pi / 180)) = ca := ⟨_, rfl⟩
    rw [hcos] at hs0 hca k1 k2
    obtain ⟨w1, w2, w3, w4⟩ := mono_sizes hb hc hca
    obtain rfl : !![1, 0, 0; 0, 1, 0; 0, 0, 1] = matrix := Option.some.inj hm
    exact enough_MCL (form_MCL ha.ne' hb.ne' hc.ne' hcos hs0 h) hr (by positivity) w1 (w2 k1) (w3 k2)
  · obtain ⟨a, b, c, al, h, h90, k1, k2⟩ := scCell_monoclinicC hcell (by simp)
    obtain ⟨⟨ha, hb, hc⟩, hst⟩ := HasParams.strict hdet h
    have hs0 := cos_deg_strict hst.hal.1 hst.hal.2
    have hca := cos_deg_nonneg hst.hal.1.le h90
    obtain ⟨ca, hcos⟩ : ∃ ca, Real.cos (al * (Real.pi / 180)) = ca := ⟨_, rfl⟩
    rw [hcos] at hs0 hca k1 k2
    obtain ⟨w1, w2, w3, w4⟩ := mono_sizes hb hc hca
    obtain rfl : !![1 / 2, -1 / 2, 0; 1 / 2, 1 / 2, 0; 0, 0, 1] = matrix := Option.some.inj hm
    exact enough_MCLC (form_MCLC ha.ne' hb.ne' hc.ne' hcos hs0 h rfl rfl rfl rfl) hr (by positivity)
      w1 (w2 k1) (w4 k2)
  · exact absurd rfl haP

end

end Wulfric
