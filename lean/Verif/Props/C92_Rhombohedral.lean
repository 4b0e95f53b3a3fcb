import Verif.Lemmas.LepageRhlAxes
import Verif.Props.C92_Examples

/-!
# C92: rhombohedral lattices with any angle, and flat hexagonal lattices
-/

namespace Wulfric

open Matrix _root_.Spec

variable {niggli : Cell ℝ → Except Err (Cell ℝ)} {cell e : Cell ℝ} {tol limit : ℝ}

theorem new_rows (m : Matrix (Fin 3) (Fin 3) ℤ) (e : Cell ℝ) (i j : Fin 3) :
    dot (newCell m e i) (newCell m e j) =
      ∑ k, ∑ l, (m i k : ℝ) * m j l * dot (e k) (e l) := by
  simp only [dot, newCell, Fin.sum_univ_three, Matrix.mul_apply, map_apply]
  ring

theorem new_det {m n : Matrix (Fin 3) (Fin 3) ℤ} (hmn : m * n = 1) {e : Cell ℝ} (hd : e.det ≠ 0) :
    (newCell m e).det ≠ 0 := by
  intro h
  have := (newCell_lattice hmn e).abs_det
  rw [h, abs_zero, abs_eq_zero] at this
  exact hd this

theorem rhl_gram {a alpha x : ℝ} (ha : 0 < a) (he : HasParams e a a a alpha alpha alpha)
    (hx : Real.cos (alpha * (Real.pi / 180)) = x) : e * e.transpose = rhlGram a x := by
  have aa := he.aa
  have bb := he.bb
  have cc := he.cc
  have ab : dot (e 0) (e 1) = a ^ 2 * x := by
    rw [he.gamma.2.2, hx, aa, bb, Real.sqrt_sq ha.le]; ring
  have ac : dot (e 0) (e 2) = a ^ 2 * x := by
    rw [he.beta.2.2, hx, aa, cc, Real.sqrt_sq ha.le]; ring
  have bc : dot (e 1) (e 2) = a ^ 2 * x := by
    rw [he.alpha.2.2, hx, bb, cc, Real.sqrt_sq ha.le]; ring
  have comm : ∀ u v : Fin 3 → ℝ, dot u v = dot v u := by intro u v; simp only [dot]; ring
  ext i j
  rw [gram_apply]
  fin_cases i <;> fin_cases j <;> simp [rhlGram] <;> first | assumption | (rw [comm]; assumption)

/-- C92: rhombohedral lattices, from any basis, for all angles but those of the cubic lattices
(90, 60 and 109.47 degrees), if there is no pseudosymmetry within the limit. -/
theorem C92_rhombohedral_general (h0 : tol ≠ 0) (h1 : |tol| ≤ 1) (hl0 : 0 < limit)
    (hl90 : limit ≤ 90) {a alpha x : ℝ} (ha : 0 < a) (he : HasParams e a a a alpha alpha alpha)
    (hx : Real.cos (alpha * (Real.pi / 180)) = x) (hd : e.det ≠ 0)
    (n0 : x ≠ 0) (n1 : x ≠ 1 / 2) (n2 : x ≠ -(1 / 3)) (hno : LatticeNoPseudo cell limit)
    (hred : Reduces niggli cell) (hs : SameLattice cell e) (fuel : ℕ) :
    lepage niggli (fuel + 1) cell tol false limit = some (.ok ["RHL"]) := by
  have hg := rhl_gram ha he hx
  have gram : ∀ i j, dot (e i) (e j) = if i = j then a ^ 2 else a ^ 2 * x := by
    intro i j; rw [← gram_apply, hg]; rfl
  have A : (0 : ℝ) < a ^ 2 := by positivity
  have hdet : e.det ^ 2 = a ^ 6 * ((1 - x) ^ 2 * (1 + 2 * x)) := by
    have : e.det ^ 2 = (e * e.transpose).det := by rw [det_mul, det_transpose, sq]
    rw [this, det_fin_three]
    simp only [gram_apply, gram]
    simp
    ring
  have hpos : 0 < a ^ 6 * ((1 - x) ^ 2 * (1 + 2 * x)) := by rw [← hdet]; positivity
  have x2 : 0 < 1 + 2 * x := by
    have h6 : (0 : ℝ) < a ^ 6 := by positivity
    have := pos_of_mul_pos_right hpos h6.le
    exact pos_of_mul_pos_right this (sq_nonneg _)
  have x1 : 0 < 1 - x := by
    have : x ≤ 1 := hx ▸ Real.cos_le_one _
    rcases lt_or_eq_of_le this with g | g
    · linarith
    · rw [g] at hpos; norm_num at hpos
  have hax := rhl_axes ha x1 x2 hg n0 n1 n2
  have hno' := (latticeNoPseudo_congr hs).1 hno
  have fin : ∀ (m n : Matrix (Fin 3) (Fin 3) ℤ), m * n = 1 → IsNiggli (newCell m e) →
      (LatticeNoPseudo (newCell m e) limit →
        AxesAlong (newCell m e) [e 0 - e 1, e 0 - e 2, e 1 - e 2] →
        lepage niggli (fuel + 1) (newCell m e) tol true limit = some (.ok ["RHL"])) →
      lepage niggli (fuel + 1) cell tol false limit = some (.ok ["RHL"]) := by
    intro m n hmn hn k
    have hl := newCell_lattice hmn e
    rw [lepage_reduced (new_det hmn hd) hn (hl.trans hs.symm) hred]
    exact k ((latticeNoPseudo_congr hl).2 hno') ((axesAlong_congr hl).2 hax)
  rcases le_total x (1 / 2) with g | g
  · rcases le_total (-(1 / 3)) x with g' | g'
    · refine fin rhlM1 rhlM1 (by decide +kernel) ?_ fun p q =>
        form_rhl1 h0 h1 hl0 hl90 ha x1 x2 hg p q fuel
      have lo : -(a ^ 2 / 3) ≤ a ^ 2 * x := by nlinarith
      have up : a ^ 2 * x ≤ a ^ 2 / 2 := by nlinarith
      unfold IsNiggli
      simp only [new_rows, gram, Fin.sum_univ_three, rhlM1]
      simp
      rcases lt_or_ge 0 (a ^ 2 * x) with k | k
      · apply niggli_acute <;> grind
      · apply niggli_obtuse <;> grind
    · refine fin rhlM3 rhlI3 (by decide +kernel) ?_ fun p q =>
        form_rhl3 h0 h1 hl0 hl90 ha x1 x2 hg p q fuel
      have lo : -(a ^ 2 / 2) < a ^ 2 * x := by nlinarith
      have up : a ^ 2 * x ≤ -(a ^ 2 / 3) := by nlinarith
      unfold IsNiggli
      simp only [new_rows, gram, Fin.sum_univ_three, rhlM3]
      simp
      apply niggli_obtuse <;> grind
  · refine fin rhlM2 rhlI2 (by decide +kernel) ?_ fun p q =>
      form_rhl2 h0 h1 hl0 hl90 ha x1 x2 hg p q fuel
    have lo : a ^ 2 / 2 ≤ a ^ 2 * x := by nlinarith
    have up : a ^ 2 * x < a ^ 2 := by nlinarith
    unfold IsNiggli
    simp only [new_rows, gram, Fin.sum_univ_three, rhlM2]
    simp
    generalize a ^ 2 * x = y at *
    generalize a ^ 2 = z at *
    clear hdet hpos hg gram hax hno' fin he hno hred hs
    apply niggli_acute <;> grind

/-- C92: hexagonal lattices with `c < a`, from any basis. -/
theorem C92_hexagonal_flat (h0 : tol ≠ 0) (h1 : |tol| ≤ 1) (hl0 : 0 < limit) (hl2 : limit ≤ 2)
    {a b : ℝ} (hb : 0 < b) (hab : b < a) (hba : a ≤ 14 * b) (he : HasParams e a a b 90 90 120)
    (hred : Reduces niggli cell) (hs : SameLattice cell e) (fuel : ℕ) :
    lepage niggli (fuel + 1) cell tol false limit = some (.ok ["HEX"]) := by
  have ha : 0 < a := hb.trans hab
  have aa := he.aa
  have bb := he.bb
  have cc := he.cc
  have ab : dot (e 0) (e 1) = -a ^ 2 / 2 := by
    rw [he.gamma.2.2, cos_120, aa, bb, Real.sqrt_sq ha.le]; ring
  have ac : dot (e 0) (e 2) = 0 := by rw [he.beta.2.2, cos_90]; ring
  have bc : dot (e 1) (e 2) = 0 := by rw [he.alpha.2.2, cos_90]; ring
  have comm : ∀ u v : Fin 3 → ℝ, dot u v = dot v u := by intro u v; simp only [dot]; ring
  have hg : e * e.transpose = hexGram a b := by
    ext i j
    rw [gram_apply]
    fin_cases i <;> fin_cases j <;> simp [hexGram] <;> first | assumption | (rw [comm]; assumption)
  have hd : e.det ≠ 0 := by
    intro z
    have := congrArg Matrix.det (hex_inverse ha hb)
    rw [← hg, det_mul, det_mul, z] at this
    simp at this
  have hmn : hexM1 * hexI1 = 1 := by decide +kernel
  have hn : IsNiggli (newCell hexM1 e) := by
    have r0 : newCell hexM1 e 0 = e 2 := by
      funext j; simp [newCell, hexM1, Matrix.mul_apply, Fin.sum_univ_three]
    have r1 : newCell hexM1 e 1 = e 0 := by
      funext j; simp [newCell, hexM1, Matrix.mul_apply, Fin.sum_univ_three]
    have r2 : newCell hexM1 e 2 = e 1 := by
      funext j; simp [newCell, hexM1, Matrix.mul_apply, Fin.sum_univ_three]
    have A : (0 : ℝ) < b ^ 2 := by positivity
    have AB : b ^ 2 < a ^ 2 := by nlinarith
    unfold IsNiggli
    rw [r0, r1, r2, comm (e 2) (e 1), comm (e 2) (e 0), aa, bb, cc, ab, ac, bc]
    apply niggli_obtuse <;> grind
  rw [lepage_reduced (new_det hmn hd) hn ((newCell_lattice hmn e).trans hs.symm) hred]
  exact lepage_flat h0 h1 hl0 hl2 ha hb hba (by linarith) hg fuel

/-- Non-vacuity: a rhombohedral lattice with an angle of 41.4 degrees, one with 113.6 degrees, and a
flat hexagonal lattice. -/
theorem C92_example_flat :
    (∃ cell, scRHL 2 (Real.arccos (3 / 4) * (180 / Real.pi)) = .ok cell ∧
      AlwaysReported cell "RHL") ∧
    (∃ cell, scRHL (Real.sqrt 5) (Real.arccos (-(2 / 5)) * (180 / Real.pi)) = .ok cell ∧
      AlwaysReported cell "RHL") ∧
    AlwaysReported (scHEX 2 1) "HEX" := by
  have t0 : (1 / 10000 : ℝ) ≠ 0 := by norm_num
  have t1 : |(1 / 10000 : ℝ)| ≤ 1 := by rw [abs_of_pos] <;> norm_num
  have hp := Real.pi_pos
  have gen : ∀ (a x : ℝ) (p q : ℤ), 0 < a → a ^ 2 = p → a ^ 2 * x = q → -(1 / 2) < x → x < 1 →
      x ≠ 0 → x ≠ 1 / 2 → x ≠ -(1 / 3) →
      0 < (!![p, q, q; q, p, q; q, q, p] : Matrix (Fin 3) (Fin 3) ℤ).det →
      (!![p, q, q; q, p, q; q, q, p] : Matrix (Fin 3) (Fin 3) ℤ).det ≤ 200 →
      ∃ cell, scRHL a (Real.arccos x * (180 / Real.pi)) = .ok cell ∧ AlwaysReported cell "RHL" := by
    intro a x p q ha hpa hqa x0 x1 n0 n1 n2 d0 d1
    set al := Real.arccos x * (180 / Real.pi) with hal
    have e : al * (Real.pi / 180) = Real.arccos x := by rw [hal]; field_simp
    have hcos : Real.cos (al * (Real.pi / 180)) = x := by
      rw [e, Real.cos_arccos (by linarith) x1.le]
    have a0 : 0 < Real.arccos x := Real.arccos_pos.2 x1
    have al0 : 0 < al := by rw [hal]; positivity
    have al1 : al < 120 := by
      have h : Real.arccos x < 2 * Real.pi / 3 := by
        have := Real.strictAntiOn_arccos (a := -(1 / 2)) (b := x) ⟨by norm_num, by norm_num⟩
          ⟨by linarith, x1.le⟩ x0
        have e3 : Real.arccos (-(1 / 2)) = 2 * Real.pi / 3 := by
          rw [Real.arccos_neg, ← Real.cos_pi_div_three, Real.arccos_cos (by positivity) (by linarith)]
          ring
        rwa [e3] at this
      have : al * (Real.pi / 180) < 2 * Real.pi / 3 := e ▸ h
      nlinarith
    obtain ⟨cell, h1, h2, h3⟩ := C51_rhombohedral a al ha.le al0 al1
    have hd := h3 ha
    have hg := rhl_gram ha h2 hcos
    have hno : LatticeNoPseudo cell 2 := by
      refine C92_no_pseudo (N := !![p, q, q; q, p, q; q, q, p]) ?_ d0 d1
      intro i j
      rw [← gram_apply, hg]
      fin_cases i <;> fin_cases j <;> simp [rhlGram, hpa] <;> rw [← hpa, hqa]
    exact ⟨cell, h1, always hd fun niggli c hs _ hred fuel =>
      C92_rhombohedral_general t0 t1 (by norm_num) (by norm_num) ha h2 hcos hd n0 n1 n2
        ((latticeNoPseudo_congr hs).2 hno) hred hs fuel⟩
  refine ⟨gen 2 (3 / 4) 4 3 (by norm_num) (by norm_num) (by norm_num) (by norm_num) (by norm_num)
    (by norm_num) (by norm_num) (by norm_num) (by decide +kernel) (by decide +kernel),
    gen (Real.sqrt 5) (-(2 / 5)) 5 (-2) (by positivity) (by norm_num) (by norm_num) (by norm_num)
    (by norm_num) (by norm_num) (by norm_num) (by norm_num) (by decide +kernel) (by decide +kernel),
    always (hex_det (by norm_num) (by norm_num)) fun niggli cell hs _ hred fuel =>
      C92_hexagonal_flat t0 t1 (by norm_num) (by norm_num) (by norm_num) (by norm_num) (by norm_num)
        (hasParams_hex (by norm_num) (by norm_num)) hred hs fuel⟩

end Wulfric
