import Verif.Lemmas.LepageTypes
import Verif.Lemmas.LepageHex
import Verif.Props.C51_Examples

/-! # C57: the lattice type found by the Le Page search

A cell in any orientation, described by its lengths and angles, with or without Niggli reduction:
`c` is the cell after the reduction. The conditions keep the lattice away from pseudosymmetry: no
pair of vectors of the search is almost, but not exactly, perpendicular. -/

namespace Wulfric

open Matrix _root_.Spec Wulfric.Spec

section

theorem gram_of_rows {m : Matrix (Fin 3) (Fin 3) ℤ} {e c : Cell ℝ} {x y z : ℝ}
    (h : HasParams e x y z 90 90 90) (hc : ∀ i j, c i j = (m i 0 : ℝ) / 2 * e 0 j +
      (m i 1 : ℝ) / 2 * e 1 j + (m i 2 : ℝ) / 2 * e 2 j) :
    c * c.transpose = edgeCell m ![x, y, z] * (edgeCell m ![x, y, z]).transpose := by
  have aa := h.aa
  have bb := h.bb
  have cc := h.cc
  have ab : dot (e 0) (e 1) = 0 := by rw [h.gamma.2.2, cos_90]; ring
  have ac : dot (e 0) (e 2) = 0 := by rw [h.beta.2.2, cos_90]; ring
  have bc : dot (e 1) (e 2) = 0 := by rw [h.alpha.2.2, cos_90]; ring
  simp only [dot] at aa bb cc ab ac bc
  ext i j
  simp only [Matrix.mul_apply, Fin.sum_univ_three, transpose_apply, edgeCell, hc, cons_val_zero,
    cons_val_one, cons_val]
  linear_combination (m i 0 : ℝ) * m j 0 / 4 * aa + (m i 1 : ℝ) * m j 1 / 4 * bb +
    (m i 2 : ℝ) * m j 2 / 4 * cc + ((m i 0 : ℝ) * m j 1 + m i 1 * m j 0) / 4 * ab +
    ((m i 0 : ℝ) * m j 2 + m i 2 * m j 0) / 4 * ac + ((m i 1 : ℝ) * m j 2 + m i 2 * m j 1) / 4 * bc

theorem gram_P {e : Cell ℝ} {x y z : ℝ} (h : HasParams e x y z 90 90 90) :
    e * e.transpose = edgeCell matP ![x, y, z] * (edgeCell matP ![x, y, z]).transpose := by
  apply gram_of_rows h
  intro i j
  fin_cases i <;> simp [matP]

theorem gram_F {e : Cell ℝ} {x y z : ℝ} (h : HasParams e x y z 90 90 90) :
    faceCentred e * (faceCentred e).transpose =
      edgeCell matF ![x, y, z] * (edgeCell matF ![x, y, z]).transpose := by
  apply gram_of_rows h
  intro i j
  fin_cases i <;> simp [matF, faceCentred] <;> ring

theorem gram_I {e : Cell ℝ} {x y z : ℝ} (h : HasParams e x y z 90 90 90) :
    bodyCentred e * (bodyCentred e).transpose =
      edgeCell matI ![x, y, z] * (edgeCell matI ![x, y, z]).transpose := by
  apply gram_of_rows h
  intro i j
  fin_cases i <;> simp [matI, bodyCentred] <;> ring

theorem gram_C {e : Cell ℝ} {x y z : ℝ} (h : HasParams e x y z 90 90 90) :
    baseCentred e * (baseCentred e).transpose =
      edgeCell matC ![x, y, z] * (edgeCell matC ![x, y, z]).transpose := by
  apply gram_of_rows h
  intro i j
  fin_cases i <;> simp [matC, baseCentred] <;> ring

theorem within_pos {n x y z : ℝ} (h : Within n [x, y, z]) : ∀ i, 0 < (![x, y, z] : Fin 3 → ℝ) i := by
  have hx := (h x (by simp) x (by simp)).1
  have hy := (h y (by simp) x (by simp)).1
  have hz := (h z (by simp) x (by simp)).1
  intro i; fin_cases i <;> assumption

theorem within_range {n x y z : ℝ} (h : Within n [x, y, z]) :
    ∀ i j, (![x, y, z] : Fin 3 → ℝ) i ≤ n * (![x, y, z] : Fin 3 → ℝ) j := by
  intro i j
  fin_cases i <;> fin_cases j <;> exact (h _ (by simp) _ (by simp)).2

theorem const_vec (a : ℝ) : (fun _ => a : Fin 3 → ℝ) = ![a, a, a] := by
  funext i; fin_cases i <;> rfl

end

variable {niggli : Cell ℝ → Except Err (Cell ℝ)} {cell c e : Cell ℝ} {tol limit : ℝ}
  {noNiggli : Bool} (hcell : lepageCell niggli cell noNiggli = .ok c) (h0 : tol ≠ 0)
  (h1 : |tol| ≤ 1) (hl0 : 0 < limit) (hl2 : limit ≤ 2)

include hcell h0 h1 hl0 hl2

/-- C57: cubic lattices, of any lattice constant, are recognised. -/
theorem C57_cubic {a : ℝ} (ha : 0 < a) (he : HasParams e a a a 90 90 90) (fuel : ℕ) :
    (c = e → lepage niggli (fuel + 1) cell tol noNiggli limit = some (.ok ["CUB"])) ∧
    (c = faceCentred e → lepage niggli (fuel + 1) cell tol noNiggli limit = some (.ok ["FCC"])) ∧
    (c = bodyCentred e → lepage niggli (fuel + 1) cell tol noNiggli limit = some (.ok ["BCC"])) := by
  refine ⟨?_, ?_, ?_⟩
  · rintro rfl
    exact lepage_CUB hcell h0 h1 hl0 hl2 ha (by rw [gram_P he, const_vec]) fuel
  · rintro rfl
    exact lepage_FCC hcell h0 h1 hl0 hl2 ha (by rw [gram_F he, const_vec]) fuel
  · rintro rfl
    exact lepage_BCC hcell h0 h1 hl0 hl2 ha (by rw [gram_I he, const_vec]) fuel

/-- C57: tetragonal lattices away from cubic ones are recognised. -/
theorem C57_tetragonal {a b : ℝ} (hw : Within 7 [a, a, b]) (hf : Away 14 1 a b)
    (he : HasParams e a a b 90 90 90) (fuel : ℕ) :
    (c = e → lepage niggli (fuel + 1) cell tol noNiggli limit = some (.ok ["TET"])) ∧
    (c = bodyCentred e → Away 7 2 b a →
      lepage niggli (fuel + 1) cell tol noNiggli limit = some (.ok ["BCT"])) := by
  refine ⟨?_, ?_⟩
  · rintro rfl
    exact lepage_TET hcell h0 h1 hl0 hl2 (within_pos hw) (within_range hw) rfl hf (gram_P he) fuel
  · rintro rfl hg
    exact lepage_BCT hcell h0 h1 hl0 hl2 (within_pos hw) (within_range hw) rfl hf hg (gram_I he) fuel

/-- C57: orthorhombic lattices are recognised away from tetragonal and hexagonal ones. -/
theorem C57_orthorhombic {x y z : ℝ} (hw : Within 7 [x, y, z]) (hxy : Away 14 1 x y)
    (he : HasParams e x y z 90 90 90) (fuel : ℕ) :
    (c = e → Away 14 1 x z → Away 14 1 y z →
      lepage niggli (fuel + 1) cell tol noNiggli limit = some (.ok ["ORC"])) ∧
    (c = faceCentred e → Away 14 1 x z → Away 14 1 y z →
      (Away 7 1 x y ∨ Away 7 2 x z ∨ Away 7 2 y z) →
      (Away 7 1 x z ∨ Away 7 2 x y ∨ Away 7 2 z y) →
      (Away 7 1 y z ∨ Away 7 2 y x ∨ Away 7 2 z x) →
      lepage niggli (fuel + 1) cell tol noNiggli limit = some (.ok ["ORCF"])) ∧
    (c = bodyCentred e → Away 14 1 x z → Away 14 1 y z →
      (Away 7 1 x y ∨ Away 7 2 z x ∨ Away 7 2 z y) →
      (Away 7 1 x z ∨ Away 7 2 y x ∨ Away 7 2 y z) →
      (Away 7 1 y z ∨ Away 7 2 x y ∨ Away 7 2 x z) →
      lepage niggli (fuel + 1) cell tol noNiggli limit = some (.ok ["ORCI"])) ∧
    (c = baseCentred e → Away 7 3 x y → Away 7 3 y x →
      (Away 7 1 x y ∨ Away 7 2 x z ∨ Away 7 2 y z) →
      lepage niggli (fuel + 1) cell tol noNiggli limit = some (.ok ["ORCC"])) := by
  have sym : ∀ {n u v : ℝ}, Away n 1 u v → Away n 1 v u := by
    intro n u v h
    unfold Away at *
    rw [one_mul] at *
    rw [abs_sub_comm, mul_comm]
    exact h
  have far : Away 14 1 x z → Away 14 1 y z → ∀ i j : Fin 3, i ≠ j →
      Away 14 1 ((![x, y, z] : Fin 3 → ℝ) i) ((![x, y, z] : Fin 3 → ℝ) j) := by
    intro hxz hyz i j hij
    fin_cases i <;> fin_cases j
    all_goals first
      | exact absurd rfl hij
      | exact hxy
      | exact hxz
      | exact hyz
      | exact sym hxy
      | exact sym hxz
      | exact sym hyz
  refine ⟨?_, ?_, ?_, ?_⟩
  · rintro rfl hxz hyz
    exact lepage_ORC hcell h0 h1 hl0 hl2 (within_pos hw) (within_range hw) (far hxz hyz)
      (gram_P he) fuel
  · rintro rfl hxz hyz g1 g2 g3
    refine lepage_ORCF hcell h0 h1 hl0 hl2 (within_pos hw) (within_range hw) (far hxz hyz)
      ?_ (gram_F he) fuel
    intro i j k hij hik hjk
    have sw : ∀ {u v w : ℝ}, (Away 7 1 u v ∨ Away 7 2 u w ∨ Away 7 2 v w) →
        (Away 7 1 v u ∨ Away 7 2 v w ∨ Away 7 2 u w) := by
      rintro u v w (h | h | h)
      · exact Or.inl (sym h)
      · exact Or.inr (Or.inr h)
      · exact Or.inr (Or.inl h)
    fin_cases i <;> fin_cases j <;> fin_cases k
    all_goals first
      | exact absurd rfl hij
      | exact absurd rfl hik
      | exact absurd rfl hjk
      | exact g1
      | exact g2
      | exact g3
      | exact sw g1
      | exact sw g2
      | exact sw g3
  · rintro rfl hxz hyz g1 g2 g3
    refine lepage_ORCI hcell h0 h1 hl0 hl2 (within_pos hw) (within_range hw) (far hxz hyz)
      ?_ (gram_I he) fuel
    intro i j k hij hik hjk
    have sw : ∀ {u v w : ℝ}, (Away 7 1 u v ∨ Away 7 2 w u ∨ Away 7 2 w v) →
        (Away 7 1 v u ∨ Away 7 2 w v ∨ Away 7 2 w u) := by
      rintro u v w (h | h | h)
      · exact Or.inl (sym h)
      · exact Or.inr (Or.inr h)
      · exact Or.inr (Or.inl h)
    fin_cases i <;> fin_cases j <;> fin_cases k
    all_goals first
      | exact absurd rfl hij
      | exact absurd rfl hik
      | exact absurd rfl hjk
      | exact g1
      | exact g2
      | exact g3
      | exact sw g1
      | exact sw g2
      | exact sw g3
  · rintro rfl h3 h3' g
    exact lepage_ORCC hcell h0 h1 hl0 hl2 (within_pos hw) (within_range hw) hxy h3 h3' g
      (gram_C he) fuel

/-- C57: hexagonal lattices are recognised. -/
theorem C57_hexagonal {a b : ℝ} (hw : Within 14 [a, b]) (he : HasParams c a a b 90 90 120)
    (fuel : ℕ) : lepage niggli (fuel + 1) cell tol noNiggli limit = some (.ok ["HEX"]) := by
  have ha := (hw a (by simp) a (by simp)).1
  have hb := (hw b (by simp) a (by simp)).1
  refine lepage_HEX hcell h0 h1 hl0 hl2 ha hb (hw a (by simp) b (by simp)).2
    (hw b (by simp) a (by simp)).2 ?_ fuel
  have aa := he.aa
  have bb := he.bb
  have cc := he.cc
  have ab : dot (c 0) (c 1) = -a ^ 2 / 2 := by
    rw [he.gamma.2.2, cos_120, aa, bb, Real.sqrt_sq ha.le]; ring
  have ac : dot (c 0) (c 2) = 0 := by rw [he.beta.2.2, cos_90]; ring
  have bc : dot (c 1) (c 2) = 0 := by rw [he.alpha.2.2, cos_90]; ring
  simp only [dot] at aa bb cc ab ac bc
  ext i j
  fin_cases i <;> fin_cases j <;>
    simp [Matrix.mul_apply, Fin.sum_univ_three, hexGram] <;> linarith

/-- C57: rhombohedral lattices (angle `alpha`) are recognised away from the cubic ones, whose angles
are 90, 60 and 109.47 degrees (cosine 0, 1/2 and -1/3). -/
theorem C57_rhombohedral {a alpha x : ℝ} (ha : 0 < a) (he : HasParams c a a a alpha alpha alpha)
    (hx : Real.cos (alpha * (Real.pi / 180)) = x) (x1 : -(19 / 41) ≤ x) (x2 : x ≤ 19 / 22)
    (f1 : (1 - x) * (1 + 2 * x) ≤ 1568 * x ^ 2)
    (f2 : (1 - x) * (1 + 2 * x) ≤ 392 * (1 - 2 * x) ^ 2)
    (f3 : (1 - x) * (1 + 2 * x) ≤ 392 * (1 + 3 * x) ^ 2)
    (fuel : ℕ) : lepage niggli (fuel + 1) cell tol noNiggli limit = some (.ok ["RHL"]) := by
  refine lepage_RHL hcell h0 h1 hl0 hl2 ha (x := x) (by linarith) (by linarith) (by linarith)
    (by linarith) f1 f2 f3 ?_ fuel
  have aa := he.aa
  have bb := he.bb
  have cc := he.cc
  have ab : dot (c 0) (c 1) = a ^ 2 * x := by
    rw [he.gamma.2.2, hx, aa, bb, Real.sqrt_sq ha.le]; ring
  have ac : dot (c 0) (c 2) = a ^ 2 * x := by
    rw [he.beta.2.2, hx, aa, cc, Real.sqrt_sq ha.le]; ring
  have bc : dot (c 1) (c 2) = a ^ 2 * x := by
    rw [he.alpha.2.2, hx, bb, cc, Real.sqrt_sq ha.le]; ring
  simp only [dot] at aa bb cc ab ac bc
  ext i j
  fin_cases i <;> fin_cases j <;>
    simp [Matrix.mul_apply, Fin.sum_univ_three, rhlGram] <;> linarith

omit hcell h0 h1 hl0 hl2 in
theorem away_of {n k x y : ℝ} (hn : 0 ≤ n)
    (h : x * y ≤ n * (x ^ 2 - k * y ^ 2) ∨ x * y ≤ n * (k * y ^ 2 - x ^ 2)) : Away n k x y := by
  unfold Away
  rcases h with h | h
  · exact h.trans (mul_le_mul_of_nonneg_left (le_abs_self _) hn)
  · refine h.trans (mul_le_mul_of_nonneg_left ?_ hn)
    rw [abs_sub_comm]
    exact le_abs_self _

local macro "away" : tactic => `(tactic| (
  have hq : 0 < Real.pi ^ 2 := by positivity
  first
    | exact away_of (by norm_num) (Or.inl (by nlinarith))
    | exact away_of (by norm_num) (Or.inr (by nlinarith))))

local macro "away3" : tactic => `(tactic| first
  | (left; away; done)
  | (right; left; away; done)
  | (right; right; away; done))

omit hcell h0 h1 hl0 hl2 in
theorem sc_face (x y z : ℝ) : scORCF x y z = faceCentred (scORC x y z) := by
  ext i j
  fin_cases i <;> fin_cases j <;> simp [scORCF, scORC, faceCentred] <;> ring

omit hcell h0 h1 hl0 hl2 in
theorem sc_body (x y z : ℝ) : scORCI x y z = bodyCentred (scORC x y z) := by
  ext i j
  fin_cases i <;> fin_cases j <;> simp [scORCI, scORC, bodyCentred] <;> ring

omit hcell h0 h1 hl0 hl2 in
theorem sc_base (x y z : ℝ) : scORCC x y z = baseCentred (scORC x y z) := by
  ext i j
  fin_cases i <;> fin_cases j <;> simp [scORCC, scORC, baseCentred] <;> ring

omit hcell in
/-- C57: the example cells of the types above (all but the second rhombohedral one, which is within
one degree of a cubic lattice) are recognised, with the default settings and without Niggli
reduction. -/
theorem C57_examples (fuel : ℕ) (v n : String) (hv : (v, n) ∈ [("cub", "CUB"), ("fcc", "FCC"),
      ("bcc", "BCC"), ("tet", "TET"), ("bct1", "BCT"), ("bct", "BCT"), ("bct2", "BCT"),
      ("orc", "ORC"), ("orcf1", "ORCF"), ("orcf", "ORCF"), ("orcf2", "ORCF"), ("orcf3", "ORCF"),
      ("orci", "ORCI"), ("orcc", "ORCC"), ("hex", "HEX"), ("rhl1", "RHL"), ("rhl", "RHL")]) :
    ∃ x, scGetExample (some v) = .ok x ∧
      lepage niggli (fuel + 1) x tol true limit = some (.ok [n]) := by
  have hp := Real.pi_pos
  have hc (x : Cell ℝ) : lepageCell niggli x true = .ok x := rfl
  have start : ∀ (w : String) (x : Cell ℝ), w.toLower = w → w ∈ documentedNames →
      exampleCell w = .ok x → scGetExample (some w) = .ok x := by
    intro w x hw hin he
    unfold scGetExample
    simp only [hw]
    rw [if_pos ((inputs_documented _).2 hin), he]
  have within : ∀ {x y z : ℝ}, 0 < x → 0 < y → 0 < z → x ≤ 7 * y → x ≤ 7 * z → y ≤ 7 * x →
      y ≤ 7 * z → z ≤ 7 * x → z ≤ 7 * y → Within 7 [x, y, z] := by
    intro x y z hx hy hz a1 a2 a3 a4 a5 a6 u hu v hv
    simp only [List.mem_cons, List.not_mem_nil, or_false] at hu hv
    rcases hu with rfl | rfl | rfl <;> rcases hv with rfl | rfl | rfl <;>
      exact ⟨by assumption, by linarith⟩
  have cub := fun x => C57_cubic (hc x) h0 h1 hl0 hl2 hp (hasParams_box hp.le hp.le hp.le) fuel
  simp only [List.mem_cons, List.not_mem_nil, or_false, Prod.mk.injEq] at hv
  have bct1 : lepage niggli (fuel + 1) (scBCT (3 / 2 * Real.pi) Real.pi) tol true limit =
      some (.ok ["BCT"]) :=
    (C57_tetragonal (hc _) h0 h1 hl0 hl2 (within (by positivity) (by positivity) hp (by linarith)
      (by linarith) (by linarith) (by linarith) (by linarith) (by linarith)) (by away)
      (hasParams_box (by positivity) (by positivity) hp.le) fuel).2 (sc_body _ _ _) (by away)
  have orcf : ∀ x : ℝ, 7 / 10 ≤ x → x ≤ 6 / 5 →
      lepage niggli (fuel + 1) (scORCF (x * Real.pi) (5 / 4 * Real.pi) (5 / 3 * Real.pi)) tol true
        limit = some (.ok ["ORCF"]) := by
    intro x x1 x2
    have hx : 0 < x := by linarith
    have aw : ∀ {n k u v : ℝ}, Away n k u v → Away n k (u * Real.pi) (v * Real.pi) := by
      intro n k r s h
      unfold Away at *
      have e : (r * Real.pi) ^ 2 - k * (s * Real.pi) ^ 2 = (r ^ 2 - k * s ^ 2) * Real.pi ^ 2 := by
        ring
      rw [e, abs_mul, abs_of_nonneg (sq_nonneg Real.pi)]
      have := mul_le_mul_of_nonneg_right h (sq_nonneg Real.pi)
      linarith
    have w1 := mul_le_mul_of_nonneg_right x1 hp.le
    have w2 := mul_le_mul_of_nonneg_right x2 hp.le
    refine (C57_orthorhombic (hc _) h0 h1 hl0 hl2 (within (by positivity) (by positivity)
      (by positivity) (by linarith) (by linarith) (by linarith) (by linarith) (by linarith)
      (by linarith)) (aw (away_of (by norm_num) (Or.inr (by nlinarith))))
      (hasParams_box (by positivity) (by positivity) (by positivity)) fuel).2.1 (sc_face _ _ _)
      (aw (away_of (by norm_num) (Or.inr (by nlinarith)))) (aw (away_of (by norm_num) (Or.inr (by norm_num))))
      (Or.inr (Or.inl (aw (away_of (by norm_num) (Or.inr (by nlinarith))))))
      (Or.inl (aw (away_of (by norm_num) (Or.inr (by nlinarith)))))
      (Or.inl (aw (away_of (by norm_num) (Or.inr (by norm_num)))))
  have rhl : ∀ x, scRHL Real.pi 70 = .ok x →
      lepage niggli (fuel + 1) x tol true limit = some (.ok ["RHL"]) := by
    intro x hx
    obtain ⟨y, e, hpar, -⟩ := C51_rhombohedral Real.pi 70 hp.le (by norm_num) (by norm_num)
    rw [hx] at e
    cases e
    have ecos : Real.cos (70 * (Real.pi / 180)) = Real.sin (Real.pi / 9) := by
      rw [← Real.cos_pi_div_two_sub]
      congr 1
      ring
    have b1 : 2 / 9 ≤ Real.sin (Real.pi / 9) := by
      have := Real.mul_le_sin (x := Real.pi / 9) (by positivity) (by linarith)
      have e : 2 / Real.pi * (Real.pi / 9) = 2 / 9 := by field_simp
      rw [e] at this
      exact this
    have b2 : Real.sin (Real.pi / 9) < 9 / 20 := by
      have h := Real.sin_lt (x := Real.pi / 9) (by positivity)
      have := Real.pi_lt_four
      linarith
    refine C57_rhombohedral (hc _) h0 h1 hl0 hl2 hp hpar ecos (by linarith) (by linarith)
      ?_ ?_ ?_ fuel <;> nlinarith
  rcases hv with ⟨rfl, rfl⟩ | ⟨rfl, rfl⟩ | ⟨rfl, rfl⟩ | ⟨rfl, rfl⟩ | ⟨rfl, rfl⟩ | ⟨rfl, rfl⟩ |
    ⟨rfl, rfl⟩ | ⟨rfl, rfl⟩ | ⟨rfl, rfl⟩ | ⟨rfl, rfl⟩ | ⟨rfl, rfl⟩ | ⟨rfl, rfl⟩ | ⟨rfl, rfl⟩ |
    ⟨rfl, rfl⟩ | ⟨rfl, rfl⟩ | ⟨rfl, rfl⟩ | ⟨rfl, rfl⟩
  · exact ⟨_, start _ _ (by decide +kernel) (by decide +kernel) (by simp [exampleCell]; rfl),
      (cub _).1 rfl⟩
  · exact ⟨_, start _ _ (by decide +kernel) (by decide +kernel) (by simp [exampleCell]; rfl),
      (cub _).2.1 (sc_face _ _ _)⟩
  · exact ⟨_, start _ _ (by decide +kernel) (by decide +kernel) (by simp [exampleCell]; rfl),
      (cub _).2.2 (sc_body _ _ _)⟩
  · exact ⟨_, start _ _ (by decide +kernel) (by decide +kernel) (by simp [exampleCell]; rfl),
      (C57_tetragonal (hc _) h0 h1 hl0 hl2 (within hp hp (by positivity) (by linarith)
        (by linarith) (by linarith) (by linarith) (by linarith) (by linarith)) (by away)
        (hasParams_box hp.le hp.le (by positivity)) fuel).1 rfl⟩
  · exact ⟨_, start _ _ (by decide +kernel) (by decide +kernel) (by simp [exampleCell]), bct1⟩
  · exact ⟨_, start _ _ (by decide +kernel) (by decide +kernel) (by simp [exampleCell]), bct1⟩
  · exact ⟨_, start _ _ (by decide +kernel) (by decide +kernel) (by simp [exampleCell]; rfl),
      (C57_tetragonal (hc _) h0 h1 hl0 hl2 (within hp hp (by positivity) (by linarith)
        (by linarith) (by linarith) (by linarith) (by linarith) (by linarith)) (by away)
        (hasParams_box hp.le hp.le (by positivity)) fuel).2 (sc_body _ _ _) (by away)⟩
  · exact ⟨_, start _ _ (by decide +kernel) (by decide +kernel) (by simp [exampleCell]; rfl),
      (C57_orthorhombic (hc _) h0 h1 hl0 hl2 (within hp (by positivity) (by positivity)
        (by linarith) (by linarith) (by linarith) (by linarith) (by linarith) (by linarith))
        (by away) (hasParams_box hp.le (by positivity) (by positivity)) fuel).1 rfl (by away)
        (by away)⟩
  · exact ⟨_, start _ _ (by decide +kernel) (by decide +kernel) (by simp [exampleCell]; rfl),
      orcf _ (by norm_num) (by norm_num)⟩
  · exact ⟨_, start _ _ (by decide +kernel) (by decide +kernel) (by simp [exampleCell]; rfl),
      orcf _ (by norm_num) (by norm_num)⟩
  · exact ⟨_, start _ _ (by decide +kernel) (by decide +kernel) (by simp [exampleCell]; rfl),
      orcf _ (by norm_num) (by norm_num)⟩
  · refine ⟨_, start _ _ (by decide +kernel) (by decide +kernel) (by simp [exampleCell]; rfl), ?_⟩
    have := orcf 1 (by norm_num) (by norm_num)
    rwa [one_mul] at this
  · exact ⟨_, start _ _ (by decide +kernel) (by decide +kernel) (by simp [exampleCell]; rfl),
      (C57_orthorhombic (hc _) h0 h1 hl0 hl2 (within hp (by positivity) (by positivity)
        (by linarith) (by linarith) (by linarith) (by linarith) (by linarith) (by linarith))
        (by away) (hasParams_box hp.le (by positivity) (by positivity)) fuel).2.2.1
        (sc_body _ _ _) (by away) (by away) (by away3) (by away3) (by away3)⟩
  · exact ⟨_, start _ _ (by decide +kernel) (by decide +kernel) (by simp [exampleCell]; rfl),
      (C57_orthorhombic (hc _) h0 h1 hl0 hl2 (within hp (by positivity) (by positivity)
        (by linarith) (by linarith) (by linarith) (by linarith) (by linarith) (by linarith))
        (by away) (hasParams_box hp.le (by positivity) (by positivity)) fuel).2.2.2
        (sc_base _ _ _) (by away) (by away) (by away3)⟩
  · refine ⟨_, start _ _ (by decide +kernel) (by decide +kernel) (by simp [exampleCell]; rfl),
      C57_hexagonal (hc _) h0 h1 hl0 hl2 ?_ (hasParams_hex hp.le (by positivity)) fuel⟩
    intro u hu v hv
    simp only [List.mem_cons, List.not_mem_nil, or_false] at hu hv
    rcases hu with rfl | rfl <;> rcases hv with rfl | rfl <;>
      exact ⟨by positivity, by linarith⟩
  all_goals
    obtain ⟨y, e, -, -⟩ := C51_rhombohedral Real.pi 70 hp.le (by norm_num) (by norm_num)
    exact ⟨y, start _ _ (by decide +kernel) (by decide +kernel) (by simp [exampleCell, e]),
      rhl y e⟩

end Wulfric
