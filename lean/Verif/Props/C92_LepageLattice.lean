import Verif.Lemmas.LepageNiggliO
import Verif.Lemmas.LepageNiggliC
import Verif.Lemmas.LepageNiggliT
import Verif.Lemmas.LepageReduced
import Verif.Lemmas.LepageRatio
import Verif.Props.C50_Lepage
import Verif.Props.C57_LepageTypes
import Verif.Props.C58_LepageMonoclinic
import Verif.Props.C91_NiggliLimit

/-!
# C92: the lattice type found by Le Page's algorithm, from any basis of the lattice
-/

namespace Wulfric

open Matrix _root_.Spec

/-- The reduction returns a Niggli-reduced basis of the lattice of the cell. -/
def Reduces (niggli : Cell ℝ → Except Err (Cell ℝ)) (cell : Cell ℝ) : Prop :=
  ∃ r, niggli cell = .ok r ∧ IsNiggli r ∧ SameLattice r cell

/-- The reduction of the package does, with its default limit, under the conditions of C91. -/
theorem C92_getNiggli (sp : Cell ℝ → ℝ → Except Err (Cell ℝ)) (cell : Cell ℝ) (e : ℝ)
    (impl : String) (hi : IsWulfric impl) (hd : cell.det ≠ 0) (spacing : ℝ)
    (h : Separated spacing (absTol cell e) (1 / 10 ^ 8) cell)
    (hS : sumSquares cell ≤ 16666 * spacing ∨
      ∀ v ∈ latticePoints cell, v ≠ 0 → sumSquares cell ≤ 112 * dot v v) :
    Reduces (fun c => getNiggli sp c e impl defaultLimit) cell := by
  obtain ⟨r, h1, h2, h3, _⟩ := C91_getNiggli_default sp cell e impl hi hd spacing h hS
  exact ⟨r, h1, h2, h3⟩

/-- The reduction of the package does for every non-degenerate cell, when its tolerances are small
and its limit is large. -/
theorem C92_small_tolerance (cell : Cell ℝ) (hd : cell.det ≠ 0) :
    ∃ δ > 0, ∃ N : ℕ, ∀ eps e4 : ℝ, 0 ≤ eps → eps < δ → 0 ≤ e4 → e4 < δ → ∀ m : ℤ, (N : ℤ) ≤ m →
      Reduces (fun c => niggliCore c eps e4 m) cell := by
  obtain ⟨δ, hδ, N, r, n, s, _, k⟩ := C14_small_tolerance cell hd
  exact ⟨δ, hδ, N, fun eps e4 a b a' b' m hm => ⟨r, k eps e4 a b a' b' m hm, n, s⟩⟩

/-- The result is that of any Niggli-reduced basis of the lattice. -/
theorem lepage_reduced {niggli : Cell ℝ → Except Err (Cell ℝ)} {cell s : Cell ℝ} (hd : s.det ≠ 0)
    (hs : IsNiggli s) (hl : SameLattice s cell) (h : Reduces niggli cell) (fuel : ℕ) (tol limit : ℝ) :
    lepage niggli fuel cell tol false limit = lepage niggli fuel s tol true limit := by
  obtain ⟨r, hr, nr, lr⟩ := h
  have e : lepage niggli fuel cell tol false limit = lepage niggli fuel r tol true limit := by
    unfold lepage lepageCell
    simp [hr]
  have hm := C61_unique s r hd ⟨1, by simp, by rw [Matrix.mul_one]; exact hl.trans lr.symm⟩ hs nr
  obtain ⟨R, hR, rfl⟩ := sameMetric_exists s r hd fun i j => (hm i j).symm
  rw [e, C50_rotation niggli fuel s R hR tol limit hd]

/-- C92: the result depends on the lattice only, not on the basis nor on the orientation nor on
which correct implementation of the reduction is used. -/
theorem C92_lattice {n₁ n₂ : Cell ℝ → Except Err (Cell ℝ)} {c₁ c₂ : Cell ℝ} (hd : c₁.det ≠ 0)
    (h : Isometric c₁ c₂) (h₁ : Reduces n₁ c₁) (h₂ : Reduces n₂ c₂) (fuel : ℕ) (tol limit : ℝ) :
    lepage n₁ fuel c₁ tol false limit = lepage n₂ fuel c₂ tol false limit := by
  obtain ⟨r, hr, nr, lr⟩ := h₁
  obtain ⟨R, hR, hs⟩ := h
  have hdr : r.det ≠ 0 := by
    intro h0
    have := lr.abs_det
    rw [h0, abs_zero, abs_eq_zero] at this
    exact hd this
  have hm := sameMetric_mul r R hR
  have hd2 : (r * R).det ≠ 0 := by
    rw [det_mul]
    refine mul_ne_zero hdr fun h0 => ?_
    have := abs_det_orthogonal R hR
    rw [h0, abs_zero] at this
    exact zero_ne_one this
  rw [lepage_reduced hdr nr lr ⟨r, hr, nr, lr⟩,
    lepage_reduced hd2 (niggli_of_sameMetric hm nr) ((sameLattice_mul lr hdr R).trans hs) h₂,
    C50_rotation n₂ fuel r R hR tol limit hdr]
  rfl

theorem box_of_params {e : Cell ℝ} {x y z : ℝ} (hx : 0 < x) (hy : 0 < y) (hz : 0 < z)
    (h : HasParams e x y z 90 90 90) : Box e ![x, y, z] := by
  have ab : dot (e 0) (e 1) = 0 := by rw [h.gamma.2.2, cos_90]; ring
  have ac : dot (e 0) (e 2) = 0 := by rw [h.beta.2.2, cos_90]; ring
  have bc : dot (e 1) (e 2) = 0 := by rw [h.alpha.2.2, cos_90]; ring
  have comm : ∀ u v : Fin 3 → ℝ, dot u v = dot v u := by intro u v; simp only [dot]; ring
  refine ⟨?_, ?_, ?_⟩
  · intro i; fin_cases i <;> assumption
  · intro i
    fin_cases i
    · exact h.aa
    · exact h.bb
    · exact h.cc
  · intro i j hij
    fin_cases i <;> fin_cases j
    · exact absurd rfl hij
    · exact ab
    · exact ac
    · exact (comm _ _).trans ab
    · exact absurd rfl hij
    · exact bc
    · exact (comm _ _).trans ac
    · exact (comm _ _).trans bc
    · exact absurd rfl hij

theorem half_P (e : Cell ℝ) : halfCell matP e = e := by
  ext i j
  fin_cases i <;> simp [halfCell, matP, Fin.sum_univ_three]

theorem half_F (e : Cell ℝ) : halfCell matF e = faceCentred e := by
  ext i j
  fin_cases i <;> simp [halfCell, matF, faceCentred, Fin.sum_univ_three] <;> ring

theorem half_I (e : Cell ℝ) : halfCell matI e = bodyCentred e := by
  ext i j
  fin_cases i <;> simp [halfCell, matI, bodyCentred, Fin.sum_univ_three] <;> ring

theorem half_C (e : Cell ℝ) : halfCell matC e = baseCentred e := by
  ext i j
  fin_cases i <;> simp [halfCell, matC, baseCentred, Fin.sum_univ_three] <;> ring

variable {niggli : Cell ℝ → Except Err (Cell ℝ)} {cell e : Cell ℝ} {tol limit : ℝ}
  (h0 : tol ≠ 0) (h1 : |tol| ≤ 1) (hl0 : 0 < limit)

/-- One regime: the Niggli form and its type. -/
theorem regime {m n m0 M : Matrix (Fin 3) (Fin 3) ℤ} {l : Fin 3 → ℝ} {t : String} (hb : Box e l)
    (hmn : m * n = 2) (hM : M.det = 1 ∨ M.det = -1) (hm : M * m0 = m)
    (hcell : SameLattice cell (halfCell m0 e)) (hred : Reduces niggli cell)
    (hn : FormNiggli m (l 0 ^ 2) (l 1 ^ 2) (l 2 ^ 2)) {fuel : ℕ}
    (hr : lepage niggli (fuel + 1) (halfCell m e) tol true limit = some (.ok [t])) :
    lepage niggli (fuel + 1) cell tol false limit = some (.ok [t]) := by
  rw [lepage_reduced (half_det hb hmn) (niggli_form hb hn) ?_ hred, hr]
  exact (halfCell_lattice (M := M) (by rcases hM with h | h <;> simp [h]) hm e).trans hcell.symm

include h0 h1 hl0

/-- C92: orthorhombic lattices are recognised from any basis. The edges are named by increasing
length; the lattice has no twofold axis but those along the edges and no pseudosymmetry. -/
theorem C92_orthorhombic (hl90 : limit ≤ 90) {x y z : ℝ} (hx : 0 < x) (hxy : x < y) (hyz : y < z)
    (he : HasParams e x y z 90 90 90) (hred : Reduces niggli cell)
    (hno : LatticeNoPseudo cell limit) (hax : AxesAlong cell [e 0, e 1, e 2]) (fuel : ℕ) :
    (SameLattice cell e → lepage niggli (fuel + 1) cell tol false limit = some (.ok ["ORC"])) ∧
    (SameLattice cell (faceCentred e) →
      lepage niggli (fuel + 1) cell tol false limit = some (.ok ["ORCF"])) ∧
    (SameLattice cell (bodyCentred e) →
      lepage niggli (fuel + 1) cell tol false limit = some (.ok ["ORCI"])) := by
  have hb := box_of_params hx (hx.trans hxy) ((hx.trans hxy).trans hyz) he
  have X : (0 : ℝ) < x ^ 2 := by positivity
  have Y : (0 : ℝ) < y ^ 2 := by have := hx.trans hxy; positivity
  have Z : (0 : ℝ) < z ^ 2 := by have := (hx.trans hxy).trans hyz; positivity
  have XY : x ^ 2 < y ^ 2 := by nlinarith
  have YZ : y ^ 2 < z ^ 2 := by nlinarith
  refine ⟨fun hs => ?_, fun hs => ?_, fun hs => ?_⟩
  · rw [← half_P e] at hs
    have hno := (latticeNoPseudo_congr hs).1 hno
    have hax : AxesAlong (halfCell matP e) (boxAxes false e) := (axesAlong_congr hs).1 hax
    exact regime hb (m := matORC1) (n := !![1, 0, 0; 0, 1, 0; 0, 0, 1]) (M := 1)
      (by decide +kernel) (Or.inl (by simp)) (by decide +kernel) hs hred
      (fn_ORC1 X Y Z XY.le YZ.le) (form_ORC1 h0 h1 hl0 hl90 hb hno hax fuel)
  · rw [← half_F e] at hs
    have hno := (latticeNoPseudo_congr hs).1 hno
    have hax : AxesAlong (halfCell matF e) (boxAxes false e) := (axesAlong_congr hs).1 hax
    rcases lt_or_ge (y ^ 2) (3 * x ^ 2) with g | g
    · exact regime hb (m := matORCF1) (n := !![1, 1, 0; 1, -1, 0; 1, 1, 2])
        (M := !![0, 0, 1; -1, 1, 0; 1, 0, -1])
        (by decide +kernel) (Or.inr (by decide +kernel)) (by decide +kernel) hs hred
        (fn_ORCF1 X Y Z XY.le YZ g) (form_ORCF1 h0 h1 hl0 hl90 hb hno hax fuel)
    · exact regime hb (m := matORCF2) (n := !![1, 0, 0; -1, 2, 0; -1, 0, 2])
        (M := !![-1, 1, 1; 0, 0, 1; 0, 1, 0])
        (by decide +kernel) (Or.inl (by decide +kernel)) (by decide +kernel) hs hred
        (fn_ORCF2 X Y Z XY.le YZ.le g) (form_ORCF2 h0 h1 hl0 hl90 hb hno hax fuel)
  · rw [← half_I e] at hs
    have hno := (latticeNoPseudo_congr hs).1 hno
    have hax : AxesAlong (halfCell matI e) (boxAxes false e) := (axesAlong_congr hs).1 hax
    rcases lt_or_ge (3 * y ^ 2) (x ^ 2 + z ^ 2) with g | g
    · exact regime hb (m := matORCI1) (n := !![1, 0, 0; 0, 1, 0; 1, 1, 2])
        (M := !![0, 1, 1; 1, 0, 1; 0, 0, -1])
        (by decide +kernel) (Or.inl (by decide +kernel)) (by decide +kernel) hs hred
        (fn_ORCI1 X Y Z XY.le YZ.le g) (form_ORCI1 h0 h1 hl0 hl90 hb hno hax fuel)
    rcases lt_or_ge (y ^ 2 + z ^ 2) (3 * x ^ 2) with g' | g'
    · exact regime hb (m := matORCI3) (n := !![1, 1, 0; 1, 0, 1; 0, 1, 1])
        (M := !![0, 0, 1; 0, 1, 0; 1, 0, 0])
        (by decide +kernel) (Or.inr (by decide +kernel)) (by decide +kernel) hs hred
        (fn_ORCI3 X Y Z XY.le YZ.le g') (form_ORCI3 h0 h1 hl0 hl90 hb hno hax fuel)
    · exact regime hb (m := matORCI2) (n := !![1, 0, 0; 0, 1, -1; -1, 1, 1])
        (M := !![0, 1, 1; 1, 1, 1; 0, 1, 0])
        (by decide +kernel) (Or.inl (by decide +kernel)) (by decide +kernel) hs hred
        (fn_ORCI2 X Y Z XY.le YZ.le g g') (form_ORCI2 h0 h1 hl0 hl90 hb hno hax fuel)

/-- C92: base-centred orthorhombic lattices, with the centred face on the edges `x < y` and any
third edge `z`. -/
theorem C92_base_centred (hl90 : limit ≤ 90) {x y z : ℝ} (hx : 0 < x) (hxy : x < y) (hz : 0 < z)
    (he : HasParams e x y z 90 90 90) (hred : Reduces niggli cell)
    (hno : LatticeNoPseudo cell limit) (hax : AxesAlong cell [e 0, e 1, e 2]) (fuel : ℕ)
    (hs : SameLattice cell (baseCentred e)) :
    lepage niggli (fuel + 1) cell tol false limit = some (.ok ["ORCC"]) := by
  have hb := box_of_params hx (hx.trans hxy) hz he
  have X : (0 : ℝ) < x ^ 2 := by positivity
  have Y : (0 : ℝ) < y ^ 2 := by have := hx.trans hxy; positivity
  have Z : (0 : ℝ) < z ^ 2 := by positivity
  have XY : x ^ 2 < y ^ 2 := by nlinarith
  rw [← half_C e] at hs
  have hno := (latticeNoPseudo_congr hs).1 hno
  have hax : AxesAlong (halfCell matC e) (boxAxes false e) := (axesAlong_congr hs).1 hax
  rcases le_or_gt (y ^ 2) (3 * x ^ 2) with g | g
  · rcases le_or_gt (x ^ 2 + y ^ 2) (4 * z ^ 2) with k | k
    · exact regime hb (m := matORCC1) (n := !![1, 1, 0; 1, -1, 0; 0, 0, 1])
        (M := !![0, 1, 0; 1, 0, 0; 0, 0, 1])
        (by decide +kernel) (Or.inr (by decide +kernel)) (by decide +kernel) hs hred
        (fn_ORCC1 X Y Z XY.le g k) (form_ORCC1 h0 h1 hl0 hl90 hb hno hax fuel)
    · exact regime hb (m := matORCC2) (n := !![0, 1, 1; 0, 1, -1; 1, 0, 0])
        (M := !![0, 0, 1; 0, 1, 0; 1, 0, 0])
        (by decide +kernel) (Or.inr (by decide +kernel)) (by decide +kernel) hs hred
        (fn_ORCC2 X Y Z XY.le g k) (form_ORCC2 h0 h1 hl0 hl90 hb hno hax fuel)
  · rcases le_or_gt (x ^ 2 + y ^ 2) (4 * z ^ 2) with k | k
    · exact regime hb (m := matORCC3) (n := !![1, 0, 0; 1, 2, 0; 0, 0, 1])
        (M := !![1, 1, 0; -1, 0, 0; 0, 0, 1])
        (by decide +kernel) (Or.inl (by decide +kernel)) (by decide +kernel) hs hred
        (fn_ORCC3 X Y Z XY.le g.le k) (form_ORCC3 h0 h1 hl0 hl90 hb hno hax fuel)
    rcases le_or_gt (x ^ 2) (z ^ 2) with j | j
    · exact regime hb (m := matORCC4) (n := !![1, 0, 0; 1, 0, 2; 0, 1, 0])
        (M := !![1, 1, 0; 0, 0, 1; -1, 0, 0])
        (by decide +kernel) (Or.inr (by decide +kernel)) (by decide +kernel) hs hred
        (fn_ORCC4 X Y Z XY.le g.le k j) (form_ORCC4 h0 h1 hl0 hl90 hb hno hax fuel)
    · exact regime hb (m := matORCC5) (n := !![0, 1, 0; 0, 1, 2; 1, 0, 0])
        (M := !![0, 0, 1; 1, 1, 0; -1, 0, 0])
        (by decide +kernel) (Or.inl (by decide +kernel)) (by decide +kernel) hs hred
        (fn_ORCC5 X Y Z XY.le g.le j) (form_ORCC5 h0 h1 hl0 hl90 hb hno hax fuel)

/-- C92: tetragonal lattices are recognised from any basis: the twofold axes are along the edges and
the diagonals of the square, and there is no pseudosymmetry. -/
theorem C92_tetragonal (hl90 : limit ≤ 90) {x z : ℝ} (hx : 0 < x) (hz : 0 < z)
    (he : HasParams e x x z 90 90 90) (hred : Reduces niggli cell)
    (hno : LatticeNoPseudo cell limit)
    (hax : AxesAlong cell [e 0, e 1, e 2, e 0 + e 1, e 0 - e 1]) (fuel : ℕ) :
    (SameLattice cell e → lepage niggli (fuel + 1) cell tol false limit = some (.ok ["TET"])) ∧
    (SameLattice cell (bodyCentred e) → z ^ 2 ≠ 2 * x ^ 2 →
      lepage niggli (fuel + 1) cell tol false limit = some (.ok ["BCT"])) := by
  have hb := box_of_params hx hx hz he
  have X : (0 : ℝ) < x ^ 2 := by positivity
  have Z : (0 : ℝ) < z ^ 2 := by positivity
  refine ⟨fun hs => ?_, fun hs hne => ?_⟩
  · rw [← half_P e] at hs
    have hno := (latticeNoPseudo_congr hs).1 hno
    have hax : AxesAlong (halfCell matP e) (boxAxes true e) := (axesAlong_congr hs).1 hax
    rcases le_total (x ^ 2) (z ^ 2) with g | g
    · exact regime hb (m := matTET1) (n := !![1, 0, 0; 0, 1, 0; 0, 0, 1]) (M := 1)
        (by decide +kernel) (Or.inl (by simp)) (by decide +kernel) hs hred
        (fn_TET1 X Z g) (form_TET1 h0 h1 hl0 hl90 hb rfl hno hax fuel)
    · exact regime hb (m := matTET2) (n := !![0, 1, 0; 0, 0, 1; 1, 0, 0])
        (M := !![0, 0, 1; 1, 0, 0; 0, 1, 0])
        (by decide +kernel) (Or.inl (by decide +kernel)) (by decide +kernel) hs hred
        (fn_TET2 X Z g) (form_TET2 h0 h1 hl0 hl90 hb rfl hno hax fuel)
  · rw [← half_I e] at hs
    have hno := (latticeNoPseudo_congr hs).1 hno
    have hax : AxesAlong (halfCell matI e) (boxAxes true e) := (axesAlong_congr hs).1 hax
    rcases le_or_gt (3 * z ^ 2) (2 * x ^ 2) with g | g
    · exact regime hb (m := matBCT1) (n := !![-1, 1, 1; 0, 1, -1; 1, 0, 0])
        (M := !![1, 1, 0; 1, 1, 1; 0, 1, 0])
        (by decide +kernel) (Or.inr (by decide +kernel)) (by decide +kernel) hs hred
        (fn_BCT1 X Z g) (form_BCT1 h0 h1 hl0 hl90 hb rfl hno hax fuel)
    rcases le_total (z ^ 2) (x ^ 2) with k | k
    · exact regime hb (m := matBCT3) (n := !![1, 0, 1; 0, 1, 1; 1, 1, 0])
        (M := !![0, 1, 0; 1, 0, 0; 0, 0, 1])
        (by decide +kernel) (Or.inr (by decide +kernel)) (by decide +kernel) hs hred
        (fn_BCT3 X Z g k) (form_BCT3 h0 h1 hl0 hl90 hb rfl hno hax fuel)
    rcases lt_or_gt_of_ne hne with j | j
    · exact regime hb (m := matBCT4) (n := !![1, 1, 0; 1, 0, 1; 0, 1, 1])
        (M := !![0, 0, 1; 0, 1, 0; 1, 0, 0])
        (by decide +kernel) (Or.inr (by decide +kernel)) (by decide +kernel) hs hred
        (fn_BCT4 X Z k j) (form_BCT4 h0 h1 hl0 hl90 hb rfl hno hax fuel)
    · exact regime hb (m := matBCT2) (n := !![1, 0, 0; 0, 1, 0; 1, 1, 2])
        (M := !![0, 1, 1; 1, 0, 1; 0, 0, -1])
        (by decide +kernel) (Or.inl (by decide +kernel)) (by decide +kernel) hs hred
        (fn_BCT2 X Z j) (form_BCT2 h0 h1 hl0 hl90 hb rfl hno hax fuel)

/-- C92: cubic lattices, of any lattice constant, are recognised from any basis. -/
theorem C92_cubic (hl2 : limit ≤ 2) {a : ℝ} (ha : 0 < a) (he : HasParams e a a a 90 90 90)
    (hred : Reduces niggli cell) (fuel : ℕ) :
    (SameLattice cell e → lepage niggli (fuel + 1) cell tol false limit = some (.ok ["CUB"])) ∧
    (SameLattice cell (faceCentred e) →
      lepage niggli (fuel + 1) cell tol false limit = some (.ok ["FCC"])) ∧
    (SameLattice cell (bodyCentred e) →
      lepage niggli (fuel + 1) cell tol false limit = some (.ok ["BCC"])) := by
  have hb := box_of_params ha ha ha he
  have X : (0 : ℝ) < a ^ 2 := by positivity
  have c57 := fun c => C57_cubic (niggli := niggli) (cell := c) (c := c) (noNiggli := true) rfl h0 h1
    hl0 hl2 ha he fuel
  refine ⟨fun hs => ?_, fun hs => ?_, fun hs => ?_⟩
  · rw [← half_P e] at hs
    refine regime hb (m := matP) (n := invP) (M := 1) mat_invP (Or.inl (by simp)) (by simp) hs hred
      ?_ ((c57 _).1 (half_P e))
    unfold FormNiggli
    apply niggli_obtuse <;> simp [formDot, matP] <;> grind
  · rw [← half_F e] at hs
    refine regime hb (m := matF) (n := invF) (M := 1) mat_invF (Or.inl (by simp)) (by simp) hs hred
      ?_ ((c57 _).2.1 (half_F e))
    unfold FormNiggli
    apply niggli_acute <;> simp [formDot, matF] <;> grind
  · rw [← half_I e] at hs
    refine regime hb (m := matI) (n := invI) (M := 1) mat_invI (Or.inl (by simp)) (by simp) hs hred
      ?_ ((c57 _).2.2 (half_I e))
    unfold FormNiggli
    apply niggli_obtuse <;> simp [formDot, matI] <;> grind

/-- C92: hexagonal lattices with `c ≥ a`, from any basis. -/
theorem C92_hexagonal (hl2 : limit ≤ 2) {a b : ℝ} (ha : 0 < a) (hab : a ≤ b) (hba : b ≤ 14 * a)
    (he : HasParams e a a b 90 90 120) (hred : Reduces niggli cell) (hs : SameLattice cell e)
    (fuel : ℕ) : lepage niggli (fuel + 1) cell tol false limit = some (.ok ["HEX"]) := by
  have hb : 0 < b := ha.trans_le hab
  have aa := he.aa
  have bb := he.bb
  have cc := he.cc
  have ab : dot (e 0) (e 1) = -a ^ 2 / 2 := by
    rw [he.gamma.2.2, cos_120, aa, bb, Real.sqrt_sq ha.le]; ring
  have ac : dot (e 0) (e 2) = 0 := by rw [he.beta.2.2, cos_90]; ring
  have bc : dot (e 1) (e 2) = 0 := by rw [he.alpha.2.2, cos_90]; ring
  have A : (0 : ℝ) < a ^ 2 := by positivity
  have AB : a ^ 2 ≤ b ^ 2 := by nlinarith
  have hd : e.det ≠ 0 := by
    have h := congrArg Matrix.det (rfl : e * e.transpose = e * e.transpose)
    have g : (e * e.transpose).det = 3 / 4 * a ^ 4 * b ^ 2 := by
      have comm : ∀ u v : Fin 3 → ℝ, dot u v = dot v u := by intro u v; simp only [dot]; ring
      rw [det_fin_three]
      simp only [gram_apply]
      rw [comm (e 1) (e 0), comm (e 2) (e 0), comm (e 2) (e 1), aa, bb, cc, ab, ac, bc]
      ring
    rw [det_mul, det_transpose] at g
    intro z
    rw [z] at g
    have : (0 : ℝ) < 3 / 4 * a ^ 4 * b ^ 2 := by positivity
    linarith
  have hn : IsNiggli e := by
    unfold IsNiggli
    rw [aa, bb, cc, ab, ac, bc]
    apply niggli_obtuse <;> grind
  rw [lepage_reduced hd hn hs.symm hred]
  refine C57_hexagonal (c := e) rfl h0 h1 hl0 hl2 ?_ he fuel
  intro x hx y hy
  simp only [List.mem_cons, List.not_mem_nil, or_false] at hx hy
  rcases hx with rfl | rfl <;> rcases hy with rfl | rfl <;> exact ⟨by assumption, by linarith⟩

/-- C92: rhombohedral lattices with the angle between 60 and 109.47 degrees, away from the cubic
ones, from any basis. -/
theorem C92_rhombohedral (hl2 : limit ≤ 2) {a alpha x : ℝ} (ha : 0 < a)
    (he : HasParams e a a a alpha alpha alpha)
    (hx : Real.cos (alpha * (Real.pi / 180)) = x) (x1 : -(1 / 3) ≤ x) (x2 : x ≤ 1 / 2)
    (f1 : (1 - x) * (1 + 2 * x) ≤ 1568 * x ^ 2)
    (f2 : (1 - x) * (1 + 2 * x) ≤ 392 * (1 - 2 * x) ^ 2)
    (f3 : (1 - x) * (1 + 2 * x) ≤ 392 * (1 + 3 * x) ^ 2)
    (hred : Reduces niggli cell) (hs : SameLattice cell e) (fuel : ℕ) :
    lepage niggli (fuel + 1) cell tol false limit = some (.ok ["RHL"]) := by
  have aa := he.aa
  have bb := he.bb
  have cc := he.cc
  have ab : dot (e 0) (e 1) = a ^ 2 * x := by
    rw [he.gamma.2.2, hx, aa, bb, Real.sqrt_sq ha.le]; ring
  have ac : dot (e 0) (e 2) = a ^ 2 * x := by
    rw [he.beta.2.2, hx, aa, cc, Real.sqrt_sq ha.le]; ring
  have bc : dot (e 1) (e 2) = a ^ 2 * x := by
    rw [he.alpha.2.2, hx, bb, cc, Real.sqrt_sq ha.le]; ring
  have A : (0 : ℝ) < a ^ 2 := by positivity
  have hd : e.det ≠ 0 := by
    have g : (e * e.transpose).det = a ^ 6 * ((1 - x) ^ 2 * (1 + 2 * x)) := by
      have comm : ∀ u v : Fin 3 → ℝ, dot u v = dot v u := by intro u v; simp only [dot]; ring
      rw [det_fin_three]
      simp only [gram_apply]
      rw [comm (e 1) (e 0), comm (e 2) (e 0), comm (e 2) (e 1), aa, bb, cc, ab, ac, bc]
      ring
    rw [det_mul, det_transpose] at g
    intro z
    rw [z] at g
    have h1 : (0 : ℝ) < 1 - x := by linarith
    have h2 : (0 : ℝ) < 1 + 2 * x := by linarith
    have : (0 : ℝ) < a ^ 6 * ((1 - x) ^ 2 * (1 + 2 * x)) := by positivity
    linarith
  have lo : -(a ^ 2 / 3) ≤ a ^ 2 * x := by nlinarith
  have up : a ^ 2 * x ≤ a ^ 2 / 2 := by nlinarith
  have hn : IsNiggli e := by
    unfold IsNiggli
    rw [aa, bb, cc, ab, ac, bc]
    rcases lt_or_ge 0 (a ^ 2 * x) with g | g
    · apply niggli_acute <;> grind
    · apply niggli_obtuse <;> grind
  rw [lepage_reduced hd hn hs.symm hred]
  exact C57_rhombohedral (c := e) rfl h0 h1 hl0 hl2 ha he hx (by linarith) (by linarith) f1 f2 f3 fuel

omit h0 h1 in
/-- C92: a lattice without a twofold axis is triclinic, from any basis. -/
theorem C92_triclinic (hl90 : limit ≤ 90) (hd : cell.det ≠ 0) (hred : Reduces niggli cell)
    (hno : LatticeNoPseudo cell limit) (hax : AxesAlong cell []) (fuel : ℕ) :
    lepage niggli (fuel + 1) cell tol false limit = some (.ok ["TRI"]) := by
  obtain ⟨r, hr, nr, lr⟩ := hred
  have hdr : r.det ≠ 0 := by
    intro h0
    have := lr.abs_det
    rw [h0, abs_zero, abs_eq_zero] at this
    exact hd this
  rw [lepage_reduced hdr nr lr ⟨r, hr, nr, lr⟩]
  refine C58_triclinic (c := r) rfl hl0 hl90 hdr
    (noPseudo_of_lattice ((latticeNoPseudo_congr lr).2 hno)) (fun u _ ht => ?_) fuel
  obtain ⟨d, hd, -⟩ := (axesAlong_congr lr).2 hax _ ⟨u, rfl⟩ ht
  simp at hd

omit h1 in
/-- A cell with one row perpendicular to the others. -/
theorem mcl_core (hl90 : limit ≤ 90) {c : Cell ℝ} (hd : c.det ≠ 0) (i : Fin 3)
    (horth : ∀ j, j ≠ i → dot (c j) (c i) = 0) (hno : LatticeNoPseudo c limit)
    (hax : AxesAlong c [c i]) (htol : 2 * |tol| ≤ dot (c i) (c i)) (fuel : ℕ) :
    lepage niggli (fuel + 1) c tol true limit = some (.ok ["MCL"]) := by
  have hv : latticeVec c (Pi.single i 1) = c i := by
    funext j
    fin_cases i <;> simp [latticeVec, Fin.sum_univ_three, Pi.single_apply]
  have hci : c i ≠ 0 := row_ne_zero hd i
  have hpos : 0 < dot (c i) (c i) := vdot_self_pos hci
  have hdot : ∀ n : Fin 3 → ℤ, dot (fun j => ∑ k, (n k : ℝ) * c k j) (c i) = n i * dot (c i) (c i) := by
    intro n
    have e : dot (fun j => ∑ k, (n k : ℝ) * c k j) (c i) =
        n 0 * dot (c 0) (c i) + n 1 * dot (c 1) (c i) + n 2 * dot (c 2) (c i) := by
      simp only [dot, Fin.sum_univ_three]; ring
    rw [e]
    fin_cases i
    · have h1 := horth 1 (by decide)
      have h2 := horth 2 (by decide)
      simp only [Fin.zero_eta, Fin.isValue] at *
      rw [h1, h2]; ring
    · have h1 := horth 0 (by decide)
      have h2 := horth 2 (by decide)
      simp only [Fin.mk_one, Fin.isValue] at *
      rw [h1, h2]; ring
    · have h1 := horth 0 (by decide)
      have h2 := horth 1 (by decide)
      simp only [Fin.reduceFinMk, Fin.isValue] at *
      rw [h1, h2]; ring
  refine C58_primitive_partial (u := Pi.single i 1) (lam := dot (c i) (c i)) (c := c) rfl h0 hl0 hl90
    hd (noPseudo_of_lattice hno) ?_ ?_ ⟨⟨by rwa [hv], ?_⟩, ?_⟩ ?_ ?_ ?_ ?_ fuel
  · intro j
    by_cases h : j = i
    · subst h; simp
    · simp [Pi.single_apply, h]
  · rintro k x ⟨n, rfl⟩ h
    rw [hv] at h
    have := congrArg (fun v => dot v (c i)) h
    have e : dot ((k : ℝ) • fun j => ∑ t, (n t : ℝ) * c t j) (c i) = k * (n i * dot (c i) (c i)) := by
      rw [← hdot n]
      simp only [dot, Pi.smul_apply, smul_eq_mul]; ring
    simp only [e] at this
    have h2 : (k : ℝ) * n i = 1 := by
      apply mul_right_cancel₀ hpos.ne'
      linarith
    have h3 : k * n i = 1 := by exact_mod_cast h2
    exact Int.isUnit_iff_abs_eq.1 (IsUnit.of_mul_eq_one _ h3)
  · rintro x ⟨n, rfl⟩
    rw [hv]
    refine ⟨fun k => if k = i then n k else -n k, ?_⟩
    funext j
    unfold halfTurn
    rw [hdot, mul_div_assoc, div_self hpos.ne', mul_one]
    fin_cases i <;> simp [Fin.sum_univ_three] <;> ring
  · intro u _ ht
    obtain ⟨d, hd', hs⟩ := hax _ ⟨u, rfl⟩ ht
    rw [List.mem_singleton] at hd'
    subst hd'
    rw [hv]; exact hs
  · intro j
    rw [hv]
    by_cases h : j = i
    · subst h; exact Or.inr (Or.inl rfl)
    · exact Or.inl (horth j h)
  · rw [hv]; exact htol
  · rintro x ⟨n, rfl⟩
    rw [hv]
    refine ⟨n i, ?_⟩
    have e : dot ((fun j => ∑ k, (n k : ℝ) * c k j) - (n i : ℝ) • c i) (c i) =
        dot (fun j => ∑ k, (n k : ℝ) * c k j) (c i) - n i * dot (c i) (c i) := by
      simp only [dot, Pi.sub_apply, Pi.smul_apply, smul_eq_mul]; ring
    rw [e, hdot, sub_self]
  · right
    refine ⟨?_, Or.inl fun j => ?_⟩
    · fin_cases i
      · exact ⟨1, by simp⟩
      · exact ⟨0, by simp⟩
      · exact ⟨0, by simp⟩
    · by_cases h : j = i
      · subst h; simp
      · simp [h]

omit h1 in
/-- C92: primitive monoclinic lattices are recognised from any basis. `b` is the unique axis, `p` and
`q` are a reduced basis of the plane perpendicular to it (every plane lattice has one). The square of
`b` is compared with the tolerance by the code (see `C58_unit`). -/
theorem C92_monoclinic (hl90 : limit ≤ 90) {p b q : Fin 3 → ℝ} (hd : cell.det ≠ 0)
    (hs : SameLattice cell (Matrix.of ![p, b, q])) (hpb : dot p b = 0) (hqb : dot q b = 0)
    (hpq : dot p p ≤ dot q q) (h2 : 2 * dot p q ≤ 0) (h3 : -dot p p ≤ 2 * dot p q)
    (hred : Reduces niggli cell) (hno : LatticeNoPseudo cell limit) (hax : AxesAlong cell [b])
    (htol : 2 * |tol| ≤ dot b b) (fuel : ℕ) :
    lepage niggli (fuel + 1) cell tol false limit = some (.ok ["MCL"]) := by
  have comm : ∀ u v : Fin 3 → ℝ, dot u v = dot v u := by intro u v; simp only [dot]; ring
  have hbp := (comm b p).trans hpb
  have hbq := (comm b q).trans hqb
  have det0 : (Matrix.of ![p, b, q]).det ≠ 0 := by
    intro h
    have := hs.abs_det
    rw [h, abs_zero, eq_comm, abs_eq_zero] at this
    first | exact hd this | exact hd this.symm
  have pp : 0 < dot p p := vdot_self_pos (row_ne_zero det0 0)
  have bb : 0 < dot b b := vdot_self_pos (row_ne_zero det0 1)
  have hno' := (latticeNoPseudo_congr hs).1 hno
  have hax' := (axesAlong_congr hs).1 hax
  have perm : ∀ (s : Cell ℝ) (M : Matrix (Fin 3) (Fin 3) ℤ), (M.det = 1 ∨ M.det = -1) →
      M.map (Int.cast : ℤ → ℝ) * Matrix.of ![p, b, q] = s → SameLattice s (Matrix.of ![p, b, q]) := by
    rintro s M hM rfl
    exact sameLattice_of_unimodular M (by rcases hM with h | h <;> simp [h]) _
  have fin : ∀ (s : Cell ℝ) (i : Fin 3), SameLattice s (Matrix.of ![p, b, q]) → s i = b →
      (∀ j, j ≠ i → dot (s j) (s i) = 0) → IsNiggli s →
      lepage niggli (fuel + 1) cell tol false limit = some (.ok ["MCL"]) := by
    intro s i hl hi ho hn
    have ds : s.det ≠ 0 := by
      intro h
      have := hl.abs_det
      rw [h, abs_zero] at this
      first | exact det0 (abs_eq_zero.1 this.symm) | exact det0 (abs_eq_zero.1 this)
    rw [lepage_reduced ds hn (hl.trans hs.symm) hred]
    refine mcl_core h0 hl0 hl90 ds i ho ((latticeNoPseudo_congr hl).2 hno') ?_ (by rwa [hi]) fuel
    rw [hi]
    exact (axesAlong_congr hl).2 hax'
  rcases lt_or_ge (dot b b) (dot p p) with g | g
  · refine fin (Matrix.of ![b, p, q]) 0 (perm _ !![0, 1, 0; 1, 0, 0; 0, 0, 1] (Or.inr (by decide +kernel)) ?_) rfl
      ?_ ?_
    · ext i j; fin_cases i <;> simp [Matrix.mul_apply, Fin.sum_univ_three]
    · intro j hj
      fin_cases j
      · exact absurd rfl hj
      · exact hpb
      · exact hqb
    · change NiggliNumbers (dot b b) (dot p p) (dot q q) (2 * dot p q) (2 * dot b q)
        (2 * dot b p)
      rw [hbp, hbq]
      apply niggli_obtuse <;> grind
  rcases lt_or_ge (dot b b) (dot q q) with k | k
  · refine fin (Matrix.of ![p, b, q]) 1 rfl rfl ?_ ?_
    · intro j hj
      fin_cases j
      · exact hpb
      · exact absurd rfl hj
      · exact hqb
    · change NiggliNumbers (dot p p) (dot b b) (dot q q) (2 * dot b q) (2 * dot p q)
        (2 * dot p b)
      rw [hpb, hbq]
      apply niggli_obtuse <;> grind
  · refine fin (Matrix.of ![p, q, b]) 2 (perm _ !![1, 0, 0; 0, 0, 1; 0, 1, 0] (Or.inr (by decide +kernel)) ?_) rfl
      ?_ ?_
    · ext i j; fin_cases i <;> simp [Matrix.mul_apply, Fin.sum_univ_three]
    · intro j hj
      fin_cases j
      · exact hpb
      · exact hqb
      · exact absurd rfl hj
    · change NiggliNumbers (dot p p) (dot q q) (dot b b) (2 * dot q b) (2 * dot p b)
        (2 * dot p q)
      rw [hpb, hqb]
      apply niggli_obtuse <;> grind

end Wulfric
