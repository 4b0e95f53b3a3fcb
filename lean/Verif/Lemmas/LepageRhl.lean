import Verif.Lemmas.LepageForms
import Verif.Lemmas.LepageHex

/-! # The Le Page algorithm on any basis of a rhombohedral lattice, and on flat hexagonal ones -/

namespace Wulfric

open Matrix _root_.Spec

/-- Indices in the old basis, of a vector with indices in the basis with rows `m`. -/
def oldU (m : Matrix (Fin 3) (Fin 3) ℤ) (u : Fin 3 → ℤ) : Fin 3 → ℤ :=
  fun k => u 0 * m 0 k + u 1 * m 1 k + u 2 * m 2 k

/-- The same in the reciprocal lattice; `n` is the inverse of `m`. -/
def oldH (n : Matrix (Fin 3) (Fin 3) ℤ) (h : Fin 3 → ℤ) : Fin 3 → ℤ :=
  fun k => n k 0 * h 0 + n k 1 * h 1 + n k 2 * h 2

noncomputable def newCell (m : Matrix (Fin 3) (Fin 3) ℤ) (e : Cell ℝ) : Cell ℝ :=
  m.map (Int.cast : ℤ → ℝ) * e

theorem new_vec (m : Matrix (Fin 3) (Fin 3) ℤ) (e : Cell ℝ) (u : Fin 3 → ℤ) :
    latticeVec (newCell m e) u = latticeVec e (oldU m u) := by
  funext j
  simp only [latticeVec, newCell, oldU, Fin.sum_univ_three, Matrix.mul_apply, map_apply]
  push_cast
  ring

theorem new_gram (m : Matrix (Fin 3) (Fin 3) ℤ) (e : Cell ℝ) (u v : Fin 3 → ℤ) :
    quad (newCell m e * (newCell m e).transpose) u v = quad (e * e.transpose) (oldU m u) (oldU m v) := by
  rw [← dot_intMat, ← dot_intMat, intMat_eq, intMat_eq, new_vec, new_vec, intMat_eq, intMat_eq]

theorem old_dot {m n : Matrix (Fin 3) (Fin 3) ℤ} (hmn : m * n = 1) (u h : Fin 3 → ℤ) :
    intDot (oldU m u) (oldH n h) = intDot u h := by
  have g : ∀ i j, m i 0 * n 0 j + m i 1 * n 1 j + m i 2 * n 2 j = if i = j then 1 else 0 := by
    intro i j
    have := congrFun (congrFun hmn i) j
    rw [Matrix.mul_apply, Fin.sum_univ_three, Matrix.one_apply] at this
    exact this
  have g00 := g 0 0
  have g01 := g 0 1
  have g02 := g 0 2
  have g10 := g 1 0
  have g11 := g 1 1
  have g12 := g 1 2
  have g20 := g 2 0
  have g21 := g 2 1
  have g22 := g 2 2
  simp at g00 g01 g02 g10 g11 g12 g20 g21 g22
  unfold intDot oldU oldH
  linear_combination u 0 * h 0 * g00 + u 0 * h 1 * g01 + u 0 * h 2 * g02 + u 1 * h 0 * g10 +
    u 1 * h 1 * g11 + u 1 * h 2 * g12 + u 2 * h 0 * g20 + u 2 * h 1 * g21 + u 2 * h 2 * g22

/-- The inverse of the matrix of scalar products. -/
noncomputable def newDual (n : Matrix (Fin 3) (Fin 3) ℤ) (k : Cell ℝ) : Cell ℝ :=
  (n.map (Int.cast : ℤ → ℝ)).transpose * k * n.map (Int.cast : ℤ → ℝ)

theorem new_inverse {m n : Matrix (Fin 3) (Fin 3) ℤ} (hmn : m * n = 1) {e k : Cell ℝ}
    (hk : e * e.transpose * k = 1) :
    newCell m e * (newCell m e).transpose * newDual n k = 1 := by
  have h1 : m.map (Int.cast : ℤ → ℝ) * n.map (Int.cast : ℤ → ℝ) = 1 := by
    have := congrArg (fun z : Matrix (Fin 3) (Fin 3) ℤ => z.map (Int.cast : ℤ → ℝ)) hmn
    rw [show (m * n).map (Int.cast : ℤ → ℝ) = m.map (Int.cast : ℤ → ℝ) * n.map (Int.cast : ℤ → ℝ) by
      ext i j; simp [Matrix.mul_apply]] at this
    rw [this]
    ext i j
    simp [Matrix.one_apply]
  have h2 := mul_eq_one_comm.1 h1
  have h3 : (m.map (Int.cast : ℤ → ℝ)).transpose * (n.map (Int.cast : ℤ → ℝ)).transpose = 1 := by
    rw [← transpose_mul, h2, transpose_one]
  unfold newCell newDual
  rw [transpose_mul]
  calc _ = m.map (Int.cast : ℤ → ℝ) * ((e * e.transpose) * ((m.map (Int.cast : ℤ → ℝ)).transpose *
        (n.map (Int.cast : ℤ → ℝ)).transpose) * k) * n.map (Int.cast : ℤ → ℝ) := by
        simp only [Matrix.mul_assoc]
    _ = 1 := by rw [h3, Matrix.mul_one, hk, Matrix.mul_one, h1]

theorem new_dual (n : Matrix (Fin 3) (Fin 3) ℤ) (k : Cell ℝ) (h : Fin 3 → ℤ) :
    quad (newDual n k) h h = quad k (oldH n h) (oldH n h) := by
  simp only [quad, newDual, oldH, Fin.sum_univ_three, Matrix.mul_apply, map_apply, transpose_apply]
  push_cast
  ring

/-- Along one line, for indices in any basis. -/
theorem new_sameLine {m n : Matrix (Fin 3) (Fin 3) ℤ} (hmn : m * n = 1) {e k r : Cell ℝ}
    (hk : e * e.transpose * k = 1) (hr : getReciprocal (newCell m e) = .ok r) {u h : Fin 3 → ℤ}
    (huh : |intDot u h| = 2) :
    SameLine (latticeVec (newCell m e) u) (latticeVec r h) ↔
      quad (e * e.transpose) (oldU m u) (oldU m u) * quad k (oldH n h) (oldH n h) = 4 := by
  have hx := cross_quad hr (new_inverse hmn hk) u h
  have habs : |(intDot u h : ℝ)| = 2 := by exact_mod_cast congrArg (fun z : ℤ => (z : ℝ)) huh
  have hsq : (intDot u h : ℝ) ^ 2 = 4 := by rw [← sq_abs, habs]; norm_num
  rw [hsq, cross_sq, intMat_eq, intMat_eq, new_gram, new_dual] at hx
  have hpi : (0 : ℝ) < (2 * Real.pi) ^ 2 := by have := Real.pi_pos; positivity
  unfold SameLine
  constructor
  · intro hs
    rw [hs, sub_self, eq_comm, mul_eq_zero] at hx
    have := hx.resolve_left hpi.ne'
    linarith
  · intro hs
    rw [hs] at hx
    norm_num at hx
    linarith

/-- The result for a cell of this form. -/
theorem form_rhl {niggli : Cell ℝ → Except Err (Cell ℝ)} {tol limit : ℝ} (h0 : tol ≠ 0)
    (ht : |tol| ≤ 1) (hl0 : 0 < limit) (hl90 : limit ≤ 90) {e : Cell ℝ} {a x : ℝ} (ha : 0 < a)
    (h1 : 0 < 1 - x) (h2 : 0 < 1 + 2 * x) (he : e * e.transpose = rhlGram a x)
    {m n : Matrix (Fin 3) (Fin 3) ℤ} (hmn : m * n = 1)
    (hno : LatticeNoPseudo (newCell m e) limit)
    (hax : AxesAlong (newCell m e) [e 0 - e 1, e 0 - e 2, e 1 - e 2])
    {axes : List (Fin 3 → ℤ)}
    (hL : dropU (exactPairs fun u h => rhlExact (oldU m u) (oldH n h)) = axes)
    (hS : ∀ u ∈ axes, rhlS (oldU m u) = 0) (hp : ∀ u ∈ axes, 0 < intDot (oldU m u) (oldU m u))
    (hcode : ∀ u ∈ axes, ∀ v ∈ axes, code (intDot (oldU m u) (oldU m v) ^ 2)
      (intDot (oldU m u) (oldU m u) * intDot (oldU m v) (oldU m v)) ≠ 1000)
    (hlen : axes.length = 3)
    (hperm : (flatCodes (codes (fun u v => intDot (oldU m u) (oldU m v)) axes) 3).Perm
      [0, 60, 60, 0, 60, 60, 0, 60, 60]) (fuel : ℕ) :
    lepage niggli (fuel + 1) (newCell m e) tol true limit = some (.ok ["RHL"]) := by
  have hk : e * e.transpose * rhlDual a x = 1 := by rw [he]; exact rhl_inverse ha h1 h2
  have hd : (newCell m e).det ≠ 0 := by
    intro z
    have := congrArg Matrix.det (new_inverse hmn hk)
    rw [det_mul, det_mul, z] at this
    simp at this
  have gram : ∀ i j, dot (e i) (e j) = rhlGram a x i j := by
    intro i j
    rw [← he, Matrix.mul_apply, Fin.sum_univ_three]
    rfl
  obtain ⟨r, hr, _⟩ := C02_dual_unique _ hd
  have hang : Angles (newCell m e) (fun u v => intDot (oldU m u) (oldU m v)) axes := by
    apply angles_scale
    · intro u v
      unfold intDot; ring
    · exact hp
    · intro u hu
      refine ⟨a ^ 2 * (1 - x), by positivity, fun v => ?_⟩
      rw [new_gram, he]
      have := hS u hu
      unfold rhlS at this
      have e2 : oldU m u 2 = - oldU m u 0 - oldU m u 1 := by linarith
      generalize oldU m u = U at *
      generalize oldU m v = V at *
      simp only [quad, Fin.sum_univ_three, rhlGram, intDot]
      simp [e2]
      ring
    · exact hcode
  refine lepage_delta (c := newCell m e) rfl hr hl0 _
    (gap_one hr hl0 hl90 (noPseudo_of_lattice hno) fun u h _ huh => ?_) hL
    (classify_rhl hang (abs_pos.2 h0) ht hlen hperm) fuel
  rw [new_sameLine hmn hk hr huh]
  have hq := rhl_quad ha h1 h2 (u := oldU m u) (h := oldH n h) (by rw [old_dot hmn]; exact huh)
  rw [he]
  have s1 : 0 < (1 - x) / (1 + 2 * x) := by positivity
  have zS : rhlS (oldU m u) = 0 →
      (quad (rhlGram a x) (oldU m u) (oldU m u) * quad (rhlDual a x) (oldH n h) (oldH n h) = 4 ↔
        rhlExact (oldU m u) (oldH n h) = true) := by
    intro hS0
    rw [hq]
    simp only [rhlExact, Bool.and_eq_true, beq_iff_eq, hS0]
    have nn : (0 : ℝ) ≤ (rhlN (oldU m u) * rhlS (oldH n h) ^ 2 : ℤ) := by
      exact_mod_cast mul_nonneg (rhlN_nonneg _) (sq_nonneg _)
    generalize rhlN (oldU m u) * rhlS (oldH n h) ^ 2 = A at *
    have p1 := mul_nonneg nn s1.le
    have p2 := sq_nonneg (rhlK (oldU m u) (oldH n h) : ℝ)
    generalize rhlK (oldU m u) (oldH n h) = K at *
    constructor
    · intro g
      norm_num at g
      have g1 : (K : ℝ) ^ 2 = 0 := by linarith
      have g2 : (A : ℝ) * ((1 - x) / (1 + 2 * x)) = 0 := by linarith
      have g3 := (mul_eq_zero.1 g2).resolve_right s1.ne'
      refine ⟨⟨?_, by exact_mod_cast g3⟩, by ring⟩
      exact_mod_cast pow_eq_zero_iff two_ne_zero |>.1 g1
    · rintro ⟨⟨g1, g2⟩, -⟩
      rw [g1, g2]
      simp
  constructor
  · intro hs
    have hline := (new_sameLine hmn hk hr huh).2 (by rw [he]; exact hs)
    have htw := twofold_of_sameLine hd hr huh hline
    obtain ⟨d, hd1, hd2⟩ := hax _ ⟨u, rfl⟩ htw
    refine (zS ?_).1 hs
    change SameLine (latticeVec (newCell m e) u) d at hd2
    rw [new_vec] at hd2
    -- the axis is perpendicular to the body diagonal
    have perp : d ≠ 0 ∧ dot d (e 0 + e 1 + e 2) = 0 := by
      have key : ∀ i j : Fin 3, i ≠ j → dot (e i - e j) (e i - e j) = 2 * (a ^ 2 * (1 - x)) ∧
          dot (e i - e j) (e 0 + e 1 + e 2) = 0 := by
        intro i j hij
        have b1 : dot (e i - e j) (e i - e j) = dot (e i) (e i) - 2 * dot (e i) (e j) + dot (e j) (e j) := by
          simp only [dot, Pi.sub_apply]; ring
        have b2 : dot (e i - e j) (e 0 + e 1 + e 2) = dot (e i) (e 0) + dot (e i) (e 1) +
            dot (e i) (e 2) - (dot (e j) (e 0) + dot (e j) (e 1) + dot (e j) (e 2)) := by
          simp only [dot, Pi.sub_apply, Pi.add_apply]; ring
        rw [b1, b2]
        simp only [gram, rhlGram]
        constructor
        · simp only [if_neg hij, if_true]; ring
        · fin_cases i <;> fin_cases j <;> simp <;> ring
      have nz : ∀ v : Fin 3 → ℝ, dot v v = 2 * (a ^ 2 * (1 - x)) → v ≠ 0 := by
        rintro v hv rfl
        have : (0 : ℝ) < 2 * (a ^ 2 * (1 - x)) := by positivity
        simp [dot] at hv
        rcases hv with g | g
        · exact ha.ne' g
        · linarith
      simp only [List.mem_cons, List.not_mem_nil, or_false] at hd1
      rcases hd1 with rfl | rfl | rfl
      · exact ⟨nz _ (key 0 1 (by decide)).1, (key 0 1 (by decide)).2⟩
      · exact ⟨nz _ (key 0 2 (by decide)).1, (key 0 2 (by decide)).2⟩
      · exact ⟨nz _ (key 1 2 (by decide)).1, (key 1 2 (by decide)).2⟩
    have hv := sameLine_smul perp.1 hd2
    have z : dot (latticeVec e (oldU m u)) (e 0 + e 1 + e 2) = 0 := by
      rw [hv]
      have : ∀ (t : ℝ) (y : Fin 3 → ℝ), dot (t • d) y = t * dot d y := by
        intro t y; simp only [dot, Pi.smul_apply, smul_eq_mul]; ring
      rw [this, perp.2, mul_zero]
    have z2 : dot (latticeVec e (oldU m u)) (e 0 + e 1 + e 2) =
        a ^ 2 * (1 + 2 * x) * (rhlS (oldU m u) : ℝ) := by
      have b : dot (latticeVec e (oldU m u)) (e 0 + e 1 + e 2) =
          ∑ i, (oldU m u i : ℝ) * (dot (e i) (e 0) + dot (e i) (e 1) + dot (e i) (e 2)) := by
        simp only [dot, latticeVec, Fin.sum_univ_three, Pi.add_apply]; ring
      rw [b]
      simp only [gram, rhlGram, Fin.sum_univ_three, rhlS]
      simp
      ring
    rw [z2] at z
    have := (mul_eq_zero.1 z).resolve_left (by positivity)
    exact_mod_cast this
  · intro hx
    rw [hq]
    simp only [rhlExact, Bool.and_eq_true, beq_iff_eq] at hx
    obtain ⟨⟨g1, g2⟩, g3⟩ := hx
    have g4 : rhlP (oldU m u) (oldH n h) * (rhlS (oldU m u) * rhlS (oldH n h)) = 0 := by
      have id1 : (rhlN (oldU m u) * rhlS (oldH n h) ^ 2) * (rhlS (oldU m u) ^ 2 * rhlN (oldH n h)) =
          (rhlP (oldU m u) (oldH n h) ^ 2 + 3 * rhlK (oldU m u) (oldH n h) ^ 2) *
            (rhlS (oldU m u) * rhlS (oldH n h)) ^ 2 := by
        rw [← rhl_id]; ring
      rw [g1, g2] at id1
      have : (rhlP (oldU m u) (oldH n h) * (rhlS (oldU m u) * rhlS (oldH n h))) ^ 2 = 0 := by
        linarith
      exact pow_eq_zero_iff two_ne_zero |>.1 this
    rw [g1, g2, g3, g4]
    simp

/-- The three reduced bases. -/
def rhlM1 : Matrix (Fin 3) (Fin 3) ℤ := 1
def rhlM2 : Matrix (Fin 3) (Fin 3) ℤ := !![1, -1, 0; 1, 0, -1; 1, 0, 0]
def rhlI2 : Matrix (Fin 3) (Fin 3) ℤ := !![0, 0, 1; -1, 0, 1; 0, -1, 1]
def rhlM3 : Matrix (Fin 3) (Fin 3) ℤ := !![-1, -1, -1; 1, 0, 0; 0, 1, 0]
def rhlI3 : Matrix (Fin 3) (Fin 3) ℤ := !![0, 1, 0; 0, 0, 1; -1, -1, -1]


theorem form_rhl1 {niggli : Cell ℝ → Except Err (Cell ℝ)} {tol limit : ℝ} (h0 : tol ≠ 0)
    (ht : |tol| ≤ 1) (hl0 : 0 < limit) (hl90 : limit ≤ 90) {e : Cell ℝ} {a x : ℝ} (ha : 0 < a)
    (h1 : 0 < 1 - x) (h2 : 0 < 1 + 2 * x) (he : e * e.transpose = rhlGram a x)
    (hno : LatticeNoPseudo (newCell rhlM1 e) limit)
    (hax : AxesAlong (newCell rhlM1 e) [e 0 - e 1, e 0 - e 2, e 1 - e 2]) (fuel : ℕ) :
    lepage niggli (fuel + 1) (newCell rhlM1 e) tol true limit = some (.ok ["RHL"]) :=
  form_rhl h0 ht hl0 hl90 ha h1 h2 he (n := rhlM1) (by decide +kernel) hno hax
    (axes := [![0, 1, -1], ![1, -1, 0], ![1, 0, -1]]) (by decide +kernel) (by decide +kernel)
    (by decide +kernel) (by decide +kernel) rfl (by decide +kernel) fuel

theorem form_rhl2 {niggli : Cell ℝ → Except Err (Cell ℝ)} {tol limit : ℝ} (h0 : tol ≠ 0)
    (ht : |tol| ≤ 1) (hl0 : 0 < limit) (hl90 : limit ≤ 90) {e : Cell ℝ} {a x : ℝ} (ha : 0 < a)
    (h1 : 0 < 1 - x) (h2 : 0 < 1 + 2 * x) (he : e * e.transpose = rhlGram a x)
    (hno : LatticeNoPseudo (newCell rhlM2 e) limit)
    (hax : AxesAlong (newCell rhlM2 e) [e 0 - e 1, e 0 - e 2, e 1 - e 2]) (fuel : ℕ) :
    lepage niggli (fuel + 1) (newCell rhlM2 e) tol true limit = some (.ok ["RHL"]) :=
  form_rhl h0 ht hl0 hl90 ha h1 h2 he (n := rhlI2) (by decide +kernel) hno hax
    (axes := [![0, 1, 0], ![1, -1, 0], ![1, 0, 0]]) (by decide +kernel) (by decide +kernel)
    (by decide +kernel) (by decide +kernel) rfl (by decide +kernel) fuel

theorem form_rhl3 {niggli : Cell ℝ → Except Err (Cell ℝ)} {tol limit : ℝ} (h0 : tol ≠ 0)
    (ht : |tol| ≤ 1) (hl0 : 0 < limit) (hl90 : limit ≤ 90) {e : Cell ℝ} {a x : ℝ} (ha : 0 < a)
    (h1 : 0 < 1 - x) (h2 : 0 < 1 + 2 * x) (he : e * e.transpose = rhlGram a x)
    (hno : LatticeNoPseudo (newCell rhlM3 e) limit)
    (hax : AxesAlong (newCell rhlM3 e) [e 0 - e 1, e 0 - e 2, e 1 - e 2]) (fuel : ℕ) :
    lepage niggli (fuel + 1) (newCell rhlM3 e) tol true limit = some (.ok ["RHL"]) :=
  form_rhl h0 ht hl0 hl90 ha h1 h2 he (n := rhlI3) (by decide +kernel) hno hax
    (axes := [![0, 1, -1], ![1, 1, 2], ![1, 2, 1]]) (by decide +kernel) (by decide +kernel)
    (by decide +kernel) (by decide +kernel) rfl (by decide +kernel) fuel

theorem newCell_lattice {m n : Matrix (Fin 3) (Fin 3) ℤ} (hmn : m * n = 1) (e : Cell ℝ) :
    SameLattice (newCell m e) e := by
  refine sameLattice_of_unimodular m ?_ e
  have := congrArg Matrix.det hmn
  rw [det_mul, det_one] at this
  exact IsUnit.of_mul_eq_one _ this

/-! ### Flat hexagonal lattices -/

/-- The basis with the short edge first. -/
def hexM1 : Matrix (Fin 3) (Fin 3) ℤ := !![0, 0, 1; 1, 0, 0; 0, 1, 0]
def hexI1 : Matrix (Fin 3) (Fin 3) ℤ := !![0, 1, 0; 0, 0, 1; 1, 0, 0]

theorem lepage_flat {niggli : Cell ℝ → Except Err (Cell ℝ)} {e : Cell ℝ} {tol limit : ℝ}
    (h0 : tol ≠ 0) (h1 : |tol| ≤ 1) (hl0 : 0 < limit) (hl2 : limit ≤ 2) {a t : ℝ} (ha : 0 < a)
    (ht : 0 < t) (hr : a ≤ 14 * t) (hr' : t ≤ 14 * a) (he : e * e.transpose = hexGram a t)
    (fuel : ℕ) :
    lepage niggli (fuel + 1) (newCell hexM1 e) tol true limit = some (.ok ["HEX"]) := by
  have hk : e * e.transpose * hexDual a t = 1 := by rw [he]; exact hex_inverse ha ht
  have hmn : hexM1 * hexI1 = 1 := by decide +kernel
  set axes : List (Fin 3 → ℤ) := [![0, 0, 1], ![0, 1, -1], ![0, 1, 0], ![0, 1, 1], ![0, 1, 2],
    ![0, 2, 1], ![2, 0, 0]] with hA
  have hang : Angles (newCell hexM1 e) (fun u v => hexB (oldU hexM1 u) (oldU hexM1 v)) axes := by
    apply angles_scale
    · intro u v
      unfold hexB; ring
    · decide +kernel
    · intro u hu
      have : oldU hexM1 u 2 = 0 ∨ oldU hexM1 u 0 = 0 ∧ oldU hexM1 u 1 = 0 := by
        revert u
        decide +kernel
      have gr : ∀ v, quad (newCell hexM1 e * (newCell hexM1 e).transpose) u v =
          quad (hexGram a t) (oldU hexM1 u) (oldU hexM1 v) := by
        intro v; rw [new_gram, he]
      simp only [gr]
      generalize oldU hexM1 u = U at *
      rcases this with e | ⟨e, e'⟩
      · refine ⟨a ^ 2 / 2, by positivity, fun v => ?_⟩
        generalize oldU hexM1 v = V
        simp only [quad, Fin.sum_univ_three, hexGram, hexB]
        simp [e]
        ring
      · refine ⟨t ^ 2 / 2, by positivity, fun v => ?_⟩
        generalize oldU hexM1 v = V
        simp only [quad, Fin.sum_univ_three, hexGram, hexB]
        simp [e, e']
        ring
    · decide +kernel
  refine lepage_exact (c := newCell hexM1 e) (k := newDual hexI1 (hexDual a t)) rfl
    (new_inverse hmn hk) hl0 hl2 (fun u h => hexExact (oldU hexM1 u) (oldH hexI1 h))
    (fun u hu h hh huh => ?_) (l := axes) (by decide +kernel)
    (classify_hex hang (abs_pos.2 h0) h1 (by decide) (by decide +kernel)) fuel
  rw [new_gram, new_dual, he]
  rw [mem_miller'] at hu hh
  refine hex_gap ha ht hr hr' _ ?_ _ ?_ (by rw [old_dot hmn]; exact huh)
  · rw [mem_miller']
    intro i
    have g0 := hu 0
    have g1 := hu 1
    have g2 := hu 2
    fin_cases i <;> simp [oldU, hexM1] <;> assumption
  · rw [mem_miller']
    intro i
    have g0 := hh 0
    have g1 := hh 1
    have g2 := hh 2
    fin_cases i <;> simp [oldH, hexI1] <;> assumption

end Wulfric
