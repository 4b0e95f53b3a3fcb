import Verif.Spec.LepageLattice
import Verif.Lemmas.Lattice
import Verif.Lemmas.LepageTypes
import Verif.Lemmas.LepageMono

/-! # The Le Page algorithm on any basis of an orthogonal lattice -/

namespace Wulfric

open Matrix _root_.Spec

/-- The cell with the rows `m / 2` in the basis `e`. -/
noncomputable def halfCell (m : Matrix (Fin 3) (Fin 3) ℤ) (e : Cell ℝ) : Cell ℝ :=
  fun i j => ∑ k, (m i k : ℝ) / 2 * e k j

/-- The rows of `e` are perpendicular, their lengths are `l`. -/
structure Box (e : Cell ℝ) (l : Fin 3 → ℝ) : Prop where
  pos : ∀ i, 0 < l i
  self : ∀ i, dot (e i) (e i) = l i ^ 2
  perp : ∀ i j, i ≠ j → dot (e i) (e j) = 0

theorem Box.lin {e : Cell ℝ} {l : Fin 3 → ℝ} (h : Box e l) (a b : Fin 3 → ℝ) :
    dot (fun j => ∑ k, a k * e k j) (fun j => ∑ k, b k * e k j) =
      a 0 * b 0 * l 0 ^ 2 + a 1 * b 1 * l 1 ^ 2 + a 2 * b 2 * l 2 ^ 2 := by
  have s0 := h.self 0
  have s1 := h.self 1
  have s2 := h.self 2
  have p1 := h.perp 0 1 (by decide)
  have p2 := h.perp 0 2 (by decide)
  have p3 := h.perp 1 2 (by decide)
  simp only [dot, Fin.sum_univ_three] at *
  linear_combination a 0 * b 0 * s0 + a 1 * b 1 * s1 + a 2 * b 2 * s2 +
    (a 0 * b 1 + a 1 * b 0) * p1 + (a 0 * b 2 + a 2 * b 0) * p2 + (a 1 * b 2 + a 2 * b 1) * p3

theorem half_dot {e : Cell ℝ} {l : Fin 3 → ℝ} (h : Box e l) (m : Matrix (Fin 3) (Fin 3) ℤ)
    (i j : Fin 3) : dot (halfCell m e i) (halfCell m e j) =
      (m i 0 * m j 0 * l 0 ^ 2 + m i 1 * m j 1 * l 1 ^ 2 + m i 2 * m j 2 * l 2 ^ 2) / 4 := by
  have := h.lin (fun k => (m i k : ℝ) / 2) (fun k => (m j k : ℝ) / 2)
  unfold halfCell
  rw [this]
  ring

theorem half_gram {e : Cell ℝ} {l : Fin 3 → ℝ} (h : Box e l) (m : Matrix (Fin 3) (Fin 3) ℤ) :
    halfCell m e * (halfCell m e).transpose = edgeCell m l * (edgeCell m l).transpose := by
  ext i j
  have := half_dot h m i j
  simp only [dot] at this
  simp only [Matrix.mul_apply, Fin.sum_univ_three, transpose_apply, edgeCell]
  rw [this]
  ring

theorem half_vec (m : Matrix (Fin 3) (Fin 3) ℤ) (e : Cell ℝ) (u : Fin 3 → ℤ) :
    latticeVec (halfCell m e) u = fun j => ∑ k, (pairU m u k : ℝ) / 2 * e k j := by
  funext j
  simp only [latticeVec, halfCell, pairU, Fin.sum_univ_three]
  push_cast
  ring

/-- The vector is along one of the given directions, which are combinations of the edges. -/
theorem half_line {e : Cell ℝ} {l : Fin 3 → ℝ} (h : Box e l) {U : Fin 3 → ℝ} {d : Fin 3 → ℝ}
    (hs : SameLine (fun j => ∑ k, U k * e k j) (fun j => ∑ k, d k * e k j)) :
    U 0 * d 1 = U 1 * d 0 ∧ U 0 * d 2 = U 2 * d 0 ∧ U 1 * d 2 = U 2 * d 1 := by
  unfold SameLine at hs
  rw [h.lin, h.lin, h.lin] at hs
  have a := h.pos 0
  have b := h.pos 1
  have c := h.pos 2
  have key : (l 0 * l 1 * (U 0 * d 1 - U 1 * d 0)) ^ 2 + (l 0 * l 2 * (U 0 * d 2 - U 2 * d 0)) ^ 2 +
      (l 1 * l 2 * (U 1 * d 2 - U 2 * d 1)) ^ 2 = 0 := by linear_combination -hs
  have z : ∀ {x y w : ℝ}, 0 < x → 0 < y → (x * y * w) ^ 2 ≤ 0 → w = 0 := by
    intro x y w hx hy hw
    have : x * y * w = 0 := by
      have := le_antisymm hw (sq_nonneg _)
      exact pow_eq_zero_iff two_ne_zero |>.1 this
    exact (mul_eq_zero.1 this).resolve_left (mul_pos hx hy).ne'
  have q1 := sq_nonneg (l 0 * l 1 * (U 0 * d 1 - U 1 * d 0))
  have q2 := sq_nonneg (l 0 * l 2 * (U 0 * d 2 - U 2 * d 0))
  have q3 := sq_nonneg (l 1 * l 2 * (U 1 * d 2 - U 2 * d 1))
  exact ⟨sub_eq_zero.1 (z a b (by linarith)), sub_eq_zero.1 (z a c (by linarith)),
    sub_eq_zero.1 (z b c (by linarith))⟩

theorem halfCell_lattice {m m0 M : Matrix (Fin 3) (Fin 3) ℤ} (hM : IsUnit M.det) (h : M * m0 = m)
    (e : Cell ℝ) : SameLattice (halfCell m e) (halfCell m0 e) := by
  have := sameLattice_of_unimodular (K := ℝ) M hM (halfCell m0 e)
  have e1 : M.map (Int.cast : ℤ → ℝ) * halfCell m0 e = halfCell m e := by
    subst h
    ext i j
    simp only [Matrix.mul_apply, Fin.sum_univ_three, halfCell, map_apply]
    push_cast
    ring
  rwa [e1] at this

theorem half_det {e : Cell ℝ} {l : Fin 3 → ℝ} (h : Box e l) {m n : Matrix (Fin 3) (Fin 3) ℤ}
    (hmn : m * n = 2) : (halfCell m e).det ≠ 0 := by
  intro e0
  have hk := edge_gram hmn h.pos
  rw [← half_gram h] at hk
  have := congrArg Matrix.det hk
  rw [det_mul, det_mul, e0] at this
  simp at this

theorem noPseudo_of_lattice {c : Cell ℝ} {d : ℝ} (h : LatticeNoPseudo c d) : NoPseudosymmetry c d := by
  intro r hr u k hu hk huk
  have rows : ∀ (v w : Fin 3 → ℤ), dot (latticeVec r w) (latticeVec c v) =
      2 * Real.pi * ((v 0 * w 0 + v 1 * w 1 + v 2 * w 2 : ℤ) : ℝ) := by
    intro v w
    have e00 := hr 0 0
    have e01 := hr 0 1
    have e02 := hr 0 2
    have e10 := hr 1 0
    have e11 := hr 1 1
    have e12 := hr 1 2
    have e20 := hr 2 0
    have e21 := hr 2 1
    have e22 := hr 2 2
    simp [dot] at e00 e01 e02 e10 e11 e12 e20 e21 e22
    simp only [dot, latticeVec, Fin.sum_univ_three]
    push_cast
    linear_combination (w 0 * v 0 : ℝ) * e00 + (w 0 * v 1 : ℝ) * e01 + (w 0 * v 2 : ℝ) * e02 +
      (w 1 * v 0 : ℝ) * e10 + (w 1 * v 1 : ℝ) * e11 + (w 1 * v 2 : ℝ) * e12 +
      (w 2 * v 0 : ℝ) * e20 + (w 2 * v 1 : ℝ) * e21 + (w 2 * v 2 : ℝ) * e22
  refine h _ ⟨u, rfl⟩ _ ?_ ?_
  · rintro z ⟨v, rfl⟩
    exact ⟨_, rows v k⟩
  · have : dot (latticeVec c u) (latticeVec r k) = dot (latticeVec r k) (latticeVec c u) := by
      simp only [dot]; ring
    change |dot (latticeVec c u) (latticeVec r k)| = _
    rw [this, rows, abs_mul, abs_of_pos (by have := Real.pi_pos; positivity)]
    rw [Fin.sum_univ_three] at huk
    have : |((u 0 * k 0 + u 1 * k 1 + u 2 * k 2 : ℤ) : ℝ)| = 2 := by
      exact_mod_cast congrArg (fun z : ℤ => (z : ℝ)) huk
    rw [this]; ring

/-- The axes that are allowed: along an edge or, when the first two edges are equal, along a diagonal
of their square. -/
def allowedAxis (x : Bool) (U : Fin 3 → ℤ) : Prop :=
  (U 1 = 0 ∧ U 2 = 0) ∨ (U 0 = 0 ∧ U 2 = 0) ∨ (U 0 = 0 ∧ U 1 = 0) ∨
    (x = true ∧ U 2 = 0 ∧ (U 0 = U 1 ∨ U 0 = -U 1))

theorem twofold_of_sameLine {c r : Cell ℝ} (hd : c.det ≠ 0) (hr : getReciprocal c = .ok r)
    {x y : Fin 3 → ℤ} (hxy : |intDot x y| = 2)
    (hs : SameLine (latticeVec c x) (latticeVec r y)) : TwofoldAxis c (latticeVec c x) := by
  have hxy0 : intDot x y ≠ 0 := by rintro e; rw [e] at hxy; simp at hxy
  have hx0 : x ≠ 0 := by rintro rfl; simp [intDot] at hxy0
  have hdel := delta_sameLine hs
  rw [← intMat_eq, ← intMat_eq] at hdel
  have ht := twofold_of_delta hr hxy hdel
  rw [intMat_eq] at ht
  unfold npNormalize at ht
  have hnz : npNorm (latticeVec c x) ≠ 0 := by
    have := npNorm_sq (latticeVec c x)
    have hp := vdot_self_pos (latticeVec_ne hd hx0)
    intro e
    rw [e] at this
    norm_num at this
    linarith
  exact twofold_scale hnz ht

theorem term_eq_zero {x y p q : ℝ} (hx : 0 < x) (hy : 0 < y) :
    term x y p q = 0 ↔ p * x ^ 2 = q * y ^ 2 := by
  unfold term
  rw [pow_eq_zero_iff two_ne_zero, sub_eq_zero]
  field_simp

theorem sameLine_terms {e : Cell ℝ} {l : Fin 3 → ℝ} (hb : Box e l) {m n : Matrix (Fin 3) (Fin 3) ℤ}
    (hmn : m * n = 2) {r : Cell ℝ} (hr : getReciprocal (halfCell m e) = .ok r) {u h : Fin 3 → ℤ}
    (huh : |intDot u h| = 2) :
    SameLine (latticeVec (halfCell m e) u) (latticeVec r h) ↔
      ((pairU m u 0 * pairW n h 1 : ℤ) : ℝ) * l 0 ^ 2 = (pairU m u 1 * pairW n h 0 : ℤ) * l 1 ^ 2 ∧
      ((pairU m u 0 * pairW n h 2 : ℤ) : ℝ) * l 0 ^ 2 = (pairU m u 2 * pairW n h 0 : ℤ) * l 2 ^ 2 ∧
      ((pairU m u 1 * pairW n h 2 : ℤ) : ℝ) * l 1 ^ 2 = (pairU m u 2 * pairW n h 1 : ℤ) * l 2 ^ 2 := by
  have hk : halfCell m e * (halfCell m e).transpose * edgeDual n l = 1 := by
    rw [half_gram hb]; exact edge_gram hmn hb.pos
  have hx := cross_quad hr hk u h
  have habs : |(intDot u h : ℝ)| = 2 := by exact_mod_cast congrArg (fun z : ℤ => (z : ℝ)) huh
  have hsq : (intDot u h : ℝ) ^ 2 = 4 := by rw [← sq_abs, habs]; norm_num
  rw [hsq, cross_sq, intMat_eq, intMat_eq, half_gram hb, edge_q hmn hb.pos huh] at hx
  rw [← term_eq_zero (hb.pos 0) (hb.pos 1), ← term_eq_zero (hb.pos 0) (hb.pos 2),
    ← term_eq_zero (hb.pos 1) (hb.pos 2)]
  have p := term_nonneg (l 0) (l 1) (pairU m u 0 * pairW n h 1 : ℤ) (pairU m u 1 * pairW n h 0 : ℤ)
  have p' := term_nonneg (l 0) (l 2) (pairU m u 0 * pairW n h 2 : ℤ) (pairU m u 2 * pairW n h 0 : ℤ)
  have p'' := term_nonneg (l 1) (l 2) (pairU m u 1 * pairW n h 2 : ℤ) (pairU m u 2 * pairW n h 1 : ℤ)
  have hpi : (0 : ℝ) < (2 * Real.pi) ^ 2 := by have := Real.pi_pos; positivity
  unfold SameLine
  constructor
  · intro hs
    rw [hs, sub_self, eq_comm, mul_eq_zero] at hx
    have := hx.resolve_left hpi.ne'
    exact ⟨by linarith, by linarith, by linarith⟩
  · rintro ⟨h1, h2, h3⟩
    rw [h1, h2, h3] at hx
    norm_num at hx
    linarith

/-- The pairs that are exact, when all twofold axes are allowed ones. -/
theorem exact_edges {e : Cell ℝ} {l : Fin 3 → ℝ} (hb : Box e l) {m n : Matrix (Fin 3) (Fin 3) ℤ}
    (hmn : m * n = 2) {r : Cell ℝ} (hr : getReciprocal (halfCell m e) = .ok r) {x : Bool}
    (hx : x = true → l 0 = l 1)
    (hax : ∀ u : Fin 3 → ℤ, TwofoldAxis (halfCell m e) (latticeVec (halfCell m e) u) →
      allowedAxis x (pairU m u)) {u h : Fin 3 → ℤ} (huh : |intDot u h| = 2) :
    SameLine (latticeVec (halfCell m e) u) (latticeVec r h) ↔
      exactEdges x false false (pairU m u) (pairW n h) = true := by
  have hpd := pair_dot hmn u h
  have hne : pairU m u 0 * pairW n h 0 + pairU m u 1 * pairW n h 1 + pairU m u 2 * pairW n h 2 ≠ 0 := by
    rw [hpd]
    have : intDot u h ≠ 0 := by rintro e; rw [e] at huh; simp at huh
    omega
  have l0 : l 0 ^ 2 ≠ 0 := pow_ne_zero 2 (hb.pos 0).ne'
  have l1 : l 1 ^ 2 ≠ 0 := pow_ne_zero 2 (hb.pos 1).ne'
  have l2 : l 2 ^ 2 ≠ 0 := pow_ne_zero 2 (hb.pos 2).ne'
  have zero : ∀ {a b : ℤ} {p q : ℝ}, p ≠ 0 → b = 0 → (a : ℝ) * p = (b : ℝ) * q → a = 0 := by
    intro a b p q hp hb0 h
    rw [hb0, Int.cast_zero, zero_mul] at h
    exact_mod_cast (mul_eq_zero.1 h).resolve_right hp
  constructor
  · intro hs
    have ha := hax u (twofold_of_sameLine (half_det hb hmn) hr huh hs)
    obtain ⟨t1, t2, t3⟩ := (sameLine_terms hb hmn hr huh).1 hs
    generalize pairU m u = U at *
    generalize pairW n h = W at *
    have all0 : U 0 * W 1 = 0 → U 1 * W 0 = 0 → U 0 * W 2 = 0 → U 2 * W 0 = 0 → U 1 * W 2 = 0 →
        U 2 * W 1 = 0 → exactEdges x false false U W = true := by
      intro a1 a2 a3 a4 a5 a6
      simp [exactEdges, exactTerm, a1, a2, a3, a4, a5, a6]
    rcases ha with ⟨a, b⟩ | ⟨a, b⟩ | ⟨a, b⟩ | ⟨a, b, c⟩
    · exact all0 (zero l0 (by simp [a]) t1) (by simp [a]) (zero l0 (by simp [b]) t2) (by simp [b])
        (by simp [a]) (by simp [b])
    · exact all0 (by simp [a]) (zero l1 (by simp [a]) t1.symm) (by simp [a]) (by simp [b])
        (zero l1 (by simp [b]) t3) (by simp [b])
    · exact all0 (by simp [a]) (by simp [b]) (by simp [a]) (zero l2 (by simp [a]) t2.symm)
        (by simp [b]) (zero l2 (by simp [b]) t3.symm)
    · subst a
      have e1 : U 0 * W 1 = U 1 * W 0 := by
        rw [hx rfl] at t1
        exact_mod_cast mul_right_cancel₀ l1 t1
      have e2 : U 0 * W 2 = 0 := zero l0 (by simp [b]) t2
      have e3 : U 1 * W 2 = 0 := zero l1 (by simp [b]) t3
      simp [exactEdges, exactTerm, e1, e2, e3, b]
  · intro he
    rw [sameLine_terms hb hmn hr huh]
    simp only [exactEdges, Bool.and_eq_true] at he
    obtain ⟨⟨e1, e2⟩, e3⟩ := he
    simp only [exactTerm, cond_false, Bool.and_eq_true, beq_iff_eq] at e2 e3
    refine ⟨?_, by rw [e2.1, e2.2]; simp, by rw [e3.1, e3.2]; simp⟩
    cases x
    · simp only [exactTerm, cond_false, Bool.and_eq_true, beq_iff_eq] at e1
      rw [e1.1, e1.2]; simp
    · simp only [exactTerm, cond_true, beq_iff_eq] at e1
      rw [e1, hx rfl]

/-- The result for a cell of this form. -/
theorem form_lepage {niggli : Cell ℝ → Except Err (Cell ℝ)} {tol limit : ℝ} (hl0 : 0 < limit)
    (hl90 : limit ≤ 90) {e : Cell ℝ} {l : Fin 3 → ℝ} (hb : Box e l)
    {m n : Matrix (Fin 3) (Fin 3) ℤ} (hmn : m * n = 2) {x : Bool} (hx : x = true → l 0 = l 1)
    (hno : LatticeNoPseudo (halfCell m e) limit)
    (hax : ∀ u : Fin 3 → ℤ, TwofoldAxis (halfCell m e) (latticeVec (halfCell m e) u) →
      allowedAxis x (pairU m u))
    {axes : List (Fin 3 → ℤ)}
    (hL : dropU (exactPairs fun u h => exactEdges x false false (pairU m u) (pairW n h)) = axes)
    (hab : axesB m x false false axes = true) {t : String}
    (hcl : Angles (halfCell m e) (pairB m) axes →
      classifyAxes (halfCell m e) |tol| (angleMatrix (exactAxes (halfCell m e) axes))
        (exactAxes (halfCell m e) axes) = .ok t) (fuel : ℕ) :
    lepage niggli (fuel + 1) (halfCell m e) tol true limit = some (.ok [t]) := by
  obtain ⟨r, hr, _⟩ := C02_dual_unique (halfCell m e) (half_det hb hmn)
  refine lepage_delta (c := halfCell m e) rfl hr hl0 _
    (gap_one hr hl0 hl90 (noPseudo_of_lattice hno) fun u h _ huh => exact_edges hb hmn hr hx hax huh)
    hL (hcl ?_) fuel
  exact angles_edge hb.pos hx (by simp) (by simp) (half_gram hb m) hab

end Wulfric
