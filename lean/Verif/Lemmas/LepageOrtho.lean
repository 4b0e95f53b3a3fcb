import Verif.Lemmas.LepageExact

/-! # The Le Page algorithm on the primitive cells of orthogonal lattices

Rows of the cell: `m / 2` times the edges `l`; `n` is the inverse of `m / 2`. -/

namespace Wulfric

open Matrix _root_.Spec

/-- The cell with the rows `m / 2` in units of the edges. -/
noncomputable def edgeCell (m : Matrix (Fin 3) (Fin 3) ℤ) (l : Fin 3 → ℝ) : Cell ℝ :=
  fun i j => (m i j : ℝ) / 2 * l j

/-- The inverse of its matrix of scalar products. -/
noncomputable def edgeDual (n : Matrix (Fin 3) (Fin 3) ℤ) (l : Fin 3 → ℝ) : Cell ℝ :=
  fun i j => ∑ k, (n k i : ℝ) / l k * ((n k j : ℝ) / l k)

/-- Twice the components of a lattice vector. -/
def pairU (m : Matrix (Fin 3) (Fin 3) ℤ) (u : Fin 3 → ℤ) : Fin 3 → ℤ :=
  fun j => u 0 * m 0 j + u 1 * m 1 j + u 2 * m 2 j

/-- The components of a vector of the reciprocal lattice. -/
def pairW (n : Matrix (Fin 3) (Fin 3) ℤ) (h : Fin 3 → ℤ) : Fin 3 → ℤ :=
  fun j => n j 0 * h 0 + n j 1 * h 1 + n j 2 * h 2

theorem edge_gram {m n : Matrix (Fin 3) (Fin 3) ℤ} (hmn : m * n = 2) {l : Fin 3 → ℝ}
    (hl : ∀ i, 0 < l i) :
    edgeCell m l * (edgeCell m l).transpose * edgeDual n l = 1 := by
  have hm : edgeCell m l = (1 / 2 : ℝ) • (m.map (Int.cast : ℤ → ℝ)) * diagonal l := by
    ext i j
    simp only [edgeCell, Matrix.smul_apply, mul_diagonal, map_apply, smul_eq_mul]
    ring
  have hn : edgeDual n l = (n.map (Int.cast : ℤ → ℝ)).transpose * diagonal (fun i => (l i)⁻¹) *
      (diagonal (fun i => (l i)⁻¹) * n.map (Int.cast : ℤ → ℝ)) := by
    ext i j
    simp only [edgeDual, Matrix.mul_apply (N := diagonal _ * _), mul_diagonal, diagonal_mul,
      transpose_apply, map_apply]
    exact Finset.sum_congr rfl fun k _ => by ring
  have h1 : (1 / 2 : ℝ) • (m.map (Int.cast : ℤ → ℝ)) * n.map (Int.cast : ℤ → ℝ) = 1 := by
    have h := congrArg (fun a : Matrix (Fin 3) (Fin 3) ℤ => a.map (Int.castRingHom ℝ)) hmn
    simp only [Matrix.map_mul] at h
    have h2 : (2 : Matrix (Fin 3) (Fin 3) ℤ).map (Int.castRingHom ℝ) = (2 : ℝ) • 1 := by
      ext i j
      fin_cases i <;> fin_cases j <;> simp [Matrix.ofNat_apply]
    rw [h2] at h
    rw [smul_mul]
    refine (congrArg ((1 / 2 : ℝ) • ·) h).trans ?_
    rw [smul_smul]
    norm_num
  have h2 := mul_eq_one_comm.1 h1
  have h3 : ((1 / 2 : ℝ) • (m.map (Int.cast : ℤ → ℝ))).transpose *
      (n.map (Int.cast : ℤ → ℝ)).transpose = 1 := by
    rw [← transpose_mul, h2, transpose_one]
  have h4 : diagonal l * diagonal (fun i => (l i)⁻¹) = 1 := by
    rw [diagonal_mul_diagonal]
    ext i j
    by_cases hij : i = j
    · subst hij; simp [(hl i).ne']
    · simp [hij]
  rw [hm, hn, transpose_mul, diagonal_transpose]
  generalize (1 / 2 : ℝ) • (m.map (Int.cast : ℤ → ℝ)) = a at *
  generalize n.map (Int.cast : ℤ → ℝ) = b at *
  generalize diagonal l = d at *
  generalize diagonal (fun i => (l i)⁻¹) = e at *
  calc a * d * (d * a.transpose) * (b.transpose * e * (e * b))
      = a * d * d * (a.transpose * b.transpose) * e * e * b := by simp only [Matrix.mul_assoc]
    _ = a * d * (d * e) * e * b := by rw [h3]; simp only [Matrix.mul_assoc, Matrix.one_mul]
    _ = a * d * e * b := by rw [h4, Matrix.mul_one]
    _ = a * (d * e) * b := by simp only [Matrix.mul_assoc]
    _ = 1 := by rw [h4, Matrix.mul_one, h1]

theorem edge_quad (m : Matrix (Fin 3) (Fin 3) ℤ) (l : Fin 3 → ℝ) (u v : Fin 3 → ℤ) :
    quad (edgeCell m l * (edgeCell m l).transpose) u v =
      (l 0 ^ 2 * pairU m u 0 * pairU m v 0 + l 1 ^ 2 * pairU m u 1 * pairU m v 1 +
        l 2 ^ 2 * pairU m u 2 * pairU m v 2) / 4 := by
  simp only [quad, Matrix.mul_apply, Fin.sum_univ_three, transpose_apply, edgeCell, pairU]
  push_cast
  ring

theorem edge_quad_dual (n : Matrix (Fin 3) (Fin 3) ℤ) (l : Fin 3 → ℝ) (h : Fin 3 → ℤ) :
    quad (edgeDual n l) h h =
      (pairW n h 0 / l 0) ^ 2 + (pairW n h 1 / l 1) ^ 2 + (pairW n h 2 / l 2) ^ 2 := by
  simp only [quad, Fin.sum_univ_three, edgeDual, pairW]
  push_cast
  ring

theorem pair_dot {m n : Matrix (Fin 3) (Fin 3) ℤ} (hmn : m * n = 2) (u h : Fin 3 → ℤ) :
    pairU m u 0 * pairW n h 0 + pairU m u 1 * pairW n h 1 + pairU m u 2 * pairW n h 2 =
      2 * intDot u h := by
  have e : ∀ i j, m i 0 * n 0 j + m i 1 * n 1 j + m i 2 * n 2 j =
      (2 : Matrix (Fin 3) (Fin 3) ℤ) i j := by
    intro i j
    rw [← hmn, Matrix.mul_apply, Fin.sum_univ_three]
  have e00 : m 0 0 * n 0 0 + m 0 1 * n 1 0 + m 0 2 * n 2 0 = 2 := e 0 0
  have e01 : m 0 0 * n 0 1 + m 0 1 * n 1 1 + m 0 2 * n 2 1 = 0 := e 0 1
  have e02 : m 0 0 * n 0 2 + m 0 1 * n 1 2 + m 0 2 * n 2 2 = 0 := e 0 2
  have e10 : m 1 0 * n 0 0 + m 1 1 * n 1 0 + m 1 2 * n 2 0 = 0 := e 1 0
  have e11 : m 1 0 * n 0 1 + m 1 1 * n 1 1 + m 1 2 * n 2 1 = 2 := e 1 1
  have e12 : m 1 0 * n 0 2 + m 1 1 * n 1 2 + m 1 2 * n 2 2 = 0 := e 1 2
  have e20 : m 2 0 * n 0 0 + m 2 1 * n 1 0 + m 2 2 * n 2 0 = 0 := e 2 0
  have e21 : m 2 0 * n 0 1 + m 2 1 * n 1 1 + m 2 2 * n 2 1 = 0 := e 2 1
  have e22 : m 2 0 * n 0 2 + m 2 1 * n 1 2 + m 2 2 * n 2 2 = 2 := e 2 2
  simp only [pairU, pairW, intDot]
  linear_combination u 0 * h 0 * e00 + u 0 * h 1 * e01 + u 0 * h 2 * e02 + u 1 * h 0 * e10 +
    u 1 * h 1 * e11 + u 1 * h 2 * e12 + u 2 * h 0 * e20 + u 2 * h 1 * e21 + u 2 * h 2 * e22

/-- One term of the identity of Lagrange, for the lengths `x` and `y`. -/
noncomputable def term (x y : ℝ) (p q : ℝ) : ℝ := (p * (x / y) - q * (y / x)) ^ 2

theorem lagrange {l : Fin 3 → ℝ} (hl : ∀ i, 0 < l i) (U W : Fin 3 → ℝ) :
    (l 0 ^ 2 * U 0 * U 0 + l 1 ^ 2 * U 1 * U 1 + l 2 ^ 2 * U 2 * U 2) *
      ((W 0 / l 0) ^ 2 + (W 1 / l 1) ^ 2 + (W 2 / l 2) ^ 2) =
    (U 0 * W 0 + U 1 * W 1 + U 2 * W 2) ^ 2 + term (l 0) (l 1) (U 0 * W 1) (U 1 * W 0) +
      term (l 0) (l 2) (U 0 * W 2) (U 2 * W 0) + term (l 1) (l 2) (U 1 * W 2) (U 2 * W 1) := by
  have h0 := (hl 0).ne'
  have h1 := (hl 1).ne'
  have h2 := (hl 2).ne'
  unfold term
  field_simp
  ring

theorem edge_q {m n : Matrix (Fin 3) (Fin 3) ℤ} (hmn : m * n = 2) {l : Fin 3 → ℝ}
    (hl : ∀ i, 0 < l i) {u h : Fin 3 → ℤ} (huh : |intDot u h| = 2) :
    quad (edgeCell m l * (edgeCell m l).transpose) u u * quad (edgeDual n l) h h =
      4 + (term (l 0) (l 1) (pairU m u 0 * pairW n h 1 : ℤ) (pairU m u 1 * pairW n h 0 : ℤ) +
        term (l 0) (l 2) (pairU m u 0 * pairW n h 2 : ℤ) (pairU m u 2 * pairW n h 0 : ℤ) +
        term (l 1) (l 2) (pairU m u 1 * pairW n h 2 : ℤ) (pairU m u 2 * pairW n h 1 : ℤ)) / 4 := by
  rw [edge_quad, edge_quad_dual]
  have h1 := lagrange hl (fun j => (pairU m u j : ℝ)) (fun j => (pairW n h j : ℝ))
  have h2 : ((pairU m u 0 : ℝ) * pairW n h 0 + pairU m u 1 * pairW n h 1 +
      pairU m u 2 * pairW n h 2) ^ 2 = 16 := by
    have := pair_dot hmn u h
    have e : ((pairU m u 0 : ℝ) * pairW n h 0 + pairU m u 1 * pairW n h 1 +
      pairU m u 2 * pairW n h 2) = 2 * (intDot u h : ℝ) := by exact_mod_cast this
    have habs : |(intDot u h : ℝ)| = 2 := by exact_mod_cast congrArg (fun z : ℤ => (z : ℝ)) huh
    rw [e, mul_pow, ← sq_abs (intDot u h : ℝ), habs]
    norm_num
  rw [h2] at h1
  push_cast
  linear_combination h1 / 4

/-! ### The size of the terms -/

theorem term_nonneg (x y p q : ℝ) : 0 ≤ term x y p q := sq_nonneg _

theorem term_opposite {x y : ℝ} (hx : 0 < x) (hy : 0 < y) {p q : ℤ} (h : p * q < 0) :
    1 / 49 ≤ term x y p q := by
  have hpq : (p : ℝ) * q ≤ -1 := by
    have : p * q ≤ -1 := by omega
    exact_mod_cast this
  have e : term x y p q = (p * (x / y)) ^ 2 + (q * (y / x)) ^ 2 - 2 * (p * q) := by
    unfold term
    field_simp
    ring
  rw [e]
  nlinarith [sq_nonneg ((p : ℝ) * (x / y)), sq_nonneg ((q : ℝ) * (y / x))]

theorem int_sq {p : ℤ} (h : p ≠ 0) : (1 : ℝ) ≤ (p : ℝ) ^ 2 := by
  have : 1 ≤ p ^ 2 := by
    have := sq_abs p
    have h1 : 1 ≤ |p| := Int.one_le_abs h
    nlinarith
  exact_mod_cast this

theorem term_zero {x y : ℝ} (hx : 0 < x) (hy : 0 < y) (h1 : x ≤ 7 * y) (h2 : y ≤ 7 * x) {p q : ℤ}
    (h : p = 0 ∧ q ≠ 0 ∨ p ≠ 0 ∧ q = 0) : 1 / 49 ≤ term x y p q := by
  have key : ∀ {x y : ℝ}, 0 < x → 0 < y → y ≤ 7 * x → ∀ {p : ℤ}, p ≠ 0 →
      1 / 49 ≤ (p * (x / y)) ^ 2 := by
    intro x y hx hy h p hp
    have h3 : 1 / 7 ≤ x / y := by rw [le_div_iff₀ hy]; linarith
    have h4 : (1 / 7 : ℝ) ^ 2 ≤ (x / y) ^ 2 := by gcongr
    rw [mul_pow]
    nlinarith [int_sq hp, sq_nonneg (x / y)]
  rcases h with ⟨rfl, hq⟩ | ⟨hp, rfl⟩
  · have := key hy hx h1 hq
    unfold term
    simpa using this
  · have := key hx hy h2 hp
    unfold term
    simpa using this

theorem term_abs {x y : ℝ} {p q : ℤ} (h : 0 ≤ p * q) :
    term x y p q = term x y (p.natAbs : ℝ) (q.natAbs : ℝ) := by
  unfold term
  have hp' : (p.natAbs : ℝ) = |(p : ℝ)| := by rw [Nat.cast_natAbs]; push_cast; rfl
  have hq' : (q.natAbs : ℝ) = |(q : ℝ)| := by rw [Nat.cast_natAbs]; push_cast; rfl
  rw [hp', hq']
  have e : |(p : ℝ)| * |(q : ℝ)| = p * q := by
    rw [← abs_mul]
    exact abs_of_nonneg (by exact_mod_cast h)
  have e1 := sq_abs (p : ℝ)
  have e2 := sq_abs (q : ℝ)
  linear_combination -(x / y) ^ 2 * e1 - (y / x) ^ 2 * e2 + 2 * (x / y) * (y / x) * e

/-! ### The pairs of vectors that occur -/

/-- The absolute values of the products that enter the three terms. -/
def products (U W : Fin 3 → ℤ) : ℕ × ℕ × ℕ × ℕ × ℕ × ℕ :=
  ((U 0 * W 1).natAbs, (U 1 * W 0).natAbs, (U 0 * W 2).natAbs, (U 2 * W 0).natAbs,
    (U 1 * W 2).natAbs, (U 2 * W 1).natAbs)

/-- The three terms. -/
noncomputable def terms (l : Fin 3 → ℝ) (t : ℕ × ℕ × ℕ × ℕ × ℕ × ℕ) : ℝ :=
  term (l 0) (l 1) t.1 t.2.1 + term (l 0) (l 2) t.2.2.1 t.2.2.2.1 +
    term (l 1) (l 2) t.2.2.2.2.1 t.2.2.2.2.2

/-- The two products of one term have opposite signs, or exactly one of them is zero. -/
def apartB (p q : ℤ) : Bool := decide (p * q < 0) || ((p == 0) != (q == 0))

/-- Every pair is either far from being exact or in the list. -/
def allowedB (ts : List (ℕ × ℕ × ℕ × ℕ × ℕ × ℕ)) (U W : Fin 3 → ℤ) : Bool :=
  apartB (U 0 * W 1) (U 1 * W 0) || apartB (U 0 * W 2) (U 2 * W 0) ||
    apartB (U 1 * W 2) (U 2 * W 1) || ts.contains (products U W)

/-- The test over all pairs of the search. -/
def allowedAll (m n : Matrix (Fin 3) (Fin 3) ℤ) (ts : List (ℕ × ℕ × ℕ × ℕ × ℕ × ℕ)) : Bool :=
  (millerIndices 2).all fun u => (millerIndices 2).all fun h =>
    (intDot u h).natAbs != 2 || allowedB ts (pairU m u) (pairW n h)

/-- The condition on one term: `x` says that the two edges are equal. -/
def exactTerm (x : Bool) (p q : ℤ) : Bool := bif x then p == q else p == 0 && q == 0

/-- The pairs that are exact when the edges in the marked pairs are equal. -/
def exactEdges (x y z : Bool) (U W : Fin 3 → ℤ) : Bool :=
  exactTerm x (U 0 * W 1) (U 1 * W 0) && exactTerm y (U 0 * W 2) (U 2 * W 0) &&
    exactTerm z (U 1 * W 2) (U 2 * W 1)

/-- The same on the list. -/
def exactT (x y z : Bool) (t : ℕ × ℕ × ℕ × ℕ × ℕ × ℕ) : Bool :=
  exactTerm x t.1 t.2.1 && exactTerm y t.2.2.1 t.2.2.2.1 && exactTerm z t.2.2.2.2.1 t.2.2.2.2.2

theorem exactTerm_apart {x : Bool} {p q : ℤ} (h : apartB p q = true) : exactTerm x p q = false := by
  unfold apartB at h
  unfold exactTerm
  rcases (Bool.or_eq_true _ _).mp h with h | h
  · have h := of_decide_eq_true h
    cases x
    · have : ¬ (p = 0 ∧ q = 0) := by rintro ⟨rfl, rfl⟩; simp at h
      simpa using this
    · have : p ≠ q := by rintro rfl; nlinarith
      simpa using this
  · cases x
    · by_cases hp : p = 0 <;> by_cases hq : q = 0 <;> simp_all
    · by_cases hp : p = 0 <;> by_cases hq : q = 0 <;> simp_all
      · exact fun e => hq e.symm
      

theorem exactTerm_abs {x : Bool} {p q : ℤ} (h : 0 ≤ p * q) :
    exactTerm x p q = exactTerm x (p.natAbs : ℤ) (q.natAbs : ℤ) := by
  unfold exactTerm
  cases x
  · have e : ∀ r : ℤ, (r == 0) = (((r.natAbs : ℕ) : ℤ) == 0) := by
      intro r
      rw [Bool.eq_iff_iff, beq_iff_eq, beq_iff_eq]
      omega
    simp only [cond_false]
    rw [e p, e q]
  · have : p = q ↔ (p.natAbs : ℤ) = (q.natAbs : ℤ) := by
      constructor
      · rintro rfl; rfl
      · intro e
        rw [Int.natCast_natAbs, Int.natCast_natAbs] at e
        rcases abs_eq_abs.1 e with e | e
        · exact e
        · have : q = 0 := by
            subst e
            nlinarith [sq_nonneg q]
          subst this
          simpa using e
    by_cases e : p = q
    · simp [e]
    · have := mt this.2 e
      simp only [cond_true]
      rw [beq_eq_false_iff_ne.2 e, beq_eq_false_iff_ne.2 this]

theorem term_apart {x y : ℝ} (hx : 0 < x) (hy : 0 < y) (h1 : x ≤ 7 * y) (h2 : y ≤ 7 * x) {p q : ℤ}
    (h : apartB p q = true) : 1 / 49 ≤ term x y p q := by
  unfold apartB at h
  rcases (Bool.or_eq_true _ _).mp h with h | h
  · exact term_opposite hx hy (of_decide_eq_true h)
  · refine term_zero hx hy h1 h2 ?_
    by_cases hp : p = 0 <;> by_cases hq : q = 0 <;> simp_all

theorem apart_false {p q : ℤ} (h : apartB p q = false) : 0 ≤ p * q := by
  unfold apartB at h
  simp only [Bool.or_eq_false_iff, decide_eq_false_iff_not, not_lt] at h
  exact h.1

/-- The gap between the exact pairs and the other ones. -/
theorem edge_gap {m n : Matrix (Fin 3) (Fin 3) ℤ} (hmn : m * n = 2) {l : Fin 3 → ℝ}
    (hl : ∀ i, 0 < l i) (hr : ∀ i j, l i ≤ 7 * l j) {ts : List (ℕ × ℕ × ℕ × ℕ × ℕ × ℕ)}
    (hts : allowedAll m n ts = true) {x y z : Bool}
    (ht : ∀ t ∈ ts, (exactT x y z t = true → terms l t = 0) ∧
      (exactT x y z t = false → 1 / 49 ≤ terms l t))
    {c : Cell ℝ} (hc : c * c.transpose = edgeCell m l * (edgeCell m l).transpose)
    (u : Fin 3 → ℤ) (hu : u ∈ millerIndices 2) (h : Fin 3 → ℤ) (hh : h ∈ millerIndices 2)
    (huh : |intDot u h| = 2) :
    (exactEdges x y z (pairU m u) (pairW n h) = true →
      quad (c * c.transpose) u u * quad (edgeDual n l) h h = 4) ∧
    (exactEdges x y z (pairU m u) (pairW n h) = false →
      4 + 1 / 196 ≤ quad (c * c.transpose) u u * quad (edgeDual n l) h h) := by
  rw [hc, edge_q hmn hl huh]
  have h1 := List.all_eq_true.1 (List.all_eq_true.1 hts u hu) h hh
  have h2 : ((intDot u h).natAbs != 2) = false := by
    have : (intDot u h).natAbs = 2 := by
      have := Int.natCast_natAbs (intDot u h)
      omega
    simp [this]
  rw [h2, Bool.false_or] at h1
  generalize pairU m u = U at *
  generalize pairW n h = W at *
  unfold allowedB at h1
  have n1 := term_nonneg (l 0) (l 1) (U 0 * W 1 : ℤ) (U 1 * W 0 : ℤ)
  have n2 := term_nonneg (l 0) (l 2) (U 0 * W 2 : ℤ) (U 2 * W 0 : ℤ)
  have n3 := term_nonneg (l 1) (l 2) (U 1 * W 2 : ℤ) (U 2 * W 1 : ℤ)
  cases a1 : apartB (U 0 * W 1) (U 1 * W 0)
  · cases a2 : apartB (U 0 * W 2) (U 2 * W 0)
    · cases a3 : apartB (U 1 * W 2) (U 2 * W 1)
      · rw [a1, a2, a3] at h1
        have h3 : products U W ∈ ts := by simpa using h1
        obtain ⟨g1, g2⟩ := ht _ h3
        have e1 := apart_false a1
        have e2 := apart_false a2
        have e3 := apart_false a3
        rw [term_abs e1, term_abs e2, term_abs e3]
        have k : exactEdges x y z U W = exactT x y z (products U W) := by
          unfold exactEdges exactT
          rw [exactTerm_abs e1, exactTerm_abs e2, exactTerm_abs e3]
          rfl
        rw [k]
        constructor
        · intro e
          have := g1 e
          unfold terms products at this
          simp only at this
          rw [this]; norm_num
        · intro e
          have := g2 e
          unfold terms products at this
          simp only at this
          linarith
      · have := term_apart (hl 1) (hl 2) (hr 1 2) (hr 2 1) a3
        have k : exactEdges x y z U W = false := by
          unfold exactEdges; rw [exactTerm_apart a3, Bool.and_false]
        rw [k]
        exact ⟨fun e => absurd e (by simp), fun _ => by linarith⟩
    · have := term_apart (hl 0) (hl 2) (hr 0 2) (hr 2 0) a2
      have k : exactEdges x y z U W = false := by
        unfold exactEdges; rw [exactTerm_apart a2, Bool.and_false, Bool.false_and]
      rw [k]
      exact ⟨fun e => absurd e (by simp), fun _ => by linarith⟩
  · have := term_apart (hl 0) (hl 1) (hr 0 1) (hr 1 0) a1
    have k : exactEdges x y z U W = false := by
      unfold exactEdges; rw [exactTerm_apart a1, Bool.false_and, Bool.false_and]
    rw [k]
    exact ⟨fun e => absurd e (by simp), fun _ => by linarith⟩

/-! ### The four kinds of cells -/

def matP : Matrix (Fin 3) (Fin 3) ℤ := !![2, 0, 0; 0, 2, 0; 0, 0, 2]
def invP : Matrix (Fin 3) (Fin 3) ℤ := !![1, 0, 0; 0, 1, 0; 0, 0, 1]
def matF : Matrix (Fin 3) (Fin 3) ℤ := !![0, 1, 1; 1, 0, 1; 1, 1, 0]
def invF : Matrix (Fin 3) (Fin 3) ℤ := !![-1, 1, 1; 1, -1, 1; 1, 1, -1]
def matI : Matrix (Fin 3) (Fin 3) ℤ := !![-1, 1, 1; 1, -1, 1; 1, 1, -1]
def invI : Matrix (Fin 3) (Fin 3) ℤ := !![0, 1, 1; 1, 0, 1; 1, 1, 0]
def matC : Matrix (Fin 3) (Fin 3) ℤ := !![1, -1, 0; 1, 1, 0; 0, 0, 2]
def invC : Matrix (Fin 3) (Fin 3) ℤ := !![1, 1, 0; -1, 1, 0; 0, 0, 1]

theorem mat_invP : matP * invP = 2 := by decide +kernel
theorem mat_invF : matF * invF = 2 := by decide +kernel
theorem mat_invI : matI * invI = 2 := by decide +kernel
theorem mat_invC : matC * invC = 2 := by decide +kernel

/-! ### The axes -/

/-- Four times the scalar product for unit edges. -/
def pairB (m : Matrix (Fin 3) (Fin 3) ℤ) (u v : Fin 3 → ℤ) : ℤ :=
  pairU m u 0 * pairU m v 0 + pairU m u 1 * pairU m v 1 + pairU m u 2 * pairU m v 2

/-- The components that are not zero belong to equal edges. -/
def pureB (x y z : Bool) (U : Fin 3 → ℤ) : Bool :=
  (U 0 == 0 || U 1 == 0 || x) && (U 0 == 0 || U 2 == 0 || y) && (U 1 == 0 || U 2 == 0 || z)

theorem pure_scale {x y z : Bool} {U : Fin 3 → ℤ} {l : Fin 3 → ℝ} (hl : ∀ i, 0 < l i)
    (hx : x = true → l 0 = l 1) (hy : y = true → l 0 = l 2) (hz : z = true → l 1 = l 2)
    (h : pureB x y z U = true) : ∃ k : ℝ, 0 < k ∧ ∀ j, l j ^ 2 * (U j : ℝ) = k * U j := by
  simp only [pureB, Bool.and_eq_true, Bool.or_eq_true, beq_iff_eq] at h
  obtain ⟨⟨h1, h2⟩, h3⟩ := h
  by_cases e0 : U 0 = 0
  · by_cases e1 : U 1 = 0
    · refine ⟨l 2 ^ 2, by have := hl 2; positivity, fun j => ?_⟩
      fin_cases j <;> simp [e0, e1]
    · refine ⟨l 1 ^ 2, by have := hl 1; positivity, fun j => ?_⟩
      fin_cases j
      · simp [e0]
      · rfl
      · rcases h3 with (h | h) | h
        · exact absurd h e1
        · simp [h]
        · simp [hz h]
  · refine ⟨l 0 ^ 2, by have := hl 0; positivity, fun j => ?_⟩
    fin_cases j
    · rfl
    · rcases h1 with (h | h) | h
      · exact absurd h e0
      · simp [h]
      · simp [hx h]
    · rcases h2 with (h | h) | h
      · exact absurd h e0
      · simp [h]
      · simp [hy h]

/-- The facts about the axes that are decided by computation. -/
def axesB (m : Matrix (Fin 3) (Fin 3) ℤ) (x y z : Bool) (l : List (Fin 3 → ℤ)) : Bool :=
  (l.all fun u => decide (0 < pairB m u u) && pureB x y z (pairU m u)) &&
    l.all fun u => l.all fun v => code (pairB m u v ^ 2) (pairB m u u * pairB m v v) != 1000

theorem angles_edge {m : Matrix (Fin 3) (Fin 3) ℤ} {l : Fin 3 → ℝ} (hl : ∀ i, 0 < l i)
    {x y z : Bool}
    (hx : x = true → l 0 = l 1) (hy : y = true → l 0 = l 2) (hz : z = true → l 1 = l 2)
    {c : Cell ℝ} (hc : c * c.transpose = edgeCell m l * (edgeCell m l).transpose)
    {axes : List (Fin 3 → ℤ)} (h : axesB m x y z axes = true) : Angles c (pairB m) axes := by
  unfold axesB at h
  rw [Bool.and_eq_true, List.all_eq_true] at h
  obtain ⟨h1, h2⟩ := h
  have hpos : ∀ u ∈ axes, 0 < pairB m u u := by
    intro u hu
    have := h1 u hu
    rw [Bool.and_eq_true] at this
    exact of_decide_eq_true this.1
  have key : ∀ u ∈ axes, ∃ k : ℝ, 0 < k ∧ ∀ v, quad (c * c.transpose) u v = k * pairB m u v / 4 ∧
      quad (c * c.transpose) v u = k * pairB m u v / 4 := by
    intro u hu
    have := h1 u hu
    rw [Bool.and_eq_true] at this
    obtain ⟨k, hk, hj⟩ := pure_scale hl hx hy hz this.2
    refine ⟨k, hk, fun v => ?_⟩
    rw [hc, edge_quad, edge_quad]
    unfold pairB
    push_cast
    have a0 := hj 0
    have a1 := hj 1
    have a2 := hj 2
    constructor
    · linear_combination (pairU m v 0 : ℝ) / 4 * a0 + (pairU m v 1 : ℝ) / 4 * a1 +
        (pairU m v 2 : ℝ) / 4 * a2
    · linear_combination (pairU m v 0 : ℝ) / 4 * a0 + (pairU m v 1 : ℝ) / 4 * a1 +
        (pairU m v 2 : ℝ) / 4 * a2
  refine ⟨hpos, ?_, ?_, ?_⟩
  · intro u hu
    obtain ⟨k, hk, e⟩ := key u hu
    rw [(e u).1]
    have : (0 : ℝ) < pairB m u u := by exact_mod_cast hpos u hu
    positivity
  · intro u hu v hv
    obtain ⟨k, hk, e⟩ := key u hu
    obtain ⟨k', hk', e'⟩ := key v hv
    have s : pairB m v u = pairB m u v := by unfold pairB; ring
    have g := (e v).1
    have g' := (e' u).2
    rw [s] at g'
    rw [(e u).1, (e' v).1, sq]
    conv_lhs => rw [g]
    have : k * pairB m u v / 4 * (k * pairB m u v / 4) =
        k * pairB m u v / 4 * (k' * pairB m u v / 4) := by
      rw [← g, ← g']
    rw [this]
    push_cast
    ring
  · intro u hu v hv
    have := List.all_eq_true.1 (List.all_eq_true.1 h2 u hu) v hv
    simpa using this

/-- The result for a cell of this form. -/
theorem edge_lepage {niggli : Cell ℝ → Except Err (Cell ℝ)} {cell c : Cell ℝ} {tol limit : ℝ}
    {noNiggli : Bool} (hcell : lepageCell niggli cell noNiggli = .ok c)
    (hl0 : 0 < limit) (hl2 : limit ≤ 2)
    {m n : Matrix (Fin 3) (Fin 3) ℤ} (hmn : m * n = 2) {l : Fin 3 → ℝ}
    (hl : ∀ i, 0 < l i) (hr : ∀ i j, l i ≤ 7 * l j) {ts : List (ℕ × ℕ × ℕ × ℕ × ℕ × ℕ)}
    (hts : allowedAll m n ts = true) {x y z : Bool}
    (hx : x = true → l 0 = l 1) (hy : y = true → l 0 = l 2) (hz : z = true → l 1 = l 2)
    (ht : ∀ t ∈ ts, (exactT x y z t = true → terms l t = 0) ∧
      (exactT x y z t = false → 1 / 49 ≤ terms l t))
    (hc : c * c.transpose = edgeCell m l * (edgeCell m l).transpose)
    {axes : List (Fin 3 → ℤ)}
    (hax : dropU (exactPairs fun u h => exactEdges x y z (pairU m u) (pairW n h)) = axes)
    (hab : axesB m x y z axes = true) {r : String}
    (hcl : Angles c (pairB m) axes →
      classifyAxes c |tol| (angleMatrix (exactAxes c axes)) (exactAxes c axes) = .ok r) (fuel : ℕ) :
    lepage niggli (fuel + 1) cell tol noNiggli limit = some (.ok [r]) :=
  lepage_exact hcell (by rw [hc]; exact edge_gram hmn hl) hl0 hl2 _
    (edge_gap hmn hl hr hts ht hc) hax (hcl (angles_edge hl hx hy hz hc hab)) fuel

/-- A term is far from zero when the quotient of the lengths is. -/
theorem term_far {x y p q k : ℝ} (hx : 0 < x) (hy : 0 < y) (hk : 0 < k)
    (h : x * y ≤ k * |p * x ^ 2 - q * y ^ 2|) : 1 / k ^ 2 ≤ term x y p q := by
  have e : term x y p q = (|p * x ^ 2 - q * y ^ 2| / (x * y)) ^ 2 := by
    rw [div_pow, sq_abs]
    unfold term
    field_simp
  rw [e]
  have : 1 / k ≤ |p * x ^ 2 - q * y ^ 2| / (x * y) := by
    rw [div_le_div_iff₀ hk (by positivity)]
    linarith
  calc 1 / k ^ 2 = (1 / k) ^ 2 := by rw [div_pow, one_pow]
    _ ≤ _ := by gcongr

theorem term_equal {x p : ℝ} (hx : 0 < x) : term x x p p = 0 := by
  unfold term
  ring

theorem term_zeros (x y : ℝ) : term x y 0 0 = 0 := by
  unfold term
  ring

end Wulfric
