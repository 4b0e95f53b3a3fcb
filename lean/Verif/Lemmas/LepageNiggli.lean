import Verif.Lemmas.LepageForms

/-! # The Le Page algorithm on the Niggli forms of orthogonal lattices (tables) -/

namespace Wulfric

open Matrix _root_.Spec

theorem latticeNoPseudo_congr {c d : Cell ℝ} (h : SameLattice c d) {x : ℝ} :
    LatticeNoPseudo c x ↔ LatticeNoPseudo d x := by
  unfold LatticeNoPseudo
  rw [show latticePoints c = latticePoints d from h]

theorem twofoldAxis_congr {c d : Cell ℝ} (h : SameLattice c d) {x : Fin 3 → ℝ} :
    TwofoldAxis c x ↔ TwofoldAxis d x := by
  unfold TwofoldAxis
  rw [show latticePoints c = latticePoints d from h]

theorem axesAlong_congr {c d : Cell ℝ} (h : SameLattice c d) {ds : List (Fin 3 → ℝ)} :
    AxesAlong c ds ↔ AxesAlong d ds := by
  unfold AxesAlong TwofoldAxis
  rw [show latticePoints c = latticePoints d from h]

/-- The directions of the axes: the edges and, for the tetragonal lattices, the two diagonals. -/
def boxAxes (x : Bool) (e : Cell ℝ) : List (Fin 3 → ℝ) :=
  [e 0, e 1, e 2] ++ cond x [e 0 + e 1, e 0 - e 1] []

theorem boxAxes_allowed {e : Cell ℝ} {l : Fin 3 → ℝ} (hb : Box e l)
    {m : Matrix (Fin 3) (Fin 3) ℤ} {x : Bool} (h : AxesAlong (halfCell m e) (boxAxes x e))
    (u : Fin 3 → ℤ) (hu : TwofoldAxis (halfCell m e) (latticeVec (halfCell m e) u)) :
    allowedAxis x (pairU m u) := by
  obtain ⟨d, hd, hs⟩ := h _ ⟨u, rfl⟩ hu
  have hs : SameLine (latticeVec (halfCell m e) u) d := hs
  rw [half_vec] at hs
  have key : ∀ D : Fin 3 → ℝ, d = (fun j => ∑ k, D k * e k j) →
      (pairU m u 0 : ℝ) * D 1 = pairU m u 1 * D 0 ∧ (pairU m u 0 : ℝ) * D 2 = pairU m u 2 * D 0 ∧
        (pairU m u 1 : ℝ) * D 2 = pairU m u 2 * D 1 := by
    rintro D rfl
    obtain ⟨a, b, c⟩ := half_line hb (U := fun k => (pairU m u k : ℝ) / 2) hs
    exact ⟨by linarith, by linarith, by linarith⟩
  have base : d = e 0 ∨ d = e 1 ∨ d = e 2 ∨ (x = true ∧ (d = e 0 + e 1 ∨ d = e 0 - e 1)) := by
    cases x <;> simp [boxAxes] at hd <;> simp <;> tauto
  rcases base with rfl | rfl | rfl | ⟨rfl, rfl | rfl⟩
  · have := key ![1, 0, 0] (by funext j; simp [Fin.sum_univ_three])
    simp at this
    exact Or.inl ⟨by exact_mod_cast this.1.symm, by exact_mod_cast this.2.symm⟩
  · have := key ![0, 1, 0] (by funext j; simp [Fin.sum_univ_three])
    simp at this
    exact Or.inr (Or.inl ⟨by exact_mod_cast this.1, by exact_mod_cast this.2.symm⟩)
  · have := key ![0, 0, 1] (by funext j; simp [Fin.sum_univ_three])
    simp at this
    exact Or.inr (Or.inr (Or.inl ⟨by exact_mod_cast this.1, by exact_mod_cast this.2⟩))
  · have := key ![1, 1, 0] (by funext j; simp [Fin.sum_univ_three])
    simp at this
    refine Or.inr (Or.inr (Or.inr ⟨rfl, by exact_mod_cast this.2.symm, Or.inl ?_⟩))
    exact_mod_cast this.1
  · have := key ![1, -1, 0] (by funext j; simp [Fin.sum_univ_three, sub_eq_add_neg])
    simp at this
    refine Or.inr (Or.inr (Or.inr ⟨rfl, by exact_mod_cast this.2.1.symm, Or.inr ?_⟩))
    have h := this.1
    have : (pairU m u 0 : ℝ) = ((-pairU m u 1 : ℤ) : ℝ) := by push_cast; linarith
    exact_mod_cast this

section

variable {niggli : Cell ℝ → Except Err (Cell ℝ)} {tol limit : ℝ} (h0 : tol ≠ 0) (h1 : |tol| ≤ 1)
  (hl0 : 0 < limit) (hl90 : limit ≤ 90) {e : Cell ℝ} {l : Fin 3 → ℝ} (hb : Box e l)

include h0 h1 hl0 hl90 hb

theorem orc_form {m n m0 M : Matrix (Fin 3) (Fin 3) ℤ} (hmn : m * n = 2) (hM : M.det = 1 ∨ M.det = -1)
    (hm : M * m0 = m) (hno : LatticeNoPseudo (halfCell m0 e) limit)
    (hax : AxesAlong (halfCell m0 e) (boxAxes false e)) {axes : List (Fin 3 → ℤ)}
    (hL : dropU (exactPairs fun u h => exactEdges false false false (pairU m u) (pairW n h)) = axes)
    (hab : axesB m false false false axes = true) (hlen : axes.length = 3)
    (hp : (flatCodes (codes (pairB m) axes) 3).Perm [0, 90, 90, 0, 90, 90, 0, 90, 90])
    {ax : List (Fin 3 → ℤ)} (hh : axes.map halveAxis = ax)
    {t : String} {d : ℤ} (hd : absDet ax = .ok d) (hr : orcName d (sumRows ax) = .ok t) (fuel : ℕ) :
    lepage niggli (fuel + 1) (halfCell m e) tol true limit = some (.ok [t]) := by
  have hs := halfCell_lattice (M := M) (by rcases hM with h | h <;> simp [h]) hm e
  subst hh
  exact form_lepage hl0 hl90 hb hmn (by simp) ((latticeNoPseudo_congr hs).2 hno)
    (boxAxes_allowed hb ((axesAlong_congr hs).2 hax)) hL hab
    (orc_classify h0 h1 hlen hp hd hr) fuel

theorem tet_form {m n m0 M : Matrix (Fin 3) (Fin 3) ℤ} (hmn : m * n = 2) (hM : M.det = 1 ∨ M.det = -1)
    (hm : M * m0 = m) (hl : l 0 = l 1) (hno : LatticeNoPseudo (halfCell m0 e) limit)
    (hax : AxesAlong (halfCell m0 e) (boxAxes true e)) {axes : List (Fin 3 → ℤ)}
    (hL : dropU (exactPairs fun u h => exactEdges true false false (pairU m u) (pairW n h)) = axes)
    (hab : axesB m true false false axes = true) (hlen : axes.length = 5)
    (hp : (flatCodes (codes (pairB m) axes) 5).Perm tetCodes.flatten)
    {good xy z rows : List (Fin 3 → ℤ)}
    (hz : goodRows (pairB m) axes [0, 90, 90, 90, 90] true = z)
    (hg : goodRows (pairB m) axes [0, 90, 90, 90, 90] false = good)
    (hxy : good.mergeSort (fun u v =>
      decide (npNorm (intMat u (halfCell m e)) ≤ npNorm (intMat v (halfCell m e)))) = xy)
    (hrows : tetRows xy z = .ok rows) {t : String} {d : ℤ} (hd : absDet rows = .ok d)
    (hr : tetName d = .ok t) (fuel : ℕ) :
    lepage niggli (fuel + 1) (halfCell m e) tol true limit = some (.ok [t]) := by
  have hs := halfCell_lattice (M := M) (by rcases hM with h | h <;> simp [h]) hm e
  subst hg
  exact form_lepage hl0 hl90 hb hmn (fun _ => hl) ((latticeNoPseudo_congr hs).2 hno)
    (boxAxes_allowed hb ((axesAlong_congr hs).2 hax)) hL hab
    (tet_classify h0 h1 hlen hp hz hxy hrows hd hr) fuel

end

/-- The rows of a Niggli cell, in halves of the edges. -/
def matORC1 : Matrix (Fin 3) (Fin 3) ℤ := !![2, 0, 0; 0, 2, 0; 0, 0, 2]

/-- The rows of a Niggli cell, in halves of the edges. -/
def matORCI1 : Matrix (Fin 3) (Fin 3) ℤ := !![2, 0, 0; 0, 2, 0; -1, -1, 1]

/-- The rows of a Niggli cell, in halves of the edges. -/
def matORCI2 : Matrix (Fin 3) (Fin 3) ℤ := !![2, 0, 0; 1, 1, 1; 1, -1, 1]

/-- The rows of a Niggli cell, in halves of the edges. -/
def matORCI3 : Matrix (Fin 3) (Fin 3) ℤ := !![1, 1, -1; 1, -1, 1; -1, 1, 1]

/-- The rows of a Niggli cell, in halves of the edges. -/
def matORCF1 : Matrix (Fin 3) (Fin 3) ℤ := !![1, 1, 0; 1, -1, 0; -1, 0, 1]

/-- The rows of a Niggli cell, in halves of the edges. -/
def matORCF2 : Matrix (Fin 3) (Fin 3) ℤ := !![2, 0, 0; 1, 1, 0; 1, 0, 1]

/-- The rows of a Niggli cell, in halves of the edges. -/
def matORCC1 : Matrix (Fin 3) (Fin 3) ℤ := !![1, 1, 0; 1, -1, 0; 0, 0, 2]

/-- The rows of a Niggli cell, in halves of the edges. -/
def matORCC2 : Matrix (Fin 3) (Fin 3) ℤ := !![0, 0, 2; 1, 1, 0; 1, -1, 0]

/-- The rows of a Niggli cell, in halves of the edges. -/
def matORCC3 : Matrix (Fin 3) (Fin 3) ℤ := !![2, 0, 0; -1, 1, 0; 0, 0, 2]

/-- The rows of a Niggli cell, in halves of the edges. -/
def matORCC4 : Matrix (Fin 3) (Fin 3) ℤ := !![2, 0, 0; 0, 0, 2; -1, 1, 0]

/-- The rows of a Niggli cell, in halves of the edges. -/
def matORCC5 : Matrix (Fin 3) (Fin 3) ℤ := !![0, 0, 2; 2, 0, 0; -1, 1, 0]

/-- The rows of a Niggli cell, in halves of the edges. -/
def matTET1 : Matrix (Fin 3) (Fin 3) ℤ := !![2, 0, 0; 0, 2, 0; 0, 0, 2]

/-- The rows of a Niggli cell, in halves of the edges. -/
def matTET2 : Matrix (Fin 3) (Fin 3) ℤ := !![0, 0, 2; 2, 0, 0; 0, 2, 0]

/-- The rows of a Niggli cell, in halves of the edges. -/
def matBCT1 : Matrix (Fin 3) (Fin 3) ℤ := !![0, 0, 2; 1, 1, 1; 1, -1, 1]

/-- The rows of a Niggli cell, in halves of the edges. -/
def matBCT2 : Matrix (Fin 3) (Fin 3) ℤ := !![2, 0, 0; 0, 2, 0; -1, -1, 1]

/-- The rows of a Niggli cell, in halves of the edges. -/
def matBCT3 : Matrix (Fin 3) (Fin 3) ℤ := !![1, -1, 1; -1, 1, 1; 1, 1, -1]

/-- The rows of a Niggli cell, in halves of the edges. -/
def matBCT4 : Matrix (Fin 3) (Fin 3) ℤ := !![1, 1, -1; 1, -1, 1; -1, 1, 1]

end Wulfric
