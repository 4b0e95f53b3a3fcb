import Verif.Props.C11_Niggli
import Verif.Lemmas.NiggliCount

/-!
# C91: how many iterations the reduction of a cell takes

The loop of `get_niggli` has a limit `max_iterations` (100000 by default).  For commensurate
scalar products the limit is enough if six times the sum of the squared lengths of the given vectors
is at most the limit times the spacing; for any lattice, if that sum is at most `r²` times the
square of the shortest lattice vector and `9 (2 r + 1)³` is at most the limit.  Without such a bound
on the given vectors no limit is enough, not even for the simple cubic lattice.
-/

namespace Wulfric
open Matrix Spec

set_option linter.unusedSectionVars false

/-- `max_iterations=100000`, the default of `get_niggli` (`src/wulfric/cell/_niggli.py` L264). -/
def defaultLimit : ℤ := 100000

/-- The sum of the squared lengths of the three given vectors. -/
def sumSquares {K : Type*} [Field K] (c : Cell K) : K :=
  dot (c 0) (c 0) + dot (c 1) (c 1) + dot (c 2) (c 2)

section Field
variable {K : Type*} [Field K] [LinearOrder K] [IsStrictOrderedRing K]

/-- The loop ends within its limit if the scalar products are commensurate and the limit is at least
six times the sum of the squared lengths, in units of the spacing. -/
theorem C91_commensurate (spacing eps e4 : K) (cell : Cell K) (hd : cell.det ≠ 0)
    (h : Separated spacing eps e4 cell) (m : ℤ) (hm : 6 * sumSquares cell ≤ m * spacing) :
    ∃ r, niggliCore cell eps e4 m = .ok r ∧ IsNiggli r ∧ SameLattice r cell ∧ r.det = cell.det := by
  have hp : 0 < sumSquares cell := by
    have p0 := dot_self_pos (row_ne_zero hd 0)
    have p1 := dot_self_pos (row_ne_zero hd 1)
    have p2 := dot_self_pos (row_ne_zero hd 2)
    unfold sumSquares
    linarith
  have hm0 : 0 < m := by
    have : 0 < (m : K) * spacing := by linarith
    have := (mul_pos_iff_of_pos_right h.pos).1 this
    exact_mod_cast this
  obtain ⟨s, hs⟩ := loop_commensurate hd h.pos h.comm (m + 1).toNat (by
    have e : (((m + 1).toNat : ℕ) : K) = m + 1 := by
      have : (((m + 1).toNat : ℕ) : ℤ) = m + 1 := Int.toNat_of_nonneg (by omega)
      exact_mod_cast congrArg (Int.cast : ℤ → K) this
    rw [e, add_mul, one_mul]
    have := h.pos
    unfold sumSquares at hm
    linarith)
  have hr : niggliCore cell 0 0 m = .ok (s.T.transpose.map (Int.cast : ℤ → K) * cell) := by
    unfold niggliCore; rw [hs]
  refine ⟨_, by rw [h.loop]; exact hr, ?_⟩
  obtain ⟨h1, h2⟩ := core_exact cell hd m _ hr
  exact ⟨h1, (C11_core _ _ _ _ _ hr).2.1, h2⟩

/-! ## The limit is needed -/

/-- A cell of the simple cubic lattice with one vector `(-n, 1, 0)`. -/
def skewCell (n : ℕ) : Cell K := !![1, 0, 0; 0, 0, 1; -(n : K), 1, 0]

theorem skew_det (n : ℕ) : (skewCell n : Cell K).det = -1 := by
  simp [skewCell, det_fin_three]

theorem skew_lattice (n : ℕ) : SameLattice (skewCell n : Cell K) 1 := by
  have h := sameLattice_of_unimodular (K := K) !![1, 0, 0; 0, 0, 1; -(n : ℤ), 1, 0] (by
    simp [det_fin_three]) 1
  rw [Matrix.mul_one] at h
  convert h using 1
  ext i j
  fin_cases i <;> fin_cases j <;> simp [skewCell]

/-- The states of the loop of `skewCell`. -/
structure SkewState (k : ℕ) (s : NState K) : Prop where
  A : s.A = 1
  B : s.B = 1
  C : s.C = (k : K) ^ 2 + 1
  xi : s.xi = 0
  eta : s.eta = -(2 * (k : K))
  zeta : s.zeta = 0

theorem skew_pass {k : ℕ} {s : NState K} (h : SkewState k s) :
    (0 < k → (niggliPass 0 0 s).1 = true ∧ SkewState (k - 1) (niggliPass 0 0 s).2) ∧
    (k = 0 → (niggliPass 0 0 s).1 = false) := by
  obtain ⟨⟨A, B, C, xi, eta, zeta⟩, T⟩ := s
  obtain ⟨h1, h2, h3, h4, h5, h6⟩ := h
  dsimp only at h1 h2 h3 h4 h5 h6
  subst h1 h2 h3 h4 h5 h6
  constructor
  · intro hk
    obtain ⟨j, rfl⟩ := Nat.exists_eq_succ_of_ne_zero hk.ne'
    have hj : (0 : K) ≤ j := Nat.cast_nonneg j
    have g : npSign (-(2 * ((j : K) + 1))) = -1 := by
      unfold npSign
      rw [if_neg (by linarith), if_pos (by linarith)]
    have a1 : |(j : K) + 1| = (j : K) + 1 := abs_of_nonneg (by linarith)
    have a2 : (1 : K) < 2 * ((j : K) + 1) := by linarith
    have a3 : ¬ ((j : K) + 1) ^ 2 + 1 < 1 := by nlinarith [sq_nonneg ((j : K) + 1)]
    have a4 : (1 : K) < ((j : K) + 1) ^ 2 + 1 := by nlinarith
    have a5 : ¬ (2 * ((j : K) + 1) < 0) := by linarith
    have b1 : ¬ (1 : K) < 0 := by norm_num
    simp [niggliPass, niggliStep1, niggliStep2, niggliStep3, niggliStep4, niggliStep5, niggliStep6,
      cwt, b1, abs_mul, a1, a2, a3, a4, a5, g, Nat.cast_succ]
    constructor <;> simp <;> ring
  · rintro rfl
    have b1 : ¬ (1 : K) < 0 := by norm_num
    have b2 : ¬ (1 : K) + 1 < 0 := by norm_num
    have b3 : (0 : K) < 1 + 1 := by norm_num
    simp [niggliPass, niggliStep1, niggliStep2, niggliStep3, niggliStep4, niggliStep5, niggliStep6,
      niggliStep7, niggliStep8, cwt, b1, b2, b3]

theorem skew_loop (k : ℕ) : ∀ (f : ℕ) (s : NState K), SkewState k s →
    ((∃ q, niggliLoop 0 0 f s = .ok q) ↔ k < f) := by
  induction k with
  | zero =>
    intro f s hs
    have h := (skew_pass hs).2 rfl
    cases f with
    | zero => simp [niggliLoop]
    | succ f => simp [niggliLoop, h]
  | succ k ih =>
    intro f s hs
    obtain ⟨h1, h2⟩ := (skew_pass hs).1 (Nat.succ_pos k)
    cases f with
    | zero => simp [niggliLoop]
    | succ f =>
      rw [niggliLoop]
      simp only [h1, if_true]
      rw [ih f _ h2]
      omega

theorem skew_init (n : ℕ) : SkewState n (niggliInit (skewCell n : Cell K)) := by
  constructor <;> simp [niggliInit, skewCell, Matrix.mul_apply, Fin.sum_univ_three] <;> ring

/-- The number of iterations is not bounded, even within one lattice: the cell
`(1,0,0), (0,0,1), (-n,1,0)` of the simple cubic lattice is reduced if and only if the limit is at
least `n`. -/
theorem C91_limit_needed (n : ℕ) (eps e4 : K) (h0 : 0 ≤ eps) (h1 : eps < 1) (h2 : 0 ≤ e4)
    (h3 : e4 < 1) (m : ℤ) :
    (∃ r, niggliCore (skewCell n) eps e4 m = .ok r) ↔ (n : ℤ) ≤ m := by
  have hs : Separated 1 eps e4 (skewCell n : Cell K) := by
    refine integer_separated _ ?_ _ _ h0 h1 h2 h3
    intro i j
    refine ⟨(!![1, 0, 0; 0, 0, 1; -(n : ℤ), 1, 0] : Matrix (Fin 3) (Fin 3) ℤ) i j, ?_⟩
    fin_cases i <;> fin_cases j <;> simp [skewCell]
  rw [hs.loop]
  have := skew_loop n (m + 1).toNat _ (skew_init (K := K) n)
  have e : (n : ℤ) ≤ m ↔ n < (m + 1).toNat := by omega
  rw [e, ← this]
  unfold niggliCore
  constructor
  · rintro ⟨r, hr⟩
    split at hr
    · exact absurd hr (by simp)
    · rename_i q hq; exact ⟨q, hq⟩
  · rintro ⟨q, hq⟩
    exact ⟨_, by rw [hq]⟩

end Field

/-! ## Any lattice -/

/-- The exact loop ends within its limit if the sum of the squared lengths of the given vectors is at
most `r²` times the square of every nonzero lattice vector and the limit is at least
`9 (2 r + 1)³`. -/
theorem C91_shortest (cell : Cell ℝ) (hd : cell.det ≠ 0) (r l : ℝ) (hr : 0 ≤ r) (hl : 0 < l)
    (hmin : ∀ v ∈ latticePoints cell, v ≠ 0 → l ≤ dot v v) (hS : sumSquares cell ≤ r ^ 2 * l)
    (m : ℤ) (hm : 9 * (2 * r + 1) ^ 3 ≤ m) :
    ∃ q, niggliCore cell 0 0 m = .ok q ∧ IsNiggli q ∧ SameLattice q cell ∧ q.det = cell.det := by
  have hm0 : 0 ≤ m := by
    have : (0 : ℝ) ≤ m := le_trans (by positivity) hm
    exact_mod_cast this
  obtain ⟨s, hs⟩ := loop_short hd hr hl hmin hS (m + 1).toNat (by
    have e : (((m + 1).toNat : ℕ) : ℝ) = m + 1 := by
      have : (((m + 1).toNat : ℕ) : ℤ) = m + 1 := Int.toNat_of_nonneg (by omega)
      exact_mod_cast congrArg (Int.cast : ℤ → ℝ) this
    rw [e]; linarith)
  have hr : niggliCore cell 0 0 m = .ok (s.T.transpose.map (Int.cast : ℤ → ℝ) * cell) := by
    unfold niggliCore; rw [hs]
  obtain ⟨h1, h2⟩ := core_exact cell hd m _ hr
  exact ⟨_, hr, h1, (C11_core _ _ _ _ _ hr).2.1, h2⟩

theorem default_enough {cell : Cell ℝ} (hd : cell.det ≠ 0) {l : ℝ} (hl : 0 < l)
    (hmin : ∀ v ∈ latticePoints cell, v ≠ 0 → l ≤ dot v v) (hS : sumSquares cell ≤ 112 * l) :
    ∃ q, niggliCore cell 0 0 defaultLimit = .ok q ∧ IsNiggli q ∧ SameLattice q cell ∧
      q.det = cell.det :=
  C91_shortest cell hd (53 / 5) l (by norm_num) hl hmin (by nlinarith) _ (by
    unfold defaultLimit; norm_num)

/-- The default limit is enough for every lattice, at every small enough tolerance, if the squared
lengths of the given vectors add up to at most 112 times the square of the shortest lattice
vector. -/
theorem C91_default_small_tolerance (cell : Cell ℝ) (hd : cell.det ≠ 0) (l : ℝ) (hl : 0 < l)
    (hmin : ∀ v ∈ latticePoints cell, v ≠ 0 → l ≤ dot v v) (hS : sumSquares cell ≤ 112 * l) :
    ∃ δ > 0, ∃ q, IsNiggli q ∧ SameLattice q cell ∧ q.det = cell.det ∧
      ∀ eps e4 : ℝ, 0 ≤ eps → eps < δ → 0 ≤ e4 → e4 < δ → ∀ m, defaultLimit ≤ m →
        niggliCore cell eps e4 m = .ok q := by
  obtain ⟨q, hq, h1, h2, h3⟩ := default_enough hd hl hmin hS
  obtain ⟨δ, hδ, hs⟩ := small_loop (defaultLimit + 1).toNat (niggliInit cell)
  refine ⟨δ, hδ, q, h1, h2, h3, fun eps e4 a1 a2 a3 a4 m hm => ?_⟩
  refine C12_monotone cell eps e4 defaultLimit m hm q ?_
  have := hs eps e4 a1 a2 a3 a4
  unfold niggliCore at hq ⊢
  rw [this]; exact hq

/-- The public function with its default limit: commensurate scalar products and either of the two
bounds on the given vectors. -/
theorem C91_getNiggli_default (sp : Cell ℝ → ℝ → Except Err (Cell ℝ)) (cell : Cell ℝ) (e : ℝ)
    (impl : String) (hi : IsWulfric impl) (hd : cell.det ≠ 0) (spacing : ℝ)
    (h : Separated spacing (absTol cell e) (1 / 10 ^ 8) cell)
    (hS : sumSquares cell ≤ 16666 * spacing ∨
      ∀ v ∈ latticePoints cell, v ≠ 0 → sumSquares cell ≤ 112 * dot v v) :
    ∃ r, getNiggli sp cell e impl defaultLimit = .ok r ∧ IsNiggli r ∧ SameLattice r cell ∧
      r.det = cell.det := by
  rw [getNiggli_eq_core sp cell e impl hi _ hd]
  rcases hS with hS | hS
  · refine C91_commensurate spacing _ _ cell hd h _ ?_
    unfold defaultLimit
    have := h.pos
    push_cast
    linarith
  · rw [h.loop]
    have p0 := dot_self_pos (row_ne_zero hd 0)
    have p1 := dot_self_pos (row_ne_zero hd 1)
    have p2 := dot_self_pos (row_ne_zero hd 2)
    refine default_enough hd (l := sumSquares cell / 112) (by unfold sumSquares; linarith)
      (fun v hv h0 => ?_) (by linarith)
    have := hS v hv h0
    linarith

/-- With its default arguments (`implementation="wulfric"`) the function raises
`NiggliReductionFailed` for a cell of the simple cubic lattice. -/
theorem C91_default_fails (sp : Cell ℝ → ℝ → Except Err (Cell ℝ)) (impl : String)
    (hi : IsWulfric impl) (n : ℕ) (hn : 100000 < n) :
    getNiggli sp (skewCell n) (1 / 10 ^ 5) impl defaultLimit = .error .niggliReductionFailed ∧
    SameLattice (skewCell n : Cell ℝ) 1 := by
  refine ⟨?_, skew_lattice n⟩
  rw [getNiggli_eq_core sp _ _ impl hi _ (by rw [skew_det]; norm_num)]
  have e : absTol (skewCell n : Cell ℝ) (1 / 10 ^ 5) = 1 / 10 ^ 5 := by
    rw [absTol_of_cube _ _ 1 zero_le_one (by rw [skew_det]; norm_num), mul_one]
  rw [e]
  have h := C91_limit_needed (K := ℝ) n (1 / 10 ^ 5) (1 / 10 ^ 8) (by norm_num) (by norm_num)
    (by norm_num) (by norm_num) defaultLimit
  have hl := (C12_limit (skewCell n : Cell ℝ) (1 / 10 ^ 5) (1 / 10 ^ 8) defaultLimit).2
  cases hc : niggliCore (skewCell n : Cell ℝ) (1 / 10 ^ 5) (1 / 10 ^ 8) defaultLimit with
  | error x => rw [hl x hc]
  | ok r =>
    have := h.1 ⟨r, hc⟩
    unfold defaultLimit at this
    omega

/-- Non-vacuity: a skewed cell of the simple cubic lattice meets both bounds of
`C91_getNiggli_default` (the cell of the example of C13-C15). -/
example : (!![1, 0, 0; 1, 1, 0; 3, 2, 1] : Cell ℝ).det ≠ 0 ∧
    sumSquares (!![1, 0, 0; 1, 1, 0; 3, 2, 1] : Cell ℝ) ≤ 16666 * 1 ∧
    ∀ v ∈ latticePoints (!![1, 0, 0; 1, 1, 0; 3, 2, 1] : Cell ℝ), v ≠ 0 →
      sumSquares (!![1, 0, 0; 1, 1, 0; 3, 2, 1] : Cell ℝ) ≤ 112 * dot v v := by
  have hs : sumSquares (!![1, 0, 0; 1, 1, 0; 3, 2, 1] : Cell ℝ) = 17 := by
    simp [sumSquares, dot]; norm_num
  rw [hs]
  refine ⟨by simp [det_fin_three], by norm_num, fun v hv h0 => ?_⟩
  have hc : Commensurate 1 (!![1, 0, 0; 1, 1, 0; 3, 2, 1] : Cell ℝ) := by
    refine (integer_separated (K := ℝ) _ ?_ 0 0 le_rfl one_pos le_rfl one_pos).comm
    intro i j
    refine ⟨(!![1, 0, 0; 1, 1, 0; 3, 2, 1] : Matrix (Fin 3) (Fin 3) ℤ) i j, ?_⟩
    fin_cases i <;> fin_cases j <;> simp
  obtain ⟨n, hn⟩ := commensurate_norm hc hv
  have hp := dot_self_pos h0
  rw [hn, mul_one] at hp ⊢
  have : (1 : ℤ) ≤ n := by have : (0 : ℤ) < n := by exact_mod_cast hp
                           omega
  have : (1 : ℝ) ≤ n := by exact_mod_cast this
  linarith

end Wulfric
