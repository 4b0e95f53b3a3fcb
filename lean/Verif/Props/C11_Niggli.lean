import Verif.Lemmas.NiggliIdem
import Verif.Lemmas.NiggliRobust
import Verif.Lemmas.NiggliCast
import Mathlib.Data.Fintype.Pi

/-!
# C11-C18: `get_niggli` (own implementation)

All statements are about `getNiggli` (the public function, over `ℝ`) or `niggliCore`
(the same after the volume check, over any ordered field, tolerances explicit).
-/

namespace Wulfric
open Matrix Spec

set_option linter.unusedSectionVars false

variable {K : Type*} [Field K] [LinearOrder K] [IsStrictOrderedRing K]

/-- Shorthand for a call with `implementation="wulfric"` in any letter case. -/
def IsWulfric (impl : String) : Prop := lowerStr impl = "wulfric"

/-- Default `eps_relative` of the code (`src/wulfric/cell/_niggli.py` L265). -/
noncomputable def defaultRel : ℝ := 1 / 10 ^ 5

/-- The absolute tolerance used by a call. -/
noncomputable def absTol (cell : Cell ℝ) (epsRelative : ℝ) : ℝ :=
  epsRelative * |cell.det| ^ ((1 : ℝ) / 3)

/-! ## Link between the two entry points -/

theorem getNiggli_eq_core (sp : Cell ℝ → ℝ → Except Err (Cell ℝ)) (cell : Cell ℝ) (e : ℝ)
    (impl : String) (hi : IsWulfric impl) (m : ℤ) (hd : cell.det ≠ 0) :
    getNiggli sp cell e impl m = niggliCore cell (absTol cell e) (1 / 10 ^ 8) m := by
  unfold getNiggli IsWulfric absTol at *
  simp only [hi, abs_eq_zero, hd, if_false, ne_eq, not_true_eq_false]
  rw [if_neg (by decide)]
  simp [defaultEps]

/-! ## C11 same lattice -/

/-- C11: whatever the input, a returned cell is `M @ cell` with an integer matrix `M` of
determinant `±1`; hence same lattice and same volume. -/
theorem C11_core (cell : Cell K) (eps e4 : K) (m : ℤ) (r : Cell K)
    (h : niggliCore cell eps e4 m = .ok r) :
    (∃ M : Matrix (Fin 3) (Fin 3) ℤ, (M.det = 1 ∨ M.det = -1) ∧ r = M.map (Int.cast : ℤ → K) * cell)
      ∧ SameLattice r cell ∧ |r.det| = |cell.det| := by
  unfold niggliCore at h
  split at h
  · exact absurd h (by simp)
  · rename_i s hs
    obtain ⟨M, hM, e⟩ := uni_loop _ _ _ _ _ hs
    have e' : s.T = M := by rw [e]; simp [niggliInit]
    have hT : IsUnit s.T.transpose.det := by rw [det_transpose, e']; exact hM
    have hu : s.T.transpose.det = 1 ∨ s.T.transpose.det = -1 := Int.isUnit_iff.1 hT
    cases h
    refine ⟨⟨s.T.transpose, hu, rfl⟩, sameLattice_of_unimodular _ hT _, ?_⟩
    rw [det_mul, det_map_intCast, abs_mul]
    rcases hu with hu | hu <;> rw [hu] <;> simp

/-- C11 for the public function. -/
theorem C11_same_lattice (sp : Cell ℝ → ℝ → Except Err (Cell ℝ)) (cell : Cell ℝ) (e : ℝ)
    (impl : String) (hi : IsWulfric impl) (m : ℤ) (r : Cell ℝ)
    (h : getNiggli sp cell e impl m = .ok r) :
    (∃ M : Matrix (Fin 3) (Fin 3) ℤ, (M.det = 1 ∨ M.det = -1) ∧ r = M.map (Int.cast : ℤ → ℝ) * cell)
      ∧ SameLattice r cell ∧ |r.det| = |cell.det| ∧ cell.det ≠ 0 := by
  by_cases hd : cell.det = 0
  · unfold getNiggli IsWulfric at *
    simp [hi, hd] at h
  · rw [getNiggli_eq_core sp cell e impl hi m hd] at h
    obtain ⟨h1, h2, h3⟩ := C11_core _ _ _ _ _ h
    exact ⟨h1, h2, h3, hd⟩

/-- Non-vacuity: a run that returns a different cell. -/
example : ∃ r, niggliCore (!![1, 0, 0; 1, 1, 0; 3, 2, 1] : Cell ℚ) (1 / 10 ^ 5) (1 / 10 ^ 8) 100 = .ok r
    ∧ r ≠ !![1, 0, 0; 1, 1, 0; 3, 2, 1] := by
  have : (match niggliCore (!![1, 0, 0; 1, 1, 0; 3, 2, 1] : Cell ℚ) (1 / 10 ^ 5) (1 / 10 ^ 8) 100 with
    | .ok r => decide (r 1 0 = 0)
    | .error _ => false) = true := by decide +kernel
  split at this
  · rename_i r hr
    refine ⟨r, hr, ?_⟩
    rintro rfl
    exact absurd this (by simp)
  · exact absurd this (by simp)

/-! ## C12 iteration limit -/

/-- State after `k` passes. -/
def passes (eps e4 : K) (s : NState K) : ℕ → NState K
  | 0 => s
  | k + 1 => (niggliPass eps e4 (passes eps e4 s k)).2

theorem passes_succ' (eps e4 : K) (s : NState K) (k : ℕ) :
    passes eps e4 s (k + 1) = passes eps e4 (niggliPass eps e4 s).2 k := by
  induction k with
  | zero => rfl
  | succ n ih => rw [passes, ih]; rfl

theorem loop_shift (eps e4 : K) (k n : ℕ) : ∀ s : NState K,
    (∀ i < k, (niggliPass eps e4 (passes eps e4 s i)).1 = true) →
    niggliLoop eps e4 (k + n) s = niggliLoop eps e4 n (passes eps e4 s k) := by
  induction k with
  | zero => intro s _; simp [passes]
  | succ k ih =>
    intro s h
    have h0 := h 0 (by omega)
    rw [show k + 1 + n = (k + n) + 1 by omega]
    rw [passes_succ', ← ih]
    · conv_lhs => unfold niggliLoop
      dsimp only
      have : (niggliPass eps e4 s).1 = true := h0
      rw [if_pos this]
    · intro i hi
      have := h (i + 1) (by omega)
      rwa [passes_succ'] at this

/-- C12: the call fails iff all of the first `max_iterations + 1` passes asked for another
one; and this is the only error of the loop. -/
theorem C12_limit (cell : Cell K) (eps e4 : K) (m : ℤ) :
    (niggliCore cell eps e4 m = .error .niggliReductionFailed ↔
      ∀ i : ℕ, (i : ℤ) ≤ m → (niggliPass eps e4 (passes eps e4 (niggliInit cell) i)).1 = true) ∧
    (∀ x, niggliCore cell eps e4 m = .error x → x = .niggliReductionFailed) := by
  have only : ∀ (n : ℕ) (s : NState K) x, niggliLoop eps e4 n s = .error x →
      x = .niggliReductionFailed := by
    intro n
    induction n with
    | zero => intro s x h; simp [niggliLoop] at h; exact h.symm
    | succ n ih =>
      intro s x h
      unfold niggliLoop at h; dsimp only at h
      split at h
      · exact ih _ _ h
      · exact absurd h (by simp)
  have main : ∀ (n : ℕ) (s : NState K), niggliLoop eps e4 n s = .error .niggliReductionFailed ↔
      ∀ i < n, (niggliPass eps e4 (passes eps e4 s i)).1 = true := by
    intro n
    induction n with
    | zero => intro s; simp [niggliLoop]
    | succ n ih =>
      intro s
      unfold niggliLoop; dsimp only
      by_cases hc : (niggliPass eps e4 s).1 = true
      · rw [if_pos hc, ih]
        constructor
        · intro h i hi
          cases i with
          | zero => exact hc
          | succ i => rw [passes_succ']; exact h i (by omega)
        · intro h i hi
          have := h (i + 1) (by omega)
          rwa [passes_succ'] at this
      · rw [if_neg hc]
        constructor
        · intro h; exact absurd h (by simp)
        · intro h; exact absurd (h 0 (by omega)) hc
  constructor
  · unfold niggliCore
    rw [show (∀ i : ℕ, (i : ℤ) ≤ m → (niggliPass eps e4 (passes eps e4 (niggliInit cell) i)).1 = true)
      ↔ (∀ i < (m + 1).toNat, (niggliPass eps e4 (passes eps e4 (niggliInit cell) i)).1 = true) from
      ⟨fun h i hi => h i (by omega), fun h i hi => h i (by omega)⟩, ← main]
    cases h : niggliLoop eps e4 (m + 1).toNat (niggliInit cell) <;> simp
  · intro x h
    unfold niggliCore at h
    split at h
    · rename_i e he
      cases h
      exact only _ _ _ he
    · exact absurd h (by simp)

/-- C12: a larger limit does not change a successful result. -/
theorem C12_monotone (cell : Cell K) (eps e4 : K) (m m' : ℤ) (h : m ≤ m') (r : Cell K)
    (hr : niggliCore cell eps e4 m = .ok r) : niggliCore cell eps e4 m' = .ok r := by
  unfold niggliCore at *
  split at hr
  · exact absurd hr (by simp)
  · rename_i s hs
    rw [loop_mono eps e4 _ (m' + 1).toNat _ _ (by omega) hs]
    exact hr

/-- C12: a negative limit always fails (no pass at all is done). -/
theorem C12_negative (cell : Cell K) (eps e4 : K) (m : ℤ) (h : m < 0) :
    niggliCore cell eps e4 m = .error .niggliReductionFailed := by
  rw [(C12_limit cell eps e4 m).1]
  intro i hi; omega

/-! ## C13, C14, C15: separated scalar products -/

/-- The hypothesis of C13-C15: the scalar products are integer multiples of a spacing and
both tolerances are below it (and below its cube, because the code compares the product
`xi*eta*zeta` with the same `eps`). -/
structure Separated (spacing eps e4 : K) (cell : Cell K) : Prop where
  comm : Commensurate spacing cell
  pos : 0 < spacing
  eps_nonneg : 0 ≤ eps
  eps_lt : eps < spacing
  eps_lt3 : eps < spacing ^ 3
  e4_nonneg : 0 ≤ e4
  e4_lt : e4 < spacing

theorem Separated.loop {spacing eps e4 : K} {cell : Cell K} (h : Separated spacing eps e4 cell)
    (m : ℤ) : niggliCore cell eps e4 m = niggliCore cell 0 0 m := by
  unfold niggliCore
  rw [loop_clean ⟨h.pos, h.eps_nonneg, h.eps_lt, h.eps_lt3, h.e4_nonneg, h.e4_lt⟩ _ _
    (clean_init h.comm)]

/-- Result of the exact loop. -/
theorem core_exact (cell : Cell K) (hd : cell.det ≠ 0) (m : ℤ) (r : Cell K)
    (h : niggliCore cell 0 0 m = .ok r) : IsNiggli r ∧ r.det = cell.det := by
  unfold niggliCore at h
  split at h
  · exact absurd h (by simp)
  · rename_i s hs
    obtain ⟨hg, hn⟩ := loop_result hd _ _ _ (good_init cell) hs
    cases h
    constructor
    · have t := hg.tr
      rw [t.A, t.B, t.C, t.xi, t.eta, t.zeta] at hn
      exact hn
    · rw [det_mul, det_map_intCast, det_transpose, hg.det]; simp

theorem core_exact_total [Archimedean K] (cell : Cell K) (hd : cell.det ≠ 0) :
    ∃ N : ℕ, ∃ r, ∀ m : ℤ, (N : ℤ) ≤ m → niggliCore cell 0 0 m = .ok r := by
  obtain ⟨N, s, hs⟩ := loop_terminates hd _ (good_init cell)
  refine ⟨N, s.T.transpose.map (Int.cast : ℤ → K) * cell, fun m hm => ?_⟩
  unfold niggliCore
  rw [loop_mono 0 0 N (m + 1).toNat _ _ (by omega) hs]

/-- C13 (partial: separated scalar products; the full statement "for every cell" is
refuted by `C13_not_reduced`). The result satisfies all Niggli conditions exactly. -/
theorem C13_reduced_partial (spacing eps e4 : K) (cell : Cell K) (hd : cell.det ≠ 0)
    (h : Separated spacing eps e4 cell) (m : ℤ) (r : Cell K)
    (hr : niggliCore cell eps e4 m = .ok r) : IsNiggli r := by
  rw [h.loop] at hr
  exact (core_exact cell hd m r hr).1

/-- C13 for the public function. -/
theorem C13_getNiggli_partial (sp : Cell ℝ → ℝ → Except Err (Cell ℝ)) (cell : Cell ℝ) (e : ℝ)
    (impl : String) (hi : IsWulfric impl) (m : ℤ) (r : Cell ℝ) (spacing : ℝ)
    (h : Separated spacing (absTol cell e) (1 / 10 ^ 8) cell)
    (hr : getNiggli sp cell e impl m = .ok r) : IsNiggli r := by
  obtain ⟨_, _, _, hd⟩ := C11_same_lattice sp cell e impl hi m r hr
  rw [getNiggli_eq_core sp cell e impl hi m hd] at hr
  exact C13_reduced_partial _ _ _ _ hd h m r hr

/-- C14: for separated scalar products there is a limit from which on the call returns,
always the same cell. -/
theorem C14_total [Archimedean K] (spacing eps e4 : K) (cell : Cell K) (hd : cell.det ≠ 0)
    (h : Separated spacing eps e4 cell) :
    ∃ N : ℕ, ∃ r, ∀ m : ℤ, (N : ℤ) ≤ m → niggliCore cell eps e4 m = .ok r := by
  obtain ⟨N, r, hr⟩ := core_exact_total cell hd
  exact ⟨N, r, fun m hm => by rw [h.loop]; exact hr m hm⟩

/-- C14 for the public function. -/
theorem C14_getNiggli (sp : Cell ℝ → ℝ → Except Err (Cell ℝ)) (cell : Cell ℝ) (e : ℝ)
    (impl : String) (hi : IsWulfric impl) (spacing : ℝ) (hd : cell.det ≠ 0)
    (h : Separated spacing (absTol cell e) (1 / 10 ^ 8) cell) :
    ∃ N : ℕ, ∃ r, IsNiggli r ∧ SameLattice r cell ∧ r.det = cell.det ∧
      ∀ m : ℤ, (N : ℤ) ≤ m → getNiggli sp cell e impl m = .ok r := by
  obtain ⟨N, r, hr⟩ := C14_total spacing _ _ cell hd h
  have hN := hr N le_rfl
  refine ⟨N, r, C13_reduced_partial _ _ _ _ hd h _ _ hN, (C11_core _ _ _ _ _ hN).2.1, ?_, ?_⟩
  · rw [h.loop] at hN; exact (core_exact cell hd _ _ hN).2
  · intro m hm
    rw [getNiggli_eq_core sp cell e impl hi m hd]; exact hr m hm

/-- C13, C14, C15 for *every* non-degenerate cell (commensurate or not): there is a
positive threshold such that, whenever both tolerances are below it, the loop ends with a
Niggli-reduced cell of the same lattice and the same handedness. -/
theorem C14_small_tolerance [Archimedean K] (cell : Cell K) (hd : cell.det ≠ 0) :
    ∃ δ > 0, ∃ N : ℕ, ∃ r, IsNiggli r ∧ SameLattice r cell ∧ r.det = cell.det ∧
      ∀ eps e4 : K, 0 ≤ eps → eps < δ → 0 ≤ e4 → e4 < δ → ∀ m : ℤ, (N : ℤ) ≤ m →
        niggliCore cell eps e4 m = .ok r := by
  obtain ⟨N, r, hr⟩ := core_exact_total cell hd
  obtain ⟨δ, hδ, hs⟩ := small_loop (N + 1) (niggliInit cell)
  have hN := hr N le_rfl
  obtain ⟨h1, h2⟩ := core_exact cell hd _ _ hN
  refine ⟨δ, hδ, N, r, h1, (C11_core _ _ _ _ _ hN).2.1, h2, ?_⟩
  intro eps e4 a1 a2 a3 a4 m hm
  refine C12_monotone cell eps e4 N m hm r ?_
  have := hs eps e4 a1 a2 a3 a4
  unfold niggliCore at hN ⊢
  rw [show ((N : ℤ) + 1).toNat = N + 1 by omega] at hN ⊢
  rw [this]; exact hN

/-- C15 (partial: separated scalar products; refuted in general by `C15_flips`). -/
theorem C15_handedness_partial (spacing eps e4 : K) (cell : Cell K) (hd : cell.det ≠ 0)
    (h : Separated spacing eps e4 cell) (m : ℤ) (r : Cell K)
    (hr : niggliCore cell eps e4 m = .ok r) : r.det = cell.det := by
  rw [h.loop] at hr
  exact (core_exact cell hd m r hr).2

theorem integer_separated (c : Cell K) (hc : ∀ i j, ∃ n : ℤ, c i j = n) (eps e4 : K)
    (h0 : 0 ≤ eps) (h1 : eps < 1) (h2 : 0 ≤ e4) (h3 : e4 < 1) : Separated 1 eps e4 c := by
  refine ⟨?_, one_pos, h0, h1, by simpa using h1, h2, h3⟩
  intro i j
  choose n hn using hc
  split
  · exact ⟨n i 0 * n j 0 + n i 1 * n j 1 + n i 2 * n j 2, by simp [dot, hn]⟩
  · exact ⟨2 * (n i 0 * n j 0 + n i 1 * n j 1 + n i 2 * n j 2), by simp [dot, hn]⟩

/-- Non-vacuity of C13-C15: every integer cell with the default tolerance is separated. -/
example : Separated 1 (1 / 10 ^ 5) (1 / 10 ^ 8) (!![1, 0, 0; 1, 1, 0; 3, 2, 1] : Cell ℚ) ∧
    (!![1, 0, 0; 1, 1, 0; 3, 2, 1] : Cell ℚ).det ≠ 0 := by
  refine ⟨integer_separated _ ?_ _ _ (by norm_num) (by norm_num) (by norm_num) (by norm_num), ?_⟩
  · intro i j
    refine ⟨(!![1, 0, 0; 1, 1, 0; 3, 2, 1] : Matrix (Fin 3) (Fin 3) ℤ) i j, ?_⟩
    fin_cases i <;> fin_cases j <;> simp
  · simp [det_fin_three]

/-! ### Refutations with the default tolerances -/

/-- `27^(1/3) = 3`. -/
theorem absTol_of_cube (cell : Cell ℝ) (e a : ℝ) (ha : 0 ≤ a) (h : |cell.det| = a ^ 3) :
    absTol cell e = e * a := by
  unfold absTol
  rw [h, ← Real.rpow_natCast, ← Real.rpow_mul ha]
  norm_num

/-- A run over `ℚ` gives a run of the public function. -/
theorem getNiggli_of_rat (sp : Cell ℝ → ℝ → Except Err (Cell ℝ)) (c r : Cell ℚ) (a e : ℚ) (ha : 0 < a)
    (h : |c.det| = a ^ 3) (m : ℤ) (impl : String) (hi : IsWulfric impl)
    (hr : niggliCore c (e * a) (1 / 10 ^ 8) m = .ok r) :
    getNiggli sp (c.map (fun x : ℚ => (x : ℝ))) (e : ℝ) impl m =
      .ok (r.map (fun x : ℚ => (x : ℝ))) := by
  have hdet : (c.map (fun x : ℚ => (x : ℝ))).det = ((c.det : ℚ) : ℝ) := by
    have := (Rat.castHom ℝ).map_det c
    simpa using this.symm
  have habs : |(c.map (fun x : ℚ => (x : ℝ))).det| = (a : ℝ) ^ 3 := by
    rw [hdet]; exact_mod_cast h
  have hd : (c.map (fun x : ℚ => (x : ℝ))).det ≠ 0 := by
    intro h0; rw [h0, abs_zero] at habs
    have : (0 : ℝ) < (a : ℝ) ^ 3 := by positivity
    linarith
  rw [getNiggli_eq_core sp _ _ impl hi m hd, absTol_of_cube _ _ (a : ℝ) (by exact_mod_cast ha.le) habs]
  have := core_cast (K := ℝ) c (e * a) (1 / 10 ^ 8) m
  rw [hr] at this
  push_cast at this
  exact this

/-- Comparison of two rational cells by the kernel. -/
def cellEq (r s : Cell ℚ) : Bool :=
  (List.finRange 3).all fun i => (List.finRange 3).all fun j => decide ((r i j : ℚ) = s i j)

theorem cellEq_iff {r s : Cell ℚ} (h : cellEq r s = true) : r = s := by
  ext i j
  simp only [cellEq, List.all_eq_true, List.mem_finRange, decide_eq_true_eq, forall_true_left] at h
  exact h i j

/-- The cell of `C13_not_reduced`: an orthorhombic-looking cell with a distortion of
`1.5e-4`. -/
def cellW13 : Cell ℚ := !![3, 0, 0; 2, 3, 0; 3 / 20000, 3 / 20000, 3]
def cellW13r : Cell ℚ := !![3, 0, 0; -3 / 20000, -3 / 20000, -3; 5, 3, 0]

theorem run_W13 : niggliCore cellW13 (1 / 10 ^ 5 * 3) (1 / 10 ^ 8) 100 = .ok cellW13r := by
  have : (match niggliCore cellW13 (1 / 10 ^ 5 * 3) (1 / 10 ^ 8) 100 with
    | .ok r => cellEq r cellW13r
    | .error _ => false) = true := by decide +kernel
  split at this
  · rename_i r hr
    rw [hr, cellEq_iff this]
  · exact absurd this (by simp)

/-- C13 is false in general: with the default `eps_relative` a returned cell can miss the
Niggli conditions by far more than the tolerance; here `2 a·c > a·a + 20`, and the
returned third vector is longer than the longest input vector. -/
theorem C13_not_reduced : ∃ cell r : Cell ℝ, cell.det ≠ 0 ∧
    (∀ sp, getNiggli sp cell defaultRel "wulfric" 100 = .ok r) ∧ ¬ IsNiggli r ∧
    2 * dot (r 0) (r 2) > dot (r 0) (r 0) + 20 ∧
    (∀ i, dot (cell i) (cell i) + 20 < dot (r 2) (r 2)) := by
  have key : 2 * dot ((cellW13r.map (fun x : ℚ => (x : ℝ))) 0) ((cellW13r.map (fun x : ℚ => (x : ℝ))) 2)
      > dot ((cellW13r.map (fun x : ℚ => (x : ℝ))) 0) ((cellW13r.map (fun x : ℚ => (x : ℝ))) 0) + 20 := by
    simp [cellW13r, dot]; norm_num
  refine ⟨cellW13.map (fun x : ℚ => (x : ℝ)), cellW13r.map (fun x : ℚ => (x : ℝ)), ?_, ?_, ?_, key, ?_⟩
  · simp [cellW13, det_fin_three]
  · intro sp
    have := getNiggli_of_rat sp cellW13 cellW13r 3 (1 / 10 ^ 5) (by norm_num)
      (by simp [cellW13, det_fin_three]; norm_num) 100 "wulfric" (by unfold IsWulfric; decide +kernel) run_W13
    rw [← this]; unfold defaultRel; push_cast; rfl
  · intro h
    have h2 := h.eta_le
    have h3 := le_abs_self (2 * dot ((cellW13r.map (fun x : ℚ => (x : ℝ))) 0)
      ((cellW13r.map (fun x : ℚ => (x : ℝ))) 2))
    linarith
  · intro i
    fin_cases i <;> simp [cellW13, cellW13r, dot] <;> norm_num

/-- Cell of `C15_flips`. -/
def cellW15 : Cell ℚ := !![3, 0, 0; 1 / 200, 3, 0; 1 / 200, 1 / 200, 3]
def cellW15r : Cell ℚ := !![1 / 200, 3, 0; 3, 0, 0; 1 / 200, 1 / 200, 3]

theorem run_W15 : niggliCore cellW15 (1 / 10 ^ 5 * 3) (1 / 10 ^ 8) 100 = .ok cellW15r := by
  have : (match niggliCore cellW15 (1 / 10 ^ 5 * 3) (1 / 10 ^ 8) 100 with
    | .ok r => cellEq r cellW15r
    | .error _ => false) = true := by decide +kernel
  split at this
  · rename_i r hr
    rw [hr, cellEq_iff this]
  · exact absurd this (by simp)

/-- C15 is false in general: a right-handed cell can be returned left-handed. -/
theorem C15_flips : ∃ cell r : Cell ℝ, 0 < cell.det ∧
    (∀ sp, getNiggli sp cell defaultRel "wulfric" 100 = .ok r) ∧ r.det < 0 := by
  refine ⟨cellW15.map (fun x : ℚ => (x : ℝ)), cellW15r.map (fun x : ℚ => (x : ℝ)), ?_, ?_, ?_⟩
  · simp [cellW15, det_fin_three]
  · intro sp
    have := getNiggli_of_rat sp cellW15 cellW15r 3 (1 / 10 ^ 5) (by norm_num)
      (by simp [cellW15, det_fin_three]; norm_num) 100 "wulfric" (by unfold IsWulfric; decide +kernel) run_W15
    rw [← this]; unfold defaultRel; push_cast; rfl
  · simp [cellW15r, det_fin_three]

/-- Cell of `C14_never_returns`: a simple cubic lattice of parameter 1/20. -/
def cellW14 : Cell ℚ := !![1 / 20, 0, 0; 1 / 20, 1 / 20, 0; 1 / 20, 1 / 20, 1 / 20]

theorem run_W14 (m : ℤ) :
    niggliCore cellW14 (1 / 10 ^ 5 * (1 / 20)) (1 / 10 ^ 8) m = .error .niggliReductionFailed := by
  set eps : ℚ := 1 / 10 ^ 5 * (1 / 20) with he
  set e4 : ℚ := 1 / 10 ^ 8
  have hc : Clean (1 / 400 : ℚ) (niggliInit cellW14) := by
    refine clean_init ?_
    intro i j
    fin_cases i <;> fin_cases j <;> simp [dot, cellW14]
    · exact ⟨1, by norm_num⟩
    · exact ⟨2, by norm_num⟩
    · exact ⟨2, by norm_num⟩
    · exact ⟨2, by norm_num⟩
    · exact ⟨2, by norm_num⟩
    · exact ⟨4, by norm_num⟩
    · exact ⟨2, by norm_num⟩
    · exact ⟨4, by norm_num⟩
    · exact ⟨3, by norm_num⟩
  have hcl : ∀ k, Clean (1 / 400 : ℚ) (passes eps e4 (niggliInit cellW14) k) := by
    intro k
    induction k with
    | zero => exact hc
    | succ k ih => exact ih.pass _ _
  have h6 : (passes eps e4 (niggliInit cellW14) 6).A < 0 := by decide +kernel
  have hpass : ∀ i < 6, (niggliPass eps e4 (passes eps e4 (niggliInit cellW14) i)).1 = true := by
    decide +kernel
  have t : TolLin (1 / 400 : ℚ) eps := ⟨by norm_num, by norm_num [he], by norm_num [he]⟩
  have big : ∀ n, niggliLoop eps e4 (6 + n) (niggliInit cellW14) = .error .niggliReductionFailed := by
    intro n
    rw [loop_shift eps e4 6 n _ hpass]
    exact neg_loop t n _ (hcl 6) h6
  have all : ∀ n, niggliLoop eps e4 n (niggliInit cellW14) = .error .niggliReductionFailed := by
    intro n
    cases h : niggliLoop eps e4 n (niggliInit cellW14) with
    | ok r =>
      have := loop_mono eps e4 n (6 + n) _ _ (by omega) h
      rw [big] at this; exact absurd this (by simp)
    | error x =>
      have h2 := (C12_limit cellW14 eps e4 ((n : ℤ) - 1)).2 x
      unfold niggliCore at h2
      rw [show ((n : ℤ) - 1 + 1).toNat = n by omega, h] at h2
      rw [h2 rfl]
  unfold niggliCore
  rw [all]

/-- C14 fails without separation, even for a simple cubic lattice: with the default
`eps_relative` and *any* iteration limit the call raises `NiggliReductionFailed`. -/
theorem C14_never_returns : ∃ cell : Cell ℝ, cell.det ≠ 0 ∧
    SameLattice cell ((1 / 20 : ℝ) • (1 : Cell ℝ)) ∧
    ∀ sp (m : ℤ), getNiggli sp cell defaultRel "wulfric" m = .error .niggliReductionFailed := by
  have hd : (cellW14.map (fun x : ℚ => (x : ℝ))).det = (1 / 20) ^ 3 := by
    simp [cellW14, det_fin_three]; norm_num
  refine ⟨cellW14.map (fun x : ℚ => (x : ℝ)), by rw [hd]; norm_num, ?_, ?_⟩
  · have := sameLattice_of_unimodular (K := ℝ) !![1, 0, 0; 1, 1, 0; 1, 1, 1]
      (by simp [det_fin_three]) ((1 / 20 : ℝ) • (1 : Cell ℝ))
    convert this using 1
    ext i j
    fin_cases i <;> fin_cases j <;> simp [cellW14]
  · intro sp m
    rw [getNiggli_eq_core sp _ _ "wulfric" (by unfold IsWulfric; decide +kernel) m (by rw [hd]; norm_num),
      absTol_of_cube _ _ (1 / 20) (by norm_num) (by rw [hd, abs_of_pos (by norm_num)])]
    have := core_cast (K := ℝ) cellW14 (1 / 10 ^ 5 * (1 / 20)) (1 / 10 ^ 8) m
    rw [run_W14] at this
    push_cast at this
    unfold defaultRel
    exact this

/-! ## C16 idempotence -/

/-- C16: a reduced cell is returned unchanged (one pass suffices). -/
theorem C16_fixed_point (cell : Cell K) (h : IsNiggli cell) (m : ℤ) (hm : 0 ≤ m) (spacing eps e4 : K)
    (hs : Separated spacing eps e4 cell) : niggliCore cell eps e4 m = .ok cell := by
  rw [hs.loop]; exact core_fixed h m hm

/-- C16 for the exact comparison (any reduced cell). -/
theorem C16_fixed_point_exact (cell : Cell K) (h : IsNiggli cell) (m : ℤ) (hm : 0 ≤ m) :
    niggliCore cell 0 0 m = .ok cell := core_fixed h m hm

/-- C16: reducing twice is the same as reducing once (separated input; the output is
again reducible with the same tolerances). -/
theorem C16_idempotent (spacing eps e4 : K) (cell : Cell K) (hd : cell.det ≠ 0)
    (h : Separated spacing eps e4 cell) (m : ℤ) (r : Cell K)
    (hr : niggliCore cell eps e4 m = .ok r) : niggliCore r eps e4 m = .ok r := by
  have hn := C13_reduced_partial spacing eps e4 cell hd h m r hr
  have hm : 0 ≤ m := by
    by_contra hc
    rw [C12_negative cell eps e4 m (by omega)] at hr
    exact absurd hr (by simp)
  refine C16_fixed_point r hn m hm spacing eps e4 ⟨?_, h.pos, h.eps_nonneg, h.eps_lt, h.eps_lt3,
    h.e4_nonneg, h.e4_lt⟩
  -- commensurability of the result
  obtain ⟨⟨M, -, e⟩, -, -⟩ := C11_core _ _ _ _ _ hr
  have hc := h.comm
  choose g hg using hc
  have hrow : ∀ i k, r i k = (M i 0 : K) * cell 0 k + (M i 1 : K) * cell 1 k + (M i 2 : K) * cell 2 k := by
    intro i k; rw [e, Matrix.mul_apply, Fin.sum_univ_three]; simp
  have h00 := hg 0 0
  have h11 := hg 1 1
  have h22 := hg 2 2
  have h01 := hg 0 1
  have h02 := hg 0 2
  have h12 := hg 1 2
  simp only [if_true, Fin.isValue, show (0 : Fin 3) ≠ 1 by decide, show (0 : Fin 3) ≠ 2 by decide,
    show (1 : Fin 3) ≠ 2 by decide, if_false, dot] at h00 h11 h22 h01 h02 h12
  intro i j
  split
  · rename_i hij
    subst hij
    refine ⟨M i 0 * M i 0 * g 0 0 + M i 1 * M i 1 * g 1 1 + M i 2 * M i 2 * g 2 2 +
      M i 0 * M i 1 * g 0 1 + M i 0 * M i 2 * g 0 2 + M i 1 * M i 2 * g 1 2, ?_⟩
    simp only [dot, hrow]; push_cast
    linear_combination (M i 0 : K) * M i 0 * h00 + (M i 1 : K) * M i 1 * h11 +
      (M i 2 : K) * M i 2 * h22 + (M i 0 : K) * M i 1 * h01 + (M i 0 : K) * M i 2 * h02 +
      (M i 1 : K) * M i 2 * h12
  · refine ⟨2 * (M i 0 * M j 0 * g 0 0 + M i 1 * M j 1 * g 1 1 + M i 2 * M j 2 * g 2 2) +
      (M i 0 * M j 1 + M i 1 * M j 0) * g 0 1 + (M i 0 * M j 2 + M i 2 * M j 0) * g 0 2 +
      (M i 1 * M j 2 + M i 2 * M j 1) * g 1 2, ?_⟩
    simp only [dot, hrow]; push_cast
    linear_combination 2 * (M i 0 : K) * M j 0 * h00 + 2 * (M i 1 : K) * M j 1 * h11 +
      2 * (M i 2 : K) * M j 2 * h22 + ((M i 0 : K) * M j 1 + (M i 1 : K) * M j 0) * h01 +
      ((M i 0 : K) * M j 2 + (M i 2 : K) * M j 0) * h02 +
      ((M i 1 : K) * M j 2 + (M i 2 : K) * M j 1) * h12

/-- Non-vacuity: a reduced triclinic cell. -/
example : IsNiggli (!![2, 0, 0; 1, 3, 0; 1, 1, 4] : Cell ℚ) := by
  constructor <;> simp [dot] <;> norm_num

/-! ## C17 shortest vectors -/

/-- C17: successive minima. For a reduced cell and any lattice vector
`p a + q b + r c`: non-zero vectors are at least as long as `a`; those outside the line of
`a` at least as long as `b`; those outside the plane of `a, b` at least as long as `c`. -/
theorem C17_shortest (c : Cell K) (h : IsNiggli c) (p q r : ℤ) (v : Fin 3 → K)
    (hv : v = fun j => (p : K) * c 0 j + (q : K) * c 1 j + (r : K) * c 2 j) :
    ((p ≠ 0 ∨ q ≠ 0 ∨ r ≠ 0) → dot (c 0) (c 0) ≤ dot v v) ∧
    ((q ≠ 0 ∨ r ≠ 0) → dot (c 1) (c 1) ≤ dot v v) ∧
    (r ≠ 0 → dot (c 2) (c 2) ≤ dot v v) := by
  have e : dot v v = qform (dot (c 0) (c 0)) (dot (c 1) (c 1)) (dot (c 2) (c 2))
        (2 * dot (c 1) (c 2)) (2 * dot (c 0) (c 2)) (2 * dot (c 0) (c 1)) p q r := by
    rw [hv]; simp only [dot, qform]; ring
  have hA := dot_self_nonneg (c 0)
  rw [e]
  exact ⟨first_min h hA p q r, second_min h hA p q r, third_min h hA p q r⟩

/-- C17: the reduced lengths are a property of the lattice, not of the basis. -/
theorem C17_lengths_invariant (c d : Cell K) (hc : c.det ≠ 0) (hd : d.det ≠ 0)
    (h : SameLattice c d) (nc : IsNiggli c) (nd : IsNiggli d) (i : Fin 3) :
    dot (c i) (c i) = dot (d i) (d i) := by
  obtain ⟨a0, a1, a2⟩ := lengths_le hc (le_of_eq h) nc nd
  obtain ⟨b0, b1, b2⟩ := lengths_le hd (le_of_eq h.symm) nd nc
  fin_cases i
  · exact le_antisymm b0 a0
  · exact le_antisymm b1 a1
  · exact le_antisymm b2 a2

/-! ## C18 error branches -/

/-- C18: unknown implementation names raise `ValueError` whatever the other arguments;
zero volume raises `ValueError`; for the remaining calls the only error is
`NiggliReductionFailed`. The names are matched case-insensitively. -/
theorem C18_errors (sp : Cell ℝ → ℝ → Except Err (Cell ℝ)) (cell : Cell ℝ) (e : ℝ)
    (impl : String) (m : ℤ) :
    (lowerStr impl ≠ "spglib" → lowerStr impl ≠ "wulfric" →
      getNiggli sp cell e impl m = .error .valueError) ∧
    (lowerStr impl = "wulfric" → cell.det = 0 → getNiggli sp cell e impl m = .error .valueError) ∧
    (lowerStr impl = "spglib" → getNiggli sp cell e impl m = sp cell e) ∧
    (lowerStr impl = "wulfric" → cell.det ≠ 0 → ∀ x, getNiggli sp cell e impl m = .error x →
      x = .niggliReductionFailed) := by
  refine ⟨?_, ?_, ?_, ?_⟩
  · intro h1 h2; unfold getNiggli; simp [h1, h2]
  · intro h1 h2; unfold getNiggli; simp [h1, h2]
  · intro h1; unfold getNiggli; simp [h1]
  · intro h1 h2 x hx
    rw [getNiggli_eq_core sp cell e impl h1 m h2] at hx
    exact (C12_limit _ _ _ _).2 x hx

example : lowerStr "WuLfRiC" = "wulfric" := by decide +kernel
example : lowerStr "delaunay" ≠ "spglib" ∧ lowerStr "delaunay" ≠ "wulfric" := by decide +kernel

end Wulfric
