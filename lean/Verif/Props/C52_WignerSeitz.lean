import Verif.Lemmas.WignerSeitz
import Verif.Props.C19_LatticePoints
import Verif.Lemmas.Lattice
import Mathlib.Tactic.IntervalCases

/-! # C52: the finite point set used for the Wigner-Seitz cell is sufficient -/

set_option linter.unusedSectionVars false

namespace Wulfric
open Spec
variable {K : Type*} [Field K] [LinearOrder K] [IsStrictOrderedRing K]

/-- The points of a flat result as a set. -/
def resultPoints : LatticePointsResult K → Set (Vec K)
  | .flat l => {v | v ∈ l}
  | .nested l => {v | v ∈ l.flatten.flatten}

theorem mem_resultPoints (cell : Cell K) (n : ℕ) (v : Vec K) :
    v ∈ resultPoints (getLatticePoints cell (fun _ => n)) ↔
      ∃ m : Fin 3 → ℤ, (∀ i, |m i| ≤ n) ∧ v = specPoint cell false m := by
  obtain ⟨l, hl, h⟩ := C19_mem cell (fun _ => n) false v
  rw [hl]; exact h

theorem region_iff (x p : Vec K) :
    dot x x ≤ dot (fun i => x i - p i) (fun i => x i - p i) ↔ 2 * dot x p ≤ dot p p := by
  have : dot (fun i => x i - p i) (fun i => x i - p i) = dot x x - 2 * dot x p + dot p p := by
    unfold dot; ring
  rw [this]; constructor <;> intro h <;> linarith

theorem dot_specPoint (cell : Cell K) (m : Fin 3 → ℤ) (x : Vec K) :
    dot x (specPoint cell false m) = m 0 * dot x (cell 0) + m 1 * dot x (cell 1) + m 2 * dot x (cell 2) ∧
    dot (specPoint cell false m) (specPoint cell false m) =
      qform (dot (cell 0) (cell 0)) (dot (cell 1) (cell 1)) (dot (cell 2) (cell 2))
        (2 * dot (cell 1) (cell 2)) (2 * dot (cell 0) (cell 2)) (2 * dot (cell 0) (cell 1))
        (m 0) (m 1) (m 2) := by
  simp only [specPoint, Bool.false_eq_true, if_false, dot, qform]
  constructor <;> ring

theorem latticePoints_eq (cell : Cell K) :
    latticePoints cell = {v | ∃ m : Fin 3 → ℤ, v = specPoint cell false m} := by
  unfold latticePoints specPoint
  ext v
  simp [Fin.sum_univ_three]

/-- C52: for a Niggli-reduced cell the points with any `n ≥ 1` (the code uses `n = 10`)
cut out exactly the Wigner-Seitz cell of the infinite lattice. -/
theorem C52_reduced (cell : Cell K) (h : IsNiggli cell) (n : ℕ) (hn : 1 ≤ n) :
    region (resultPoints (getLatticePoints cell (fun _ => n))) = wignerSeitz cell := by
  have hw : WeakReduced (dot (cell 0) (cell 0)) (dot (cell 1) (cell 1)) (dot (cell 2) (cell 2))
        (2 * dot (cell 1) (cell 2)) (2 * dot (cell 0) (cell 2)) (2 * dot (cell 0) (cell 1)) := by
    refine ⟨?_, h.ab, h.bc, h.xi_le, h.eta_le, h.zeta_le⟩
    unfold dot
    nlinarith [mul_self_nonneg (cell 0 0), mul_self_nonneg (cell 0 1), mul_self_nonneg (cell 0 2)]
  ext x
  constructor
  · intro hx p hp
    rw [latticePoints_eq] at hp
    obtain ⟨m, rfl⟩ := hp
    rw [region_iff]
    obtain ⟨e1, e2⟩ := dot_specPoint cell m x
    rw [e1, e2]
    apply bound_all hw
    intro p q r h1 h2 h3
    have := hx (specPoint cell false ![p, q, r]) ((mem_resultPoints cell n _).2 ⟨![p, q, r], ?_, rfl⟩)
    · rw [region_iff] at this
      obtain ⟨e1, e2⟩ := dot_specPoint cell ![p, q, r] x
      rw [e1, e2] at this
      exact this
    · have hn' : (1 : ℤ) ≤ n := by exact_mod_cast hn
      intro i
      fin_cases i
      · exact h1.trans hn'
      · exact h2.trans hn'
      · exact h3.trans hn'
  · intro hx p hp
    apply hx
    rw [mem_resultPoints] at hp
    obtain ⟨m, -, rfl⟩ := hp
    rw [latticePoints_eq]
    exact ⟨m, rfl⟩

/-- C52: hence the region found from a reduced cell is that of every cell of the lattice. -/
theorem C52_lattice (cell reduced : Cell K) (h : IsNiggli reduced) (hs : SameLattice reduced cell)
    (n : ℕ) (hn : 1 ≤ n) :
    region (resultPoints (getLatticePoints reduced (fun _ => n))) = wignerSeitz cell := by
  rw [C52_reduced reduced h n hn]
  unfold wignerSeitz
  rw [show latticePoints reduced = latticePoints cell from hs]

/-- C52 fails without reduction: for the cell `(1,0,0), (100,1,0), (0,0,1)` of the simple
cubic lattice the points with `n = 10` leave `(0, 9/10, 0)` in the region of the origin,
although the lattice point `(0,1,0)` is closer to it. -/
theorem C52_not_general :
    (![0, 9 / 10, 0] : Vec K) ∈ region (resultPoints
      (getLatticePoints (!![1, 0, 0; 100, 1, 0; 0, 0, 1] : Cell K) (fun _ => 10))) ∧
    (![0, 9 / 10, 0] : Vec K) ∉ wignerSeitz (!![1, 0, 0; 100, 1, 0; 0, 0, 1] : Cell K) ∧
    SameLattice (!![1, 0, 0; 100, 1, 0; 0, 0, 1] : Cell K) (1 : Cell K) := by
  refine ⟨?_, ?_, ?_⟩
  · intro p hp
    rw [mem_resultPoints] at hp
    obtain ⟨m, hm, rfl⟩ := hp
    rw [region_iff]
    have h0 := hm 0
    have h1 := hm 1
    rw [abs_le] at h0 h1
    have key : ∀ a b : ℤ, -10 ≤ a → a ≤ 10 → -10 ≤ b → b ≤ 10 →
        0 ≤ 5 * ((a + 100 * b) ^ 2 + b ^ 2) - 9 * b := by
      intro a b ha ha' hb hb'
      by_cases hb0 : b ≤ 0
      · nlinarith [sq_nonneg (a + 100 * b), sq_nonneg b]
      · nlinarith [sq_nonneg b, mul_self_nonneg (a + 100 * b - 90)]
    have k := key (m 0) (m 1) (by exact_mod_cast h0.1) (by exact_mod_cast h0.2)
      (by exact_mod_cast h1.1) (by exact_mod_cast h1.2)
    have kK : (0 : K) ≤ 5 * (((m 0 : K) + 100 * m 1) ^ 2 + (m 1 : K) ^ 2) - 9 * m 1 := by
      have : ((0 : ℤ) : K) ≤ ((5 * ((m 0 + 100 * m 1) ^ 2 + m 1 ^ 2) - 9 * m 1 : ℤ) : K) := by
        exact_mod_cast k
      push_cast at this
      exact this
    simp [specPoint, dot]
    nlinarith [mul_self_nonneg (m 2 : K)]
  · intro hx
    have := hx ![0, 1, 0] (by
      rw [latticePoints_eq]
      refine ⟨![-100, 1, 0], ?_⟩
      funext j
      fin_cases j <;> simp [specPoint])
    rw [region_iff] at this
    simp [dot] at this
    norm_num at this
  · have e : (!![1, 0, 0; 100, 1, 0; 0, 0, 1] : Cell K) =
        (!![1, 0, 0; 100, 1, 0; 0, 0, 1] : Matrix (Fin 3) (Fin 3) ℤ).map (Int.cast : ℤ → K) * 1 := by
      ext i j; fin_cases i <;> fin_cases j <;> simp
    rw [e]
    apply sameLattice_of_unimodular
    simp [Matrix.det_fin_three]

/-- Non-vacuity of `C52_reduced`: the simple cubic cell is Niggli-reduced. -/
example : IsNiggli (1 : Cell ℚ) := by
  constructor <;> simp [dot]

end Wulfric
