import Verif.Lemmas.Voronoi
import Mathlib.Tactic.NormNum

/-! # C19, C20: lattice points -/

set_option linter.unusedSectionVars false

namespace Wulfric
variable {K : Type*} [Field K]

/-- Specification: the point with integer coordinates `n`. -/
def specPoint (cell : Cell K) (relative : Bool) (n : Fin 3 → ℤ) : Vec K :=
  if relative then fun j => (n j : K)
  else fun j => (n 0 : K) * cell 0 j + (n 1 : K) * cell 1 j + (n 2 : K) * cell 2 j

theorem toPoint_eq (cell : Cell K) (relative : Bool) : toPoint cell relative = specPoint cell relative := by
  funext n
  unfold toPoint specPoint rowTimes
  cases relative
  · simp only [Bool.false_eq_true, if_false]; funext j; rw [Fin.sum_univ_three]
  · rfl

/-- C19: length and row-major order of the flat form. -/
theorem C19_flat (cell : Cell K) (range : Fin 3 → ℕ) (relative : Bool) :
    ∃ l, getLatticePoints cell range relative true = .flat l ∧
      l.length = (2 * range 0 + 1) * (2 * range 1 + 1) * (2 * range 2 + 1) ∧
      ∀ i j k, i < 2 * range 0 + 1 → j < 2 * range 1 + 1 → k < 2 * range 2 + 1 →
        l[(i * (2 * range 1 + 1) + j) * (2 * range 2 + 1) + k]? =
          some (specPoint cell relative
            ![(i : ℤ) - range 0, (j : ℤ) - range 1, (k : ℤ) - range 2]) := by
  refine ⟨_, rfl, ?_, ?_⟩
  · rw [flat_eq, List.length_map, flatTriples_length]
  · intro i j k hi hj hk
    rw [flat_eq, List.getElem?_map, flatTriples_get range i j k hi hj hk, toPoint_eq]
    rfl

/-- C19: the points are exactly the points of the box. -/
theorem C19_mem (cell : Cell K) (range : Fin 3 → ℕ) (relative : Bool) (v : Vec K) :
    ∃ l, getLatticePoints cell range relative true = .flat l ∧
      (v ∈ l ↔ ∃ n : Fin 3 → ℤ, (∀ i, |n i| ≤ range i) ∧ v = specPoint cell relative n) := by
  refine ⟨_, rfl, ?_⟩
  rw [flat_eq, List.mem_map, toPoint_eq]
  constructor
  · rintro ⟨n, hn, rfl⟩; exact ⟨n, (mem_flatTriples range n).1 hn, rfl⟩
  · rintro ⟨n, hn, rfl⟩; exact ⟨n, (mem_flatTriples range n).2 hn, rfl⟩

theorem specPoint_inj [CharZero K] (cell : Cell K) (relative : Bool)
    (h : relative = true ∨ cell.det ≠ 0) : Function.Injective (specPoint cell relative) := by
  intro n m hnm
  cases relative with
  | true =>
    unfold specPoint at hnm
    simp only [if_true] at hnm
    funext j
    have := congrFun hnm j
    exact_mod_cast this
  | false =>
    have hd : cell.det ≠ 0 := by simpa using h
    have e : ∀ n : Fin 3 → ℤ, specPoint cell false n = Matrix.vecMul (fun i => (n i : K)) cell := by
      intro n; unfold specPoint; funext j
      simp [Matrix.vecMul, dotProduct, Fin.sum_univ_three]
    rw [e, e] at hnm
    have hu : IsUnit cell.det := Ne.isUnit hd
    have := congrArg (fun x => Matrix.vecMul x cell⁻¹) hnm
    simp only [Matrix.vecMul_vecMul, Matrix.mul_nonsing_inv _ hu, Matrix.vecMul_one] at this
    funext j
    have := congrFun this j
    exact_mod_cast this

/-- C19: every point is listed once (relative coordinates, or a non-singular cell). -/
theorem C19_nodup [CharZero K] (cell : Cell K) (range : Fin 3 → ℕ) (relative : Bool)
    (h : relative = true ∨ cell.det ≠ 0) :
    ∃ l, getLatticePoints cell range relative true = .flat l ∧ l.Nodup := by
  refine ⟨_, rfl, ?_⟩
  rw [flat_eq, toPoint_eq]
  exact (flatTriples_nodup range).map (specPoint_inj cell relative h)

/-- C19: the nested form has the documented shape, holds the same elements, and the flat
form is its row-major concatenation. -/
theorem C19_nested (cell : Cell K) (range : Fin 3 → ℕ) (relative : Bool) :
    ∃ L l, getLatticePoints cell range relative false = .nested L ∧
      getLatticePoints cell range relative true = .flat l ∧ l = L.flatten.flatten ∧
      L.length = 2 * range 0 + 1 ∧
      ∀ i j k, i < 2 * range 0 + 1 → j < 2 * range 1 + 1 → k < 2 * range 2 + 1 →
        ((L[i]?).bind (·[j]?)).bind (·[k]?) = some (specPoint cell relative
            ![(i : ℤ) - range 0, (j : ℤ) - range 1, (k : ℤ) - range 2]) := by
  refine ⟨_, _, rfl, rfl, rfl, ?_, ?_⟩
  · simp [latticePointsNested, meshPoints, lpRange_length]
  · intro i j k hi hj hk
    rw [← toPoint_eq]
    simp [latticePointsNested, meshPoints, lpRange_get, hi, hj, hk, toPoint]

/-- C20: the point list is symmetric under inversion through its middle. -/
theorem C20_inversion (cell : Cell K) (n i : ℕ) (hi : i < (2 * n + 1) ^ 3) :
    ∃ l, getLatticePoints cell (fun _ => n) false true = .flat l ∧
      ∃ p, l[i]? = some p ∧ l[(2 * n + 1) ^ 3 - 1 - i]? = some (fun j => - p j) := by
  refine ⟨_, rfl, ?_⟩
  rw [flat_eq, toPoint_eq]
  have hlen : (flatTriples fun _ => n).length = (2 * n + 1) ^ 3 := by
    rw [flatTriples_length]; ring
  have hget : (flatTriples fun _ => n)[i]? = some ((flatTriples fun _ => n)[i]'(by omega)) :=
    List.getElem?_eq_getElem (by omega)
  refine ⟨specPoint cell false ((flatTriples fun _ => n)[i]'(by omega)), ?_, ?_⟩
  · rw [List.getElem?_map, hget]; rfl
  · have hrev := congrArg (·[i]?) (flatTriples_reverse fun _ => n)
    rw [List.getElem?_reverse (by omega), hlen, List.getElem?_map, hget] at hrev
    rw [List.getElem?_map, hrev]
    simp only [Option.map_some, Option.some.injEq, specPoint, Bool.false_eq_true, if_false]
    funext j
    push_cast
    ring

/-- C20: the element at the index used by the Voronoi code is the origin. -/
theorem C20_centre (cell : Cell K) (n : ℕ) :
    ∃ l, getLatticePoints cell (fun _ => n) false true = .flat l ∧
      l[index000 n]? = some (fun _ => 0) := by
  obtain ⟨l, hl, -, h⟩ := C19_flat cell (fun _ => n) false
  refine ⟨l, hl, ?_⟩
  have := h n n n (by omega) (by omega) (by omega)
  have e : index000 n = (n * (2 * n + 1) + n) * (2 * n + 1) + n := by
    unfold index000
    apply Nat.div_eq_of_eq_mul_left (by norm_num)
    have : (2 * n + 1) ^ 3 = ((n * (2 * n + 1) + n) * (2 * n + 1) + n) * 2 + 1 := by ring
    rw [this]; simp
  rw [e, this]
  simp [specPoint]

/-- Non-vacuity: the default range gives 27 points, the last is the corner `(1,1,1)`. -/
example : ∃ l, getLatticePoints (1 : Cell ℚ) = .flat l ∧ l.length = 27 ∧ l[26]? = some ![1, 1, 1] := by
  obtain ⟨l, h1, h2, h3⟩ := C19_flat (1 : Cell ℚ) (fun _ => 1) false
  refine ⟨l, h1, h2, ?_⟩
  rw [h3 2 2 2 (by norm_num) (by norm_num) (by norm_num)]
  congr 1
  funext j
  fin_cases j <;> simp [specPoint, Matrix.one_apply]

end Wulfric
