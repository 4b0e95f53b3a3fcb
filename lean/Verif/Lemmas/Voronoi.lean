import Verif.Model.Voronoi
import Verif.Spec.Lattice
import Mathlib.Tactic.Ring
import Mathlib.Tactic.Linarith
import Mathlib.Algebra.BigOperators.Fin
import Mathlib.Data.List.Nodup

/-! # Helper lemmas for the lattice points and the Voronoi post-processing -/

set_option linter.unusedSectionVars false

namespace Wulfric

theorem lpRange_length (r : ℕ) : (lpRange r).length = 2 * r + 1 := by
  unfold lpRange arange
  simp only [List.length_map, List.length_range]
  omega

theorem lpRange_get (r i : ℕ) (h : i < 2 * r + 1) : (lpRange r)[i]? = some ((i : ℤ) - r) := by
  unfold lpRange arange
  rw [List.getElem?_map, List.getElem?_range (by omega)]
  simp only [Option.map_some, Option.some.injEq]
  ring

theorem mem_lpRange (r : ℕ) (x : ℤ) : x ∈ lpRange r ↔ -(r : ℤ) ≤ x ∧ x ≤ r := by
  unfold lpRange arange
  simp only [List.mem_map, List.mem_range]
  constructor
  · rintro ⟨k, hk, rfl⟩; omega
  · intro h
    exact ⟨(x + r).toNat, by omega, by omega⟩

theorem lpRange_nodup (r : ℕ) : (lpRange r).Nodup := by
  unfold lpRange arange
  apply List.Nodup.map _ List.nodup_range
  intro a b h
  simp only at h
  omega

theorem lpRange_reverse (r : ℕ) : (lpRange r).reverse = (lpRange r).map (fun x => -x) := by
  apply List.ext_getElem?
  intro i
  by_cases h : i < 2 * r + 1
  · rw [List.getElem?_reverse (by rw [lpRange_length]; exact h), lpRange_length,
      lpRange_get r _ (by omega), List.getElem?_map, lpRange_get r i h]
    simp only [Option.map_some, Option.some.injEq]
    omega
  · rw [List.getElem?_eq_none (by rw [List.length_reverse, lpRange_length]; omega),
      List.getElem?_eq_none (by rw [List.length_map, lpRange_length]; omega)]

/-- Element of the concatenation of lists of one common length. -/
theorem flatten_get {α : Type*} (L : List (List α)) (n : ℕ) (hL : ∀ l ∈ L, l.length = n)
    (i j : ℕ) (hj : j < n) : L.flatten[i * n + j]? = (L[i]?).bind (fun l => l[j]?) := by
  induction L generalizing i with
  | nil => simp
  | cons l L ih =>
    have hl := hL l (by simp)
    cases i with
    | zero =>
      simp only [zero_mul, zero_add, List.flatten_cons, List.getElem?_cons_zero, Option.bind_some]
      rw [List.getElem?_append_left (by omega)]
    | succ i =>
      simp only [List.flatten_cons, List.getElem?_cons_succ]
      rw [List.getElem?_append_right (by rw [hl]; nlinarith)]
      rw [← ih (fun l' h' => hL l' (by simp [h'])) i]
      congr 1
      rw [hl]
      have : (i + 1) * n = i * n + n := by ring
      omega

theorem flatten_length {α : Type*} (L : List (List α)) (n : ℕ) (hL : ∀ l ∈ L, l.length = n) :
    L.flatten.length = L.length * n := by
  induction L with
  | nil => simp
  | cons l L ih =>
    rw [List.flatten_cons, List.length_append, hL l (by simp), ih (fun l' h' => hL l' (by simp [h'])),
      List.length_cons]
    ring

/-- Integer triples in the order of the flat array. -/
def flatTriples (range : Fin 3 → ℕ) : List (Fin 3 → ℤ) := (meshPoints range).flatten.flatten

variable {K : Type*} [Field K]

/-- The map from integer triples to points. -/
def toPoint (cell : Cell K) (relative : Bool) (v : Fin 3 → ℤ) : Vec K :=
  if relative then fun j => (v j : K) else rowTimes v cell

theorem flat_eq (cell : Cell K) (range : Fin 3 → ℕ) (relative : Bool) :
    (latticePointsNested cell range relative).flatten.flatten =
      (flatTriples range).map (toPoint cell relative) := by
  unfold latticePointsNested flatTriples
  simp only [List.map_flatten]
  rfl

theorem flatTriples_get (range : Fin 3 → ℕ) (i j k : ℕ) (hi : i < 2 * range 0 + 1)
    (hj : j < 2 * range 1 + 1) (hk : k < 2 * range 2 + 1) :
    (flatTriples range)[(i * (2 * range 1 + 1) + j) * (2 * range 2 + 1) + k]? =
      some ![(i : ℤ) - range 0, (j : ℤ) - range 1, (k : ℤ) - range 2] := by
  unfold flatTriples
  rw [flatten_get _ (2 * range 2 + 1) _ _ k hk, flatten_get _ (2 * range 1 + 1) _ i j hj]
  · unfold meshPoints
    simp [List.getElem?_map, lpRange_get, hi, hj, hk]
  · intro l hl
    unfold meshPoints at hl
    simp only [List.mem_map] at hl
    obtain ⟨x, -, rfl⟩ := hl
    simp [lpRange_length]
  · intro l hl
    unfold meshPoints at hl
    simp only [List.mem_flatten, List.mem_map] at hl
    obtain ⟨_, ⟨x, -, rfl⟩, h⟩ := hl
    simp only [List.mem_map] at h
    obtain ⟨y, -, rfl⟩ := h
    simp [lpRange_length]

theorem flatTriples_length (range : Fin 3 → ℕ) :
    (flatTriples range).length = (2 * range 0 + 1) * (2 * range 1 + 1) * (2 * range 2 + 1) := by
  unfold flatTriples
  rw [flatten_length _ (2 * range 2 + 1), flatten_length _ (2 * range 1 + 1)]
  · simp [meshPoints, lpRange_length]
  · intro l hl
    unfold meshPoints at hl
    simp only [List.mem_map] at hl
    obtain ⟨x, -, rfl⟩ := hl
    simp [lpRange_length]
  · intro l hl
    unfold meshPoints at hl
    simp only [List.mem_flatten, List.mem_map] at hl
    obtain ⟨_, ⟨x, -, rfl⟩, h⟩ := hl
    simp only [List.mem_map] at h
    obtain ⟨y, -, rfl⟩ := h
    simp [lpRange_length]

theorem mem_flatTriples (range : Fin 3 → ℕ) (v : Fin 3 → ℤ) :
    v ∈ flatTriples range ↔ ∀ i, |v i| ≤ range i := by
  unfold flatTriples meshPoints
  simp only [List.mem_flatten, List.mem_map]
  constructor
  · rintro ⟨_, ⟨_, ⟨x, hx, rfl⟩, h⟩, h'⟩
    simp only [List.mem_map] at h
    obtain ⟨y, hy, rfl⟩ := h
    simp only [List.mem_map] at h'
    obtain ⟨z, hz, rfl⟩ := h'
    rw [mem_lpRange] at hx hy hz
    intro i
    rw [abs_le]
    fin_cases i <;> simpa
  · intro h
    refine ⟨(lpRange (range 2)).map fun z => ![v 0, v 1, z], ⟨_, ⟨v 0, ?_, rfl⟩, ?_⟩, ?_⟩
    · rw [mem_lpRange]; exact abs_le.1 (h 0)
    · simp only [List.mem_map]
      exact ⟨v 1, by rw [mem_lpRange]; exact abs_le.1 (h 1), rfl⟩
    · simp only [List.mem_map]
      refine ⟨v 2, by rw [mem_lpRange]; exact abs_le.1 (h 2), ?_⟩
      ext i; fin_cases i <;> rfl

theorem flatTriples_eq (range : Fin 3 → ℕ) :
    flatTriples range = (lpRange (range 0)).flatMap fun x => (lpRange (range 1)).flatMap fun y =>
      (lpRange (range 2)).map fun z => ![x, y, z] := by
  unfold flatTriples meshPoints
  simp only [List.flatMap, List.flatten_flatten, List.map_map]
  rfl

theorem flatTriples_reverse (range : Fin 3 → ℕ) :
    (flatTriples range).reverse = (flatTriples range).map (fun v i => - v i) := by
  have e : ∀ x y : ℤ, (fun (z : ℤ) (i : Fin 3) => - (![x, y, z] : Fin 3 → ℤ) i) =
      fun z => ![-x, -y, -z] := by
    intro x y; funext z i; fin_cases i <;> rfl
  rw [flatTriples_eq]
  simp only [List.reverse_flatMap, Function.comp_def, ← List.map_reverse, lpRange_reverse,
    List.flatMap_map, List.map_flatMap, List.map_map, e]

theorem flatTriples_nodup (range : Fin 3 → ℕ) : (flatTriples range).Nodup := by
  rw [flatTriples_eq, List.nodup_flatMap]
  refine ⟨?_, ?_⟩
  · intro x _
    rw [List.nodup_flatMap]
    refine ⟨?_, ?_⟩
    · intro y _
      apply List.Nodup.map _ (lpRange_nodup _)
      intro a b h
      simpa using congrFun h 2
    · refine (lpRange_nodup (range 1)).imp ?_
      intro a b hab
      rw [Function.onFun, List.disjoint_left]
      intro v h1 h2
      simp only [List.mem_map] at h1 h2
      obtain ⟨z, -, rfl⟩ := h1
      obtain ⟨z', -, h⟩ := h2
      exact hab (by simpa using (congrFun h 1).symm)
  · refine (lpRange_nodup (range 0)).imp ?_
    intro a b hab
    rw [Function.onFun, List.disjoint_left]
    intro v h1 h2
    simp only [List.mem_map, List.mem_flatMap] at h1 h2
    obtain ⟨y, -, z, -, rfl⟩ := h1
    obtain ⟨y', -, z', -, h⟩ := h2
    exact hab (by simpa using (congrFun h 0).symm)

end Wulfric
