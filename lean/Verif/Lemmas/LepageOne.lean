import Verif.Lemmas.LepageExact
import Verif.Lemmas.LepageLong

/-! # One twofold axis: the indices kept by the Le Page search -/

namespace Wulfric

open Matrix _root_.Spec

/-- Two integer vectors are parallel. -/
def parZ (x y : Fin 3 → ℤ) : Bool :=
  (x 0 * y 1 == x 1 * y 0) && (x 0 * y 2 == x 2 * y 0) && (x 1 * y 2 == x 2 * y 1)

theorem parZ_iff {x y : Fin 3 → ℤ} :
    parZ x y = true ↔ x 0 * y 1 = x 1 * y 0 ∧ x 0 * y 2 = x 2 * y 0 ∧ x 1 * y 2 = x 2 * y 1 := by
  simp [parZ, and_assoc]

/-- The pairs are exact when the vectors are parallel to the axis and to its normal. -/
def oneAxis (u h : Fin 3 → ℤ) : (Fin 3 → ℤ) → (Fin 3 → ℤ) → Bool := fun x y => parZ x u && parZ y h

theorem filterMap_const {α β : Type} (p : α → Bool) (b : β) (l : List α) :
    (l.filterMap fun a => bif p a then some b else none) = List.replicate (l.countP p) b := by
  induction l with
  | nil => rfl
  | cons a l ih =>
    rw [List.filterMap_cons, List.countP_cons]
    cases hp : p a with
    | true => simp [ih, List.replicate_succ]
    | false => simp [ih]

theorem sameAxis_self (u : Fin 3 → ℤ) : sameAxis u u = true := by simp [sameAxis]

theorem dropU_replicate (k : ℕ) (u : Fin 3 → ℤ) (R : List (Fin 3 → ℤ)) :
    dropU (List.replicate (k + 1) u ++ R) = dropU (u :: R) := by
  induction k with
  | zero => rfl
  | succ k ih =>
    rw [List.replicate_succ, List.cons_append, dropU, if_pos, ih]
    simp [List.replicate_succ, sameAxis_self]

theorem dropU_flatMap (k : (Fin 3 → ℤ) → ℕ) (l : List (Fin 3 → ℤ)) :
    dropU (l.flatMap fun u => List.replicate (k u) u) =
      dropU (l.filter fun u => decide (0 < k u)) := by
  induction l with
  | nil => rfl
  | cons u l ih =>
    rw [List.flatMap_cons]
    rcases Nat.eq_zero_or_pos (k u) with h0 | h0
    · rw [List.filter_cons_of_neg (by simp [h0]), h0]
      exact ih
    · obtain ⟨m, hm⟩ := Nat.exists_eq_add_of_lt h0
      rw [List.filter_cons_of_pos (by simpa using h0), show k u = m + 1 by omega,
        dropU_replicate, dropU, dropU, ih]
      have : ((l.flatMap fun u => List.replicate (k u) u).any fun v => sameAxis u v) =
          (l.filter fun u => decide (0 < k u)).any fun v => sameAxis u v := by
        rw [Bool.eq_iff_iff]
        simp only [List.any_eq_true, List.mem_flatMap, List.mem_replicate, List.mem_filter,
          decide_eq_true_eq]
        constructor
        · rintro ⟨x, ⟨a, ha, hk, rfl⟩, hs⟩
          exact ⟨x, ⟨ha, by omega⟩, hs⟩
        · rintro ⟨x, ⟨ha, hk⟩, hs⟩
          exact ⟨x, ⟨x, ha, by omega, rfl⟩, hs⟩
      rw [this]

/-- The greatest common divisor of the three components is 1. -/
def primZ (u : Fin 3 → ℤ) : Bool := Int.gcd (u 0) (Int.gcd (u 1) (u 2)) == 1

theorem parallel_table : ∀ u ∈ millerIndices 2, primZ u = true → ∀ x ∈ millerIndices 2,
    parZ x u = true → x = 0 ∨ x = u ∨ x = -u ∨ x = 2 • u ∨ x = -(2 • u) := by
  decide +kernel

theorem small_prim : ∀ h ∈ millerIndices 1, h ≠ 0 → primZ h = true := by decide +kernel

theorem small_double : ∀ h ∈ millerIndices 1, 2 • h ∈ millerIndices 2 ∧ h ∈ millerIndices 2 := by
  decide +kernel

/-- The indices of the axis are kept by the search (once `{0, 2}` is halved). -/
def keptAxis (u : Fin 3 → ℤ) : Bool :=
  decide (∃ i, 2 ≤ |u i|) ||
    ((decide (∀ i, 0 ≤ u i) || decide (∀ i, u i ≤ 0)) && decide (∃ i, u i = 0))

theorem table_one : ∀ u ∈ millerIndices 2, primZ u = true →
    ∃ v ∈ millerIndices 2, dropU ((millerIndices 2).filter fun x => parZ x u && decide (x ≠ 0)) = [v] ∧
      (keptAxis u = true → halveAxis v = u ∨ halveAxis v = -u) ∧
      (keptAxis u = false → halveAxis v = 2 • u ∨ halveAxis v = -(2 • u)) := by
  decide +kernel

theorem table_two : ∀ u ∈ millerIndices 2, primZ u = true →
    ∃ v ∈ millerIndices 2,
      dropU ((millerIndices 2).filter fun x => decide (x = u) || decide (x = -u)) = [v] ∧
      (halveAxis v = u ∨ halveAxis v = -u) := by
  decide +kernel

theorem intDot_smul (a b : ℤ) (x y : Fin 3 → ℤ) : intDot (a • x) (b • y) = a * b * intDot x y := by
  simp only [intDot, Pi.smul_apply, smul_eq_mul]; ring

theorem mem_one_two {h : Fin 3 → ℤ} (hh : h ∈ millerIndices 1) : h ∈ millerIndices 2 :=
  (small_double h hh).2

/-- The pairs of the search with the vector `x`, for one axis. -/
theorem exactPairs_one (u h : Fin 3 → ℤ) :
    dropU (exactPairs (oneAxis u h)) = dropU ((millerIndices 2).filter fun x =>
      decide (∃ y ∈ millerIndices 2, (intDot x y).natAbs = 2 ∧ parZ x u = true ∧ parZ y h = true)) := by
  unfold exactPairs
  have : (fun x => (millerIndices 2).filterMap fun y =>
      bif (intDot x y).natAbs == 2 && oneAxis u h x y then some x else none) =
      fun x => List.replicate ((millerIndices 2).countP fun y =>
        (intDot x y).natAbs == 2 && oneAxis u h x y) x := by
    funext x
    exact filterMap_const _ _ _
  rw [this, dropU_flatMap]
  congr 1
  apply List.filter_congr
  intro x _
  congr 1
  rw [eq_iff_iff, List.countP_pos_iff]
  simp [oneAxis]

theorem smul_cases {x u : Fin 3 → ℤ} (h : x = 0 ∨ x = u ∨ x = -u ∨ x = 2 • u ∨ x = -(2 • u)) :
    x = 0 ∨ ∃ k : ℤ, x = k • u ∧ (|k| = 1 ∨ |k| = 2) := by
  rcases h with h | h | h | h | h
  · exact Or.inl h
  · exact Or.inr ⟨1, by rw [h, one_smul], Or.inl rfl⟩
  · exact Or.inr ⟨-1, by rw [h, neg_smul, one_smul], Or.inl rfl⟩
  · exact Or.inr ⟨2, by rw [h]; simp, Or.inr rfl⟩
  · exact Or.inr ⟨-2, by rw [h]; simp, Or.inr rfl⟩

theorem parZ_smul (k : ℤ) (h : Fin 3 → ℤ) : parZ (k • h) h = true := by
  rw [parZ_iff]
  simp only [Pi.smul_apply, smul_eq_mul]
  refine ⟨by ring, by ring, by ring⟩

theorem natAbs_of_abs {k : ℤ} {n : ℕ} (h : |k| = n) : k.natAbs = n := by
  rw [Int.abs_eq_natAbs] at h
  exact_mod_cast h

/-- A primitive lattice: the axes kept by the search. -/
theorem axes_one {u h : Fin 3 → ℤ} (hu : u ∈ millerIndices 2) (hp : primZ u = true)
    (hh : h ∈ millerIndices 1) (hn : |intDot u h| = 1) :
    ∃ v, dropU (exactPairs (oneAxis u h)) = [v] ∧
      (keptAxis u = true → halveAxis v = u ∨ halveAxis v = -u) ∧
      (keptAxis u = false → halveAxis v = 2 • u ∨ halveAxis v = -(2 • u)) := by
  obtain ⟨v, -, hv, h1, h2⟩ := table_one u hu hp
  refine ⟨v, ?_, h1, h2⟩
  rw [exactPairs_one, ← hv]
  congr 1
  apply List.filter_congr
  intro x hx
  rw [Bool.eq_iff_iff]
  simp only [decide_eq_true_eq, Bool.and_eq_true, ne_eq]
  constructor
  · rintro ⟨y, -, hd, hpx, -⟩
    refine ⟨hpx, ?_⟩
    rintro rfl
    simp [intDot] at hd
  · rintro ⟨hpx, hx0⟩
    rcases smul_cases (parallel_table u hu hp x hx hpx) with h0 | ⟨k, rfl, hk⟩
    · exact absurd h0 hx0
    · rcases hk with hk | hk
      · refine ⟨(2 : ℤ) • h, ?_, ?_, hpx, parZ_smul _ _⟩
        · have := (small_double h hh).1
          simpa using this
        · rw [intDot_smul, Int.natAbs_mul, Int.natAbs_mul]
          have a1 : k.natAbs = 1 := natAbs_of_abs hk
          have a2 : (intDot u h).natAbs = 1 := natAbs_of_abs hn
          rw [a1, a2]; rfl
      · refine ⟨h, mem_one_two hh, ?_, hpx, ?_⟩
        · have : intDot (k • u) h = k * intDot u h := by
            have := intDot_smul k 1 u h
            rwa [one_smul, mul_one] at this
          rw [this, Int.natAbs_mul]
          have a1 : k.natAbs = 2 := natAbs_of_abs hk
          have a2 : (intDot u h).natAbs = 1 := natAbs_of_abs hn
          rw [a1, a2]
        · have := parZ_smul 1 h
          rwa [one_smul] at this

/-- A centred lattice: the axes kept by the search. -/
theorem axes_two' {u h : Fin 3 → ℤ} (hu : u ∈ millerIndices 2) (hp : primZ u = true)
    (hh : h ∈ millerIndices 2) (hph : primZ h = true) (hn : |intDot u h| = 2) :
    ∃ v, dropU (exactPairs (oneAxis u h)) = [v] ∧ (halveAxis v = u ∨ halveAxis v = -u) := by
  obtain ⟨v, -, hv, h1⟩ := table_two u hu hp
  refine ⟨v, ?_, h1⟩
  rw [exactPairs_one, ← hv]
  congr 1
  apply List.filter_congr
  intro x hx
  rw [Bool.eq_iff_iff]
  simp only [decide_eq_true_eq, Bool.or_eq_true]
  have key : ∀ k : ℤ, |k| = 1 → ∃ y ∈ millerIndices 2, (intDot (k • u) y).natAbs = 2 ∧
      parZ (k • u) u = true ∧ parZ y h = true := by
    intro k hk
    refine ⟨h, hh, ?_, parZ_smul _ _, ?_⟩
    · have : intDot (k • u) h = k * intDot u h := by
        have := intDot_smul k 1 u h
        rwa [one_smul, mul_one] at this
      rw [this, Int.natAbs_mul]
      have a1 : k.natAbs = 1 := natAbs_of_abs hk
      have a2 : (intDot u h).natAbs = 2 := natAbs_of_abs hn
      rw [a1, a2]
    · have := parZ_smul 1 h
      rwa [one_smul] at this
  constructor
  · rintro ⟨y, hy, hd, hpx, hpy⟩
    rcases smul_cases (parallel_table u hu hp x hx hpx) with h0 | ⟨k, rfl, hk⟩
    · rw [h0] at hd; simp [intDot] at hd
    · rcases smul_cases (parallel_table h hh hph y hy hpy) with
        h0 | ⟨m, rfl, hm⟩
      · rw [h0] at hd; simp [intDot] at hd
      · rw [intDot_smul, Int.natAbs_mul, Int.natAbs_mul] at hd
        have a2 : (intDot u h).natAbs = 2 := natAbs_of_abs hn
        rw [a2] at hd
        have hkm : k.natAbs * m.natAbs = 1 := by omega
        have : k.natAbs = 1 := Nat.eq_one_of_mul_eq_one_right hkm
        rcases Int.natAbs_eq k with e | e
        · left; rw [e, this]; simp
        · right; rw [e, this]; simp
  · rintro (rfl | rfl)
    · simpa using key 1 rfl
    · simpa using key (-1) rfl

theorem axes_two {u h : Fin 3 → ℤ} (hu : u ∈ millerIndices 2) (hp : primZ u = true)
    (hh : h ∈ millerIndices 1) (hn : |intDot u h| = 2) :
    ∃ v, dropU (exactPairs (oneAxis u h)) = [v] ∧ (halveAxis v = u ∨ halveAxis v = -u) :=
  axes_two' hu hp (mem_one_two hh)
    (small_prim h hh (by rintro rfl; simp [intDot] at hn)) hn

/-! ### The perpendicular vectors -/

/-- The lattice vectors of the search perpendicular to the axis with the normal `h`. -/
def plane (h : Fin 3 → ℤ) : List (Fin 3 → ℤ) :=
  (millerIndices 1).filter fun x => decide (x ≠ 0) && decide (intDot x h = 0)

/-- The vector product of integer vectors. -/
def crossZ (x y : Fin 3 → ℤ) : Fin 3 → ℤ :=
  ![x 1 * y 2 - x 2 * y 1, x 2 * y 0 - x 0 * y 2, x 0 * y 1 - x 1 * y 0]

/-- The vectors are the sum and the difference of two others. -/
def diagonals (h x y : Fin 3 → ℤ) : Bool :=
  (plane h).any fun p => (plane h).any fun q => decide (x = p + q) && decide (y = p - q) &&
    ([x, y].all fun z => [p, -p, q, -q].all fun w => decide (w ≠ z))

theorem plane_neg : ∀ h ∈ millerIndices 1, (plane h).map (fun x => -x) = (plane h).reverse ∧
    (plane h).Nodup := by decide +kernel

theorem plane_length : ∀ h ∈ millerIndices 1, 3 ≤ (plane h).length := by decide +kernel

theorem plane_pairs : ∀ h ∈ millerIndices 1, h ≠ 0 → ∀ x ∈ plane h, ∀ y ∈ plane h,
    y = x ∨ y = -x ∨ crossZ x y = h ∨ crossZ x y = -h ∨ diagonals h x y = true := by
  decide +kernel

end Wulfric
