import Verif.Model.Unique
import Mathlib.Tactic.Ring
import Mathlib.Tactic.Linarith
import Mathlib.Algebra.Order.Floor.Ring
import Mathlib.Analysis.Real.Sqrt

/-! # Lemmas on duplicate removal -/

set_option linter.unusedSectionVars false

namespace Wulfric
variable {K : Type*} [Field K] [LinearOrder K] [IsStrictOrderedRing K] [FloorRing K]

theorem npRint_close (x : K) : |x - (npRint x : K)| ≤ 1 / 2 := by
  have h1 := Int.floor_le x
  have h2 := Int.lt_floor_add_one x
  unfold npRint
  simp only
  split_ifs with a b c <;> rw [abs_le] <;> push_cast <;> constructor <;> linarith

theorem npRint_nat (n : ℕ) : npRint (n : K) = n := by
  unfold npRint
  simp

theorem pyMod1_mem (x : K) : 0 ≤ pyMod1 x ∧ pyMod1 x < 1 := by
  unfold pyMod1
  have h1 := Int.floor_le x
  have h2 := Int.lt_floor_add_one x
  constructor <;> linarith

theorem pyMod1_twice (x : K) : pyMod1 (pyMod1 x) = pyMod1 x := by
  obtain ⟨h1, h2⟩ := pyMod1_mem x
  have : ⌊pyMod1 x⌋ = 0 := Int.floor_eq_zero_iff.2 ⟨h1, h2⟩
  conv_lhs => unfold pyMod1
  simp only [pyMod1] at this ⊢
  rw [this]; simp

theorem sameAtom_refl (tol : K) (h : 0 ≤ tol) (p : Vec K) : sameAtom tol p p = true := by
  simp only [sameAtom, sub_self, Bool.and_eq_true, decide_eq_true_eq]
  exact ⟨h, by ring_nf; positivity⟩

theorem sameAtom_symm (tol : K) (p q : Vec K) : sameAtom tol p q = sameAtom tol q p := by
  unfold sameAtom
  congr 2
  rw [show (p 0 - q 0) ^ 2 + (p 1 - q 1) ^ 2 + (p 2 - q 2) ^ 2 =
    (q 0 - p 0) ^ 2 + (q 1 - p 1) ^ 2 + (q 2 - p 2) ^ 2 by ring]

/-- The square-root free form of `norm <= tol`. -/
theorem sameAtom_iff_norm (tol : ℝ) (p q : Vec ℝ) : sameAtom tol p q = true ↔
    Real.sqrt ((p 0 - q 0) ^ 2 + (p 1 - q 1) ^ 2 + (p 2 - q 2) ^ 2) ≤ tol := by
  simp only [sameAtom, Bool.and_eq_true, decide_eq_true_eq]
  rw [Real.sqrt_le_iff]

theorem uniqueLoopFuel_irrel (same : ℕ → ℕ → Bool) (n : ℕ) : ∀ (m : ℕ) (l : List ℕ),
    l.length ≤ n → l.length ≤ m → uniqueLoopFuel same n l = uniqueLoopFuel same m l := by
  induction n with
  | zero =>
    intro m l h1 _
    have : l = [] := List.length_eq_zero_iff.1 (Nat.le_zero.1 h1)
    subst this
    cases m <;> rfl
  | succ n ih =>
    intro m l h1 h2
    cases l with
    | nil => cases m <;> rfl
    | cons i rest =>
      cases m with
      | zero => simp at h2
      | succ m =>
        simp only [uniqueLoopFuel]
        congr 1
        have hl := List.length_filter_le (fun j => !same i j) rest
        simp only [List.length_cons] at h1 h2
        exact ih m _ (by omega) (by omega)

theorem uniqueLoop_nil (same : ℕ → ℕ → Bool) : uniqueLoop same [] = [] := rfl

/-- The loop as a recursion without a bound. -/
theorem uniqueLoop_cons (same : ℕ → ℕ → Bool) (i : ℕ) (rest : List ℕ) :
    uniqueLoop same (i :: rest) = i :: uniqueLoop same (rest.filter fun j => !same i j) := by
  unfold uniqueLoop
  simp only [List.length_cons, uniqueLoopFuel]
  congr 1
  exact uniqueLoopFuel_irrel same _ _ _ (List.length_filter_le _ _) le_rfl

/-- What the loop does for an increasing list of indices. -/
theorem uniqueLoop_spec (same : ℕ → ℕ → Bool) (n : ℕ) : ∀ l : List ℕ, l.length ≤ n →
    l.Pairwise (· < ·) →
    (uniqueLoop same l).Sublist l ∧
    (uniqueLoop same l).Pairwise (fun i j => same i j = false) ∧
    (∀ j ∈ l, ∃ i ∈ uniqueLoop same l, i ≤ j ∧ (i = j ∨ same i j = true)) := by
  induction n with
  | zero =>
    intro l hl _
    have : l = [] := List.length_eq_zero_iff.1 (Nat.le_zero.1 hl)
    subst this
    simp [uniqueLoop_nil]
  | succ n ih =>
    intro l hl hs
    cases l with
    | nil => simp [uniqueLoop_nil]
    | cons i rest =>
      rw [List.pairwise_cons] at hs
      have hlen : (rest.filter fun j => !same i j).length ≤ n :=
        (List.length_filter_le _ _).trans (by simpa using hl)
      obtain ⟨h1, h2, h3⟩ := ih _ hlen (hs.2.filter _)
      rw [uniqueLoop_cons]
      refine ⟨?_, ?_, ?_⟩
      · exact (h1.trans List.filter_sublist).cons_cons i
      · rw [List.pairwise_cons]
        refine ⟨?_, h2⟩
        intro j hj
        have := h1.subset hj
        simpa using (List.mem_filter.1 this).2
      · intro j hj
        rcases List.mem_cons.1 hj with rfl | hj
        · exact ⟨j, by simp, le_refl _, Or.inl rfl⟩
        · by_cases hsame : same i j = true
          · exact ⟨i, by simp, (hs.1 j hj).le, Or.inr hsame⟩
          · obtain ⟨k, hk, hle, hor⟩ := h3 j (List.mem_filter.2 ⟨hj, by simpa using hsame⟩)
            exact ⟨k, List.mem_cons_of_mem _ hk, hle, hor⟩

/-- With a transitive relation the kept indices are those with no earlier partner. -/
theorem uniqueLoop_filter (same : ℕ → ℕ → Bool) (l : List ℕ) (hs : l.Pairwise (· < ·))
    (trans : ∀ i ∈ l, ∀ j ∈ l, ∀ k ∈ l, same i j = true → same j k = true → same i k = true) :
    ∀ i, i ∈ uniqueLoop same l ↔ i ∈ l ∧ ∀ j ∈ l, j < i → same j i = false := by
  obtain ⟨h1, h2, h3⟩ := uniqueLoop_spec same l.length l le_rfl hs
  have hs' : (uniqueLoop same l).Pairwise (· < ·) := hs.sublist h1
  have hpair : ∀ i ∈ uniqueLoop same l, ∀ j ∈ uniqueLoop same l, i < j → same i j = false := by
    intro i hi j hj hij
    have hand := hs'.and h2
    rcases List.mem_iff_getElem.1 hi with ⟨a, ha, rfl⟩
    rcases List.mem_iff_getElem.1 hj with ⟨b, hb, rfl⟩
    rw [List.pairwise_iff_getElem] at hs' h2
    rcases lt_trichotomy a b with h | h | h
    · exact h2 a b ha hb h
    · subst h; exact absurd hij (lt_irrefl _)
    · exact absurd (hs' b a hb ha h) (not_lt.2 hij.le)
  intro i
  constructor
  · intro hi
    refine ⟨h1.subset hi, ?_⟩
    intro j hj hji
    obtain ⟨k, hk, hkj, hor⟩ := h3 j hj
    have hki : k < i := lt_of_le_of_lt hkj hji
    have hn := hpair k hk i hi hki
    by_contra hc
    have hc : same j i = true := by simpa using hc
    rcases hor with rfl | hor
    · rw [hn] at hc; cases hc
    · rw [trans k (h1.subset hk) j hj i (h1.subset hi) hor hc] at hn; cases hn
  · rintro ⟨hi, hn⟩
    obtain ⟨k, hk, hki, hor⟩ := h3 i hi
    rcases hor with rfl | hor
    · exact hk
    · rcases Nat.lt_or_eq_of_le hki with h | h
      · rw [hn k (h1.subset hk) h] at hor; cases hor
      · rw [← h]; exact hk

/-- Counting: if every kept index has exactly `r` partners then `r` times their number is
the number of all indices (for an equivalence relation). -/
theorem uniqueLoop_count (same : ℕ → ℕ → Bool) (r n : ℕ) : ∀ l : List ℕ, l.length ≤ n →
    (∀ i ∈ l, same i i = true) →
    (∀ i ∈ l, ∀ j ∈ l, same i j = same j i) →
    (∀ i ∈ l, ∀ j ∈ l, ∀ k ∈ l, same i j = true → same j k = true → same i k = true) →
    (∀ i ∈ l, l.countP (same i) = r) →
    (uniqueLoop same l).length * r = l.length := by
  induction n with
  | zero =>
    intro l hl _ _ _ _
    have : l = [] := List.length_eq_zero_iff.1 (Nat.le_zero.1 hl)
    subst this
    simp [uniqueLoop_nil]
  | succ n ih =>
    intro l hl refl symm trans hc
    cases l with
    | nil => simp [uniqueLoop_nil]
    | cons i rest =>
      have hlen : (rest.filter fun j => !same i j).length ≤ n :=
        (List.length_filter_le _ _).trans (by simpa using hl)
      have sub : ∀ j ∈ rest.filter (fun j => !same i j), j ∈ i :: rest := fun j hj =>
        List.mem_cons_of_mem _ (List.mem_filter.1 hj).1
      have hii := refl i (by simp)
      have hi := hc i (by simp)
      rw [List.countP_cons_of_pos hii] at hi
      have hrest := ih _ hlen (fun j hj => refl j (sub j hj))
        (fun j hj k hk => symm j (sub j hj) k (sub k hk))
        (fun j hj k hk m hm => trans j (sub j hj) k (sub k hk) m (sub m hm)) (by
          intro j hj
          have hj' := List.mem_filter.1 hj
          have hnot : same i j = false := by simpa using hj'.2
          have := hc j (sub j hj)
          rw [List.countP_cons_of_neg (by
            rw [symm j (sub j hj) i (by simp), hnot]; simp)] at this
          rw [← this, List.countP_filter]
          apply List.countP_congr
          intro k hk
          have hk' : k ∈ i :: rest := List.mem_cons_of_mem _ hk
          constructor
          · intro h; simp only [Bool.and_eq_true] at h; exact h.1
          · intro h
            simp only [Bool.and_eq_true, h, true_and, Bool.not_eq_true']
            by_contra hcon
            have hik : same i k = true := by simpa using hcon
            have hkj : same k j = true := by rw [symm k hk' j (sub j hj)]; exact h
            rw [trans i (by simp) k hk' j (sub j hj) hik hkj] at hnot
            cases hnot)
      rw [uniqueLoop_cons, List.length_cons, Nat.add_mul, hrest]
      have hsplit : (rest.filter fun j => !same i j).length + rest.countP (same i) =
          rest.length := by
        have := List.length_eq_countP_add_countP (same i) (l := rest)
        rw [← List.countP_eq_length_filter]
        have e : rest.countP (fun j => !same i j) = rest.countP (fun a => decide ¬same i a = true) := by
          apply List.countP_congr; intro k _; simp
        rw [e]; omega
      rw [List.length_cons]
      omega

theorem filter_mem_sublist {s l : List ℕ} (h : s.Sublist l) (hn : l.Nodup) :
    l.filter (fun i => decide (i ∈ s)) = s := by
  induction h with
  | slnil => rfl
  | @cons s l a h ih =>
    rw [List.nodup_cons] at hn
    rw [List.filter_cons_of_neg (by simpa using fun hc => hn.1 (h.subset hc))]
    exact ih hn.2
  | @cons_cons s l a h ih =>
    rw [List.nodup_cons] at hn
    rw [List.filter_cons_of_pos (by simp)]
    congr 1
    rw [← ih hn.2]
    apply List.filter_congr
    intro i hi
    have : i ≠ a := fun e => hn.1 (e ▸ hi)
    rw [ih hn.2]
    simp [this]

theorem maskSelect_eq {α : Type*} (d : α) (l : List α) (kept : List ℕ)
    (hs : kept.Sublist (List.range l.length)) :
    maskSelect l kept = kept.map fun i => l.getD i d := by
  have hz : l.zipIdx = (List.range l.length).map fun i => (l.getD i d, i) := by
    apply List.ext_getElem
    · simp
    · intro i h1 h2
      simp only [List.length_zipIdx] at h1
      simp [h1]
  have hf : (List.range l.length).filter (fun i => decide (i ∈ kept)) = kept := by
    exact filter_mem_sublist hs List.nodup_range
  unfold maskSelect
  rw [hz, List.filter_map, List.map_map]
  have e : ((fun p : α × ℕ => decide (p.2 ∈ kept)) ∘ fun i => (l.getD i d, i)) =
      fun i => decide (i ∈ kept) := by ext; simp
  rw [e, hf]
  apply List.map_congr_left
  intro i _
  rfl

end Wulfric
