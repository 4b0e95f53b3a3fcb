import Verif.Lemmas.Unique
import Mathlib.Algebra.Order.Floor.Semiring
import Mathlib.Data.Rat.Floor

/-! # C35: removal of duplicate atoms -/

set_option linter.unusedSectionVars false

namespace Wulfric
variable {K : Type*} [Field K] [LinearOrder K] [IsStrictOrderedRing K] [FloorRing K]

/-- Atoms at `p` and `q` (relative coordinates) are closer than the tolerance. -/
def Spec.Coincide (tol : K) (p q : Vec K) : Prop :=
  0 ≤ tol ∧ (p 0 - q 0) ^ 2 + (p 1 - q 1) ^ 2 + (p 2 - q 2) ^ 2 ≤ tol ^ 2

/-- `q` is `p` moved by a lattice vector into the cell at the origin and rounded to eight
digits. -/
def Spec.WrappedTo (p q : Vec K) : Prop :=
  ∀ j, 0 ≤ q j ∧ q j < 1 ∧ (∃ m : ℤ, q j = m / 10 ^ 8) ∧
    ∃ n : ℤ, |p j - (n : K) - q j| ≤ 1 / 2 / 10 ^ 8

open Spec

theorem sameAtom_iff (tol : K) (p q : Vec K) : sameAtom tol p q = true ↔ Coincide tol p q := by
  simp [sameAtom, Coincide]

theorem wrapped (v : Vec K) : WrappedTo v (reducePosition v) := by
  intro j
  unfold reducePosition
  rw [pyMod1_twice]
  obtain ⟨h1, h2⟩ := pyMod1_mem (npRound8 (v j))
  refine ⟨h1, h2, ?_, ?_⟩
  · refine ⟨npRint (v j * 10 ^ 8) - ⌊npRound8 (v j)⌋ * 10 ^ 8, ?_⟩
    unfold pyMod1
    nth_rewrite 1 [npRound8]
    push_cast
    field_simp
    ring
  · refine ⟨⌊npRound8 (v j)⌋, ?_⟩
    unfold pyMod1
    have h := npRint_close (v j * 10 ^ 8)
    have e : v j - (⌊npRound8 (v j)⌋ : K) - (npRound8 (v j) - (⌊npRound8 (v j)⌋ : K)) =
        (v j * 10 ^ 8 - (npRint (v j * 10 ^ 8) : K)) / 10 ^ 8 := by
      unfold npRound8
      field_simp
      ring
    rw [e, abs_div, abs_of_pos (by positivity : (0 : K) < 10 ^ 8)]
    exact div_le_div_of_nonneg_right h (by positivity)

/-- `C35_kept`, with the positions as computed. -/
theorem unique_kept (positions : List (Vec K)) (types : List ℤ) (repetition tol : K)
    (ps' : List (Vec K)) (ts' : List ℤ)
    (h : getUnique positions types repetition tol = .ok (ps', ts')) :
    ∃ (qs : List (Vec K)) (kept : List ℕ), qs = positions.map reducePosition ∧
      List.Forall₂ WrappedTo positions qs ∧
      kept.Pairwise (· < ·) ∧ (∀ i ∈ kept, i < positions.length) ∧
      ps' = kept.map (fun i => qs.getD i 0) ∧ ts' = kept.map (fun i => types.getD i 0) ∧
      (∀ i ∈ kept, ∀ j ∈ kept, i ≠ j → ¬ Coincide tol (qs.getD i 0) (qs.getD j 0)) ∧
      (∀ j < positions.length, ∃ i ∈ kept, i ≤ j ∧
        (i = j ∨ Coincide tol (qs.getD i 0) (qs.getD j 0))) ∧
      (0 ≤ tol → (∀ p ∈ qs, ∀ q ∈ qs, ∀ r ∈ qs, Coincide tol p q → Coincide tol q r → Coincide tol p r) →
        (∀ i, i ∈ kept ↔ i < positions.length ∧
          ∀ j < i, ¬ Coincide tol (qs.getD j 0) (qs.getD i 0)) ∧
        ∃ r : ℕ, |repetition - r| ≤ 1 / 2 ∧ ps'.length * r = positions.length) := by
  unfold getUnique at h
  simp only at h
  set qs := positions.map reducePosition with hqs
  split_ifs at h with h1 h2 h3
  have hr : List.Pairwise (· < ·) (List.range qs.length) := List.pairwise_lt_range
  obtain ⟨u1, u2, u3⟩ := uniqueLoop_spec
    (fun i j => sameAtom tol (qs.getD i 0) (qs.getD j 0)) _ (List.range qs.length) le_rfl hr
  set kept := uniqueLoop (fun i j => sameAtom tol (qs.getD i 0) (qs.getD j 0))
    (List.range qs.length) with hkept
  have hlen : qs.length = positions.length := by simp [hqs]
  cases h
  have hps := maskSelect_eq (0 : Vec K) qs kept u1
  refine ⟨qs, kept, hqs, ?_, hr.sublist u1, ?_, hps, ?_, ?_, ?_, ?_⟩
  · rw [hqs, List.forall₂_map_right_iff]
    exact List.forall₂_same.2 fun v _ => wrapped v
  · intro i hi
    have := List.mem_range.1 (u1.subset hi)
    omega
  · exact maskSelect_eq (0 : ℤ) types kept (by rw [h3]; exact u1)
  · intro i hi j hj hij hc
    have hp : kept.Pairwise (fun i j => i < j ∧ sameAtom tol (qs.getD i 0) (qs.getD j 0) = false) :=
      (hr.sublist u1).and u2
    rcases List.mem_iff_getElem.1 hi with ⟨a, ha, rfl⟩
    rcases List.mem_iff_getElem.1 hj with ⟨b, hb, rfl⟩
    rw [List.pairwise_iff_getElem] at hp
    rcases lt_trichotomy a b with h | h | h
    · have := (hp a b ha hb h).2
      rw [(sameAtom_iff tol _ _).2 hc] at this; cases this
    · subst h; exact hij rfl
    · have := (hp b a hb ha h).2
      rw [sameAtom_symm, (sameAtom_iff tol _ _).2 hc] at this; cases this
  · intro j hj
    obtain ⟨i, hi, hle, hor⟩ := u3 j (List.mem_range.2 (by omega))
    exact ⟨i, hi, hle, hor.imp id (sameAtom_iff tol _ _).1⟩
  · intro ht htr
    have tr : ∀ i ∈ List.range qs.length, ∀ j ∈ List.range qs.length, ∀ k ∈ List.range qs.length,
        sameAtom tol (qs.getD i 0) (qs.getD j 0) = true →
        sameAtom tol (qs.getD j 0) (qs.getD k 0) = true →
        sameAtom tol (qs.getD i 0) (qs.getD k 0) = true := by
      intro i hi j hj k hk a b
      have mem : ∀ i ∈ List.range qs.length, qs.getD i 0 ∈ qs := by
        intro i hi
        have hi := List.mem_range.1 hi
        simp [List.getD, hi]
      exact (sameAtom_iff _ _ _).2 (htr _ (mem i hi) _ (mem j hj) _ (mem k hk)
        ((sameAtom_iff _ _ _).1 a) ((sameAtom_iff _ _ _).1 b))
    constructor
    · intro i
      rw [hkept, uniqueLoop_filter _ _ hr tr i]
      simp only [List.mem_range, hlen]
      constructor
      · rintro ⟨a, b⟩
        refine ⟨a, fun j hj hc => ?_⟩
        have := b j (hj.trans a) hj
        rw [(sameAtom_iff tol _ _).2 hc] at this; cases this
      · rintro ⟨a, b⟩
        refine ⟨a, fun j _ hj => ?_⟩
        by_contra hc
        exact b j hj ((sameAtom_iff tol _ _).1 (by simpa using hc))
    · simp only [List.all_eq_true, decide_eq_true_eq] at h1
      obtain ⟨p, hp⟩ := List.exists_mem_of_ne_nil qs (fun hc => h2 (by rw [hc]; rfl))
      refine ⟨nEquiv tol qs p, ?_, ?_⟩
      · have := npRint_close repetition
        rw [← h1 p hp] at this
        simpa using this
      · have hcount : ∀ q : Vec K, (List.range qs.length).countP
            (fun j => sameAtom tol q (qs.getD j 0)) = nEquiv tol qs q := by
          intro q
          unfold nEquiv
          have e : qs = (List.range qs.length).map (fun j => qs.getD j 0) := by
            apply List.ext_getElem
            · simp
            · intro i a b; simp [a]
          conv_rhs => rw [e]
          rw [List.countP_map]
          rfl
        have mem : ∀ i ∈ List.range qs.length, qs.getD i 0 ∈ qs := by
          intro i hi
          have hi := List.mem_range.1 hi
          simp [List.getD, hi]
        have hall : ∀ i ∈ List.range qs.length, (List.range qs.length).countP
            (fun j => sameAtom tol (qs.getD i 0) (qs.getD j 0)) = nEquiv tol qs p := by
          intro i hi
          rw [hcount]
          have a := h1 _ (mem i hi)
          have b := h1 p hp
          have : (nEquiv tol qs (qs.getD i 0) : ℤ) = nEquiv tol qs p := a.trans b.symm
          exact_mod_cast this
        have := uniqueLoop_count (fun i j => sameAtom tol (qs.getD i 0) (qs.getD j 0))
          (nEquiv tol qs p) _ (List.range qs.length) le_rfl
          (fun i _ => sameAtom_refl tol ht _) (fun i _ j _ => sameAtom_symm tol _ _) tr hall
        rw [hps, List.length_map, ← hlen]
        rw [List.length_range] at this
        exact this

/-- C35: what is returned. The positions are first moved into the cell (`qs`); the atoms
with the indices `kept` are returned in their order; no two of them coincide, and every atom
coincides with (or is) a kept one which is not after it. -/
theorem C35_kept (positions : List (Vec K)) (types : List ℤ) (repetition tol : K)
    (ps' : List (Vec K)) (ts' : List ℤ)
    (h : getUnique positions types repetition tol = .ok (ps', ts')) :
    ∃ (qs : List (Vec K)) (kept : List ℕ), List.Forall₂ WrappedTo positions qs ∧
      kept.Pairwise (· < ·) ∧ (∀ i ∈ kept, i < positions.length) ∧
      ps' = kept.map (fun i => qs.getD i 0) ∧ ts' = kept.map (fun i => types.getD i 0) ∧
      (∀ i ∈ kept, ∀ j ∈ kept, i ≠ j → ¬ Coincide tol (qs.getD i 0) (qs.getD j 0)) ∧
      (∀ j < positions.length, ∃ i ∈ kept, i ≤ j ∧
        (i = j ∨ Coincide tol (qs.getD i 0) (qs.getD j 0))) ∧
      (0 ≤ tol → (∀ p ∈ qs, ∀ q ∈ qs, ∀ r ∈ qs, Coincide tol p q → Coincide tol q r → Coincide tol p r) →
        (∀ i, i ∈ kept ↔ i < positions.length ∧
          ∀ j < i, ¬ Coincide tol (qs.getD j 0) (qs.getD i 0)) ∧
        ∃ r : ℕ, |repetition - r| ≤ 1 / 2 ∧ ps'.length * r = positions.length) := by
  obtain ⟨qs, kept, -, h⟩ := unique_kept positions types repetition tol ps' ts' h
  exact ⟨qs, kept, h⟩

/-- The number of atoms of the list that coincide with `p` (it counts `p` itself). -/
def Spec.Twins (tol : K) (qs : List (Vec K)) (p : Vec K) (n : ℕ) : Prop :=
  ∃ s : Finset (Fin qs.length), s.card = n ∧ ∀ i, i ∈ s ↔ Coincide tol p (qs.get i)

theorem twins_iff (tol : K) (qs : List (Vec K)) (p : Vec K) (n : ℕ) :
    Twins tol qs p n ↔ nEquiv tol qs p = n := by
  classical
  have key : ∀ qs : List (Vec K),
      (Finset.univ.filter fun i : Fin qs.length => Coincide tol p (qs.get i)).card =
      nEquiv tol qs p := by
    intro qs
    unfold nEquiv
    induction qs with
    | nil => simp
    | cons q qs ih =>
      rw [List.countP_cons, ← ih]
      simp only [List.length_cons]
      rw [Fin.card_filter_univ_succ']
      simp only [List.get_cons_zero, List.get_cons_succ']
      rw [add_comm]
      congr 1
      by_cases h : Coincide tol p q
      · simp [h, (sameAtom_iff tol p q).2 h]
      · have : ¬ sameAtom tol p q = true := fun hc => h ((sameAtom_iff tol p q).1 hc)
        simp [h, this]
  constructor
  · rintro ⟨s, rfl, hs⟩
    rw [← key qs]
    congr 1
    ext i; simp [hs]
  · intro h
    exact ⟨_, (key qs).trans h, by simp⟩

/-- C35: `ValueError` is raised exactly if some atom does not have the expected number of
twins (itself included). -/
theorem C35_wrong_number (positions : List (Vec K)) (types : List ℤ) (r : ℕ) (tol : K) :
    ∃ qs, List.Forall₂ WrappedTo positions qs ∧
      (getUnique positions types (r : K) tol = .error .valueError ↔
        ∃ p ∈ qs, ¬ Twins tol qs p r) := by
  refine ⟨positions.map reducePosition, ?_, ?_⟩
  · rw [List.forall₂_map_right_iff]
    exact List.forall₂_same.2 fun v _ => wrapped v
  · unfold getUnique
    simp only [npRint_nat]
    generalize positions.map reducePosition = qs
    constructor
    · intro h
      split_ifs at h with h1 h2 h3 <;> try cases h
      by_contra hcon
      push Not at hcon
      apply h1
      simp only [List.all_eq_true, decide_eq_true_eq]
      intro p hp
      exact_mod_cast (twins_iff tol qs p r).1 (hcon p hp)
    · rintro ⟨p, hp, hn⟩
      rw [if_neg]
      intro hall
      simp only [List.all_eq_true, decide_eq_true_eq] at hall
      exact hn ((twins_iff tol qs p r).2 (by exact_mod_cast hall p hp))

/-- C35: the call succeeds for every non-empty list where all twins are counted right. -/
theorem C35_defined (positions : List (Vec K)) (types : List ℤ) (r : ℕ) (tol : K)
    (hne : positions ≠ []) (hl : types.length = positions.length)
    (h : ∀ p ∈ positions.map reducePosition, Twins tol (positions.map reducePosition) p r) :
    ∃ ps' ts', getUnique positions types (r : K) tol = .ok (ps', ts') := by
  unfold getUnique
  simp only [npRint_nat]
  rw [if_pos, if_neg, if_pos]
  · exact ⟨_, _, rfl⟩
  · simpa using hl
  · simpa using hne
  · simp only [List.all_eq_true, decide_eq_true_eq]
    intro p hp
    exact_mod_cast (twins_iff tol _ p r).1 (h p hp)

/-- Equality of a result with a given value by computation. -/
theorem ok_of_decide {α : Type*} [DecidableEq α] {x : Except Err α} {y : α}
    (h : (match x with | .ok a => decide (a = y) | .error _ => false) = true) : x = .ok y := by
  cases x with
  | error e => cases h
  | ok a => exact congrArg _ (of_decide_eq_true h)

/-- A body-centred cell with one kind of atoms: hypotheses of `C35_kept` are met. -/
example : getUnique ([![0, 0, 0], ![1, 0, -1]] : List (Vec ℚ)) [1, 1] 2 (1 / 10 ^ 5) =
    .ok ([![0, 0, 0]], [1]) := ok_of_decide (by decide +kernel)

/-- Coincidence within a tolerance is not transitive: four atoms at the corners of a
square, every one with three twins; two are kept although 4 / 3 is not an integer. -/
theorem C35_not_transitive : ∃ (positions ps' : List (Vec ℚ)) (types ts' : List ℤ),
    getUnique positions types 3 (1 / 10 ^ 5) = .ok (ps', ts') ∧
    ps'.length * 3 ≠ positions.length := by
  refine ⟨[![0, 0, 0], ![1 / 10 ^ 5, 0, 0], ![1 / 10 ^ 5, 1 / 10 ^ 5, 0], ![0, 1 / 10 ^ 5, 0]],
    [![0, 0, 0], ![1 / 10 ^ 5, 1 / 10 ^ 5, 0]], [1, 1, 1, 1], [1, 1], ok_of_decide (by decide +kernel), by simp⟩

/-- The distance is not periodic: atoms at `0` and just below `1` are the same atom up to
`10^-6`, below the tolerance, but they are not recognised as twins. -/
theorem C35_not_periodic :
    getUnique ([![0, 0, 0], ![1 - 1 / 10 ^ 6, 0, 0]] : List (Vec ℚ)) [1, 1] 2 (1 / 10 ^ 5) =
      .error .valueError ∧
    getUnique ([![0, 0, 0], ![1 / 10 ^ 6, 0, 0]] : List (Vec ℚ)) [1, 1] 2 (1 / 10 ^ 5) =
      .ok ([![0, 0, 0]], [1]) := by
  exact ⟨by decide +kernel, ok_of_decide (by decide +kernel)⟩

end Wulfric
