import Verif.Lemmas.PathPoints

/-! # Lemmas about the coordinates of the points and the doubled path -/

namespace Wulfric
open Matrix _root_.Spec Wulfric.Spec

theorem vecMat_zero (m : Cell ℝ) : vecMat ![0, 0, 0] m = 0 := by
  funext j
  simp [vecMat]

theorem vecMat_zero' (m : Cell ℝ) : vecMat 0 m = 0 := by
  funext j
  simp [vecMat]

/-- The keys stay and every value is converted. -/
theorem allCoordinates_ok {cell r : Cell ℝ} {rel : Bool} {d e : PyDict String (Vec ℝ)}
    (h : allCoordinates cell r rel d = .ok e) :
    e.keys = d.keys ∧ ∀ k, (∀ v, d.get? k = some v → ∃ w, e.get? k = some w ∧
      pointCoordinates cell r rel v = .ok w) := by
  induction d generalizing e with
  | nil => cases h; exact ⟨rfl, fun k v hv => by simp [PyDict.get?] at hv⟩
  | cons x d ih =>
    obtain ⟨n, v⟩ := x
    unfold allCoordinates at h
    cases h1 : pointCoordinates cell r rel v with
    | error _ => simp [h1, bind, Except.bind] at h
    | ok w =>
    cases h2 : allCoordinates cell r rel d with
    | error _ => simp [h1, h2, bind, Except.bind] at h
    | ok o =>
    simp only [h1, h2, bind, Except.bind, pure, Except.pure] at h
    cases h
    obtain ⟨i1, i2⟩ := ih h2
    refine ⟨by simpa [PyDict.keys] using i1, fun k v' hv' => ?_⟩
    by_cases hk : n = k
    · simp only [PyDict.get?, hk, if_true, Option.some.injEq] at hv' ⊢
      subst hv'
      exact ⟨w, rfl, h1⟩
    · simp only [PyDict.get?, hk, if_false] at hv' ⊢
      exact i2 k v' hv'

/-- Success depends on the cell only. -/
theorem allCoordinates_exists {cell r : Cell ℝ} {rel : Bool} (hc : cell.det ≠ 0)
    (d : PyDict String (Vec ℝ)) : ∃ e, allCoordinates cell r rel d = .ok e := by
  induction d with
  | nil => exact ⟨_, rfl⟩
  | cons x d ih =>
    obtain ⟨n, v⟩ := x
    obtain ⟨o, h2⟩ := ih
    have h1 : ∃ w, pointCoordinates cell r rel v = .ok w := by
      unfold pointCoordinates
      cases rel with
      | false => exact ⟨_, rfl⟩
      | true =>
        obtain ⟨q, hq, hdet, -⟩ := C03_involution cell hc
        simp only [hq, npInv, hdet, if_false, if_true, bind, Except.bind, pure, Except.pure]
        exact ⟨_, rfl⟩
    obtain ⟨w, h1⟩ := h1
    unfold allCoordinates
    simp only [h1, h2, bind, Except.bind, pure, Except.pure]
    exact ⟨_, rfl⟩

/-- The meaning of the coordinates. -/
theorem pointCoordinates_relative {cell r q : Cell ℝ} {v w : Vec ℝ}
    (hq : getReciprocal cell = .ok q) (h : pointCoordinates cell r true v = .ok w) :
    vecMat w q = vecMat v r := by
  obtain ⟨hc, -⟩ := recip_ok hq
  obtain ⟨q', hq', hdet, -⟩ := C03_involution cell hc
  rw [hq] at hq'
  cases hq'
  unfold pointCoordinates at h
  simp only [hq, npInv, hdet, if_false, if_true, bind, Except.bind, pure, Except.pure] at h
  cases h
  have e : ∀ (u : Vec ℝ) (m : Cell ℝ), vecMat u m = u ᵥ* m := by
    intro u m
    funext j
    simp [vecMat, vecMul, dotProduct, Fin.sum_univ_three]
  rw [e, e (vecMat v r), vecMul_vecMul, nonsing_inv_mul _ (isUnit_iff_ne_zero.2 hdet), vecMul_one]

theorem pointCoordinates_absolute {cell r : Cell ℝ} {v w : Vec ℝ}
    (h : pointCoordinates cell r false v = .ok w) : w = vecMat v r := by
  unfold pointCoordinates at h
  simp only [Bool.false_eq_true, if_false, pure, Except.pure] at h
  cases h
  rfl

theorem pointCoordinates_zero {cell r : Cell ℝ} {rel : Bool} {w : Vec ℝ}
    (h : pointCoordinates cell r rel ![0, 0, 0] = .ok w) : w = 0 := by
  cases rel with
  | false => rw [pointCoordinates_absolute h, vecMat_zero]
  | true =>
    unfold pointCoordinates at h
    cases h1 : getReciprocal cell with
    | error _ => simp [h1, bind, Except.bind] at h
    | ok q =>
    cases h2 : npInv q with
    | error _ => simp [h1, h2, bind, Except.bind] at h
    | ok i =>
    simp only [h1, h2, if_true, bind, Except.bind, pure, Except.pure] at h
    cases h
    rw [vecMat_zero, vecMat_zero']

/-- The names of the negated points. -/
def negatedKeys (l : List (String × Vec ℝ)) : List String :=
  ((l.map Prod.fst).filter (· ≠ "GAMMA")).map (· ++ "_P")

theorem primed_inj {a b : String} (h : a ++ "_P" = b ++ "_P") : a = b := by
  have := congrArg String.toList h
  simp only [String.toList_append] at this
  exact String.toList_inj.1 (List.append_cancel_right this)

/-- The negated points, if their names are new. -/
theorem addNegated_spec (l : List (String × Vec ℝ)) (d : PyDict String (Vec ℝ))
    (hl : (l.map Prod.fst).Nodup) (hnew : ∀ k ∈ l.map Prod.fst, k ++ "_P" ∉ d.keys) :
    (addNegated l d).keys = d.keys ++ negatedKeys l ∧
    (∀ k, (∀ k' ∈ l.map Prod.fst, k ≠ k' ++ "_P") → (addNegated l d).get? k = d.get? k) ∧
    (∀ k v, k ≠ "GAMMA" → PyDict.get? l k = some v →
      (addNegated l d).get? (k ++ "_P") = some (-v)) := by
  induction l generalizing d with
  | nil => exact ⟨by simp [addNegated, negatedKeys], fun k _ => rfl,
      fun k v _ h => by simp [PyDict.get?] at h⟩
  | cons x l ih =>
    obtain ⟨n, v⟩ := x
    simp only [List.map_cons, List.nodup_cons] at hl
    simp only [List.map_cons, List.mem_cons, forall_eq_or_imp] at hnew
    unfold addNegated
    by_cases hn : n = "GAMMA"
    · subst hn
      simp only [ne_eq, not_true_eq_false, if_false]
      obtain ⟨i1, i2, i3⟩ := ih d hl.2 hnew.2
      refine ⟨by rw [i1]; simp [negatedKeys], ?_, ?_⟩
      · intro k hk
        exact i2 k fun k' hk' => hk k' (by simp [hk'])
      · intro k w hk hw
        simp only [PyDict.get?, Ne.symm hk, if_false] at hw
        exact i3 k w hk hw
    · rw [if_pos hn]
      have hk' : (d.setItem (n ++ "_P") (-v)).keys = d.keys ++ [n ++ "_P"] := by
        rw [PyDict.keys_setItem, if_neg hnew.1]
      obtain ⟨i1, i2, i3⟩ := ih (d.setItem (n ++ "_P") (-v)) hl.2 (by
        intro k hk
        rw [hk', List.mem_append, not_or]
        refine ⟨hnew.2 k hk, ?_⟩
        simp only [List.mem_singleton]
        intro e
        exact hl.1 (primed_inj e ▸ hk))
      refine ⟨?_, ?_, ?_⟩
      · rw [i1, hk']
        simp [negatedKeys, hn]
      · intro k hk
        rw [i2 k fun k' hk' => hk k' (by simp [hk']), PyDict.get?_setItem,
          if_neg (fun e => hk n (by simp) e.symm)]
      · intro k w hk hw
        by_cases e : n = k
        · subst e
          simp only [PyDict.get?, if_true, Option.some.injEq] at hw
          subst hw
          rw [i2 (n ++ "_P"), PyDict.get?_setItem, if_pos rfl]
          intro k' hk' e
          exact hl.1 (primed_inj e ▸ hk')
        · simp only [PyDict.get?, e, if_false] at hw
          exact i3 k w hk hw

/-- What `tableCheck` says. -/
theorem GoodTable.spec {path : String} {d : PyDict String (Vec ℝ)} (h : GoodTable path d) :
    ∃ p, getPathAsList path = .ok p ∧ d.keys.Nodup ∧ (∀ sub ∈ p, ∀ n ∈ sub, n ∈ d.keys) ∧
      (∀ k ∈ d.keys, k ∈ tableNames) ∧ ¬ ("F3" ∈ d.keys ∧ "F4" ∈ d.keys) ∧
      ∀ sub ∈ p, stepsDiffer sub = true := by
  have := h.check
  unfold tableCheck at this
  cases hp : getPathAsList path with
  | error _ => simp [hp] at this
  | ok p =>
    simp only [hp, Bool.and_eq_true, List.all_eq_true, decide_eq_true_eq, Bool.not_eq_true',
      Bool.and_eq_false_iff, decide_eq_false_iff_not] at this
    obtain ⟨⟨⟨⟨h1, h2⟩, h3⟩, h4⟩, h5⟩ := this
    exact ⟨p, rfl, h1, h2, h3, fun ⟨x, y⟩ => h4.elim (· x) (· y), h5⟩

theorem primed_not_table {k k' : String} (hk : k ∈ tableNames) : k ≠ k' ++ "_P" := by
  intro e
  have := names_plain k hk
  rw [e, String.toList_append] at this
  exact this (List.mem_append.2 (.inr (by decide)))

/-- All names, with the primed ones. -/
def allNames : List String := tableNames ++ (tableNames.erase "GAMMA").map (· ++ "_P")

theorem tableNames_nodup : tableNames.Nodup := by decide +kernel

theorem all_labelled {k : String} (h : k ∈ allNames) : ∃ l, hsPlotNames.get? k = some l := by
  rw [← Option.isSome_iff_exists]
  unfold allNames at h
  rw [List.mem_append] at h
  rcases h with h | h
  · exact (names_labelled k h).1
  · obtain ⟨k', hk', rfl⟩ := List.mem_map.1 h
    exact (names_labelled k' (List.mem_of_mem_erase hk')).2

theorem label_inj {k k' : String} (hk : k ∈ allNames) (hk' : k' ∈ allNames)
    (h1 : k ≠ "F3") (h2 : k ≠ "F3_P") (h1' : k' ≠ "F3") (h2' : k' ≠ "F3_P")
    (e : hsPlotNames.get? k = hsPlotNames.get? k') : k = k' := by
  refine List.inj_on_of_nodup_map labels_differ ?_ ?_ e
  · exact List.mem_filter.2 ⟨hk, by simp [h1, h2]⟩
  · exact List.mem_filter.2 ⟨hk', by simp [h1', h2']⟩

theorem label_F3 : hsPlotNames.get? "F3" = hsPlotNames.get? "F4" := by decide +kernel

theorem label_F3_P : hsPlotNames.get? "F3_P" = hsPlotNames.get? "F4_P" := by decide +kernel

end Wulfric
