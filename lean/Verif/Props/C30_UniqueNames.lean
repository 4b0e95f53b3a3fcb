import Verif.Lemmas.Names
import Verif.Props.C29_Species

/-! # C30: unique names -/

namespace Wulfric
open Spec
variable {K : Type} [Field K] [LinearOrder K]

theorem getUniqueNames_valid (lower : String → String) (atoms : Atoms K) (names : List String)
    (hn : atoms.names = some names) (hv : ValidAtoms atoms.toDict ["names"]) (strategy : String) :
    getUniqueNames lower atoms strategy =
      (if lower strategy ≠ "all" ∧ lower strategy ≠ "repeated-only" then .error .valueError else
      if names.length = names.dedup.length then .ok (names, names)
      else if lower strategy = "all" then
        .ok (names.zipIdx.map fun (name, i) => name ++ Nat.repr (i + 1), names)
      else do
        let new ← renameLoop (nameCounter names) names
        return (new, new)) := by
  rcases validate_cases atoms ["names"] with ⟨-, e⟩ | ⟨hc, -⟩
  · unfold getUniqueNames
    rw [e]
    simp only [hn, Option.getD_some]
    rfl
  · exact absurd hv hc

/-- C30: an unknown strategy is refused. -/
theorem C30_strategy (lower : String → String) (atoms : Atoms K) (names : List String)
    (hn : atoms.names = some names) (hv : ValidAtoms atoms.toDict ["names"]) (strategy : String)
    (hs : lower strategy ≠ "all") (hs' : lower strategy ≠ "repeated-only") :
    getUniqueNames lower atoms strategy = .error .valueError := by
  rw [getUniqueNames_valid lower atoms names hn hv, if_pos ⟨hs, hs'⟩]

/-- C30: names which are already unique are returned as they are. -/
theorem C30_already_unique (lower : String → String) (atoms : Atoms K) (names : List String)
    (hn : atoms.names = some names) (hv : ValidAtoms atoms.toDict ["names"]) (strategy : String)
    (hs : lower strategy = "all" ∨ lower strategy = "repeated-only") (hu : names.Nodup) :
    getUniqueNames lower atoms strategy = .ok (names, names) := by
  rw [getUniqueNames_valid lower atoms names hn hv, if_neg (by tauto),
    if_pos ((dedup_length_iff _).2 hu)]

/-- C30: with the strategy "all" every name gets its position in the list, and the given
list is not changed. -/
theorem C30_all_shape (lower : String → String) (atoms : Atoms K) (names : List String)
    (hn : atoms.names = some names) (hv : ValidAtoms atoms.toDict ["names"]) (strategy : String)
    (hs : lower strategy = "all") (hu : ¬ names.Nodup) :
    ∃ l, getUniqueNames lower atoms strategy = .ok (l, names) ∧ l.length = names.length ∧
      ∀ (i : ℕ) (n : String), names[i]? = some n → l[i]? = some (n ++ Nat.repr (i + 1)) := by
  refine ⟨_, by rw [getUniqueNames_valid lower atoms names hn hv, if_neg (by tauto),
    if_neg (fun h => hu ((dedup_length_iff _).1 h)), if_pos hs], by simp, ?_⟩
  intro i n hin
  simp [hin]

/-- C30: with the strategy "repeated-only" a name that occurs once stays, the others get
their number within the group. -/
theorem C30_repeated_shape (lower : String → String) (atoms : Atoms K) (names : List String)
    (hn : atoms.names = some names) (hv : ValidAtoms atoms.toDict ["names"]) (strategy : String)
    (hs : lower strategy = "repeated-only") (hu : ¬ names.Nodup) :
    ∃ l, getUniqueNames lower atoms strategy = .ok (l, l) ∧ l.length = names.length ∧
      ∀ (i : ℕ) (n : String), names[i]? = some n →
        l[i]? = some (if names.count n > 1 then n ++ Nat.repr ((names.take i).count n + 1) else n) := by
  obtain ⟨l, e, hl, hi⟩ := renameLoop_eq names names [] (nameCounter names) rfl (by
    intro n hm
    rw [nameCounter_get, if_neg (by rw [List.count_eq_zero]; exact fun h => h hm)]
    simp)
  refine ⟨l, ?_, hl, ?_⟩
  · rw [getUniqueNames_valid lower atoms names hn hv, if_neg (by rw [hs]; simp),
      if_neg (fun h => hu ((dedup_length_iff _).1 h)), if_neg (by rw [hs]; decide), e]
    rfl
  · intro i n hin
    have := hi i n hin
    simpa [newName] using this

theorem nodup_of_getElem {l : List String}
    (h : ∀ (i j : ℕ) (a : String), i < j → l[i]? = some a → l[j]? = some a → False) : l.Nodup := by
  rw [List.nodup_iff_injective_get]
  intro i j hij
  by_contra hne
  have hi : l[i.1]? = some (l.get i) := by simp
  have hj : l[j.1]? = some (l.get i) := by rw [hij]; simp
  rcases lt_or_gt_of_ne (fun e => hne (Fin.ext e)) with h1 | h1
  · exact h _ _ _ h1 hi hj
  · exact h _ _ _ h1 hj hi

/-- C30 (partial: for names that do not end with a digit): the strategy "all" makes all
names different. Missing: names that end with a digit, where it fails, see
`C30_all_collision`. -/
theorem C30_all_partial (lower : String → String) (atoms : Atoms K) (names : List String)
    (hn : atoms.names = some names) (hv : ValidAtoms atoms.toDict ["names"]) (strategy : String)
    (hs : lower strategy = "all") (hd : ∀ n ∈ names, NoDigitEnd n) :
    ∃ l l', getUniqueNames lower atoms strategy = .ok (l, l') ∧ l.Nodup := by
  by_cases hu : names.Nodup
  · exact ⟨_, _, C30_already_unique lower atoms names hn hv strategy (Or.inl hs) hu, hu⟩
  · obtain ⟨l, e, hl, hi⟩ := C30_all_shape lower atoms names hn hv strategy hs hu
    refine ⟨l, names, e, nodup_of_getElem ?_⟩
    intro i j a hij h1 h2
    have hj : j < names.length := by
      rw [← hl]; exact (List.getElem?_eq_some_iff.1 h2).1
    have hi' : i < names.length := by omega
    have e1 := hi i _ (List.getElem?_eq_getElem hi')
    have e2 := hi j _ (List.getElem?_eq_getElem hj)
    rw [h1] at e1; rw [h2] at e2
    have := append_repr_inj (hd _ (List.getElem_mem _)) (hd _ (List.getElem_mem _))
      ((Option.some.inj e1).symm.trans (Option.some.inj e2))
    omega

/-- C30 (partial: at most nine atoms): the strategy "all" makes all names different,
whatever they are. -/
theorem C30_all_short_partial (lower : String → String) (atoms : Atoms K) (names : List String)
    (hn : atoms.names = some names) (hv : ValidAtoms atoms.toDict ["names"]) (strategy : String)
    (hs : lower strategy = "all") (hd : names.length ≤ 9) :
    ∃ l l', getUniqueNames lower atoms strategy = .ok (l, l') ∧ l.Nodup := by
  by_cases hu : names.Nodup
  · exact ⟨_, _, C30_already_unique lower atoms names hn hv strategy (Or.inl hs) hu, hu⟩
  · obtain ⟨l, e, hl, hi⟩ := C30_all_shape lower atoms names hn hv strategy hs hu
    refine ⟨l, names, e, nodup_of_getElem ?_⟩
    intro i j a hij h1 h2
    have hj : j < names.length := by
      rw [← hl]; exact (List.getElem?_eq_some_iff.1 h2).1
    have hi' : i < names.length := by omega
    have e1 := hi i _ (List.getElem?_eq_getElem hi')
    have e2 := hi j _ (List.getElem?_eq_getElem hj)
    rw [h1] at e1; rw [h2] at e2
    have h := congrArg (fun s => (String.toList s).getLast?)
      ((Option.some.inj e1).symm.trans (Option.some.inj e2))
    simp only [String.toList_append, Nat.toList_repr,
      Nat.toDigits_of_lt_base (show i + 1 < 10 by omega),
      Nat.toDigits_of_lt_base (show j + 1 < 10 by omega), List.getLast?_append,
      List.getLast?_singleton, Option.some_or, Option.some.injEq] at h
    have hr : (Nat.repr (i + 1)).toList = (Nat.repr (j + 1)).toList := by
      rw [Nat.toList_repr, Nat.toList_repr, Nat.toDigits_of_lt_base (show i + 1 < 10 by omega),
        Nat.toDigits_of_lt_base (show j + 1 < 10 by omega), h]
    have := repr_inj hr
    omega

/-- C30 (partial: for names that do not end with a digit): the strategy "repeated-only"
makes all names different. -/
theorem C30_repeated_partial (lower : String → String) (atoms : Atoms K) (names : List String)
    (hn : atoms.names = some names) (hv : ValidAtoms atoms.toDict ["names"]) (strategy : String)
    (hs : lower strategy = "repeated-only") (hd : ∀ n ∈ names, NoDigitEnd n) :
    ∃ l l', getUniqueNames lower atoms strategy = .ok (l, l') ∧ l.Nodup := by
  by_cases hu : names.Nodup
  · exact ⟨_, _, C30_already_unique lower atoms names hn hv strategy (Or.inr hs) hu, hu⟩
  · obtain ⟨l, e, hl, hi⟩ := C30_repeated_shape lower atoms names hn hv strategy hs hu
    refine ⟨l, l, e, nodup_of_getElem ?_⟩
    intro i j a hij h1 h2
    have hj : j < names.length := by
      rw [← hl]; exact (List.getElem?_eq_some_iff.1 h2).1
    have hi' : i < names.length := by omega
    have e1 := hi i _ (List.getElem?_eq_getElem hi')
    have e2 := hi j _ (List.getElem?_eq_getElem hj)
    rw [h1] at e1; rw [h2] at e2
    have h := (Option.some.inj e1).symm.trans (Option.some.inj e2)
    have d1 := hd _ (List.getElem_mem hi')
    have d2 := hd _ (List.getElem_mem hj)
    have step : (names.take i).count names[i] < (names.take j).count names[i] := by
      have hsub : (names.take (i + 1)).count names[i] ≤ (names.take j).count names[i] :=
        (List.take_sublist_take_left (by omega)).count_le _
      rw [List.take_succ_eq_append_getElem hi', List.count_append] at hsub
      simp at hsub
      omega
    split at h <;> split at h
    · obtain ⟨ha, hb⟩ := append_repr_inj d1 d2 h
      rw [← ha] at hb
      omega
    · exact append_repr_ne d2 h
    · exact append_repr_ne d1 h.symm
    · rename_i c1 c2
      have : (names.take (j + 1)).count names[i] ≤ names.count names[i] :=
        (List.take_sublist _ _).count_le _
      rw [List.take_succ_eq_append_getElem hj, List.count_append, ← h] at this
      simp at this
      omega

/-- C30 is false in general: with the strategy "all" the names `"A1"` (first atom) and
`"A"` (eleventh atom) both become `"A11"`. -/
theorem C30_all_collision :
    getUniqueNames String.toLower ({ names := some ["A1", "B", "B", "B", "B", "B", "B", "B", "B",
      "B", "A"] } : Atoms ℚ) "all" =
    .ok (["A11", "B2", "B3", "B4", "B5", "B6", "B7", "B8", "B9", "B10", "A11"],
      ["A1", "B", "B", "B", "B", "B", "B", "B", "B", "B", "A"]) := by
  decide +kernel

/-- C30 is false in general: with the strategy "repeated-only" a new name may coincide with
a name that was unique. -/
theorem C30_repeated_collision :
    getUniqueNames String.toLower ({ names := some ["Cr", "Cr", "Cr1"] } : Atoms ℚ)
      "Repeated-Only" = .ok (["Cr1", "Cr2", "Cr1"], ["Cr1", "Cr2", "Cr1"]) := by
  decide +kernel

/-- The doctest; the strategy "repeated-only" has changed `atoms["names"]` (second component). -/
example : getUniqueNames String.toLower
    ({ names := some ["Cr1", "Cr2", "Br", "Br", "S", "S"] } : Atoms ℚ) "repeated-only" =
    .ok (["Cr1", "Cr2", "Br1", "Br2", "S1", "S2"], ["Cr1", "Cr2", "Br1", "Br2", "S1", "S2"]) := by
  decide +kernel

/-- The hypotheses of the partial theorems are met. -/
example : ∀ n ∈ ["Cr", "Br", "Br"], NoDigitEnd n := by
  intro n hn c hc
  simp at hn
  rcases hn with rfl | rfl <;> revert c <;> decide +kernel

example : ValidAtoms ({ names := some ["Cr", "Br", "Br"] } : Atoms ℚ).toDict ["names"] := by
  have h := (C28_decides ({ names := some ["Cr", "Br", "Br"] } : Atoms ℚ).toDict (toDict_wf _) ["names"])
  obtain ⟨b, h1, h2⟩ := h
  have : validateAtoms ({ names := some ["Cr", "Br", "Br"] } : Atoms ℚ).toDict ["names"] false =
      .ok true := by decide +kernel
  rw [this] at h1
  cases h1
  exact h2.1 rfl

end Wulfric
