import Verif.Lemmas.Paths

/-! # C42: path strings and path lists -/

namespace Wulfric
open _root_.Spec

theorem subPath_iff {p : List String} {cs : List Char} :
    SubPath p cs ↔ p ≠ [] ∧ cs = (pyJoin "-" p).toList := by
  rw [hyphen_eq]
  constructor
  · intro h
    induction h with
    | one n => exact ⟨by simp, rfl⟩
    | cons n ns cs h ih =>
      refine ⟨by simp, ?_⟩
      rw [toList_pyJoin, List.map_cons, joinChars_cons (by simpa using ih.1), ih.2, toList_pyJoin]
  · rintro ⟨hne, rfl⟩
    induction p with
    | nil => exact absurd rfl hne
    | cons n ns ih =>
      cases ns with
      | nil => exact .one n
      | cons m ms =>
        rw [toList_pyJoin, List.map_cons, joinChars_cons (by simp), ← toList_pyJoin]
        exact .cons _ _ _ (ih (by simp))

theorem path_iff {p : List (List String)} {cs : List Char} :
    Path p cs ↔ p ≠ [] ∧ (∀ q ∈ p, q ≠ []) ∧ cs = (getPathAsString p).toList := by
  unfold getPathAsString
  rw [bar_eq]
  constructor
  · intro h
    induction h with
    | one p cs h =>
      obtain ⟨h1, rfl⟩ := subPath_iff.1 h
      exact ⟨by simp, by simpa using h1, rfl⟩
    | cons p ps cs ds h hp ih =>
      obtain ⟨h1, rfl⟩ := subPath_iff.1 h
      obtain ⟨h2, h3, rfl⟩ := ih
      refine ⟨by simp, by simpa using ⟨h1, h3⟩, ?_⟩
      rw [toList_pyJoin, toList_pyJoin]
      simp only [List.map_cons, List.map_map]
      rw [joinChars_cons (by simpa using h2)]
  · rintro ⟨hne, hq, rfl⟩
    induction p with
    | nil => exact absurd rfl hne
    | cons n ns ih =>
      cases ns with
      | nil => exact .one _ _ (subPath_iff.2 ⟨hq n (by simp), rfl⟩)
      | cons m ms =>
        rw [toList_pyJoin]
        simp only [List.map_cons]
        rw [joinChars_cons (by simp)]
        refine .cons _ _ _ _ (subPath_iff.2 ⟨hq n (by simp), rfl⟩) ?_
        have := ih (by simp) fun q hq' => hq q (by simp [hq'])
        rw [toList_pyJoin] at this
        exact this

theorem no_bar_join {p : List String} (h : ∀ n ∈ p, GoodName n) :
    '|' ∉ (pyJoin "-" p).toList := by
  rw [hyphen_eq, toList_pyJoin]
  induction p with
  | nil => simp [joinChars]
  | cons n ns ih =>
    cases ns with
    | nil => exact (h n (by simp)).2
    | cons m ms =>
      rw [List.map_cons, joinChars_cons (by simp)]
      simp only [List.mem_append, List.mem_cons, not_or]
      exact ⟨(h n (by simp)).2, by decide, ih fun x hx => h x (by simp [hx])⟩

/-- C42: a list converted to a string and back is the same list. -/
theorem C42_list_string_list (p : List (List String)) (h : GoodPath p) :
    getPathAsList (getPathAsString p) = .ok p := by
  obtain ⟨hne, hp⟩ := h
  unfold getPathAsList getPathAsString
  rw [bar_eq, pySplit_join (by simpa using hne) (by
    intro x hx
    obtain ⟨q, hq, rfl⟩ := List.mem_map.1 hx
    exact no_bar_join (hp q hq).2)]
  have key : ∀ q ∈ p, pySplit (pyJoin "-" q) '-' = q := by
    intro q hq
    rw [hyphen_eq, pySplit_join (by
      intro e; have := (hp q hq).1; rw [e] at this; simp at this) fun x hx => ((hp q hq).2 x hx).1]
  rw [pathLoop_ok]
  · rw [List.nil_append, List.map_map]
    congr 1
    calc p.map _ = p.map id := List.map_congr_left fun q hq => key q hq
    _ = p := List.map_id p
  · intro x hx
    obtain ⟨q, hq, rfl⟩ := List.mem_map.1 hx
    by_contra hn
    have h1 := (pySplit_length (pyJoin "-" q) '-').2.2 hn
    rw [key q hq] at h1
    have := (hp q hq).1
    omega

/-- C42: a string converted to a list and back is the same string, for every string that is
accepted; and the list is one with at least two names in every sub-path. -/
theorem C42_string_list_string (s : String) (p : List (List String))
    (h : getPathAsList s = .ok p) : getPathAsString p = s ∧ GoodPath p := by
  unfold getPathAsList at h
  by_cases hs : ∀ x ∈ pySplit s '|', '-' ∈ x.toList
  · rw [pathLoop_ok _ _ hs, List.nil_append] at h
    cases h
    constructor
    · unfold getPathAsString
      rw [List.map_map]
      have : (pyJoin "-" ∘ fun x => pySplit x '-') = id := by
        funext x; rw [hyphen_eq]; exact pyJoin_split x '-'
      rw [this, List.map_id, bar_eq, pyJoin_split]
    · constructor
      · intro e
        have := (pySplit_length s '|').1
        rw [List.map_eq_nil_iff] at e
        rw [e] at this
        simp at this
      · intro sub hsub
        obtain ⟨x, hx, rfl⟩ := List.mem_map.1 hsub
        have h1 := pySplit_length x '-'
        have h2 : ¬ (pySplit x '-').length = 1 := by rw [h1.2, not_not]; exact hs x hx
        refine ⟨by omega, ?_⟩
        intro n hn
        obtain ⟨cs, hcs, rfl⟩ := List.mem_map.1 hn
        obtain ⟨h3, pre, post, e, -, -⟩ := mem_splitChars_iff.1 hcs
        rw [GoodName, String.toList_ofList]
        refine ⟨h3, fun hb => ?_⟩
        obtain ⟨ds, hds, rfl⟩ := List.mem_map.1 hx
        rw [String.toList_ofList] at e
        exact splitChars_mem hds (by rw [e]; simp [hb])
  · push Not at hs
    rw [pathLoop_error _ _ hs] at h
    cases h

/-- C42: which list a string stands for, stated without splitting or joining. -/
theorem C42_meaning (s : String) (p : List (List String)) :
    getPathAsList s = .ok p ↔ GoodPath p ∧ Path p s.toList := by
  constructor
  · intro h
    obtain ⟨h1, h2⟩ := C42_string_list_string s p h
    refine ⟨h2, path_iff.2 ⟨h2.1, ?_, by rw [h1]⟩⟩
    intro q hq e
    have := (h2.2 q hq).1
    rw [e] at this
    simp at this
  · rintro ⟨h1, h2⟩
    obtain ⟨-, -, e⟩ := path_iff.1 h2
    rw [String.toList_inj.1 e]
    exact C42_list_string_list p h1

/-- C42: a string is rejected, with `ValueError`, exactly if it has a piece between bars that
is a single name. -/
theorem C42_rejected (s : String) :
    getPathAsList s = .error .valueError ↔ HasShortPiece s.toList := by
  have key : HasShortPiece s.toList ↔ ∃ x ∈ pySplit s '|', '-' ∉ x.toList := by
    unfold pySplit HasShortPiece
    constructor
    · rintro ⟨pre, piece, post, e, h1, h2, h3, h4⟩
      refine ⟨String.ofList piece, List.mem_map.2 ⟨piece, ?_, rfl⟩, by simpa using h4⟩
      exact mem_splitChars_iff.2 ⟨h3, pre, post, e, h1, h2⟩
    · rintro ⟨x, hx, h4⟩
      obtain ⟨piece, hp, rfl⟩ := List.mem_map.1 hx
      obtain ⟨h3, pre, post, e, h1, h2⟩ := mem_splitChars_iff.1 hp
      exact ⟨pre, piece, post, e, h1, h2, h3, by simpa using h4⟩
  rw [key]
  unfold getPathAsList
  constructor
  · intro h
    by_contra hn
    push Not at hn
    rw [pathLoop_ok _ _ hn] at h
    cases h
  · exact pathLoop_error _ _

/-- C42: every string is accepted or rejected with `ValueError`. -/
theorem C42_total (s : String) :
    (∃ p, getPathAsList s = .ok p) ∨ getPathAsList s = .error .valueError := by
  by_cases hs : ∀ x ∈ pySplit s '|', '-' ∈ x.toList
  · exact .inl ⟨_, pathLoop_ok _ _ hs⟩
  · push Not at hs
    exact .inr (pathLoop_error _ _ hs)

/-- C42: the empty string is not accepted as the empty path. -/
theorem C42_empty : getPathAsString [] = "" ∧ getPathAsList "" = .error .valueError := by
  constructor
  · rfl
  · rw [C42_rejected]
    exact ⟨[], [], [], rfl, .inl rfl, .inl rfl, by simp, by simp⟩

/-- The hypotheses are met. -/
example : GoodPath [["GAMMA", "X", "M"], ["R", "X"]] ∧
    getPathAsString [["GAMMA", "X", "M"], ["R", "X"]] = "GAMMA-X-M|R-X" := by
  refine ⟨⟨by simp, ?_⟩, by decide +kernel⟩
  unfold GoodName
  decide +kernel

end Wulfric
