import Verif.Model.Paths
import Verif.Spec.Paths

/-! # Lemmas about splitting and joining -/

namespace Wulfric

theorem splitChars_ne_nil (sep : Char) (l : List Char) : splitChars sep l ≠ [] := by
  cases l with
  | nil => simp [splitChars]
  | cons c cs =>
    unfold splitChars
    split_ifs
    · simp
    · split <;> simp

theorem splitChars_no_sep {sep : Char} {l : List Char} (h : sep ∉ l) : splitChars sep l = [l] := by
  induction l with
  | nil => rfl
  | cons c cs ih =>
    simp only [List.mem_cons, not_or] at h
    rw [splitChars, if_neg (Ne.symm h.1), ih h.2]

theorem splitChars_append {sep : Char} {l m : List Char} (h : sep ∉ l) :
    splitChars sep (l ++ sep :: m) = l :: splitChars sep m := by
  induction l with
  | nil => simp [splitChars]
  | cons c cs ih =>
    simp only [List.mem_cons, not_or] at h
    rw [List.cons_append, splitChars, if_neg (Ne.symm h.1), ih h.2]

theorem splitChars_mem {sep : Char} {l p : List Char} (h : p ∈ splitChars sep l) : sep ∉ p := by
  induction l generalizing p with
  | nil => simp [splitChars] at h; simp [h]
  | cons c cs ih =>
    rw [splitChars] at h
    split_ifs at h with hc
    · rcases List.mem_cons.1 h with rfl | h
      · simp
      · exact ih h
    · cases hs : splitChars sep cs with
      | nil => exact absurd hs (splitChars_ne_nil _ _)
      | cons q qs =>
        rw [hs] at h
        rcases List.mem_cons.1 h with rfl | h
        · simp only [List.mem_cons, not_or]
          exact ⟨Ne.symm hc, ih (by rw [hs]; simp)⟩
        · exact ih (by rw [hs]; simp [h])

/-- Joining characters, the inverse of `splitChars`. -/
def joinChars (sep : Char) : List (List Char) → List Char
  | [] => []
  | [x] => x
  | x :: y :: l => x ++ sep :: joinChars sep (y :: l)

theorem joinChars_cons {sep : Char} {x : List Char} {l : List (List Char)} (h : l ≠ []) :
    joinChars sep (x :: l) = x ++ sep :: joinChars sep l := by
  cases l with
  | nil => exact absurd rfl h
  | cons y l => rfl

theorem join_split (sep : Char) (l : List Char) : joinChars sep (splitChars sep l) = l := by
  induction l with
  | nil => rfl
  | cons c cs ih =>
    rw [splitChars]
    split_ifs with hc
    · rw [joinChars_cons (splitChars_ne_nil _ _), ih, hc]; rfl
    · cases hs : splitChars sep cs with
      | nil => exact absurd hs (splitChars_ne_nil _ _)
      | cons q qs =>
        rw [hs] at ih
        cases qs with
        | nil => simp only [joinChars] at ih ⊢; rw [ih]
        | cons r rs => simp only [joinChars, List.cons_append] at ih ⊢; rw [ih]

theorem split_join {sep : Char} {ps : List (List Char)} (hne : ps ≠ []) (h : ∀ p ∈ ps, sep ∉ p) :
    splitChars sep (joinChars sep ps) = ps := by
  induction ps with
  | nil => exact absurd rfl hne
  | cons p ps ih =>
    cases ps with
    | nil => exact splitChars_no_sep (h p (by simp))
    | cons q qs =>
      rw [joinChars_cons (by simp), splitChars_append (h p (by simp)), ih (by simp)
        fun x hx => h x (List.mem_cons_of_mem _ hx)]

theorem toList_pyJoin (sep : Char) (l : List String) :
    (pyJoin (String.singleton sep) l).toList = joinChars sep (l.map String.toList) := by
  induction l with
  | nil => rfl
  | cons x l ih =>
    cases l with
    | nil => rfl
    | cons y l =>
      simp only [pyJoin, String.toList_append, ih, List.map_cons, joinChars]
      simp

theorem pySplit_join {sep : Char} {l : List String} (hne : l ≠ [])
    (h : ∀ x ∈ l, sep ∉ x.toList) : pySplit (pyJoin (String.singleton sep) l) sep = l := by
  unfold pySplit
  rw [toList_pyJoin, split_join (by simpa using hne) (by
    intro p hp
    obtain ⟨x, hx, rfl⟩ := List.mem_map.1 hp
    exact h x hx), List.map_map]
  simp

theorem pyJoin_split (s : String) (sep : Char) :
    pyJoin (String.singleton sep) (pySplit s sep) = s := by
  rw [← String.toList_inj, toList_pyJoin]
  unfold pySplit
  rw [List.map_map]
  have : (String.toList ∘ String.ofList) = id := by funext x; simp
  rw [this, List.map_id, join_split]

theorem bar_eq : ("|" : String) = String.singleton '|' := by decide +kernel
theorem hyphen_eq : ("-" : String) = String.singleton '-' := by decide +kernel

theorem pySplit_length (s : String) (sep : Char) :
    1 ≤ (pySplit s sep).length ∧ ((pySplit s sep).length = 1 ↔ sep ∉ s.toList) := by
  unfold pySplit
  rw [List.length_map]
  have h0 := splitChars_ne_nil sep s.toList
  refine ⟨List.length_pos_iff.2 h0, ?_, fun h => by rw [splitChars_no_sep h]; rfl⟩
  intro h
  obtain ⟨p, hp⟩ := List.length_eq_one_iff.1 h
  have := join_split sep s.toList
  rw [hp] at this
  simp only [joinChars] at this
  rw [← this]
  exact splitChars_mem (by rw [hp]; simp)

theorem pathLoop_ok (subs : List String) (path : List (List String)) (h : ∀ s ∈ subs, '-' ∈ s.toList) :
    pathLoop subs path = .ok (path ++ subs.map (pySplit · '-')) := by
  induction subs generalizing path with
  | nil => simp [pathLoop]
  | cons s subs ih =>
    have hl := pySplit_length s '-'
    have hs := h s (by simp)
    have h1 : ¬ (pySplit s '-').length = 1 := by rw [hl.2]; simpa using hs
    rw [pathLoop]
    simp only [if_neg h1]
    rw [if_pos (by omega), ih _ fun x hx => h x (by simp [hx])]
    simp

theorem pathLoop_error (subs : List String) (path : List (List String))
    (h : ∃ s ∈ subs, '-' ∉ s.toList) : pathLoop subs path = .error .valueError := by
  induction subs generalizing path with
  | nil => simp at h
  | cons s subs ih =>
    have hl := pySplit_length s '-'
    rw [pathLoop]
    by_cases hs : '-' ∈ s.toList
    · have h1 : ¬ (pySplit s '-').length = 1 := by rw [hl.2]; simpa using hs
      simp only [if_neg h1]
      rw [if_pos (by omega)]
      apply ih
      obtain ⟨x, hx, hn⟩ := h
      rcases List.mem_cons.1 hx with rfl | hx
      · exact absurd hs hn
      · exact ⟨x, hx, hn⟩
    · simp only [if_pos (hl.2.2 hs)]

/-- The pieces of a split, as a decomposition of the string. -/
theorem mem_splitChars_iff {sep : Char} {l p : List Char} :
    p ∈ splitChars sep l ↔ sep ∉ p ∧ ∃ pre post, l = pre ++ p ++ post ∧
      (pre = [] ∨ ∃ q, pre = q ++ [sep]) ∧ (post = [] ∨ ∃ q, post = sep :: q) := by
  constructor
  · intro h
    refine ⟨splitChars_mem h, ?_⟩
    have hj := join_split sep l
    generalize splitChars sep l = ps at h hj
    induction ps generalizing l with
    | nil => simp at h
    | cons x ps ih =>
      by_cases hps : ps = []
      · subst hps
        simp at h
        subst h
        exact ⟨[], [], by simpa [joinChars] using hj.symm, .inl rfl, .inl rfl⟩
      · rw [joinChars_cons hps] at hj
        rcases List.mem_cons.1 h with rfl | h
        · exact ⟨[], sep :: joinChars sep ps, by simpa using hj.symm, .inl rfl, .inr ⟨_, rfl⟩⟩
        · obtain ⟨pre, post, e, h1, h2⟩ := ih h rfl
          refine ⟨x ++ sep :: pre, post, by rw [← hj, e]; simp, .inr ?_, h2⟩
          rcases h1 with rfl | ⟨q, rfl⟩
          · exact ⟨x, rfl⟩
          · exact ⟨x ++ sep :: q, by simp⟩
  · rintro ⟨hp, pre, post, rfl, h1, h2⟩
    have key : ∀ pre : List Char, p ∈ splitChars sep (p ++ post) →
        (pre = [] ∨ ∃ q, pre = q ++ [sep]) → p ∈ splitChars sep (pre ++ p ++ post) := by
      intro pre hb h1
      rcases h1 with rfl | ⟨q, rfl⟩
      · simpa using hb
      · clear hp h2
        induction q with
        | nil => simp [splitChars]; exact .inr (by simpa using hb)
        | cons c q ih =>
          simp only [List.append_assoc, List.cons_append] at ih ⊢
          rw [splitChars]
          split_ifs
          · exact List.mem_cons_of_mem _ ih
          · -- the piece is not the first one unless `q` is free of separators
            have h3 : ∀ q : List Char, ∃ a as, splitChars sep (q ++ sep :: (p ++ post)) = a :: as ∧
                p ∈ as := by
              intro q
              induction q with
              | nil => exact ⟨[], _, by simp [splitChars], hb⟩
              | cons d q ihq =>
                obtain ⟨a, as, e, hm⟩ := ihq
                rw [List.cons_append, splitChars, e]
                split_ifs
                · exact ⟨[], a :: as, rfl, List.mem_cons_of_mem _ hm⟩
                · exact ⟨d :: a, as, rfl, hm⟩
            obtain ⟨a, as, e, hm⟩ := h3 q
            rw [List.nil_append, e]
            exact List.mem_cons_of_mem _ hm
    apply key _ _ h1
    rcases h2 with rfl | ⟨q, rfl⟩
    · simp [splitChars_no_sep hp]
    · rw [splitChars_append hp]; simp

end Wulfric
