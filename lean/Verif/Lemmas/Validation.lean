import Verif.Spec.Validation
import Verif.Lemmas.Python
import Mathlib.Data.List.Dedup

/-! # Lemmas for the validation of atoms -/

namespace Wulfric
open Spec

theorem npShapes_cons (x : PyVal) (xs : List PyVal) (n : ℕ) (s : List ℕ) (hx : npShape x = some s)
    (h : npShapes xs = some (n :: s)) (hne : xs ≠ []) : npShapes (x :: xs) = some ((n + 1) :: s) := by
  cases xs with
  | nil => exact absurd rfl hne
  | cons y ys => simp [npShapes, hx, h]

theorem npShape_of_hasShape {x : PyVal} {s : List ℕ} (h : HasShape x s) : npShape x = some s := by
  induction h with
  | int n => rfl
  | bool b => rfl
  | str s => rfl
  | scalar => rfl
  | array shape items => rfl
  | nil => rfl
  | seq items s hne hall ih =>
    simp only [npShape]
    clear hall
    induction items with
    | nil => exact absurd rfl hne
    | cons x xs ihx =>
      by_cases hxs : xs = []
      · subst hxs
        simp [npShapes, ih x (by simp)]
      · have := ihx hxs (fun y hy => ih y (by simp [hy]))
        exact npShapes_cons x xs _ s (ih x (by simp)) this hxs

mutual
theorem hasShape_of_npShape : ∀ (x : PyVal) (s : List ℕ), npShape x = some s → HasShape x s
  | .int n, s, h => by simp [npShape] at h; subst h; exact .int n
  | .bool b, s, h => by simp [npShape] at h; subst h; exact .bool b
  | .str t, s, h => by simp [npShape] at h; subst h; exact .str t
  | .scalar, s, h => by simp [npShape] at h; subst h; exact .scalar
  | .ndarray t i, s, h => by simp [npShape] at h; subst h; exact .array t i
  | .seq [], s, h => by simp [npShape, npShapes] at h; subst h; exact .nil
  | .seq (x :: xs), s, h => by
      simp only [npShape] at h
      obtain ⟨t, rfl, ht⟩ := hasShapes_of (x :: xs) s h (by simp)
      exact .seq _ t (by simp) ht
termination_by x => sizeOf x
theorem hasShapes_of : ∀ (xs : List PyVal) (s : List ℕ), npShapes xs = some s → xs ≠ [] →
    ∃ t, s = xs.length :: t ∧ ∀ x ∈ xs, HasShape x t
  | [], s, h, hne => absurd rfl hne
  | [x], s, h, _ => by
      simp only [npShapes, Option.map_eq_some_iff] at h
      obtain ⟨t, ht, rfl⟩ := h
      refine ⟨t, rfl, ?_⟩
      intro y hy
      rw [List.mem_singleton.1 hy]
      exact hasShape_of_npShape x _ ht
  | x :: y :: xs, s, h, _ => by
      simp only [npShapes] at h
      cases h1 : npShape x with
      | none => simp [h1] at h
      | some s1 =>
        cases h2 : npShapes (y :: xs) with
        | none => simp [h1, h2] at h
        | some s2 =>
          obtain ⟨t, rfl, ht⟩ := hasShapes_of (y :: xs) s2 h2 (by simp)
          simp only [h1, h2] at h
          by_cases e : s1 = t
          · subst e
            simp at h
            subst h
            refine ⟨s1, by simp, ?_⟩
            intro z hz
            rcases List.mem_cons.1 hz with hz | hz
            · rw [hz]; exact hasShape_of_npShape x _ h1
            · exact ht z hz
          · simp [e] at h
termination_by xs => sizeOf xs
end

theorem npShape_iff (x : PyVal) (s : List ℕ) : npShape x = some s ↔ HasShape x s :=
  ⟨hasShape_of_npShape x s, npShape_of_hasShape⟩

theorem withLengths_eq (r : Bool) (d : PyDict String PyVal) (k : List ℕ → Except Err Bool) :
    withLengths r d k =
      if ∀ e ∈ d, (pyLen e.2).isSome then k (d.filterMap fun e => pyLen e.2)
      else failCheck r .typeError := by
  induction d generalizing k with
  | nil => simp [withLengths]
  | cons e d ih =>
    obtain ⟨a, v⟩ := e
    simp only [withLengths]
    cases h : pyLen v with
    | none =>
      rw [if_neg]
      intro hc
      have := hc (a, v) (by simp)
      simp [h] at this
    | some n =>
      simp only [ih]
      by_cases hd : ∀ e ∈ d, (pyLen e.2).isSome = true
      · rw [if_pos hd, if_pos]
        · simp [h]
        · intro e he
          rcases List.mem_cons.1 he with rfl | he
          · simp [h]
          · exact hd e he
      · rw [if_neg hd, if_neg]
        intro hc
        exact hd fun e he => hc e (by simp [he])

theorem checkElements_eq (r : Bool) (good : PyVal → Bool) (k : Except Err Bool) (xs : List PyVal) :
    checkElements r good k xs = if ∀ x ∈ xs, good x = true then k else failCheck r .valueError := by
  induction xs with
  | nil => simp [checkElements]
  | cons x xs ih =>
    simp only [checkElements, ih]
    by_cases h : good x = true <;> simp [h]

theorem checkRequired_eq (r : Bool) (atoms : PyDict String PyVal) (k : Except Err Bool)
    (keys : List String) : checkRequired r atoms k keys =
      if ∀ key ∈ keys, key ∈ atoms.keys then k else failCheck r .valueError := by
  induction keys with
  | nil => simp [checkRequired]
  | cons x xs ih =>
    simp only [checkRequired, ih]
    by_cases h : x ∈ atoms.keys <;> simp [h]

theorem get?_iff_mem {d : PyDict String PyVal} (hd : d.WF) (k : String) (v : PyVal) :
    d.get? k = some v ↔ (k, v) ∈ d := by
  induction d with
  | nil => simp [PyDict.get?]
  | cons e d ih =>
    obtain ⟨b, w⟩ := e
    have hd' : PyDict.WF d := (List.nodup_cons.1 hd).2
    have hb' : b ∉ PyDict.keys d := (List.nodup_cons.1 hd).1
    by_cases h : b = k
    · subst h
      simp only [PyDict.get?, if_true, List.mem_cons, Prod.mk.injEq, true_and, Option.some.injEq]
      constructor
      · intro h; exact Or.inl h.symm
      · rintro (h | h)
        · exact h.symm
        · exact absurd (List.mem_map.2 ⟨(b, v), h, rfl⟩) hb'
    · simp only [PyDict.get?, if_neg h, ih hd', List.mem_cons, Prod.mk.injEq]
      constructor
      · exact Or.inr
      · rintro (⟨h1, -⟩ | h1)
        · exact absurd h1.symm h
        · exact h1

theorem optionCheck {α : Type*} (o : Option α) (k : Except Err Bool) (P : α → Prop)
    [inst : Decidable (∀ v, o = some v → P v)] (res : Except Err Bool) (r : Bool) (h0 : o = none → res = k)
    (h1 : ∀ v, o = some v → P v → res = k)
    (h2 : ∀ v, o = some v → ¬ P v → res = failCheck r .valueError) :
    res = if ∀ v, o = some v → P v then k else failCheck r .valueError := by
  cases o with
  | none => simpa using h0 rfl
  | some v =>
    by_cases hv : P v
    · rw [if_pos (by intro w hw; cases hw; exact hv)]; exact h1 v rfl hv
    · rw [if_neg (by intro hc; exact hv (hc v rfl))]; exact h2 v rfl hv

open Classical in
theorem checkPositions_eq (r : Bool) (atoms : PyDict String PyVal) (hd : atoms.WF)
    (k : Except Err Bool) : checkPositions r atoms k =
      if ∀ v, ("positions", v) ∈ atoms → ∃ n, HasShape v [n, 3] then k
      else failCheck r .valueError := by
  unfold checkPositions
  simp only [← get?_iff_mem hd]
  apply optionCheck (P := fun v => ∃ n, HasShape v [n, 3])
  · intro h; rw [h]
  · rintro v h ⟨n, hn⟩
    rw [h]
    simp only
    rw [npShape_of_hasShape hn]
    simp
  · intro v h hn
    rw [h]
    simp only
    cases hs : npShape v with
    | none => rfl
    | some s =>
      simp only
      rw [if_pos]
      by_contra hc
      push Not at hc
      obtain ⟨h1, h2⟩ := hc
      apply hn
      match s, h1 with
      | [a, b], _ =>
        simp at h2
        subst h2
        exact ⟨a, (npShape_iff _ _).1 hs⟩

theorem isStr_iff (x : PyVal) : x.isStr = true ↔ IsStr x := by
  cases x <;> simp [PyVal.isStr, IsStr]

theorem goodSpecies_iff (x : PyVal) : goodSpecies x = true ↔ IsSpecies x := by
  cases x <;> simp [goodSpecies, IsSpecies]

theorem goodType_iff (x : PyVal) : goodType x = true ↔ IsType x := by
  cases x with
  | bool b => cases b <;> simp [goodType, IsType, PyVal.asInt]
  | _ => simp [goodType, IsType, PyVal.asInt]

open Classical in
theorem checkNames_eq (r : Bool) (atoms : PyDict String PyVal) (hd : atoms.WF)
    (k : Except Err Bool) : checkNames r atoms k =
      if ∀ v, ("names", v) ∈ atoms → ∀ x ∈ pyIter v, IsStr x then k
      else failCheck r .valueError := by
  unfold checkNames
  simp only [← get?_iff_mem hd]
  apply optionCheck (P := fun v => ∀ x ∈ pyIter v, IsStr x)
  · intro h; rw [h]
  · intro v h hp
    rw [h]
    simp only
    rw [checkElements_eq]
    simp only [isStr_iff]
    rw [if_pos hp]
  · intro v h hp
    rw [h]
    simp only
    rw [checkElements_eq]
    simp only [isStr_iff]
    rw [if_neg hp]

open Classical in
theorem checkSpecies_eq (r : Bool) (atoms : PyDict String PyVal) (hd : atoms.WF)
    (k : Except Err Bool) : checkSpecies r atoms k =
      if ∀ v, ("species", v) ∈ atoms → ∀ x ∈ pyIter v, IsSpecies x then k
      else failCheck r .valueError := by
  unfold checkSpecies
  simp only [← get?_iff_mem hd]
  apply optionCheck (P := fun v => ∀ x ∈ pyIter v, IsSpecies x)
  · intro h; rw [h]
  · intro v h hp
    rw [h]
    simp only
    rw [checkElements_eq]
    simp only [goodSpecies_iff]
    rw [if_pos hp]
  · intro v h hp
    rw [h]
    simp only
    rw [checkElements_eq]
    simp only [goodSpecies_iff]
    rw [if_neg hp]

open Classical in
theorem checkTypes_eq (r : Bool) (atoms : PyDict String PyVal) (hd : atoms.WF)
    (k : Except Err Bool) : checkTypes r atoms k =
      if ∀ v, ("spglib_types", v) ∈ atoms → ∀ x ∈ pyIter v, IsType x then k
      else failCheck r .valueError := by
  unfold checkTypes
  simp only [← get?_iff_mem hd]
  apply optionCheck (P := fun v => ∀ x ∈ pyIter v, IsType x)
  · intro h; rw [h]
  · intro v h hp
    rw [h]
    simp only
    rw [checkElements_eq]
    simp only [goodType_iff]
    rw [if_pos hp]
  · intro v h hp
    rw [h]
    simp only
    rw [checkElements_eq]
    simp only [goodType_iff]
    rw [if_neg hp]

theorem dedup_length (l : List ℕ) :
    ¬ (l.dedup.length ≠ 0 ∧ l.dedup.length ≠ 1) ↔ ∃ n, ∀ x ∈ l, x = n := by
  constructor
  · intro h
    match hl : l.dedup with
    | [] =>
      rw [List.dedup_eq_nil] at hl; subst hl; exact ⟨0, by simp⟩
    | [a] =>
      refine ⟨a, fun x hx => ?_⟩
      have := List.mem_dedup.2 hx
      rw [hl] at this; simpa using this
    | a :: b :: t => rw [hl] at h; simp at h
  · rintro ⟨n, hn⟩
    match hl : l.dedup with
    | [] => simp
    | [a] => simp
    | a :: b :: t =>
      exfalso
      have hnd := List.nodup_dedup l
      rw [hl] at hnd
      have ha := hn a (List.mem_dedup.1 (by rw [hl]; simp))
      have hb := hn b (List.mem_dedup.1 (by rw [hl]; simp))
      simp [ha, hb] at hnd

end Wulfric
