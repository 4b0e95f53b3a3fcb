import Verif.Lemmas.Species
import Mathlib.Data.List.Count

/-! # Lemmas about unique names -/

namespace Wulfric

/-- The string does not end with a decimal digit. -/
def Spec.NoDigitEnd (s : String) : Prop := ∀ c, s.toList.getLast? = some c → c.isDigit = false

open Spec

theorem strip_digits {a d : List Char} (ha : ∀ c, a.getLast? = some c → c.isDigit = false)
    (hd : ∀ c ∈ d, c.isDigit = true) :
    (a ++ d).reverse.dropWhile Char.isDigit = a.reverse := by
  rw [List.reverse_append, List.dropWhile_append]
  have h1 : d.reverse.dropWhile Char.isDigit = [] := by
    have : ∀ l : List Char, (∀ c ∈ l, c.isDigit = true) → l.dropWhile Char.isDigit = [] := by
      intro l hl
      induction l with
      | nil => rfl
      | cons c l ih =>
        rw [List.dropWhile_cons_of_pos (hl c (by simp))]
        exact ih fun x hx => hl x (by simp [hx])
    exact this _ fun c hc => hd c (List.mem_reverse.1 hc)
  rw [h1]
  simp only [List.isEmpty_nil, if_true]
  cases h : a.reverse with
  | nil => rfl
  | cons c t =>
    have : a.getLast? = some c := by
      rw [← List.head?_reverse, h]; rfl
    rw [List.dropWhile_cons_of_neg (by simp [ha c this])]

theorem repr_digits (n : ℕ) : ∀ c ∈ (Nat.repr n).toList, c.isDigit = true := by
  intro c hc
  rw [Nat.toList_repr] at hc
  exact Nat.isDigit_of_mem_toDigits (by norm_num) (by norm_num) hc

theorem repr_inj {m n : ℕ} (h : (Nat.repr m).toList = (Nat.repr n).toList) : m = n := by
  rw [Nat.toList_repr, Nat.toList_repr] at h
  have := congrArg (fun l => Nat.ofDigitChars 10 l 0) h
  simpa using this

theorem repr_ne_nil (n : ℕ) : (Nat.repr n).toList ≠ [] := by
  rw [Nat.toList_repr]
  exact Nat.toDigits_ne_nil

/-- A name that does not end with a digit can be separated from the index. -/
theorem append_repr_inj {a b : String} {m n : ℕ} (ha : NoDigitEnd a) (hb : NoDigitEnd b)
    (h : a ++ Nat.repr m = b ++ Nat.repr n) : a = b ∧ m = n := by
  have h' := congrArg String.toList h
  simp only [String.toList_append] at h'
  have h1 := congrArg (fun l => (List.reverse l).dropWhile Char.isDigit) h'
  simp only [strip_digits ha (repr_digits m), strip_digits hb (repr_digits n)] at h1
  have h2 := List.reverse_injective h1
  rw [h2] at h'
  exact ⟨String.toList_inj.1 h2, repr_inj (List.append_cancel_left h')⟩

theorem append_repr_ne {a b : String} {m : ℕ} (hb : NoDigitEnd b) : a ++ Nat.repr m ≠ b := by
  intro h
  have h' := congrArg String.toList h
  simp only [String.toList_append] at h'
  have hl : (Nat.repr m).toList.getLast? = b.toList.getLast? := by
    rw [← h', List.getLast?_append]
    cases hc : (Nat.repr m).toList.getLast? with
    | none => exact absurd (List.getLast?_eq_none_iff.1 hc) (repr_ne_nil m)
    | some c => simp
  cases hc : (Nat.repr m).toList.getLast? with
  | none => exact absurd (List.getLast?_eq_none_iff.1 hc) (repr_ne_nil m)
  | some c =>
    have hd := repr_digits m c (List.mem_of_getLast? hc)
    rw [hl] at hc
    have := hb c hc
    rw [hd] at this; cases this

theorem nameCounter_snoc (l : List String) (a : String) :
    nameCounter (l ++ [a]) = match (nameCounter l).get? a with
      | none => (nameCounter l).setItem a (1, 1)
      | some (x, y) => (nameCounter l).setItem a (x, y + 1) := by
  unfold nameCounter
  rw [List.foldl_append]
  rfl

theorem nameCounter_get (names : List String) : ∀ n : String,
    (nameCounter names).get? n =
      if names.count n = 0 then none else some (1, names.count n) := by
  induction names using List.reverseRecOn with
  | nil => intro n; simp [nameCounter, PyDict.get?]
  | append_singleton l a ih =>
    intro n
    rw [nameCounter_snoc, ih a]
    by_cases h0 : l.count a = 0
    · rw [if_pos h0]
      simp only [PyDict.get?_setItem, ih, List.count_append]
      by_cases hn : a = n
      · subst hn; simp [h0]
      · simp [hn]
    · rw [if_neg h0]
      simp only [PyDict.get?_setItem, ih, List.count_append]
      by_cases hn : a = n
      · subst hn; simp
      · simp [hn]

/-- The new name of an atom `n` which is preceded by the atoms `pre` in the list `names`. -/
def Spec.newName (names pre : List String) (n : String) : String :=
  if names.count n > 1 then n ++ Nat.repr (pre.count n + 1) else n

theorem renameLoop_eq (names : List String) : ∀ (rest pre : List String)
    (counter : PyDict String (ℕ × ℕ)), pre ++ rest = names →
    (∀ n ∈ names, counter.get? n = some (if names.count n > 1 then pre.count n + 1 else 1,
      names.count n)) →
    ∃ l, renameLoop counter rest = .ok l ∧ l.length = rest.length ∧
      ∀ (i : ℕ) (n : String), rest[i]? = some n →
        l[i]? = some (newName names (pre ++ rest.take i) n) := by
  intro rest
  induction rest with
  | nil => intro pre counter _ _; exact ⟨[], rfl, rfl, by simp⟩
  | cons a rest ih =>
    intro pre counter hp hc
    have ha : a ∈ names := by rw [← hp]; simp
    have hca := hc a ha
    simp only [renameLoop, hca]
    by_cases hcount : names.count a > 1
    · rw [if_pos hcount]
      simp only [hcount, if_true]
      obtain ⟨l, e, hl, hi⟩ := ih (pre ++ [a]) (counter.setItem a (pre.count a + 1 + 1, names.count a))
        (by simp [hp]) (by
          intro n hn
          rw [PyDict.get?_setItem]
          by_cases h : a = n
          · subst h; simp [hcount, List.count_append]
          · rw [if_neg h, hc n hn]
            simp [List.count_append, h])
      refine ⟨_, by rw [e]; rfl, by simp [hl], ?_⟩
      intro i n hn
      cases i with
      | zero =>
        simp at hn; subst hn
        simp [newName, hcount]
      | succ i =>
        simp only [List.getElem?_cons_succ] at hn ⊢
        rw [hi i n hn]
        simp
    · rw [if_neg hcount]
      obtain ⟨l, e, hl, hi⟩ := ih (pre ++ [a]) counter (by simp [hp]) (by
          intro n hn
          rw [hc n hn]
          by_cases h : a = n
          · subst h; simp [hcount]
          · simp [List.count_append, h])
      refine ⟨_, by rw [e]; rfl, by simp [hl], ?_⟩
      intro i n hn
      cases i with
      | zero =>
        simp at hn; subst hn
        simp [newName, hcount]
      | succ i =>
        simp only [List.getElem?_cons_succ] at hn ⊢
        rw [hi i n hn]
        simp

theorem dedup_length_iff (l : List String) : l.length = l.dedup.length ↔ l.Nodup := by
  constructor
  · intro h
    rw [← List.dedup_eq_self]
    exact (List.dedup_sublist l).eq_of_length h.symm
  · intro h; rw [List.dedup_eq_self.2 h]

end Wulfric
