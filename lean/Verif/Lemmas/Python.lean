import Verif.Model.Python

/-! # Lemmas about dictionaries and lists -/

namespace Wulfric
namespace PyDict
variable {κ V : Type*} [DecidableEq κ]

/-- The invariant of a python dictionary: every key occurs once. -/
def WF (d : PyDict κ V) : Prop := d.keys.Nodup

theorem get?_setItem (d : PyDict κ V) (k a : κ) (v : V) :
    (d.setItem k v).get? a = if k = a then some v else d.get? a := by
  induction d with
  | nil => simp [setItem, get?]
  | cons e d ih =>
    obtain ⟨b, w⟩ := e
    by_cases hb : b = k
    · subst hb
      simp only [setItem, if_true, get?]
      split <;> rfl
    · simp only [setItem, if_neg hb, get?, ih]
      by_cases h1 : b = a
      · subst h1; simp [Ne.symm hb]
      · simp [h1]

theorem keys_setItem (d : PyDict κ V) (k : κ) (v : V) :
    (d.setItem k v).keys = if k ∈ d.keys then d.keys else d.keys ++ [k] := by
  induction d with
  | nil => simp [setItem, keys]
  | cons e d ih =>
    obtain ⟨b, w⟩ := e
    by_cases hb : b = k
    · subst hb; simp [setItem, keys]
    · simp only [setItem, if_neg hb]
      simp only [keys, List.map_cons] at ih ⊢
      rw [ih]
      by_cases h : k ∈ List.map Prod.fst d
      · simp [h]
      · simp [h, Ne.symm hb]

theorem WF.setItem {d : PyDict κ V} (h : d.WF) (k : κ) (v : V) : (d.setItem k v).WF := by
  unfold WF at *
  rw [keys_setItem]
  split
  · exact h
  · rename_i hk
    rw [List.nodup_append]
    refine ⟨h, by simp, ?_⟩
    rintro a ha b hb rfl
    simp at hb; exact hk (hb ▸ ha)

theorem get?_eq_none (d : PyDict κ V) (k : κ) : d.get? k = none ↔ k ∉ d.keys := by
  induction d with
  | nil => simp [get?, keys]
  | cons e d ih =>
    obtain ⟨b, w⟩ := e
    by_cases hb : b = k
    · simp [get?, keys, hb]
    · simp only [get?, if_neg hb, ih]
      simp [keys, Ne.symm hb]

theorem get?_isSome (d : PyDict κ V) (k : κ) : (d.get? k).isSome ↔ k ∈ d.keys := by
  rw [Option.isSome_iff_ne_none, Ne, get?_eq_none, not_not]

theorem keys_erase (d : PyDict κ V) (k : κ) : (d.erase k).keys = d.keys.erase k := by
  induction d with
  | nil => simp [erase, keys]
  | cons e d ih =>
    obtain ⟨b, w⟩ := e
    by_cases hb : b = k
    · simp [erase, keys, hb]
    · simp only [erase, if_neg hb]
      simp only [keys, List.map_cons] at ih ⊢
      rw [ih, List.erase_cons_tail (by simpa using hb)]

theorem WF.erase {d : PyDict κ V} (h : d.WF) (k : κ) : (d.erase k).WF := by
  unfold WF at *
  rw [keys_erase]
  exact h.erase _

theorem get?_erase {d : PyDict κ V} (h : d.WF) (k a : κ) :
    (d.erase k).get? a = if k = a then none else d.get? a := by
  induction d with
  | nil => simp [PyDict.erase, get?]
  | cons e d ih =>
    obtain ⟨b, w⟩ := e
    have hd : WF d := (List.nodup_cons.1 h).2
    have hb' : b ∉ keys d := (List.nodup_cons.1 h).1
    by_cases hb : b = k
    · subst hb
      simp only [PyDict.erase, if_true, get?]
      split
      · rename_i h2; subst h2; exact (get?_eq_none _ _).2 hb'
      · rfl
    · simp only [PyDict.erase, if_neg hb, get?, ih hd]
      by_cases h1 : b = a
      · subst h1; simp [Ne.symm hb]
      · simp [h1]

theorem setItem_append (d : PyDict κ V) (k : κ) (v : V) (h : k ∉ d.keys) :
    d.setItem k v = d ++ [(k, v)] := by
  induction d with
  | nil => simp [setItem]
  | cons e d ih =>
    obtain ⟨b, w⟩ := e
    simp only [keys, List.map_cons, List.mem_cons, not_or] at h
    simp only [setItem, if_neg (Ne.symm h.1), List.cons_append]
    rw [ih h.2]

theorem ext_of {d d' : PyDict κ V} (h : d.WF) (hk : d.keys = d'.keys)
    (hg : ∀ k, d.get? k = d'.get? k) : d = d' := by
  induction d generalizing d' with
  | nil => cases d' with
    | nil => rfl
    | cons e d' => simp [keys] at hk
  | cons e d ih => cases d' with
    | nil => simp [keys] at hk
    | cons e' d' =>
      obtain ⟨b, w⟩ := e
      obtain ⟨b', w'⟩ := e'
      simp only [keys, List.map_cons, List.cons.injEq] at hk
      obtain ⟨rfl, hk⟩ := hk
      have h0 := hg b
      simp [get?] at h0
      subst h0
      have hd : WF d := (List.nodup_cons.1 h).2
      have hb' : b ∉ keys d := (List.nodup_cons.1 h).1
      congr 1
      apply ih hd hk
      intro k
      by_cases e : b = k
      · subst e
        rw [(get?_eq_none _ _).2 hb', (get?_eq_none _ _).2]
        unfold keys at hb' ⊢
        rw [← hk]; exact hb'
      · have := hg k
        simpa [get?, e] using this

end PyDict

theorem pyGet_ok {α : Type*} {l : List α} {i : ℤ} {x : α} (h : pyGet l i = .ok x) : x ∈ l := by
  unfold pyGet at h
  revert h
  generalize (if i < 0 then i + (l.length : ℤ) else i) = k
  intro h
  by_cases h0 : 0 ≤ k
  · simp only [h0, if_true] at h
    cases h1 : l[k.toNat]? with
    | none => simp [h1] at h
    | some y => simp [h1] at h; subst h; exact List.mem_of_getElem? h1
  · simp [h0] at h

/-- `l[i]` is defined exactly for `-len ≤ i < len`. -/
theorem pyGet_isOk {α : Type*} (l : List α) (i : ℤ) :
    (∃ x, pyGet l i = .ok x) ↔ -(l.length : ℤ) ≤ i ∧ i < l.length := by
  unfold pyGet
  by_cases h : i < 0
  · simp only [h, if_true]
    by_cases h0 : 0 ≤ i + (l.length : ℤ)
    · simp only [h0, if_true]
      have hlt : (i + (l.length : ℤ)).toNat < l.length := by omega
      rw [List.getElem?_eq_getElem hlt]
      simp; omega
    · simp only [h0, if_false]; simp; omega
  · simp only [h, if_false]
    have h0 : 0 ≤ i := by omega
    simp only [h0, if_true]
    by_cases hlt : i.toNat < l.length
    · rw [List.getElem?_eq_getElem hlt]; simp; omega
    · rw [List.getElem?_eq_none (by omega)]; simp; omega

theorem pyGet_nat {α : Type*} (l : List α) (k : ℕ) (h : k < l.length) :
    pyGet l (k : ℤ) = .ok l[k] := by
  unfold pyGet
  have h0 : ¬ ((k : ℤ) < 0) := by omega
  simp [h0, List.getElem?_eq_getElem h]

theorem pyGet_map {α β : Type*} (f : α → β) (l : List α) (i : ℤ) :
    pyGet (l.map f) i = (pyGet l i).map f := by
  unfold pyGet
  simp only [List.length_map, List.getElem?_map]
  generalize (if i < 0 then i + (l.length : ℤ) else i) = k
  by_cases h : 0 ≤ k
  · simp only [h, if_true]
    cases l[k.toNat]? <;> rfl
  · simp only [h, if_false]; rfl

end Wulfric
