import Verif.Spec.Sugar
import Verif.Lemmas.Python

/-! # C22, C23: attribute access and item access of `SyntacticSugar` -/

namespace Wulfric
open Spec Sugar PyDict
variable {V : Type*}

theorem step_wf (d : PyDict String V) (h : d.WF) (op : Op V) : (step d op).1.WF := by
  cases op with
  | setItem k v => exact h.setItem k v
  | setAttr k v => exact h.setItem k v
  | delItem k =>
    simp only [step, delItem]
    cases d.get? k with
    | none => exact h
    | some v => exact h.erase k
  | delAttr k =>
    simp only [step, delAttr, delItem]
    cases d.get? k with
    | none => exact h
    | some v => exact h.erase k

theorem step_get (d : PyDict String V) (h : d.WF) (op : Op V) (k : String) :
    (step d op).1.get? k = (touches k op).getD (d.get? k) := by
  have del : ∀ a : String, (match d.delItem a with
      | .ok d' => (d', (none : Option Err))
      | .error e => (d, some e)).1.get? k =
      ((if a = k then some none else none : Option (Option V))).getD (d.get? k) := by
    intro a
    simp only [delItem]
    cases hg : d.get? a with
    | none =>
      by_cases e : a = k
      · subst e; simp [hg]
      · simp [e]
    | some v =>
      simp only [get?_erase h]
      split <;> simp
  cases op with
  | setItem a v => simp only [step, touches, get?_setItem]; split <;> simp
  | setAttr a v => simp only [step, setAttr, touches, get?_setItem]; split <;> simp
  | delItem a => exact del a
  | delAttr a => exact del a

theorem run_wf (d : PyDict String V) (h : d.WF) (ops : List (Op V)) : (run d ops).1.WF := by
  induction ops generalizing d with
  | nil => exact h
  | cons op ops ih => exact ih _ (step_wf d h op)

/-- C22: after any history the stored value of a key is that of the last statement about
it, however it was written. -/
theorem C22_contents (d : PyDict String V) (h : d.WF) (ops : List (Op V)) (k : String) :
    (run d ops).1.get? k = lastValue (d.get? k) k ops := by
  induction ops generalizing d with
  | nil => simp [run, lastValue]
  | cons op ops ih =>
    have := ih (step d op).1 (step_wf d h op)
    simp only [run]
    rw [this, step_get d h]
    unfold lastValue
    rw [List.filterMap_cons]
    cases touches k op with
    | none => rfl
    | some x =>
      simp only [Option.getD_some]
      rw [List.getLast?_cons]
      simp

/-- C22: after any history an attribute read and an item read of a name that is not a
method of `dict` agree: same value, or `AttributeError` and `KeyError`. -/
theorem C22_reads_agree (reserved : String → Bool) (d : PyDict String V) (ops : List (Op V))
    (k : String) (hk : reserved k = false) :
    (∃ v, getAttr reserved (run d ops).1 k = .ok (.value v) ∧ (run d ops).1.getItem k = .ok v) ∨
    (getAttr reserved (run d ops).1 k = .error .attributeError ∧
      (run d ops).1.getItem k = .error .keyError) := by
  unfold getAttr getItem
  cases h : (run d ops).1.get? k with
  | none => right; simp [hk]
  | some v => left; exact ⟨v, by simp [hk]⟩

/-- C22: which of the two cases it is, and the value, in terms of the history alone. -/
theorem C22_attr (reserved : String → Bool) (d : PyDict String V) (h : d.WF) (ops : List (Op V))
    (k : String) (hk : reserved k = false) :
    getAttr reserved (run d ops).1 k =
      match lastValue (d.get? k) k ops with
      | some v => .ok (.value v)
      | none => .error .attributeError := by
  unfold getAttr getItem
  rw [C22_contents d h ops k]
  cases lastValue (d.get? k) k ops <;> simp [hk]

/-- C22: the contents (with their order) and the exceptions are those of a plain dictionary
after the same statements written with square brackets. -/
theorem C22_plain_dict (d : PyDict String V) (ops : List (Op V)) :
    run d ops = run d (ops.map bracketed) := by
  induction ops generalizing d with
  | nil => rfl
  | cons op ops ih =>
    have hs : step d (bracketed op) = step d op := by
      cases op <;> rfl
    simp only [run, List.map_cons, hs, ih]

/-- C22, limits: a key with the name of a method of `dict` (such as `"keys"`) cannot be
read as an attribute, although it can be set as one. -/
theorem C22_shadowed (reserved : String → Bool) (d : PyDict String V) (k : String)
    (hk : reserved k = true) (v : V) :
    getAttr reserved (setAttr d k v) k = .ok (.method k) ∧
      (setAttr d k v).getItem k = .ok v := by
  constructor
  · simp [getAttr, hk]
  · simp [setAttr, getItem, get?_setItem]

/-- C22, limits: deleting an attribute that is not there raises `KeyError`
(python's convention, and `getattr`, is `AttributeError`) and changes nothing. -/
theorem C22_delete_missing (d : PyDict String V) (k : String) (hk : k ∉ d.keys) :
    step d (.delAttr k) = (d, some .keyError) := by
  simp [step, delAttr, delItem, (get?_eq_none d k).2 hk]

/-- A history with both kinds of statements. -/
example : (run ([] : PyDict String ℕ)
    [.setAttr "names" 1, .setItem "positions" 2, .delAttr "names", .setItem "names" 3]).1 =
    [("positions", 2), ("names", 3)] := by decide

theorem copyLoop_eq (d : PyDict String V) (h : d.WF) : copyLoop d = d := by
  have gen : ∀ (rest pre : PyDict String V), pre ++ rest = d →
      rest.keys.foldl (fun acc k =>
        match d.get? k with
        | some v => acc.setItem k v
        | none => acc) pre = d := by
    intro rest
    induction rest with
    | nil => intro pre hp; simpa [keys] using hp
    | cons e rest ih =>
      intro pre hp
      obtain ⟨k, v⟩ := e
      have hk : k ∉ pre.keys := by
        unfold WF at h
        rw [← hp] at h
        simp only [keys, List.map_append, List.map_cons] at h
        intro hm
        exact (List.nodup_append.1 h).2.2 k hm k (by simp) rfl
      have hget : d.get? k = some v := by
        rw [← hp]
        clear ih hp
        induction pre with
        | nil => simp [get?]
        | cons e pre ihp =>
          obtain ⟨b, w⟩ := e
          simp only [keys, List.map_cons, List.mem_cons, not_or] at hk
          simp only [List.cons_append, get?, if_neg (Ne.symm hk.1)]
          exact ihp hk.2
      simp only [keys, List.map_cons, List.foldl_cons, hget]
      rw [setItem_append _ _ _ hk]
      exact ih (pre ++ [(k, v)]) (by simpa using hp)
  exact gen d [] rfl

/-- C23: `add_sugar` returns a new object with the same keys, order and values, and every
existing object (the argument too) is as before. -/
theorem C23_add (h : Heap V) (a : ℕ) (d : PyDict String V)
    (ha : h[a]? = some (.dict d) ∨ h[a]? = some (.candy d)) (hd : d.WF) :
    ∃ h' b, addSugar h a = .ok (h', b) ∧ h'[b]? = some (.candy d) ∧ h[b]? = none ∧
      ∀ i < h.length, h'[i]? = h[i]? := by
  refine ⟨h ++ [.candy d], h.length, ?_, ?_, ?_, ?_⟩
  · rcases ha with ha | ha <;> simp [addSugar, ha, Obj.entries, copyLoop_eq d hd]
  · simp
  · simp
  · intro i hi; rw [List.getElem?_append_left hi]

/-- C23: `remove_sugar` returns a new plain dictionary with the same keys, order and values. -/
theorem C23_remove (h : Heap V) (a : ℕ) (d : PyDict String V)
    (ha : h[a]? = some (.dict d) ∨ h[a]? = some (.candy d)) (hd : d.WF) :
    ∃ h' b, removeSugar h a = .ok (h', b) ∧ h'[b]? = some (.dict d) ∧ h[b]? = none ∧
      ∀ i < h.length, h'[i]? = h[i]? := by
  refine ⟨h ++ [.dict d], h.length, ?_, ?_, ?_, ?_⟩
  · rcases ha with ha | ha <;> simp [removeSugar, ha, Obj.entries, copyLoop_eq d hd]
  · simp
  · simp
  · intro i hi; rw [List.getElem?_append_left hi]

/-- C23: adding and then removing sugar gives back the same plain dictionary. -/
theorem C23_inverse (h : Heap V) (a : ℕ) (d : PyDict String V) (ha : h[a]? = some (.dict d))
    (hd : d.WF) :
    ∃ h' b h'' c, addSugar h a = .ok (h', b) ∧ removeSugar h' b = .ok (h'', c) ∧
      h''[c]? = h[a]? ∧ h''[a]? = h[a]? ∧ c ≠ a := by
  obtain ⟨h', b, e1, e2, e3, e4⟩ := C23_add h a d (Or.inl ha) hd
  obtain ⟨h'', c, f1, f2, f3, f4⟩ := C23_remove h' b d (Or.inr e2) hd
  have hla : a < h.length := by
    by_contra hc
    rw [List.getElem?_eq_none (by omega)] at ha; simp at ha
  have hla' : a < h'.length := by
    by_contra hc
    have := e4 a hla
    rw [List.getElem?_eq_none (by omega), ha] at this; simp at this
  refine ⟨h', b, h'', c, e1, f1, by rw [f2, ha], by rw [f4 a hla', e4 a hla], ?_⟩
  rintro rfl
  rw [List.getElem?_eq_getElem hla'] at f3
  simp at f3

/-- C23: something that is not a dictionary is refused by both. -/
theorem C23_not_dict (h : Heap V) (a : ℕ) (ha : h[a]? = some .other) :
    addSugar h a = .error .valueError ∧ removeSugar h a = .error .valueError := by
  simp [addSugar, removeSugar, ha, Obj.entries]

example : addSugar [.dict [("a", 1), ("b", 2)]] 0 =
    .ok ([.dict [("a", 1), ("b", 2)], .candy [("a", 1), ("b", 2)]], 1) := rfl

end Wulfric
