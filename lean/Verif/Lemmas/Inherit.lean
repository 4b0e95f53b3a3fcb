import Verif.Model.Conventional
import Verif.Lemmas.Python
import Verif.Spec.Conventional

/-! # Values of the keys of the new atoms -/

namespace Wulfric
open _root_.Spec

theorem getElem?_snoc {α : Type*} (l : List α) (a x : α) (i : ℕ) :
    (l ++ [a])[i]? = some x ↔ l[i]? = some x ∨ (i = l.length ∧ a = x) := by
  rcases lt_trichotomy i l.length with h | h | h
  · rw [List.getElem?_append_left h]
    constructor
    · exact .inl
    · rintro (h' | ⟨rfl, -⟩)
      · exact h'
      · omega
  · subst h; simp
  · rw [List.getElem?_eq_none (by simp; omega), List.getElem?_eq_none (by omega)]
    simp; omega

theorem lastIndex_iff (types : List ℤ) (t : ℤ) (i : ℕ) :
    (lastIndex types).get? t = some i ↔ LastIndex types t i := by
  unfold lastIndex LastIndex
  induction types using List.reverseRecOn with
  | nil => simp [PyDict.get?]
  | append_singleton l a ih =>
    rw [List.zipIdx_append, List.foldl_append]
    simp only [List.zipIdx_cons, List.zipIdx_nil, List.foldl_cons, List.foldl_nil,
      PyDict.get?_setItem, Nat.zero_add]
    simp only [Ne, getElem?_snoc]
    by_cases h : a = t
    · subst h
      simp only [if_true, Option.some.injEq, and_true, not_or]
      constructor
      · rintro rfl
        refine ⟨.inr rfl, fun j hj => ⟨?_, by omega⟩⟩
        rw [List.getElem?_eq_none (by omega)]; simp
      · rintro ⟨h1 | h1, h2⟩
        · exfalso
          have := (List.getElem?_eq_some_iff.1 h1).1
          exact (h2 l.length this).2 rfl
        · exact h1.symm
    · simp only [h, if_false, and_false, or_false]
      exact ih

theorem firstIndex_iff (types : List ℤ) (t : ℤ) (i : ℕ) :
    (firstIndex types).get? t = some i ↔ FirstIndex types t i := by
  unfold firstIndex FirstIndex
  induction types using List.reverseRecOn generalizing t i with
  | nil => simp [PyDict.get?]
  | append_singleton l a ih =>
    rw [List.zipIdx_append, List.foldl_append]
    simp only [List.zipIdx_cons, List.zipIdx_nil, List.foldl_cons, List.foldl_nil,
      Nat.zero_add]
    simp only [Ne, getElem?_snoc]
    set d := List.foldl (fun (d : PyDict ℤ ℕ) (p : ℤ × ℕ) =>
      if (d.get? p.1).isSome = true then d else d.setItem p.1 p.2) [] l.zipIdx with hd
    by_cases hs : (d.get? a).isSome = true
    · rw [if_pos hs, ih t i]
      obtain ⟨k, hk⟩ := Option.isSome_iff_exists.1 hs
      have hk' := (ih a k).1 hk
      have hkl := (List.getElem?_eq_some_iff.1 hk'.1).1
      constructor
      · rintro ⟨h1, h2⟩
        have := (List.getElem?_eq_some_iff.1 h1).1
        refine ⟨.inl h1, fun j hj => ?_⟩
        rintro (h | ⟨h, -⟩)
        · exact h2 j hj h
        · omega
      · rintro ⟨h1 | ⟨h1, h1'⟩, h2⟩
        · exact ⟨h1, fun j hj h => h2 j hj (.inl h)⟩
        · subst h1 h1'
          exact absurd (.inl hk'.1) (h2 k hkl)
    · rw [if_neg hs, PyDict.get?_setItem]
      have hn : ∀ k : ℕ, l[k]? ≠ some a := by
        intro k hk
        apply hs
        rw [Option.isSome_iff_ne_none]
        intro hnone
        have hex : ∃ j : ℕ, l[j]? = some a := ⟨k, hk⟩
        classical
        have := (ih a (Nat.find hex)).2 ⟨Nat.find_spec hex, fun j hj => Nat.find_min hex hj⟩
        rw [hnone] at this; cases this
      by_cases h : a = t
      · subst h
        simp only [if_true, Option.some.injEq, and_true, not_or]
        constructor
        · rintro rfl
          exact ⟨.inr rfl, fun j hj => ⟨hn j, by omega⟩⟩
        · rintro ⟨h1 | h1, h2⟩
          · exact absurd h1 (hn i)
          · exact h1.symm
      · simp only [h, if_false, and_false, or_false]
        exact ih t i

theorem mapM_forall₂ {α β : Type} {f : α → Except Err β} {l : List α} {l' : List β}
    (h : l.mapM f = .ok l') : List.Forall₂ (fun a b => f a = .ok b) l l' := by
  induction l generalizing l' with
  | nil => simp [pure, Except.pure] at h; subst h; exact .nil
  | cons a l ih =>
    rw [List.mapM_cons] at h
    cases hf : f a with
    | error e => rw [hf] at h; cases h
    | ok b =>
      cases hl : l.mapM f with
      | error e => rw [hf, hl] at h; cases h
      | ok l2 =>
        rw [hf, hl] at h
        cases h
        exact .cons hf (ih hl)

theorem pyGet_nat_iff {α : Type} (l : List α) (i : ℕ) (x : α) :
    pyGet l (i : ℤ) = .ok x ↔ l[i]? = some x := by
  unfold pyGet
  have h0 : ¬ ((i : ℤ) < 0) := by omega
  simp only [h0, if_false, Nat.cast_nonneg, if_true, Int.toNat_natCast]
  cases l[i]? <;> simp

theorem pickKey_inherited {α : Type} {pickTo : ℤ → ℕ → Prop} {mapping : PyDict ℤ ℕ}
    (hm : ∀ t i, mapping.get? t = some i ↔ pickTo t i) {old new : Option (List α)}
    {types : List ℤ} (h : pickKey old mapping types = .ok new) :
    Inherited pickTo old types new := by
  constructor
  · rintro rfl; cases h; rfl
  · rintro l rfl
    unfold pickKey pick at h
    simp only at h
    cases hl : types.mapM (fun t => do let i ← mapping.getItem t; pyGet l (i : ℤ)) with
    | error e => rw [hl] at h; cases h
    | ok l' =>
      rw [hl] at h
      cases h
      refine ⟨l', rfl, (mapM_forall₂ hl).imp ?_⟩
      intro t x htx
      unfold PyDict.getItem at htx
      cases hg : mapping.get? t with
      | none => rw [hg] at htx; cases htx
      | some i =>
        rw [hg] at htx
        exact ⟨i, (hm t i).1 hg, (pyGet_nat_iff l i x).1 htx⟩

theorem newAtoms_ok {atoms atoms' : Atoms ℝ} {pickTo : ℤ → ℕ → Prop} {mapping : PyDict ℤ ℕ}
    (hm : ∀ t i, mapping.get? t = some i ↔ pickTo t i) {ps : List (Vec ℝ)} {ts : List ℤ}
    (h : newAtoms atoms mapping ps ts = .ok atoms') :
    atoms'.positions = some ps ∧ Inherited pickTo atoms.names ts atoms'.names ∧
    Inherited pickTo atoms.species ts atoms'.species ∧
    (atoms.spglibTypes = none → atoms'.spglibTypes = some ts) ∧
    (atoms.spglibTypes ≠ none → Inherited pickTo atoms.spglibTypes ts atoms'.spglibTypes) := by
  unfold newAtoms at h
  cases h1 : pickKey atoms.names mapping ts with
  | error e => rw [h1] at h; cases h
  | ok n =>
    cases h2 : pickKey atoms.species mapping ts with
    | error e => rw [h1, h2] at h; cases h
    | ok s =>
      cases h3 : pickKey atoms.spglibTypes mapping ts with
      | error e => rw [h1, h2, h3] at h; cases h
      | ok y =>
        rw [h1, h2, h3] at h
        cases h
        have i3 := pickKey_inherited hm h3
        refine ⟨rfl, pickKey_inherited hm h1, pickKey_inherited hm h2, ?_, ?_⟩
        · intro hn
          have := i3.1 hn
          subst this; rfl
        · intro hn
          obtain ⟨l, hl⟩ := Option.ne_none_iff_exists'.1 hn
          obtain ⟨l', rfl, -⟩ := i3.2 l hl
          exact i3

/-- Values of the key "spglib_types" when the original types are those given. -/
theorem inherited_types {pickTo : ℤ → ℕ → Prop} {l ts : List ℤ} {new : Option (List ℤ)}
    (hp : ∀ t i, pickTo t i → l[i]? = some t) (h : Inherited pickTo (some l) ts new) :
    new = some ts := by
  obtain ⟨l', rfl, hl⟩ := h.2 l rfl
  congr 1
  symm
  rw [← List.forall₂_eq_eq_eq]
  refine hl.imp ?_
  rintro t x ⟨i, h1, h2⟩
  rw [hp t i h1] at h2
  exact Option.some.inj h2

theorem mapM_ok_of_forall {α β : Type} {f : α → Except Err β} {l : List α}
    (h : ∀ a ∈ l, ∃ b, f a = .ok b) : ∃ l', l.mapM f = .ok l' := by
  induction l with
  | nil => exact ⟨[], rfl⟩
  | cons a l ih =>
    obtain ⟨b, hb⟩ := h a (by simp)
    obtain ⟨l', hl⟩ := ih fun x hx => h x (by simp [hx])
    exact ⟨b :: l', by rw [List.mapM_cons, hb, hl]; rfl⟩

theorem exists_lastIndex (types : List ℤ) (t : ℤ) (h : t ∈ types) : ∃ i, LastIndex types t i := by
  unfold LastIndex
  induction types using List.reverseRecOn with
  | nil => simp at h
  | append_singleton l a ih =>
    simp only [Ne, getElem?_snoc]
    by_cases ha : a = t
    · refine ⟨l.length, .inr ⟨rfl, ha⟩, fun j hj => ?_⟩
      rintro (h1 | ⟨h1, -⟩)
      · rw [List.getElem?_eq_none (by omega)] at h1; cases h1
      · omega
    · have : t ∈ l := by
        rcases List.mem_append.1 h with h1 | h1
        · exact h1
        · simp at h1; exact absurd h1.symm ha
      obtain ⟨i, h1, h2⟩ := ih this
      refine ⟨i, .inl h1, fun j hj => ?_⟩
      rintro (h3 | ⟨-, h3⟩)
      · exact h2 j hj h3
      · exact ha h3

theorem pickKey_ok {α : Type} {mapping : PyDict ℤ ℕ} {old : Option (List α)} {types : List ℤ}
    {n : ℕ} (hm : ∀ t ∈ types, ∃ i < n, mapping.get? t = some i)
    (hl : ∀ l, old = some l → l.length = n) : ∃ new, pickKey old mapping types = .ok new := by
  cases old with
  | none => exact ⟨none, rfl⟩
  | some l =>
    unfold pickKey pick
    obtain ⟨l', h⟩ := mapM_ok_of_forall (l := types)
      (f := fun t => do let i ← mapping.getItem t; pyGet l (i : ℤ)) (by
        intro t ht
        obtain ⟨i, hi, e⟩ := hm t ht
        have hi' : i < l.length := by rw [hl l rfl]; exact hi
        refine ⟨l[i], ?_⟩
        unfold PyDict.getItem
        rw [e]
        exact (pyGet_nat_iff l i _).2 (List.getElem?_eq_getElem hi'))
    exact ⟨some l', by simp only; rw [h]; rfl⟩

theorem newAtoms_defined {atoms : Atoms ℝ} {mapping : PyDict ℤ ℕ} {ps : List (Vec ℝ)}
    {ts : List ℤ} {n : ℕ} (hm : ∀ t ∈ ts, ∃ i < n, mapping.get? t = some i)
    (h1 : ∀ l, atoms.names = some l → l.length = n)
    (h2 : ∀ l, atoms.species = some l → l.length = n)
    (h3 : ∀ l, atoms.spglibTypes = some l → l.length = n) :
    ∃ atoms', newAtoms atoms mapping ps ts = .ok atoms' := by
  obtain ⟨a, ha⟩ := pickKey_ok hm h1
  obtain ⟨b, hb⟩ := pickKey_ok hm h2
  obtain ⟨c, hc⟩ := pickKey_ok hm h3
  unfold newAtoms
  rw [ha, hb, hc]
  exact ⟨_, rfl⟩

end Wulfric
