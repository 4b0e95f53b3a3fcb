import Verif.Lemmas.Species
import Verif.Props.C28_Validation

/-! # C29: deduction of atom species from names -/

namespace Wulfric
open Spec
variable {K : Type} [Field K] [LinearOrder K]

/-- C29: if a symbol of two letters occurs in the name, the answer is the first such
symbol of the table. -/
theorem C29_two_letters (lower : String → String) (name : String) (r : Bool)
    (h : ∃ t ∈ atomSpecies, t.length = 2 ∧ Occurs lower t name) :
    ∃ pre t post, atomSpecies = pre ++ t :: post ∧ getAtomSpecies lower name r = .ok t ∧
      t.length = 2 ∧ Occurs lower t name ∧ ∀ u ∈ pre, u.length = 2 → ¬ Occurs lower u name := by
  obtain ⟨pre, t, post, e, h2, ho, hpre⟩ := first_two atomSpecies (fun t => Occurs lower t name) h
  refine ⟨pre, t, post, e, ?_, h2, ho, hpre⟩
  have hl : speciesLoop lower name atomSpecies "X" = t := by
    rw [e]; exact speciesLoop_two lower name pre post t "X" h2 ho hpre
  unfold getAtomSpecies
  simp only [hl]
  rw [if_neg]
  rintro ⟨rfl, -⟩
  exact absurd h2 (by decide)

/-- C29: otherwise the answer is the last symbol (of one letter) of the table that occurs. -/
theorem C29_one_letter (lower : String → String) (name : String) (r : Bool)
    (h : ∃ t ∈ atomSpecies, Occurs lower t name)
    (h2 : ∀ t ∈ atomSpecies, t.length = 2 → ¬ Occurs lower t name) :
    ∃ pre t post, atomSpecies = pre ++ t :: post ∧ getAtomSpecies lower name r = .ok t ∧
      t.length = 1 ∧ Occurs lower t name ∧ ∀ u ∈ post, ¬ Occurs lower u name := by
  classical
  have hl := speciesLoop_one lower name atomSpecies "X" h2
  obtain ⟨t, ht⟩ : ∃ t, (atomSpecies.filter fun u => Occurs lower u name).getLast? = some t := by
    rw [← Option.isSome_iff_exists, List.getLast?_isSome]
    obtain ⟨t, ht, ho⟩ := h
    exact List.ne_nil_of_mem (List.mem_filter.2 ⟨ht, by simpa using ho⟩)
  obtain ⟨init, hinit⟩ := List.getLast?_eq_some_iff.1 ht
  obtain ⟨pre, post, e, e1, e2⟩ := List.filter_eq_append_iff.1 hinit
  obtain ⟨a, b, rfl, f1, f2, f3⟩ := List.filter_eq_cons_iff.1 e2
  have hm : t ∈ atomSpecies := by rw [e]; simp
  have ho : Occurs lower t name := by simpa using f2
  refine ⟨pre ++ a, t, b, by rw [e]; simp, ?_, ?_, ho, ?_⟩
  · unfold getAtomSpecies
    rw [hl, ht]
    simp only [Option.getD_some]
    rw [if_neg]
    rintro ⟨rfl, -⟩
    exact X_not_species hm
  · rcases species_length t hm with h1 | h1
    · exact h1
    · exact absurd ho (h2 t hm h1)
  · intro u hu hou
    have : u ∈ List.filter (fun u => decide (Occurs lower u name)) b :=
      List.mem_filter.2 ⟨hu, by simpa using hou⟩
    rw [f3] at this
    simp at this

/-- C29: if no symbol occurs, the answer is `"X"`, or an exception if asked for. -/
theorem C29_none (lower : String → String) (name : String)
    (h : ∀ t ∈ atomSpecies, ¬ Occurs lower t name) :
    getAtomSpecies lower name false = .ok "X" ∧
      getAtomSpecies lower name true = .error .failedToDeduceAtomSpecies := by
  classical
  have hl := speciesLoop_one lower name atomSpecies "X" (fun t ht _ => h t ht)
  have : (atomSpecies.filter fun u => Occurs lower u name) = [] := by
    rw [List.filter_eq_nil_iff]
    intro t ht
    simpa using h t ht
  rw [this] at hl
  simp only [List.getLast?_nil, Option.getD_none] at hl
  simp [getAtomSpecies, hl]

/-- C29: the answer `"X"` is given exactly when no symbol occurs; any other answer is a
symbol of the table that occurs in the name. -/
theorem C29_sound (lower : String → String) (name : String) :
    ∃ s, getAtomSpecies lower name false = .ok s ∧
      (s = "X" ↔ ∀ t ∈ atomSpecies, ¬ Occurs lower t name) ∧
      (s ≠ "X" → s ∈ atomSpecies ∧ Occurs lower s name) := by
  by_cases h : ∀ t ∈ atomSpecies, ¬ Occurs lower t name
  · exact ⟨"X", (C29_none lower name h).1, ⟨fun _ => h, fun _ => rfl⟩, by simp⟩
  · push Not at h
    have key : ∃ t ∈ atomSpecies, getAtomSpecies lower name false = .ok t ∧ Occurs lower t name := by
      by_cases h2 : ∃ t ∈ atomSpecies, t.length = 2 ∧ Occurs lower t name
      · obtain ⟨pre, t, post, e, e1, -, e3, -⟩ := C29_two_letters lower name false h2
        exact ⟨t, by rw [e]; simp, e1, e3⟩
      · push Not at h2
        obtain ⟨pre, t, post, e, e1, -, e3, -⟩ := C29_one_letter lower name false h h2
        exact ⟨t, by rw [e]; simp, e1, e3⟩
    obtain ⟨t, hm, e, ho⟩ := key
    refine ⟨t, e, ?_, fun _ => ⟨hm, ho⟩⟩
    constructor
    · rintro rfl; exact absurd hm X_not_species
    · intro hc; exact absurd ho (hc t hm)

theorem table_letters : ∀ t ∈ atomSpecies, ∀ c ∈ (String.toLower t).toList, c.isAlpha = true := by
  decide +kernel

theorem table_self : ∀ t ∈ atomSpecies, getAtomSpecies String.toLower t true = .ok t := by
  decide +kernel

theorem speciesLoop_congr (lower : String → String) (n m : String) (l : List String) (found : String)
    (h : ∀ t ∈ l, Occurs lower t n ↔ Occurs lower t m) :
    speciesLoop lower n l found = speciesLoop lower m l found := by
  induction l generalizing found with
  | nil => rfl
  | cons t l ih =>
    have ih' := fun f => ih f fun u hu => h u (by simp [hu])
    have ht := h t (by simp)
    rw [← pyIn_iff, ← pyIn_iff] at ht
    have : pyIn (lower t) (lower n) = pyIn (lower t) (lower m) := by
      rw [Bool.eq_iff_iff]; exact ht
    simp only [speciesLoop, this, ih']

/-- C29: an element symbol followed by anything without letters (an index, say) is
recognised, for all 118 symbols. -/
theorem C29_indexed (t : String) (ht : t ∈ atomSpecies) (d : String)
    (hd : ∀ c ∈ (String.toLower d).toList, c.isAlpha = false) (r : Bool) :
    getAtomSpecies String.toLower (t ++ d) r = .ok t := by
  have hlow : (String.toLower (t ++ d)).toList = (String.toLower t).toList ++ (String.toLower d).toList := by
    simp [String.toLower]
  have h : ∀ u ∈ atomSpecies, Occurs String.toLower u (t ++ d) ↔ Occurs String.toLower u t := by
    intro u hu
    unfold Occurs
    rw [hlow]
    constructor
    · exact infix_of_append (fun c => c.isAlpha = true) (table_letters u hu)
        (fun c hc => by simp [hd c hc])
    · intro hi; exact hi.trans (List.infix_append' [] _ _)
  have hs := table_self t ht
  unfold getAtomSpecies at hs ⊢
  rw [speciesLoop_congr String.toLower (t ++ d) t atomSpecies "X" h]
  have hX : speciesLoop String.toLower t atomSpecies "X" ≠ "X" := by
    intro hc
    simp [hc] at hs
  simp only [hX, false_and, if_false] at hs ⊢
  exact hs

theorem validate_cases (atoms : Atoms K) (req : List String) :
    (ValidAtoms atoms.toDict req ∧ validateAtoms atoms.toDict req true = .ok true) ∨
    (¬ ValidAtoms atoms.toDict req ∧ ∃ e, validateAtoms atoms.toDict req true = .error e) := by
  obtain ⟨h1, h2, h3⟩ := C28_raises atoms.toDict (toDict_wf atoms) req
  by_cases hv : ValidAtoms atoms.toDict req
  · exact Or.inl ⟨hv, h1 hv⟩
  · refine Or.inr ⟨hv, ?_⟩
    by_cases hs : ∀ k v, (k, v) ∈ atoms.toDict → (pyLen v).isSome
    · exact ⟨_, h2 hv hs⟩
    · push Not at hs
      obtain ⟨k, v, hm, hn⟩ := hs
      exact ⟨_, h3 ⟨k, v, hm, by simpa using hn⟩⟩

/-- C29: `get_atoms_species` gives the species of each name, in order. -/
theorem C29_atoms (lower : String → String) (atoms : Atoms K) (r : Bool) (l : List String) :
    getAtomsSpecies lower atoms r = .ok l ↔
      ValidAtoms atoms.toDict ["names"] ∧
      List.Forall₂ (fun name s => getAtomSpecies lower name r = .ok s) (atoms.names.getD []) l := by
  have hmap : ∀ (ns : List String) (l : List String),
      ns.mapM (fun name => getAtomSpecies lower name r) = .ok l ↔
        List.Forall₂ (fun name s => getAtomSpecies lower name r = .ok s) ns l := by
    intro ns
    induction ns with
    | nil =>
      intro l
      simp [pure, Except.pure, eq_comm]
    | cons n ns ih =>
      intro l
      rw [List.mapM_cons]
      cases hn : getAtomSpecies lower n r with
      | error e =>
        simp only [bind, Except.bind]
        constructor
        · intro h; cases h
        · rintro (_ | ⟨h, _⟩); rw [hn] at h; cases h
      | ok s =>
        simp only [bind, Except.bind]
        cases hm : ns.mapM (fun name => getAtomSpecies lower name r) with
        | error e =>
          simp only
          constructor
          · intro h; cases h
          · rintro (_ | ⟨h, h'⟩)
            have := (ih _).2 h'
            rw [hm] at this; cases this
        | ok l' =>
          simp only [pure, Except.pure, Except.ok.injEq]
          constructor
          · rintro rfl; exact .cons hn ((ih _).1 hm)
          · rintro (_ | ⟨h, h'⟩)
            rw [hn] at h; cases h
            have := (ih _).2 h'
            rw [hm] at this; cases this
            rfl
  rw [← hmap]
  unfold getAtomsSpecies
  rcases validate_cases atoms ["names"] with ⟨hv, e⟩ | ⟨hv, err, e⟩
  · rw [e]; simp [hv, bind, Except.bind]
  · rw [e]; simp [hv, bind, Except.bind]

example : getAtomSpecies String.toLower "_3341Cr" true = .ok "Cr" := by decide +kernel
example : getAtomSpecies String.toLower "Sp" true = .ok "S" := by decide +kernel
example : getAtomSpecies String.toLower "123a" false = .ok "X" := by decide +kernel

/-- The hypotheses of `C29_two_letters` and `C29_one_letter` are met. -/
example : ∃ t ∈ atomSpecies, t.length = 2 ∧ Occurs String.toLower t "CrSBr" :=
  ⟨"Cr", by decide +kernel, by decide +kernel, by unfold Occurs; decide +kernel⟩

end Wulfric
