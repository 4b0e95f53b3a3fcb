import Verif.Model.Species
import Verif.Lemmas.Validation

/-! # Lemmas about species, names and types -/

namespace Wulfric

/-- The symbol occurs in the name up to letter case. -/
def Spec.Occurs (lower : String → String) (t name : String) : Prop :=
  (lower t).toList <:+: (lower name).toList

open Spec

theorem pyIn_iff (lower : String → String) (t name : String) :
    pyIn (lower t) (lower name) = true ↔ Occurs lower t name := by
  simp [pyIn, Occurs]

theorem speciesLoop_two (lower : String → String) (name : String) (pre post : List String)
    (t found : String) (ht : t.length = 2) (ho : Occurs lower t name)
    (hpre : ∀ u ∈ pre, u.length = 2 → ¬ Occurs lower u name) :
    speciesLoop lower name (pre ++ t :: post) found = t := by
  induction pre generalizing found with
  | nil => simp [speciesLoop, (pyIn_iff lower t name).2 ho, ht]
  | cons u pre ih =>
    have ih' := fun f => ih f fun v hv => hpre v (by simp [hv])
    simp only [List.cons_append, speciesLoop]
    by_cases hu : pyIn (lower u) (lower name) = true
    · have : ¬ u.length = 2 := fun h2 => hpre u (by simp) h2 ((pyIn_iff _ _ _).1 hu)
      rw [if_pos hu, if_neg this]
      exact ih' u
    · rw [if_neg hu]; exact ih' found

open Classical in
theorem speciesLoop_one (lower : String → String) (name : String) (l : List String) (found : String)
    (h : ∀ u ∈ l, u.length = 2 → ¬ Occurs lower u name) :
    speciesLoop lower name l found = ((l.filter fun u => Occurs lower u name).getLast?).getD found := by
  induction l generalizing found with
  | nil => simp [speciesLoop]
  | cons u l ih =>
    have ih' := fun f => ih f fun v hv => h v (by simp [hv])
    simp only [speciesLoop]
    by_cases hu : Occurs lower u name
    · have : ¬ u.length = 2 := fun h2 => h u (by simp) h2 hu
      rw [if_pos ((pyIn_iff _ _ _).2 hu), if_neg this, ih']
      rw [List.filter_cons_of_pos (by simpa using hu), List.getLast?_cons]
      simp
    · rw [if_neg (fun hc => hu ((pyIn_iff _ _ _).1 hc)), ih',
        List.filter_cons_of_neg (by simpa using hu)]

theorem first_two (l : List String) (P : String → Prop) (h : ∃ t ∈ l, t.length = 2 ∧ P t) :
    ∃ pre t post, l = pre ++ t :: post ∧ t.length = 2 ∧ P t ∧
      ∀ u ∈ pre, u.length = 2 → ¬ P u := by
  induction l with
  | nil => simp at h
  | cons a l ih =>
    by_cases ha : a.length = 2 ∧ P a
    · exact ⟨[], a, l, rfl, ha.1, ha.2, by simp⟩
    · obtain ⟨t, ht, h2⟩ := h
      have : ∃ t ∈ l, t.length = 2 ∧ P t := by
        rcases List.mem_cons.1 ht with rfl | ht
        · exact absurd h2 ha
        · exact ⟨t, ht, h2⟩
      obtain ⟨pre, t, post, rfl, e1, e2, e3⟩ := ih this
      refine ⟨a :: pre, t, post, rfl, e1, e2, ?_⟩
      intro u hu h2
      rcases List.mem_cons.1 hu with rfl | hu
      · exact fun hp => ha ⟨h2, hp⟩
      · exact e3 u hu h2

theorem X_not_species : "X" ∉ atomSpecies := by decide +kernel

theorem species_length : ∀ t ∈ atomSpecies, t.length = 1 ∨ t.length = 2 := by decide +kernel

theorem toDict_wf {K : Type} [Field K] [LinearOrder K] (atoms : Atoms K) : atoms.toDict.WF := by
  unfold PyDict.WF Atoms.toDict PyDict.keys
  cases atoms.names <;> cases atoms.species <;> cases atoms.positions <;>
    cases atoms.spglibTypes <;> simp

/-- Removing a suffix of characters which do not occur in the part. -/
theorem infix_of_append {α : Type*} (P : α → Prop) {u a d : List α} (hu : ∀ c ∈ u, P c)
    (hd : ∀ c ∈ d, ¬ P c) (h : u <:+: a ++ d) : u <:+: a := by
  obtain ⟨s, e, h⟩ := h
  rcases List.append_eq_append_iff.1 h with ⟨z, hz, -⟩ | ⟨z, hz, -⟩
  · exact ⟨s, z, hz.symm⟩
  · -- `s ++ u = a ++ z`
    rcases List.append_eq_append_iff.1 hz with ⟨w, hw1, hw2⟩ | ⟨w, hw1, hw2⟩
    · -- a = s ++ w, u = w ++ z
      have hz0 : z = [] := by
        cases z with
        | nil => rfl
        | cons c z =>
          exfalso
          apply hd c _ (hu c (by rw [hw2]; simp))
          have h2 : a ++ ((c :: z) ++ e) = a ++ d := by
            rw [← List.append_assoc, ← hz, h]
          have h3 := List.append_cancel_left h2
          rw [← h3]; simp
      subst hz0
      rw [List.append_nil] at hw2
      subst hw2
      exact ⟨s, [], by rw [List.append_nil, ← hw1]⟩
    · -- s = a ++ w, z = w ++ u
      cases u with
      | nil => exact List.nil_infix
      | cons c u =>
        exfalso
        apply hd c _ (hu c (by simp))
        have h2 : a ++ (z ++ e) = a ++ d := by
          rw [← List.append_assoc, ← hz, h]
        have h3 := List.append_cancel_left h2
        rw [← h3, hw2]; simp

end Wulfric
