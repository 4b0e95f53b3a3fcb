import Verif.Spec.Elements
import Verif.Props.C29_Species

/-! # C28 and C29: the species are the chemical elements -/

namespace Wulfric
open Spec

/-- C29: the table of species has the 118 chemical elements, each once, and nothing else. -/
theorem C29_elements : (∀ s, s ∈ atomSpecies ↔ IsElement s) ∧ atomSpecies.Nodup ∧
    atomSpecies.length = 118 := by
  refine ⟨fun s => ⟨?_, ?_⟩, by decide +kernel, by decide +kernel⟩
  · have h : ∀ s ∈ atomSpecies, ∃ g ∈ elementGroups, s ∈ g := by decide +kernel
    exact h s
  · rintro ⟨g, hg, hs⟩
    have h : ∀ g ∈ elementGroups, ∀ s ∈ g, s ∈ atomSpecies := by decide +kernel
    exact h g hg s hs

/-- C28: `validate_atoms` accepts as a species the symbol of any chemical element and "X", and no
other string. -/
theorem C28_species (l : List String) :
    validateAtoms [("species", .seq (l.map .str))] [] false = .ok true ↔
      ∀ s ∈ l, s = "X" ∨ IsElement s := by
  have hw : PyDict.WF [("species", PyVal.seq (l.map .str))] := by simp [PyDict.WF, PyDict.keys]
  obtain ⟨b, hb, hv⟩ := C28_decides _ hw []
  rw [hb]
  have e : (Except.ok b = (.ok true : Except Err Bool)) ↔ b = true := by simp
  rw [e, hv]
  constructor
  · intro h s hs
    obtain ⟨t, ht, h⟩ := h.species (.seq (l.map .str)) (by simp) (.str s) (by simp [pyIter, hs])
    cases ht
    rwa [← (C29_elements.1 s)]
  · intro h
    refine ⟨⟨l.length, by simp [pyLen]⟩, by simp, by simp, by simp, ?_, by simp⟩
    intro v hv x hx
    obtain rfl : v = .seq (l.map .str) := by simpa using hv
    obtain ⟨s, hs, rfl⟩ := by simpa [pyIter] using hx
    exact ⟨s, rfl, (h s hs).imp id (C29_elements.1 s).2⟩

/-- C29: a name that is the symbol of a chemical element followed by anything without letters is
recognised, for every element. -/
theorem C29_every_element (t : String) (ht : IsElement t) (d : String)
    (hd : ∀ c ∈ (String.toLower d).toList, c.isAlpha = false) (r : Bool) :
    getAtomSpecies String.toLower (t ++ d) r = .ok t :=
  C29_indexed t ((C29_elements.1 t).2 ht) d hd r

/-- Actinium with an index, and a word that is no element. -/
example : getAtomSpecies String.toLower ("Ac" ++ "12") true = .ok "Ac" :=
  C29_every_element "Ac" (by unfold IsElement; decide +kernel) "12" (by decide +kernel) true
example : ¬ validateAtoms [("species", .seq ([("Cr" : String), "D"].map .str))] [] false = .ok true := by
  rw [C28_species]
  intro h
  rcases h "D" (by simp) with h | ⟨g, hg, h⟩
  · exact absurd h (by decide)
  · have : ∀ g ∈ elementGroups, "D" ∉ g := by decide +kernel
    exact this g hg h

end Wulfric
