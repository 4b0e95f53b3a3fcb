import Verif.Lemmas.Validation

/-! # C28: `validate_atoms` decides validity -/

namespace Wulfric
open Spec

open Classical in
theorem validateAtoms_eq (atoms : PyDict String PyVal) (hd : atoms.WF) (req : List String)
    (r : Bool) : validateAtoms atoms req r =
      if ∀ k v, (k, v) ∈ atoms → (pyLen v).isSome then
        if ValidAtoms atoms req then .ok true else failCheck r .valueError
      else failCheck r .typeError := by
  unfold validateAtoms
  rw [withLengths_eq]
  have hiff : (∀ e ∈ atoms, (pyLen e.2).isSome = true) ↔
      ∀ k v, (k, v) ∈ atoms → (pyLen v).isSome = true := by
    constructor
    · intro h k v hm; exact h (k, v) hm
    · rintro h ⟨k, v⟩ hm; exact h k v hm
  by_cases hs : ∀ k v, (k, v) ∈ atoms → (pyLen v).isSome = true
  · rw [if_pos (hiff.2 hs), if_pos hs]
    rw [checkRequired_eq, checkPositions_eq r atoms hd, checkNames_eq r atoms hd,
      checkSpecies_eq r atoms hd, checkTypes_eq r atoms hd]
    have hlen : (∃ n, ∀ x ∈ atoms.filterMap (fun e => pyLen e.2), x = n) ↔
        ∃ n, ∀ k v, (k, v) ∈ atoms → pyLen v = some n := by
      constructor
      · rintro ⟨n, hn⟩
        refine ⟨n, fun k v hm => ?_⟩
        obtain ⟨m, hm'⟩ := Option.isSome_iff_exists.1 (hs k v hm)
        rw [hm', hn m (List.mem_filterMap.2 ⟨(k, v), hm, hm'⟩)]
      · rintro ⟨n, hn⟩
        refine ⟨n, fun x hx => ?_⟩
        obtain ⟨⟨k, v⟩, hm, hx⟩ := List.mem_filterMap.1 hx
        have := hn k v hm
        simp only at hx
        rw [this] at hx
        exact (Option.some.inj hx).symm
    have hreq : (∀ key ∈ req, key ∈ atoms.keys) ↔ ∀ k ∈ req, ∃ v, (k, v) ∈ atoms := by
      simp [PyDict.keys]
    by_cases h1 : ∃ n, ∀ k v, (k, v) ∈ atoms → pyLen v = some n
    · rw [if_neg ((dedup_length _).2 (hlen.2 h1))]
      by_cases h2 : ∀ k ∈ req, ∃ v, (k, v) ∈ atoms
      · rw [if_pos (hreq.2 h2)]
        by_cases h3 : ∀ v, ("positions", v) ∈ atoms → ∃ n, HasShape v [n, 3]
        · rw [if_pos h3]
          by_cases h4 : ∀ v, ("names", v) ∈ atoms → ∀ x ∈ pyIter v, IsStr x
          · rw [if_pos h4]
            by_cases h5 : ∀ v, ("species", v) ∈ atoms → ∀ x ∈ pyIter v, IsSpecies x
            · rw [if_pos h5]
              by_cases h6 : ∀ v, ("spglib_types", v) ∈ atoms → ∀ x ∈ pyIter v, IsType x
              · rw [if_pos h6, if_pos ⟨h1, h2, h3, h4, h5, h6⟩]
              · rw [if_neg h6, if_neg fun h => h6 h.types]
            · rw [if_neg h5, if_neg fun h => h5 h.species]
          · rw [if_neg h4, if_neg fun h => h4 h.names]
        · rw [if_neg h3, if_neg fun h => h3 h.positions]
      · rw [if_neg (fun h => h2 (hreq.1 h)), if_neg fun h => h2 h.required]
    · rw [if_pos, if_neg fun h => h1 h.lengths]
      by_contra hc
      exact h1 (hlen.1 ((dedup_length _).1 hc))
  · rw [if_neg (fun h => hs (hiff.1 h)), if_neg hs]

/-- C28: with `raise_errors=False` nothing is raised and the answer is `True` exactly for
valid dictionaries. -/
theorem C28_decides (atoms : PyDict String PyVal) (hd : atoms.WF) (req : List String) :
    ∃ b, validateAtoms atoms req false = .ok b ∧ (b = true ↔ ValidAtoms atoms req) := by
  classical
  rw [validateAtoms_eq atoms hd]
  by_cases hs : ∀ k v, (k, v) ∈ atoms → (pyLen v).isSome = true
  · rw [if_pos hs]
    by_cases hv : ValidAtoms atoms req
    · rw [if_pos hv]; exact ⟨true, rfl, by simp [hv]⟩
    · rw [if_neg hv]; exact ⟨false, rfl, by simp [hv]⟩
  · rw [if_neg hs]
    refine ⟨false, rfl, ?_⟩
    simp only [Bool.false_eq_true, false_iff]
    intro hv
    obtain ⟨n, hn⟩ := hv.lengths
    exact hs fun k v hm => by simp [hn k v hm]

/-- C28: with `raise_errors=True` valid dictionaries give `True`; for the others
`TypeError` is raised if some value has no length and `ValueError` otherwise. -/
theorem C28_raises (atoms : PyDict String PyVal) (hd : atoms.WF) (req : List String) :
    (ValidAtoms atoms req → validateAtoms atoms req true = .ok true) ∧
    (¬ ValidAtoms atoms req → (∀ k v, (k, v) ∈ atoms → (pyLen v).isSome) →
      validateAtoms atoms req true = .error .valueError) ∧
    ((∃ k v, (k, v) ∈ atoms ∧ pyLen v = none) →
      validateAtoms atoms req true = .error .typeError) := by
  classical
  rw [validateAtoms_eq atoms hd]
  refine ⟨?_, ?_, ?_⟩
  · intro hv
    obtain ⟨n, hn⟩ := hv.lengths
    rw [if_pos (fun k v hm => by simp [hn k v hm]), if_pos hv]
  · intro hv hs
    rw [if_pos hs, if_neg hv]; rfl
  · rintro ⟨k, v, hm, hn⟩
    rw [if_neg]
    · rfl
    · intro hc
      have := hc k v hm
      simp [hn] at this

/-- C28: both modes agree. -/
theorem C28_modes (atoms : PyDict String PyVal) (hd : atoms.WF) (req : List String) :
    validateAtoms atoms req true = .ok true ↔ validateAtoms atoms req false = .ok true := by
  classical
  rw [validateAtoms_eq atoms hd, validateAtoms_eq atoms hd]
  split
  · split
    · simp
    · simp [failCheck]
  · simp [failCheck]

/-- A valid dictionary, as in the documentation. -/
example : validateAtoms [("names", .seq [.str "Cr1", .str "Br"]),
    ("species", .seq [.str "Cr", .str "X"]), ("spglib_types", .seq [.int 1, .bool true]),
    ("positions", .seq [.seq [.scalar, .scalar, .int 0], .ndarray [3] [.scalar, .scalar, .scalar]])]
    ["names"] true = .ok true := by decide +kernel

/-- Invalid ones: the empty list of positions has no second dimension. -/
example : validateAtoms [("names", .seq []), ("positions", .seq [])] [] false = .ok false := by
  decide +kernel

example : validateAtoms [("names", .seq [.str "Cr"]), ("species", .seq [.str "CR"])] [] true =
    .error .valueError := by decide +kernel

end Wulfric
