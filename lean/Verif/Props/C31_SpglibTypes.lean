import Verif.Lemmas.Species
import Verif.Props.C29_Species
import Mathlib.Data.Finset.Card
import Mathlib.Data.Finset.Dedup
import Mathlib.Tactic.Ring

/-! # C31, C32: spglib types and the validation of spglib data -/

set_option linter.unusedSectionVars false

namespace Wulfric
open Spec
variable {K : Type} [Field K] [LinearOrder K] [IsStrictOrderedRing K]

theorem idxOf_sorted (l : List String) (hs : l.Pairwise (· ≤ ·)) (hn : l.Nodup) (a : String)
    (ha : a ∈ l) : l.idxOf a = (l.filter (· < a)).length := by
  induction l with
  | nil => simp at ha
  | cons b l ih =>
    rw [List.pairwise_cons] at hs
    rw [List.nodup_cons] at hn
    by_cases h : b = a
    · subst h
      rw [List.idxOf_cons_self, List.filter_cons_of_neg (by simp)]
      symm
      rw [List.length_eq_zero_iff, List.filter_eq_nil_iff]
      intro c hc
      rw [decide_eq_true_eq, not_lt]
      exact hs.1 c hc
    · have ha' : a ∈ l := by
        rcases List.mem_cons.1 ha with rfl | h'
        · exact absurd rfl h
        · exact h'
      have hlt : b < a := lt_of_le_of_ne (hs.1 a ha') h
      rw [List.idxOf_cons_ne _ h, List.filter_cons_of_pos (by simpa using hlt)]
      rw [ih hs.2 hn.2 ha']
      simp

theorem type_rank (ids : List String) (a : String) (ha : a ∈ ids) :
    (ids.dedup.insertionSort (· ≤ ·)).idxOf a = (ids.toFinset.filter (· < a)).card := by
  have hp : (ids.dedup.insertionSort (· ≤ ·)).Perm ids.dedup := List.perm_insertionSort _ _
  have hn : (ids.dedup.insertionSort (· ≤ ·)).Nodup := hp.nodup_iff.2 (List.nodup_dedup _)
  rw [idxOf_sorted _ (List.pairwise_insertionSort _ _) hn a (hp.mem_iff.2 (List.mem_dedup.2 ha))]
  rw [(hp.filter _).length_eq]
  rw [← List.toFinset_card_of_nodup ((List.nodup_dedup ids).filter _)]
  congr 1
  ext x
  simp

theorem getSpglibTypes_valid (lower : String → String) (atoms : Atoms K) (ids : List String)
    (hv : ValidAtoms atoms.toDict []) (ht : atoms.spglibTypes = none)
    (hi : identifiers lower atoms = .ok ids) :
    getSpglibTypes lower atoms = .ok (ids.map fun name =>
      ((ids.dedup.insertionSort (· ≤ ·)).idxOf name : ℤ) + 1) := by
  rcases validate_cases atoms [] with ⟨-, e⟩ | ⟨hc, -⟩
  · unfold getSpglibTypes
    rw [e]
    simp only [ht, hi]
    rfl
  · exact absurd hv hc

/-- C31: what identifies an atom: its species if given, else the species deduced from its
name, else the name itself. -/
theorem C31_identifiers (lower : String → String) (atoms : Atoms K) :
    (∀ species, atoms.species = some species → identifiers lower atoms = .ok species) ∧
    (∀ names, atoms.species = none → atoms.names = some names →
      ∃ ids, identifiers lower atoms = .ok ids ∧ ids.length = names.length ∧
        ∀ (i : ℕ) (n : String), names[i]? = some n →
          (∃ s ≠ "X", getAtomSpecies lower n false = .ok s ∧ ids[i]? = some s) ∨
          (getAtomSpecies lower n false = .ok "X" ∧ ids[i]? = some n)) ∧
    (atoms.species = none → atoms.names = none → identifiers lower atoms = .error .valueError) := by
  refine ⟨?_, ?_, ?_⟩
  · intro species h; simp [identifiers, h]
  · intro names h1 h2
    refine ⟨names.map fun name =>
      if speciesLoop lower name atomSpecies "X" = "X" then name
      else speciesLoop lower name atomSpecies "X", by simp only [identifiers, h1, h2], by simp, ?_⟩
    intro i n hn
    by_cases hX : speciesLoop lower n atomSpecies "X" = "X"
    · right; simp [getAtomSpecies, hX, hn]
    · left; exact ⟨_, hX, by simp [getAtomSpecies], by simp [hn, hX]⟩
  · intro h1 h2; simp [identifiers, h1, h2]

/-- C31: the type of an atom is one plus the number of different identifiers before its own
in lexicographic order; it does not depend on the order of the atoms. -/
theorem C31_rank (lower : String → String) (atoms : Atoms K) (ids : List String)
    (hv : ValidAtoms atoms.toDict []) (ht : atoms.spglibTypes = none)
    (hi : identifiers lower atoms = .ok ids) :
    getSpglibTypes lower atoms =
      .ok (ids.map fun a => (((ids.toFinset.filter (· < a)).card + 1 : ℕ) : ℤ)) := by
  rw [getSpglibTypes_valid lower atoms ids hv ht hi]
  congr 1
  apply List.map_congr_left
  intro a ha
  rw [type_rank ids a ha]
  push_cast
  rfl

/-- C31: atoms have equal types exactly if they have equal identifiers, and smaller types
for smaller identifiers. -/
theorem C31_equal (lower : String → String) (atoms : Atoms K) (ids : List String)
    (hv : ValidAtoms atoms.toDict []) (ht : atoms.spglibTypes = none)
    (hi : identifiers lower atoms = .ok ids) :
    ∃ types, getSpglibTypes lower atoms = .ok types ∧ types.length = ids.length ∧
      ∀ (i j : ℕ) (a b : String) (s t : ℤ), ids[i]? = some a → ids[j]? = some b →
        types[i]? = some s → types[j]? = some t → (s = t ↔ a = b) ∧ (s < t ↔ a < b) := by
  refine ⟨_, C31_rank lower atoms ids hv ht hi, by simp, ?_⟩
  intro i j a b s t ha hb hs ht
  simp only [List.getElem?_map, ha, hb, Option.map_some, Option.some.injEq] at hs ht
  subst hs ht
  have mono : ∀ x y : String, x ∈ ids → x < y →
      (ids.toFinset.filter (· < x)).card < (ids.toFinset.filter (· < y)).card := by
    intro x y hx hxy
    apply Finset.card_lt_card
    rw [Finset.ssubset_iff_of_subset]
    · exact ⟨x, Finset.mem_filter.2 ⟨List.mem_toFinset.2 hx, hxy⟩,
        fun h => lt_irrefl _ (Finset.mem_filter.1 h).2⟩
    · intro z hz
      simp only [Finset.mem_filter] at hz ⊢
      exact ⟨hz.1, hz.2.trans hxy⟩
  have ha' := List.mem_of_getElem? ha
  have hb' := List.mem_of_getElem? hb
  rcases lt_trichotomy a b with h | h | h
  · have := mono a b ha' h
    constructor
    · constructor
      · intro e; exfalso; push_cast at e; omega
      · intro e; exact absurd e h.ne
    · constructor
      · intro _; exact h
      · intro _; push_cast; omega
  · subst h; simp
  · have := mono b a hb' h
    constructor
    · constructor
      · intro e; exfalso; push_cast at e; omega
      · intro e; exact absurd e h.ne'
    · constructor
      · intro e; exfalso; push_cast at e; omega
      · intro e; exact absurd e h.asymm

/-- C31: the types are `1, ..., k` without gaps, `k` the number of different identifiers. -/
theorem C31_range (lower : String → String) (atoms : Atoms K) (ids : List String)
    (hv : ValidAtoms atoms.toDict []) (ht : atoms.spglibTypes = none)
    (hi : identifiers lower atoms = .ok ids) :
    ∃ types, getSpglibTypes lower atoms = .ok types ∧
      ∀ t : ℤ, t ∈ types ↔ 1 ≤ t ∧ t ≤ ids.toFinset.card := by
  refine ⟨_, getSpglibTypes_valid lower atoms ids hv ht hi, ?_⟩
  have hp : (ids.dedup.insertionSort (· ≤ ·)).Perm ids.dedup := List.perm_insertionSort _ _
  have hn : (ids.dedup.insertionSort (· ≤ ·)).Nodup := hp.nodup_iff.2 (List.nodup_dedup _)
  have hlen : (ids.dedup.insertionSort (· ≤ ·)).length = ids.toFinset.card := by
    rw [hp.length_eq, List.card_toFinset]
  intro t
  simp only [List.mem_map]
  constructor
  · rintro ⟨a, ha, rfl⟩
    have : (ids.dedup.insertionSort (· ≤ ·)).idxOf a < (ids.dedup.insertionSort (· ≤ ·)).length :=
      List.idxOf_lt_length_iff.2 (hp.mem_iff.2 (List.mem_dedup.2 ha))
    rw [hlen] at this
    omega
  · rintro ⟨h1, h2⟩
    have hlt : (t - 1).toNat < (ids.dedup.insertionSort (· ≤ ·)).length := by rw [hlen]; omega
    refine ⟨(ids.dedup.insertionSort (· ≤ ·))[(t - 1).toNat], ?_, ?_⟩
    · exact List.mem_dedup.1 (hp.mem_iff.1 (List.getElem_mem hlt))
    · rw [hn.idxOf_getElem]
      omega

/-- C31: types given by the user are returned unchanged. -/
theorem C31_given (lower : String → String) (atoms : Atoms K) (types : List ℤ)
    (hv : ValidAtoms atoms.toDict []) (ht : atoms.spglibTypes = some types) :
    getSpglibTypes lower atoms = .ok types := by
  rcases validate_cases atoms [] with ⟨-, e⟩ | ⟨hc, -⟩
  · unfold getSpglibTypes
    rw [e]
    simp only [ht]
    rfl
  · exact absurd hv hc

/-- C31: without any of the three keys `ValueError` is raised. -/
theorem C31_missing (lower : String → String) (atoms : Atoms K)
    (hv : ValidAtoms atoms.toDict []) (h1 : atoms.spglibTypes = none) (h2 : atoms.species = none)
    (h3 : atoms.names = none) : getSpglibTypes lower atoms = .error .valueError := by
  rcases validate_cases atoms [] with ⟨-, e⟩ | ⟨hc, -⟩
  · unfold getSpglibTypes
    rw [e]
    simp only [h1, identifiers, h2, h3]
    rfl
  · exact absurd hv hc

example : getSpglibTypes String.toLower ({ names := some ["Cr1", "??", "Br1", "cr2"] } : Atoms ℚ) =
    .ok [3, 1, 2, 3] := by decide +kernel

/-- Two numbers agree within numpy's default tolerance relative to the second one. -/
def Spec.Close (a b : K) : Prop := |a - b| ≤ 1 / 10 ^ 8 + 1 / 10 ^ 5 * |b|

/-- Two lists of positions agree entry by entry. -/
def Spec.PositionsClose (ps qs : List (Vec K)) : Prop :=
  List.Forall₂ (fun p q => ∀ j, Close (p j) (q j)) ps qs

theorem zip_all_iff (ps qs : List (Vec K)) (h : ps.length = qs.length) :
    (((ps.zip qs).all fun (p, q) => vecClose p q) = true) ↔ PositionsClose ps qs := by
  induction ps generalizing qs with
  | nil => cases qs with
    | nil => simp [PositionsClose]
    | cons q qs => simp at h
  | cons p ps ih => cases qs with
    | nil => simp at h
    | cons q qs =>
      simp only [List.length_cons, Nat.add_right_cancel_iff] at h
      have := ih qs h
      simp only [List.zip_cons_cons, List.all_cons, Bool.and_eq_true, this]
      unfold PositionsClose
      rw [List.forall₂_cons]
      simp [vecClose, npClose, Close]

theorem validateSpglibData_cases (lower : String → String) (cell : Cell K) (atoms : Atoms K)
    (data : OriginalData K) :
    validateSpglibData lower cell atoms data =
      if cellClose cell data.cell = true then
        match atoms.positions with
        | none => .error .keyError
        | some ps => match positionsClose ps data.positions with
          | .error e => .error e
          | .ok false => .error .valueError
          | .ok true => match getSpglibTypes lower atoms with
            | .error e => .error e
            | .ok types => if types = data.types then .ok () else .error .valueError
      else .error .valueError := by
  unfold validateSpglibData Atoms.getPositions
  by_cases h1 : cellClose cell data.cell = true
  · simp only [h1, if_true]
    cases atoms.positions with
    | none => rfl
    | some ps =>
      simp only [bind, Except.bind, pure, Except.pure]
      cases positionsClose ps data.positions with
      | error e => rfl
      | ok b =>
        cases b
        · rfl
        · simp only [if_true]
          cases getSpglibTypes lower atoms <;> rfl
  · simp only [h1]
    rfl

/-- C32: the call is silent exactly if the cell agrees, the positions agree, and the types
are equal (for data with as many types as positions, which is what the code stores). -/
theorem C32_iff (lower : String → String) (cell : Cell K) (atoms : Atoms K)
    (data : OriginalData K) (hd : data.types.length = data.positions.length) :
    validateSpglibData lower cell atoms data = .ok () ↔
      (∀ i j, Close (cell i j) (data.cell i j)) ∧
      (∃ ps, atoms.positions = some ps ∧ PositionsClose ps data.positions) ∧
      getSpglibTypes lower atoms = .ok data.types := by
  have hcell : cellClose cell data.cell = true ↔ ∀ i j, Close (cell i j) (data.cell i j) := by
    simp [cellClose, npClose, Close]
  rw [validateSpglibData_cases]
  by_cases h1 : cellClose cell data.cell = true
  · rw [if_pos h1]
    have h1' := hcell.1 h1
    cases hp : atoms.positions with
    | none => simp
    | some ps =>
      simp only [Option.some.injEq]
      by_cases hl : ps.length = data.positions.length
      · have hpc : positionsClose ps data.positions =
            .ok ((ps.zip data.positions).all fun (p, q) => vecClose p q) := by
          unfold positionsClose; rw [if_pos hl]
        rw [hpc]
        have hz := zip_all_iff ps data.positions hl
        cases hb : (ps.zip data.positions).all fun (p, q) => vecClose p q with
        | false =>
          simp only [hb, Bool.false_eq_true, false_iff] at hz
          simp only
          constructor
          · intro h; cases h
          · rintro ⟨-, ⟨_, rfl, h⟩, -⟩; exact absurd h hz
        | true =>
          simp only [hb, true_iff] at hz
          simp only
          cases ht : getSpglibTypes lower atoms with
          | error e => simp
          | ok types =>
            simp only [Except.ok.injEq]
            constructor
            · intro h
              refine ⟨h1', ⟨ps, rfl, hz⟩, ?_⟩
              by_contra hc
              rw [if_neg hc] at h; cases h
            · rintro ⟨-, -, h⟩; rw [if_pos h]
      · -- different numbers of atoms: types cannot be equal
        constructor
        · intro h
          exfalso
          have htl : ∀ types, getSpglibTypes lower atoms = .ok types → types.length = ps.length := by
            intro types ht
            rcases validate_cases atoms [] with ⟨hv, e⟩ | ⟨hc, err, e⟩
            · obtain ⟨n, hn⟩ := hv.lengths
              have h0 := hn "positions" (PyVal.ndarray [ps.length, 3]
                (ps.map fun _ => .ndarray [3] [.scalar, .scalar, .scalar])) (by
                  simp [Atoms.toDict, hp])
              simp [pyLen] at h0
              subst h0
              cases hst : atoms.spglibTypes with
              | some l =>
                rw [C31_given lower atoms l hv hst] at ht
                cases ht
                have h0 := hn "spglib_types" (PyVal.seq (types.map .int)) (by
                  simp [Atoms.toDict, hst])
                simpa [pyLen] using h0
              | none =>
                cases hid : identifiers lower atoms with
                | error e2 =>
                  unfold getSpglibTypes at ht
                  rw [e] at ht
                  simp only [hst, hid] at ht
                  cases ht
                | ok ids =>
                  rw [C31_rank lower atoms ids hv hst hid] at ht
                  cases ht
                  rw [List.length_map]
                  cases hsp : atoms.species with
                  | some sp =>
                    rw [(C31_identifiers lower atoms).1 sp hsp] at hid
                    cases hid
                    have h0 := hn "species" (PyVal.seq (ids.map .str)) (by
                      simp [Atoms.toDict, hsp])
                    simpa [pyLen] using h0
                  | none =>
                    cases hnm : atoms.names with
                    | none =>
                      rw [(C31_identifiers lower atoms).2.2 hsp hnm] at hid
                      cases hid
                    | some nm =>
                      obtain ⟨ids', e1, e2, -⟩ := (C31_identifiers lower atoms).2.1 nm hsp hnm
                      rw [hid] at e1
                      cases e1
                      rw [e2]
                      have h0 := hn "names" (PyVal.seq (nm.map .str)) (by
                        simp [Atoms.toDict, hnm])
                      simpa [pyLen] using h0
            · unfold getSpglibTypes at ht
              rw [e] at ht
              cases ht
          revert h
          cases positionsClose ps data.positions with
          | error e => intro h; cases h
          | ok b =>
            cases b
            · intro h; cases h
            · simp only
              cases ht : getSpglibTypes lower atoms with
              | error e => intro h; cases h
              | ok types =>
                simp only
                intro h
                by_cases he : types = data.types
                · subst he
                  exact hl ((htl _ ht).symm.trans hd)
                · rw [if_neg he] at h; cases h
        · rintro ⟨-, ⟨_, rfl, h⟩, -⟩
          exact absurd h.length_eq hl
  · rw [if_neg h1]
    constructor
    · intro h; cases h
    · rintro ⟨h, -, -⟩; exact absurd (hcell.2 h) h1

/-- C32: data made from a structure is accepted for that structure. -/
theorem C32_same (lower : String → String) (cell : Cell K) (atoms : Atoms K)
    (data : OriginalData K) (h : originalData lower cell atoms = .ok data) :
    validateSpglibData lower cell atoms data = .ok () := by
  have close_refl : ∀ a : K, npClose a a = true := by
    intro a
    simp only [npClose, sub_self, abs_zero, decide_eq_true_eq]
    positivity
  unfold originalData Atoms.getPositions at h
  cases hv : validateAtoms atoms.toDict ["positions"] true with
  | error e => rw [hv] at h; cases h
  | ok b =>
    rw [hv] at h
    cases hp : atoms.positions with
    | none => simp only [hp] at h; cases h
    | some ps =>
      cases ht : getSpglibTypes lower atoms with
      | error e => simp only [hp, ht] at h; cases h
      | ok types =>
        simp only [hp, ht] at h
        cases h
        rw [validateSpglibData_cases]
        have h1 : cellClose cell cell = true := by simp [cellClose, close_refl]
        have h2 : positionsClose ps ps = .ok true := by
          unfold positionsClose
          rw [if_pos rfl]
          congr 1
          rw [List.all_eq_true]
          rintro ⟨p, q⟩ hpq
          have : p = q := by
            have aux : ∀ l : List (Vec K), (p, q) ∈ l.zip l → p = q := by
              intro l
              induction l with
              | nil => intro h; simp at h
              | cons a l ih =>
                intro h
                rw [List.zip_cons_cons, List.mem_cons] at h
                rcases h with h | h
                · cases h; rfl
                · exact ih h
            exact aux ps hpq
          subst this
          simp [vecClose, close_refl]
        rw [if_pos h1, hp]
        simp only [h2, ht, if_true]

/-- C32: the order of the checks: a wrong cell is reported before anything is read from
`atoms`; missing positions give `KeyError`; wrong positions are reported before the types
are computed. -/
theorem C32_order (lower : String → String) (cell : Cell K) (atoms : Atoms K)
    (data : OriginalData K) :
    ((∃ i j, ¬ Close (cell i j) (data.cell i j)) →
      validateSpglibData lower cell atoms data = .error .valueError) ∧
    ((∀ i j, Close (cell i j) (data.cell i j)) → atoms.positions = none →
      validateSpglibData lower cell atoms data = .error .keyError) ∧
    (∀ ps, (∀ i j, Close (cell i j) (data.cell i j)) → atoms.positions = some ps →
      ps.length = data.positions.length → ¬ PositionsClose ps data.positions →
      validateSpglibData lower cell atoms data = .error .valueError) := by
  have hcell : cellClose cell data.cell = true ↔ ∀ i j, Close (cell i j) (data.cell i j) := by
    simp [cellClose, npClose, Close]
  refine ⟨?_, ?_, ?_⟩
  · rintro ⟨i, j, h⟩
    rw [validateSpglibData_cases, if_neg (fun hc => h (hcell.1 hc i j))]
  · intro h hp
    rw [validateSpglibData_cases, if_pos (hcell.2 h), hp]
  · intro ps h hp hl hn
    rw [validateSpglibData_cases, if_pos (hcell.2 h), hp]
    have hz := zip_all_iff ps data.positions hl
    have hpc : positionsClose ps data.positions =
        .ok ((ps.zip data.positions).all fun (p, q) => vecClose p q) := by
      unfold positionsClose; rw [if_pos hl]
    simp only [hpc]
    cases hb : (ps.zip data.positions).all fun (p, q) => vecClose p q with
    | false => rfl
    | true => exact absurd (hz.1 hb) hn

/-- The hypothesis of `C32_same` is met. -/
example : ∃ data, originalData String.toLower (1 : Cell ℚ)
    { names := some ["Cr"], positions := some [![0, 0, 0]] } = .ok data := by
  refine ⟨{ cell := 1, positions := [![0, 0, 0]], types := [1] }, ?_⟩
  have h1 : validateAtoms (({ names := some ["Cr"], positions := some [![0, 0, 0]] } :
      Atoms ℚ).toDict) ["positions"] true = .ok true := by decide +kernel
  have h2 : getSpglibTypes String.toLower
      ({ names := some ["Cr"], positions := some [![0, 0, 0]] } : Atoms ℚ) = .ok [1] := by decide +kernel
  unfold originalData
  rw [h1, h2]
  rfl

end Wulfric
