import Verif.Props.C56_ReadPoscar

/-! # C56: a file that is cut off is refused -/

namespace Wulfric
open Matrix

private theorem loadIons_length {p : List Char → Except Err (Vec ℚ)} {nm : Except Err String} :
    ∀ {n : ℕ} {lines : List (List Char)} {l left},
      loadIons p nm n lines = .ok (l, left) → l.length = n ∧ lines.length = n + left.length
  | 0, lines, l, left, h => by
    simp only [loadIons, Except.ok.injEq, Prod.mk.injEq] at h
    obtain ⟨rfl, rfl⟩ := h
    simp
  | n + 1, [], l, left, h => by simp [loadIons] at h
  | n + 1, line :: lines, l, left, h => by
    unfold loadIons at h
    cases h1 : p line with
    | error e => simp [h1, bind, Except.bind] at h
    | ok c =>
    cases h2 : nm with
    | error e => simp [h1, h2, bind, Except.bind] at h
    | ok s =>
    cases h3 : loadIons p nm n lines with
    | error e => rw [h2] at h3; simp [h1, h2, h3, bind, Except.bind] at h
    | ok r =>
      obtain ⟨a, b⟩ := loadIons_length (l := r.1) (left := r.2) h3
      rw [h2] at h3
      simp only [h1, h2, h3, bind, Except.bind, pure, Except.pure, Except.ok.injEq,
        Prod.mk.injEq] at h
      obtain ⟨rfl, rfl⟩ := h
      simp only [List.length_cons, a, b]
      exact ⟨trivial, by omega⟩

private theorem loadAtoms_length {p : List Char → Except Err (Vec ℚ)}
    {names : Option (List (List Char))} :
    ∀ {z : List ℤ} {i : ℕ} {lines : List (List Char)} {l},
      loadAtoms p names i z lines = .ok l →
        l.length = (z.map Int.toNat).sum ∧ l.length ≤ lines.length
  | [], i, lines, l, h => by
    simp only [loadAtoms, Except.ok.injEq] at h
    subst h
    simp
  | n :: z, i, lines, l, h => by
    unfold loadAtoms at h
    cases h1 : loadIons p (speciesName names i) n.toNat lines with
    | error e => simp [h1, bind, Except.bind] at h
    | ok r =>
    cases h2 : loadAtoms p names (i + 1) z r.2 with
    | error e => simp [h1, h2, bind, Except.bind] at h
    | ok l' =>
      obtain ⟨a, b⟩ := loadIons_length (l := r.1) (left := r.2) h1
      obtain ⟨c, d⟩ := loadAtoms_length h2
      simp only [h1, h2, bind, Except.bind, pure, Except.pure, Except.ok.injEq] at h
      subst h
      simp only [List.length_append, List.map_cons, List.sum_cons]
      omega

private theorem loadBody_length {scale : Scale} {cell : Cell ℚ} {names : Option (List (List Char))}
    {counts lines : List (List Char)} {l : List (String × Vec ℚ)}
    (h : loadBody scale cell names counts lines = .ok l) :
    ∃ z, counts.mapM parseInt = .ok z ∧ l.length = (z.map Int.toNat).sum ∧
      l.length + 1 ≤ lines.length := by
  unfold loadBody at h
  cases h1 : counts.mapM parseInt with
  | error e => simp [h1, bind, Except.bind] at h
  | ok z =>
  simp only [h1, bind, Except.bind] at h
  refine ⟨z, rfl, ?_⟩
  cases lines with
  | nil => cases h
  | cons line rest =>
    simp only at h
    split_ifs at h
    · cases rest with
      | nil => cases h
      | cons line' rest' =>
        obtain ⟨a, b⟩ := loadAtoms_length h
        simp only [List.length_cons]
        omega
    · obtain ⟨a, b⟩ := loadAtoms_length h
      simp only [List.length_cons]
      omega

/-- C56: a file that is read has a line for every atom: the line of counts is the sixth or the
seventh, the atoms returned are as many as it says, and the file has at least seven more lines than
atoms. A file that is cut off before its last atom is therefore refused. -/
theorem C56_lines (universal : Bool) (text : List Char) (cell : Cell ℚ) (atoms : Atoms ℚ)
    (comment : String) (h : loadPoscar universal text = .ok (cell, atoms, comment)) :
    ∃ names positions lc z, atoms.names = some names ∧ atoms.positions = some positions ∧
      ((readLines universal text)[5]? = some lc ∨ (readLines universal text)[6]? = some lc) ∧
      (tokens lc).mapM parseInt = .ok z ∧
      names.length = (z.map Int.toNat).sum ∧ positions.length = (z.map Int.toNat).sum ∧
      (z.map Int.toNat).sum + 7 ≤ (readLines universal text).length := by
  unfold loadPoscar at h
  split at h
  · rename_i l0 l1 l2 l3 l4 l5 rest hl
    rw [hl]
    simp only [bind, Except.bind] at h
    repeat' split at h
    all_goals try cases h
    rename_i l hs
    unfold loadSpecies at hs
    simp only at hs
    split_ifs at hs
    · obtain ⟨z, hz, a, b⟩ := loadBody_length hs
      exact ⟨_, _, l5, z, rfl, rfl, Or.inl rfl, hz, by simpa using a, by simpa using a, by
        simp only [List.length_cons]; omega⟩
    · cases rest with
      | nil => cases hs
      | cons l6 rest =>
        obtain ⟨z, hz, a, b⟩ := loadBody_length hs
        exact ⟨_, _, l6, z, rfl, rfl, Or.inr rfl, hz, by simpa using a, by simpa using a, by
          simp only [List.length_cons]; omega⟩
  · cases h

/-- A file for three atoms that has the lines of two. (The example in `C56_ReadPoscar.lean` is a file
for three atoms with all its lines, which is read.) -/
example (r : Cell ℚ × Atoms ℚ × String) :
    loadPoscar true "c\n2\n1 1 0\n0 1 0\n0 0 1\n1 2\nkart\n0.5 0 0\n0 0 0".toList ≠ .ok r := by
  intro h
  obtain ⟨_, _, lc, z, -, -, hc, hz, -, -, hl⟩ := C56_lines _ _ r.1 r.2.1 r.2.2 h
  have e : readLines true "c\n2\n1 1 0\n0 1 0\n0 0 1\n1 2\nkart\n0.5 0 0\n0 0 0".toList =
      ["c".toList, "2".toList, "1 1 0".toList, "0 1 0".toList, "0 0 1".toList, "1 2".toList,
        "kart".toList, "0.5 0 0".toList, "0 0 0".toList] := by decide +kernel
  rw [e] at hc hl
  rcases hc with hc | hc
  · obtain rfl : "1 2".toList = lc := by simpa using hc
    have : (tokens "1 2".toList).mapM parseInt = .ok [1, 2] := by rfl
    rw [this] at hz
    cases hz
    simp at hl
  · obtain rfl : "kart".toList = lc := by simpa using hc
    have : (tokens "kart".toList).mapM parseInt = .error .valueError := by rfl
    rw [this] at hz
    cases hz

end Wulfric
