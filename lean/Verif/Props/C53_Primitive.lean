import Verif.Props.C34_Centring
import Verif.Props.C35_Unique
import Verif.Props.C36_Conventional

/-! # C53: `get_primitive` -/

namespace Wulfric
open Matrix _root_.Spec Wulfric.Spec

section
variable {lower : String → String} {getData : Cell ℝ → Atoms ℝ → Except Err SpglibData}
  {niggli : Cell ℝ → Except Err (Cell ℝ)} {cell : Cell ℝ} {atoms : Atoms ℝ}
  {convention : String} {given : Option SpglibData} {prim : Cell ℝ} {atoms' : Atoms ℝ}

theorem getPrimitive_steps
    (h : getPrimitive lower getData niggli cell atoms convention given = .ok (prim, atoms')) :
    ∃ data ps ts, resolveData lower getData cell atoms given = .ok data ∧
      primitiveParts lower getData niggli cell atoms (lower convention) data = .ok (prim, ps, ts) ∧
      newAtoms atoms (firstIndex data.original.types) ps ts = .ok atoms' := by
  unfold getPrimitive at h
  cases h1 : resolveData lower getData cell atoms given with
  | error e => rw [h1] at h; cases h
  | ok data =>
    simp only [h1, bind, Except.bind, pure, Except.pure] at h
    cases h2 : primitiveParts lower getData niggli cell atoms (lower convention) data with
    | error e => rw [h2] at h; cases h
    | ok q =>
      obtain ⟨c, ps, ts⟩ := q
      simp only [h2] at h
      cases h3 : newAtoms atoms (firstIndex data.original.types) ps ts with
      | error e => rw [h3] at h; cases h
      | ok a =>
        simp only [h3] at h
        cases h
        exact ⟨data, ps, ts, rfl, h2, h3⟩

/-- The table of matrices of a convention. -/
theorem primitiveParts_steps {conv0 : String} {data : SpglibData} {ps : List (Vec ℝ)}
    {ts : List ℤ} (hc : conv0 ≠ "spglib")
    (h : primitiveParts lower getData niggli cell atoms conv0 data = .ok (prim, ps, ts)) :
    (conv0 = "hpkot" ∨ conv0 = "sc") ∧
    ∃ conv convAtoms matrix qs ws,
      getConventional lower getData niggli cell atoms conv0 (some data) = .ok (conv, convAtoms) ∧
      (conv0 = "hpkot" → (hpkotConventionalToPrimitive ℝ).get?
        (data.crystalFamily ++ data.centringType) = some matrix) ∧
      (conv0 = "sc" → (scConventionalToPrimitive ℝ).get?
        (data.crystalFamily ++ data.centringType) = some matrix) ∧
      prim = matrix.transpose * conv ∧ convAtoms.positions = some qs ∧
      rebase qs conv prim = .ok ws ∧
      getUnique ws (convAtoms.spglibTypes.getD []) |conv.det / prim.det| data.symprec =
        .ok (ps, ts) := by
  unfold primitiveParts at h
  rw [if_neg hc] at h
  by_cases h1 : conv0 = "hpkot" ∨ conv0 = "sc"
  · refine ⟨h1, ?_⟩
    rw [if_pos h1] at h
    cases h2 : getConventional lower getData niggli cell atoms conv0 (some data) with
    | error e => rw [h2] at h; cases h
    | ok q =>
      obtain ⟨conv, convAtoms⟩ := q
      simp only [h2, bind, Except.bind, pure, Except.pure] at h
      have key : ∀ (tab : PyDict String (Cell ℝ)), (∀ matrix, tab.getItem
          (data.crystalFamily ++ data.centringType) = .ok matrix →
          tab.get? (data.crystalFamily ++ data.centringType) = some matrix) := by
        intro tab matrix hm
        unfold PyDict.getItem at hm
        cases hg : tab.get? (data.crystalFamily ++ data.centringType) with
        | none => rw [hg] at hm; cases hm
        | some v => rw [hg] at hm; cases hm; rfl
      cases hm : primitiveMatrix conv0 (data.crystalFamily ++ data.centringType) with
      | error e => rw [hm] at h; cases h
      | ok matrix =>
        simp only [hm] at h
        cases hp : convAtoms.positions with
        | none => simp only [Atoms.getPositions, hp] at h; cases h
        | some qs =>
          simp only [Atoms.getPositions, hp] at h
          cases hi : npInv (matrix.transpose * conv) with
          | error e => rw [hi] at h; cases h
          | ok inv =>
            simp only [hi] at h
            cases hu : getUnique (qs.map fun p => vecMat (vecMat p conv) inv)
                (convAtoms.spglibTypes.getD []) |conv.det / (matrix.transpose * conv).det|
                data.symprec with
            | error e => rw [hu] at h; cases h
            | ok r =>
              simp only [hu] at h
              cases h
              unfold primitiveMatrix at hm
              refine ⟨conv, convAtoms, matrix, qs, _, rfl, ?_, ?_, rfl, hp, ?_, hu⟩
              · intro e; rw [if_pos e] at hm; exact key _ _ hm
              · intro e
                rw [if_neg (by rw [e]; decide)] at hm
                exact key _ _ hm
              · unfold rebase; rw [hi]; rfl
  · rw [if_neg h1] at h; cases h

end

/-- C53: the primitive cell of the SC convention generates exactly the centred lattice of the
conventional cell, and so does that of HPKOT unless the lattice is rhombohedral; its volume is
that of the conventional cell divided by the number of centring translations. The full
statement is false for rhombohedral HPKOT cells (`C34_hR_wrong`). -/
theorem C53_lattice_partial (lower : String → String)
    (getData : Cell ℝ → Atoms ℝ → Except Err SpglibData)
    (niggli : Cell ℝ → Except Err (Cell ℝ)) (cell : Cell ℝ) (atoms : Atoms ℝ)
    (convention : String) (given : Option SpglibData) (prim : Cell ℝ) (atoms' : Atoms ℝ)
    (hc : lower convention ≠ "spglib")
    (h : getPrimitive lower getData niggli cell atoms convention given = .ok (prim, atoms')) :
    ∃ data conv convAtoms, (given = some data ∨ (given = none ∧ getData cell atoms = .ok data)) ∧
      getConventional lower getData niggli cell atoms (lower convention) (some data) =
        .ok (conv, convAtoms) ∧
      (lower convention = "sc" →
        latticePoints prim = centredLattice
          (translations ℝ (scLetter (data.crystalFamily ++ data.centringType))) conv ∧
        prim.det * (translations ℝ (scLetter (data.crystalFamily ++ data.centringType))).length =
          conv.det) ∧
      (lower convention = "hpkot" → data.crystalFamily ++ data.centringType ≠ "hR" →
        latticePoints prim = centredLattice
          (translations ℝ (hpkotLetter (data.crystalFamily ++ data.centringType))) conv ∧
        prim.det * (translations ℝ (hpkotLetter (data.crystalFamily ++ data.centringType))).length =
          conv.det) := by
  obtain ⟨data, ps, ts, h1, h2, h3⟩ := getPrimitive_steps h
  obtain ⟨-, hd⟩ := resolveData_ok h1
  obtain ⟨-, conv, convAtoms, matrix, qs, ws, e1, e2, e3, rfl, -, -, -⟩ := primitiveParts_steps hc h2
  refine ⟨data, conv, convAtoms, ?_, e1, ?_, ?_⟩
  · rcases hd with ⟨g, e⟩ | ⟨g, -⟩
    · exact .inr ⟨g, e⟩
    · exact .inl g
  · intro e; exact C34_sc _ _ (e3 e) conv
  · intro e hne; exact C34_hpkot_partial _ _ (e2 e) hne conv

/-- C53: the atoms. Every atom of the primitive cell is an atom of the conventional cell, up to
a vector of the primitive lattice and the rounding to `10^-8`, with its type; no two of them
coincide; every atom of the conventional cell is represented; names and species are those of
the first original atom of the type. -/
theorem C53_atoms (lower : String → String)
    (getData : Cell ℝ → Atoms ℝ → Except Err SpglibData)
    (niggli : Cell ℝ → Except Err (Cell ℝ)) (cell : Cell ℝ) (atoms : Atoms ℝ)
    (convention : String) (given : Option SpglibData) (prim : Cell ℝ) (atoms' : Atoms ℝ)
    (hc : lower convention ≠ "spglib")
    (h : getPrimitive lower getData niggli cell atoms convention given = .ok (prim, atoms')) :
    ∃ (data : SpglibData) (conv : Cell ℝ) (convAtoms : Atoms ℝ) (qs ws vs : List (Vec ℝ))
      (kept : List ℕ) (ts : List ℤ) (ps : List (Vec ℝ)),
      (given = some data ∨ (given = none ∧ getData cell atoms = .ok data)) ∧
      getConventional lower getData niggli cell atoms (lower convention) (some data) =
        .ok (conv, convAtoms) ∧
      convAtoms.positions = some qs ∧ SamePoints conv qs prim ws ∧ List.Forall₂ WrappedTo ws vs ∧
      atoms'.positions = some ps ∧ ps = kept.map (fun i => vs.getD i 0) ∧
      ts = kept.map (fun i => (convAtoms.spglibTypes.getD []).getD i 0) ∧
      kept.Pairwise (· < ·) ∧ (∀ i ∈ kept, i < qs.length) ∧
      (∀ i ∈ kept, ∀ j ∈ kept, i ≠ j → ¬ Coincide data.symprec (vs.getD i 0) (vs.getD j 0)) ∧
      (∀ j < qs.length, ∃ i ∈ kept, i ≤ j ∧
        (i = j ∨ Coincide data.symprec (vs.getD i 0) (vs.getD j 0))) ∧
      Inherited (FirstIndex data.original.types) atoms.names ts atoms'.names ∧
      Inherited (FirstIndex data.original.types) atoms.species ts atoms'.species := by
  obtain ⟨data, ps, ts, h1, h2, h3⟩ := getPrimitive_steps h
  have hd : given = some data ∨ (given = none ∧ getData cell atoms = .ok data) := by
    rcases (resolveData_ok h1).2 with ⟨g, e⟩ | ⟨g, -⟩
    · exact .inr ⟨g, e⟩
    · exact .inl g
  obtain ⟨-, conv, convAtoms, matrix, qs, ws, e1, -, -, -, e5, e6, e7⟩ := primitiveParts_steps hc h2
  obtain ⟨n0, n1, n2, -, -⟩ := newAtoms_ok (firstIndex_iff _) h3
  obtain ⟨-, hsame⟩ := rebase_points e6
  have hlen : ws.length = qs.length := hsame.length_eq.symm
  obtain ⟨vs, kept, k1, k2, k3, k4, k5, k6, k7, -⟩ := C35_kept _ _ _ _ _ _ e7
  rw [hlen] at k3 k7
  exact ⟨data, conv, convAtoms, qs, ws, vs, kept, ts, ps, hd, e1, e5, hsame, k1, n0, k4, k5, k2, k3,
    k6, k7, n1, n2⟩

/-- C53: with the convention "spglib" cell and positions are spglib's. -/
theorem C53_spglib (lower : String → String)
    (getData : Cell ℝ → Atoms ℝ → Except Err SpglibData)
    (niggli : Cell ℝ → Except Err (Cell ℝ)) (cell : Cell ℝ) (atoms : Atoms ℝ)
    (convention : String) (given : Option SpglibData) (prim : Cell ℝ) (atoms' : Atoms ℝ)
    (hc : lower convention = "spglib")
    (h : getPrimitive lower getData niggli cell atoms convention given = .ok (prim, atoms')) :
    ∃ data, (given = some data ∨ (given = none ∧ getData cell atoms = .ok data)) ∧
      prim = data.primitiveCell ∧ atoms'.positions = some data.primitivePositions ∧
      Inherited (FirstIndex data.original.types) atoms.names data.primitiveTypes atoms'.names ∧
      Inherited (FirstIndex data.original.types) atoms.species data.primitiveTypes
        atoms'.species := by
  obtain ⟨data, ps, ts, h1, h2, h3⟩ := getPrimitive_steps h
  obtain ⟨-, hd⟩ := resolveData_ok h1
  obtain ⟨n0, n1, n2, -, -⟩ := newAtoms_ok (firstIndex_iff _) h3
  unfold primitiveParts at h2
  rw [if_pos hc] at h2
  cases h2
  refine ⟨data, ?_, rfl, n0, n1, n2⟩
  rcases hd with ⟨g, e⟩ | ⟨g, -⟩
  · exact .inr ⟨g, e⟩
  · exact .inl g

/-- An orthorhombic crystal with one atom. -/
noncomputable def oneAtomData : SpglibData :=
  { original := { cell := !![2, 0, 0; 0, 1, 0; 0, 0, 3], positions := [0], types := [1] },
    spaceGroupNumber := 47, crystalFamily := "o", centringType := "P",
    conventionalCell := !![2, 0, 0; 0, 1, 0; 0, 0, 3], conventionalPositions := [0],
    conventionalTypes := [1], primitiveCell := !![2, 0, 0; 0, 1, 0; 0, 0, 3],
    primitivePositions := [0], primitiveTypes := [1], symprec := 1 / 10 ^ 5,
    angleTolerance := -1 }

/-- The hypotheses of the theorems of C53 are met. -/
example : ∃ prim atoms', getPrimitive id (fun _ _ => .ok oneAtomData) (fun c => .ok c)
    oneAtomData.original.cell { positions := some [0], spglibTypes := some [1] } "hpkot" none =
      .ok (prim, atoms') := by
  set cell : Cell ℝ := oneAtomData.original.cell with hcell
  set atoms : Atoms ℝ := { positions := some [0], spglibTypes := some [1] } with hatoms
  have hv : validateAtoms atoms.toDict ["positions"] true = .ok true := by
    simp only [Atoms.toDict, hatoms]
    decide +kernel
  have hv' : validateAtoms atoms.toDict [] true = .ok true := by
    simp only [Atoms.toDict, hatoms]
    decide +kernel
  have ho : originalData id cell atoms = .ok oneAtomData.original := by
    unfold originalData
    rw [hv]
    unfold getSpglibTypes
    rw [hv']
    rfl
  have hr0 : resolveData id (fun _ _ => .ok oneAtomData) cell atoms none = .ok oneAtomData := by
    unfold resolveData
    rw [hv]
    rfl
  have hr1 : resolveData id (fun _ _ => .ok oneAtomData) cell atoms (some oneAtomData) =
      .ok oneAtomData := by
    unfold resolveData
    rw [hv]
    simp only [bind, Except.bind]
    rw [C32_same id cell atoms _ ho]
    rfl
  obtain ⟨a, ha⟩ : ∃ a, newAtoms atoms (lastIndex oneAtomData.original.types) [0] [1] = .ok a ∧
      a.positions = some [0] ∧ a.spglibTypes = some [1] := ⟨_, rfl, rfl, rfl⟩
  have hg : getConventional id (fun _ _ => .ok oneAtomData) (fun c => .ok c) cell atoms "hpkot"
      (some oneAtomData) = .ok (cell, a) := by
    unfold getConventional
    rw [hr1]
    have : conventionalParts (fun c => .ok c) (id "hpkot") oneAtomData = .ok (cell, [0], [1]) := by
      show conventionalParts _ "hpkot" _ = _
      unfold conventionalParts
      rw [if_pos (by decide), if_neg (by simp [oneAtomData])]
      rfl
    simp only [this, bind, Except.bind, ha.1, pure, Except.pure]
  have hm : primitiveMatrix "hpkot" ("o" ++ "P") = .ok (1 : Cell ℝ) := by
    unfold primitiveMatrix
    rw [if_pos rfl, one_fin_three]
    rfl
  have hdet : cell.det = 6 := by simp [hcell, oneAtomData, det_fin_three]; norm_num
  have hi : npInv cell = .ok cell⁻¹ := by simp [npInv, hdet]
  obtain ⟨ps, ts, hu⟩ := C35_defined ([0] : List (Vec ℝ)) [1] 1 (1 / 10 ^ 5) (by simp) rfl (by
    intro p hp
    rw [twins_iff]
    simp only [List.map_cons, List.map_nil, List.mem_singleton] at hp ⊢
    subst hp
    simp [nEquiv, sameAtom])
  have hpp : primitiveParts id (fun _ _ => .ok oneAtomData) (fun c => .ok c) cell atoms "hpkot"
      oneAtomData = .ok (cell, ps, ts) := by
    unfold primitiveParts
    rw [if_neg (by decide), if_pos (by decide), hg]
    have h0 : vecMat (vecMat (0 : Vec ℝ) cell) cell⁻¹ = 0 := by
      ext j; simp [vecMat]
    have hone : |cell.det / cell.det| = ((1 : ℕ) : ℝ) := by rw [hdet]; norm_num
    simp only [bind, Except.bind, pure, Except.pure, oneAtomData, hm, transpose_one, one_mul,
      Atoms.getPositions, ha.2.1, hi, ha.2.2, List.map_cons, List.map_nil, h0, hone,
      Option.getD_some, hu]
  have hts : ∀ t ∈ ts, t ∈ oneAtomData.original.types := by
    obtain ⟨qs, kept, -, -, h3, -, h5, -⟩ := C35_kept _ _ _ _ _ _ hu
    intro t ht
    rw [h5, List.mem_map] at ht
    obtain ⟨i, hi1, rfl⟩ := ht
    have : i = 0 := by have := h3 i hi1; simpa using this
    subst this
    simp [oneAtomData]
  obtain ⟨b, hb⟩ := newAtoms_defined (atoms := atoms) (ps := ps) (ts := ts)
    (mapping := firstIndex oneAtomData.original.types) (n := 1) (by
      intro t ht
      have := hts t ht
      simp only [oneAtomData, List.mem_singleton] at this
      subst this
      exact ⟨0, by omega, rfl⟩) (by intro l hl; cases hl) (by intro l hl; cases hl)
      (by intro l hl; cases hl; rfl)
  refine ⟨cell, b, ?_⟩
  unfold getPrimitive
  rw [hr0]
  simp only [bind, Except.bind, pure, Except.pure, id, hpp, hb]

end Wulfric
