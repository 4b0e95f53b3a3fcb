import Verif.Lemmas.Describe
import Verif.Props.C72_Unit

/-!
# C73: the description of the crystal does not matter

Two inputs (another choice of the lattice vectors, a supercell, another order of the atoms, another
origin) that spglib standardises in the same way give the same results.
-/

namespace Wulfric

open Matrix _root_.Spec Wulfric.Spec

variable {lib : SpglibLib} {lower : String → String} {symprec angtol : ℝ}
  {niggli : Cell ℝ → Except Err (Cell ℝ)} {cell₁ cell₂ : Cell ℝ} {atoms₁ atoms₂ : Atoms ℝ}

/-- C73: if spglib finds the same space group and the same standardised lattices in both inputs
(`SameFrame`), then, whenever both calls return, `get_conventional` and `get_primitive` give the
same cells, and the extended Bravais lattice symbol (HPKOT) and the variation (SC) are the same. -/
theorem C73_cells
    (h : ∀ o₁ o₂, originalData lower cell₁ atoms₁ = .ok o₁ → originalData lower cell₂ atoms₂ = .ok o₂ →
      SameFrame lib symprec angtol cell₁ o₁.positions o₁.types cell₂ o₂.positions o₂.types) :
    let G := fun c a => getSpglibData lib lower c a symprec angtol
    (∀ convention, BothSuch (fun p q => q.1 = p.1)
      (getConventional lower G niggli cell₁ atoms₁ convention none)
      (getConventional lower G niggli cell₂ atoms₂ convention none)) ∧
    (∀ convention, BothSuch (fun p q => q.1 = p.1)
      (getPrimitive lower G niggli cell₁ atoms₁ convention none)
      (getPrimitive lower G niggli cell₂ atoms₂ convention none)) ∧
    BothSuch (fun p q => q = p) (hpkotGetExtendedBlSymbol lower G niggli cell₁ atoms₁ none)
      (hpkotGetExtendedBlSymbol lower G niggli cell₂ atoms₂ none) ∧
    BothSuch (fun p q => q = p) (scGetVariation lower G niggli cell₁ atoms₁ none)
      (scGetVariation lower G niggli cell₂ atoms₂ none) := by
  intro G
  have hr : BothSuch FrameEq (resolveData lower G cell₁ atoms₁ none)
      (resolveData lower G cell₂ atoms₂ none) := frame_none (frame_data h)
  exact ⟨fun c => frame_conventional hr c, fun c => frame_primitive hr c, frame_symbol hr,
    frame_variation hr⟩

/-- C73, `get_path_and_points`: the same path, the same names in the same order, the same absolute
coordinates; relative coordinates stand for the same vectors of the reciprocal space. -/
theorem C73_path_and_points
    (h : ∀ o₁ o₂, originalData lower cell₁ atoms₁ = .ok o₁ → originalData lower cell₂ atoms₂ = .ok o₂ →
      SameFrame lib symprec angtol cell₁ o₁.positions o₁.types cell₂ o₂.positions o₂.types)
    (convention : String) (withTimeReversal : Bool) :
    let G := fun c a => getSpglibData lib lower c a symprec angtol
    BothSuch (fun p q => q = p)
      (getPathAndPoints lower G niggli cell₁ atoms₁ none convention withTimeReversal false)
      (getPathAndPoints lower G niggli cell₂ atoms₂ none convention withTimeReversal false) ∧
    ∀ r₁ r₂, getReciprocal cell₁ = .ok r₁ → getReciprocal cell₂ = .ok r₂ →
      BothSuch (fun p q => q.1 = p.1 ∧ SameVectors r₁ r₂ p.2 q.2)
        (getPathAndPoints lower G niggli cell₁ atoms₁ none convention withTimeReversal true)
        (getPathAndPoints lower G niggli cell₂ atoms₂ none convention withTimeReversal true) :=
  frame_path (frame_none (frame_data h)) convention withTimeReversal

/-- C73, `Kpoints.from_crystal`: the same names, labels, path and number of points; the coordinates
stand for the same vectors; and what is plotted (`points`, `ticks` and `flat_points` with
`relative=False`, `labels`) is the same, errors included. -/
theorem C73_kpoints
    (h : ∀ o₁ o₂, originalData lower cell₁ atoms₁ = .ok o₁ → originalData lower cell₂ atoms₂ = .ok o₂ →
      SameFrame lib symprec angtol cell₁ o₁.positions o₁.types cell₂ o₂.positions o₂.types)
    (convention : String) (withTimeReversal : Bool) (n : ℤ) :
    let G := fun c a => getSpglibData lib lower c a symprec angtol
    BothSuch (fun k₁ k₂ => k₂.hsNames = k₁.hsNames ∧ k₂.hsLabels = k₁.hsLabels ∧
        k₂.path = k₁.path ∧ k₂.n = k₁.n ∧
        SameVectors k₁.rcell k₂.rcell k₁.hsCoordinates k₂.hsCoordinates ∧
        k₂.points false = k₁.points false ∧ k₂.ticks false = k₁.ticks false ∧
        k₂.flatPoints false = k₁.flatPoints false ∧ k₂.labels = k₁.labels ∧
        k₂.pathString = k₁.pathString)
      (Kpoints.fromCrystal lower G niggli cell₁ atoms₁ convention withTimeReversal n none)
      (Kpoints.fromCrystal lower G niggli cell₂ atoms₂ convention withTimeReversal n none) :=
  such_imp (frame_kpoints (frame_none (frame_data h)) convention withTimeReversal n)
    fun _ _ hk => ⟨hk.names, hk.labels, hk.path, hk.n, hk.vectors, hk.plots⟩

/-! ## Atoms -/

theorem original_types {cell : Cell ℝ} {atoms : Atoms ℝ} {o : OriginalData ℝ}
    (h : originalData lower cell atoms = .ok o) : getSpglibTypes lower atoms = .ok o.types := by
  unfold originalData at h
  cases h1 : validateAtoms atoms.toDict ["positions"] true with
  | error e => rw [h1] at h; cases h
  | ok u =>
  cases h2 : atoms.getPositions with
  | error e => rw [h1, h2] at h; cases h
  | ok ps =>
  cases h3 : getSpglibTypes lower atoms with
  | error e => rw [h1, h2, h3] at h; cases h
  | ok ts => rw [h1, h2, h3] at h; cases h; rfl

/-- The lists of atoms have one length, that of the types; and one of the three is given. -/
theorem types_lengths {atoms : Atoms ℝ} {ts : List ℤ} (h : getSpglibTypes lower atoms = .ok ts) :
    (∀ l, atoms.names = some l → l.length = ts.length) ∧
    (∀ l, atoms.species = some l → l.length = ts.length) ∧
    (∀ l, atoms.spglibTypes = some l → l = ts) ∧
    (atoms.names ≠ none ∨ atoms.species ≠ none ∨ atoms.spglibTypes ≠ none) := by
  unfold getSpglibTypes at h
  rcases validate_cases atoms [] with ⟨hv, e⟩ | ⟨-, err, e⟩
  · obtain ⟨n, hn⟩ := hv.lengths
    have h1 : ∀ l, atoms.names = some l → l.length = n := by
      intro l hl
      have := hn "names" (.seq (l.map .str)) (by simp [Atoms.toDict, hl])
      simpa [pyLen] using this
    have h2 : ∀ l, atoms.species = some l → l.length = n := by
      intro l hl
      have := hn "species" (.seq (l.map .str)) (by simp [Atoms.toDict, hl])
      simpa [pyLen] using this
    have h3 : ∀ l, atoms.spglibTypes = some l → l.length = n := by
      intro l hl
      have := hn "spglib_types" (.seq (l.map .int)) (by simp [Atoms.toDict, hl])
      simpa [pyLen] using this
    rw [e] at h
    simp only [bind, Except.bind, pure, Except.pure] at h
    cases ht : atoms.spglibTypes with
    | some l =>
      simp only [ht] at h
      cases h
      rw [h3 _ ht]
      exact ⟨h1, h2, fun l' e => (Option.some.inj e).symm, .inr (.inr (by simp))⟩
    | none =>
      simp only [ht] at h
      cases hi : identifiers lower atoms with
      | error e => rw [hi] at h; cases h
      | ok ids =>
        rw [hi] at h
        cases h
        have hl : ids.length = n := by
          unfold identifiers at hi
          cases hs : atoms.species with
          | some l => simp only [hs] at hi; cases hi; exact h2 _ hs
          | none =>
            cases hm : atoms.names with
            | some l => simp only [hs, hm] at hi; cases hi; rw [List.length_map]; exact h1 _ hm
            | none => simp only [hs, hm] at hi; cases hi
        rw [List.length_map, hl]
        refine ⟨h1, h2, (fun _ k => nomatch k), ?_⟩
        by_contra hc
        push Not at hc
        unfold identifiers at hi
        simp only [hc.1, hc.2.1] at hi
        cases hi
  · rw [e] at h; cases h

theorem forall₂_some {α β : Type} {r : α → β → Prop} {l : List α} {m : List β}
    (h : List.Forall₂ r l m) : ∀ a ∈ l, ∃ b, r a b := by
  induction h with
  | nil => simp
  | cons hr _ ih =>
    intro a ha
    rcases List.mem_cons.1 ha with rfl | ha
    · exact ⟨_, hr⟩
    · exact ih a ha

/-- The key has the same value for the atoms picked for each type. -/
def PickSame {α : Type} (r₁ r₂ : ℤ → ℕ → Prop) (v₁ v₂ : Option (List α)) : Prop :=
  (v₁ = none ↔ v₂ = none) ∧ ∀ l₁ l₂, v₁ = some l₁ → v₂ = some l₂ →
    ∀ (t : ℤ) (i j : ℕ) (x y : α), r₁ t i → r₂ t j → l₁[i]? = some x → l₂[j]? = some y → x = y

theorem _root_.Spec.SameMeaning.pick {α : Type} {v₁ v₂ : Option (List α)} {ts₁ ts₂ : List ℤ}
    (h : SameMeaning v₁ ts₁ v₂ ts₂) {r₁ r₂ : ℤ → ℕ → Prop}
    (hr₁ : ∀ t i, r₁ t i → ts₁[i]? = some t) (hr₂ : ∀ t i, r₂ t i → ts₂[i]? = some t) :
    PickSame r₁ r₂ v₁ v₂ :=
  ⟨h.1, fun l₁ l₂ e₁ e₂ t i j x y hi hj hx hy =>
    h.2 l₁ l₂ e₁ e₂ i j t x y (hr₁ t i hi) (hr₂ t j hj) hx hy⟩

theorem inherited_same {α : Type} {r₁ r₂ : ℤ → ℕ → Prop} {ts : List ℤ}
    {v₁ v₂ w₁ w₂ : Option (List α)} (hv : PickSame r₁ r₂ v₁ v₂) (i1 : Inherited r₁ v₁ ts w₁)
    (i2 : Inherited r₂ v₂ ts w₂) : w₂ = w₁ := by
  cases hv1 : v₁ with
  | none => rw [i1.1 hv1, i2.1 (hv.1.1 hv1)]
  | some l₁ =>
    cases hv2 : v₂ with
    | none => exact absurd (hv.1.2 hv2) (by simp [hv1])
    | some l₂ =>
      obtain ⟨w, rfl, f1⟩ := i1.2 l₁ hv1
      obtain ⟨w', rfl, f2⟩ := i2.2 l₂ hv2
      congr 1
      have := hv.2 l₁ l₂ hv1 hv2
      clear i1 i2
      induction f1 generalizing w' with
      | nil => cases f2; rfl
      | cons ha _ ih =>
        cases f2 with
        | cons hb f2 =>
          obtain ⟨i, i1, i2⟩ := ha
          obtain ⟨j, j1, j2⟩ := hb
          rw [this _ i j _ _ i1 j1 i2 j2, ih _ f2]

/-- The returned key "spglib_types" is the list of types. -/
theorem returned_types {a old : Atoms ℝ} {l ts : List ℤ} {r : ℤ → ℕ → Prop}
    (h1 : ∀ x, old.spglibTypes = some x → x = l) (h2 : ∀ t i, r t i → l[i]? = some t)
    (h3 : old.spglibTypes = none → a.spglibTypes = some ts)
    (h4 : old.spglibTypes ≠ none → Inherited r old.spglibTypes ts a.spglibTypes) :
    a.spglibTypes = some ts := by
  cases ho : old.spglibTypes with
  | none => exact h3 ho
  | some x =>
    have := h4 (by simp [ho])
    rw [ho, h1 x ho] at this
    exact inherited_types h2 this

/-- What is the same in two dictionaries of atoms. -/
def AlikeAtoms (r₁ r₂ : ℤ → ℕ → Prop) (atoms₁ atoms₂ a b : Atoms ℝ) : Prop :=
  b.positions = a.positions ∧ b.spglibTypes = a.spglibTypes ∧
    (PickSame r₁ r₂ atoms₁.names atoms₂.names → b.names = a.names) ∧
    (PickSame r₁ r₂ atoms₁.species atoms₂.species → b.species = a.species)

/-- Types that are picked are types of atoms. -/
theorem newAtoms_mem {ts₁ : List ℤ} {m₁ : PyDict ℤ ℕ} {r₁ : ℤ → ℕ → Prop}
    (h₁ : getSpglibTypes lower atoms₁ = .ok ts₁) (hm₁ : ∀ t i, m₁.get? t = some i ↔ r₁ t i)
    (hr₁ : ∀ t i, r₁ t i → ts₁[i]? = some t) {ps : List (Vec ℝ)} {ts : List ℤ} {a : Atoms ℝ}
    (h : newAtoms atoms₁ m₁ ps ts = .ok a) : ∀ t ∈ ts, t ∈ ts₁ := by
  obtain ⟨n1, s1, t1, some1⟩ := types_lengths h₁
  obtain ⟨p1, N1, S1, T1, T1'⟩ := newAtoms_ok hm₁ h
  have mem : ∀ {α : Type} {old new : Option (List α)}, Inherited r₁ old ts new → old ≠ none →
      ∀ t ∈ ts, t ∈ ts₁ := by
    intro α old new hi ho t ht
    obtain ⟨l, hl⟩ := Option.ne_none_iff_exists'.1 ho
    obtain ⟨l', -, hf⟩ := hi.2 l hl
    obtain ⟨x, i, hi, -⟩ := forall₂_some hf t ht
    exact List.mem_of_getElem? (hr₁ t i hi)
  rcases some1 with k | k | k
  · exact mem N1 k
  · exact mem S1 k
  · exact mem (T1' k) k

/-- The new atoms are the same for both descriptions. -/
theorem newAtoms_same {ts₁ ts₂ : List ℤ} {m₁ m₂ : PyDict ℤ ℕ} {r₁ r₂ : ℤ → ℕ → Prop}
    (h₁ : getSpglibTypes lower atoms₁ = .ok ts₁) (h₂ : getSpglibTypes lower atoms₂ = .ok ts₂)
    (hm₁ : ∀ t i, m₁.get? t = some i ↔ r₁ t i) (hm₂ : ∀ t i, m₂.get? t = some i ↔ r₂ t i)
    (hr₁ : ∀ t i, r₁ t i → ts₁[i]? = some t) (hr₂ : ∀ t i, r₂ t i → ts₂[i]? = some t)
    (he₂ : ∀ t ∈ ts₂, ∃ i, r₂ t i) {ps : List (Vec ℝ)} {ts : List ℤ}
    (hsub : ∀ t ∈ ts, t ∈ ts₁ → t ∈ ts₂)
    {a : Atoms ℝ} (h : newAtoms atoms₁ m₁ ps ts = .ok a) :
    ∃ b, newAtoms atoms₂ m₂ ps ts = .ok b ∧ AlikeAtoms r₁ r₂ atoms₁ atoms₂ a b := by
  obtain ⟨n1, s1, t1, some1⟩ := types_lengths h₁
  obtain ⟨n2, s2, t2, some2⟩ := types_lengths h₂
  obtain ⟨p1, N1, S1, T1, T1'⟩ := newAtoms_ok hm₁ h
  have hall := newAtoms_mem h₁ hm₁ hr₁ h
  obtain ⟨b, hb⟩ := newAtoms_defined (atoms := atoms₂) (mapping := m₂) (ps := ps) (ts := ts)
    (n := ts₂.length) (by
      intro t ht
      obtain ⟨i, hi⟩ := he₂ t (hsub t ht (hall t ht))
      have := hr₂ t i hi
      exact ⟨i, (List.getElem?_eq_some_iff.1 this).1, (hm₂ t i).2 hi⟩) n2 s2
    (fun l hl => by rw [t2 l hl])
  obtain ⟨p2, N2, S2, T2, T2'⟩ := newAtoms_ok hm₂ hb
  refine ⟨b, hb, by rw [p1, p2], ?_, fun k => inherited_same k N1 N2, fun k => inherited_same k S1 S2⟩
  rw [returned_types t1 hr₁ T1 T1', returned_types t2 hr₂ T2 T2']

theorem exists_firstIndex (ts : List ℤ) (t : ℤ) (ht : t ∈ ts) : ∃ i, FirstIndex ts t i := by
  obtain ⟨i, hi, e⟩ := List.getElem_of_mem ht
  have ex : ∃ i : ℕ, ts[i]? = some t := ⟨i, by rw [List.getElem?_eq_getElem hi, e]⟩
  classical
  exact ⟨Nat.find ex, Nat.find_spec ex, fun j hj => Nat.find_min ex hj⟩

theorem newAtoms_last {ts₁ ts₂ : List ℤ} (h₁ : getSpglibTypes lower atoms₁ = .ok ts₁)
    (h₂ : getSpglibTypes lower atoms₂ = .ok ts₂)
    {ps : List (Vec ℝ)} {ts : List ℤ} (hsub : ∀ t ∈ ts, t ∈ ts₁ → t ∈ ts₂) {a : Atoms ℝ}
    (h : newAtoms atoms₁ (lastIndex ts₁) ps ts = .ok a) :
    ∃ b, newAtoms atoms₂ (lastIndex ts₂) ps ts = .ok b ∧
      AlikeAtoms (LastIndex ts₁) (LastIndex ts₂) atoms₁ atoms₂ a b :=
  newAtoms_same h₁ h₂ (lastIndex_iff ts₁) (lastIndex_iff ts₂) (fun _ _ k => k.1)
    (fun _ _ k => k.1) (exists_lastIndex ts₂) hsub h

theorem newAtoms_first {ts₁ ts₂ : List ℤ} (h₁ : getSpglibTypes lower atoms₁ = .ok ts₁)
    (h₂ : getSpglibTypes lower atoms₂ = .ok ts₂)
    {ps : List (Vec ℝ)} {ts : List ℤ} (hsub : ∀ t ∈ ts, t ∈ ts₁ → t ∈ ts₂) {a : Atoms ℝ}
    (h : newAtoms atoms₁ (firstIndex ts₁) ps ts = .ok a) :
    ∃ b, newAtoms atoms₂ (firstIndex ts₂) ps ts = .ok b ∧
      AlikeAtoms (FirstIndex ts₁) (FirstIndex ts₂) atoms₁ atoms₂ a b :=
  newAtoms_same h₁ h₂ (firstIndex_iff ts₁) (firstIndex_iff ts₂) (fun _ _ k => k.1)
    (fun _ _ k => k.1) (exists_firstIndex ts₂) hsub h

/-- The data of the two descriptions differ only in the record of the input. -/
theorem data_same {o₁ o₂ : OriginalData ℝ} (h₁ : originalData lower cell₁ atoms₁ = .ok o₁)
    (h₂ : originalData lower cell₂ atoms₂ = .ok o₂)
    (h : SameReply lib symprec angtol cell₁ o₁.positions o₁.types cell₂ o₂.positions o₂.types)
    {d : SpglibData} (hd : getSpglibData lib lower cell₁ atoms₁ symprec angtol = .ok d) :
    d.original = o₁ ∧ getSpglibData lib lower cell₂ atoms₂ symprec angtol =
      .ok { d with original := o₂ } := by
  unfold getSpglibData at hd ⊢
  rw [h₁] at hd
  rw [h₂]
  simp only [bind, Except.bind, h.dataset, h.primitive] at hd ⊢
  cases k3 : lib.symDataset cell₁ o₁.positions o₁.types symprec angtol with
  | none => rw [k3] at hd; cases hd
  | some s₁ =>
  simp only [k3] at hd ⊢
  cases k5 : crystalFamily.getItem s₁.number with
  | error e => rw [k5] at hd; cases hd
  | ok f =>
  cases k6 : centringType.getItem s₁.number with
  | error e => rw [k5, k6] at hd; cases hd
  | ok c =>
  simp only [k5, k6] at hd ⊢
  cases k7 : lib.findPrimitive cell₁ o₁.positions o₁.types symprec angtol with
  | none => rw [k7] at hd; cases hd
  | some q₁ =>
  simp only [k7] at hd ⊢
  cases hd
  exact ⟨rfl, rfl⟩

theorem valid_of_original {cell : Cell ℝ} {atoms : Atoms ℝ} {o : OriginalData ℝ}
    (h : originalData lower cell atoms = .ok o) :
    ∃ b, validateAtoms atoms.toDict ["positions"] true = .ok b := by
  unfold originalData at h
  cases h1 : validateAtoms atoms.toDict ["positions"] true with
  | error e => rw [h1] at h; cases h
  | ok u => exact ⟨u, rfl⟩

/-- Data that record the input are accepted. -/
theorem resolve_own {G : Cell ℝ → Atoms ℝ → Except Err SpglibData} {cell : Cell ℝ} {atoms : Atoms ℝ}
    {d : SpglibData} (h : originalData lower cell atoms = .ok d.original) :
    resolveData lower G cell atoms (some d) = .ok d := by
  obtain ⟨b, hb⟩ := valid_of_original h
  unfold resolveData
  rw [hb]
  simp only [bind, Except.bind, C32_same lower _ _ _ h]
  rfl

theorem parts_original (niggli : Cell ℝ → Except Err (Cell ℝ)) (convention : String)
    (d : SpglibData) (o : OriginalData ℝ) :
    conventionalParts niggli convention { d with original := o } =
      conventionalParts niggli convention d := rfl

section Same

variable {G : Cell ℝ → Atoms ℝ → Except Err SpglibData} {o₁ o₂ : OriginalData ℝ}

/-- The types of the answers of spglib are types of atoms of the second description. -/
def TypesIn (d : SpglibData) (ts : List ℤ) : Prop :=
  ∀ t, t ∈ d.conventionalTypes ∨ t ∈ d.primitiveTypes → t ∈ d.original.types → t ∈ ts

theorem parts_types {d : SpglibData} {convention : String} {u : Cell ℝ × List (Vec ℝ) × List ℤ}
    (h : conventionalParts niggli convention d = .ok u) :
    ∀ t ∈ u.2.2, t ∈ d.conventionalTypes ∨ t ∈ d.primitiveTypes := by
  have e : u.2.2 = d.conventionalTypes ∨ u.2.2 = d.primitiveTypes := by
    unfold conventionalParts at h
    simp only [bind, Except.bind] at h
    split_ifs at h
    · split at h
      · cases h
      · split at h
        · cases h
        · cases h; exact .inl rfl
    · cases h; exact .inl rfl
    · split at h
      · cases h
      · split at h
        · cases h
        · cases h; exact .inr rfl
    · split at h
      · cases h
      · split at h
        · cases h
        · cases h; exact .inl rfl
  rcases e with e | e <;> rw [e] <;> simp +contextual

theorem conventional_same {g₁ g₂ : Option SpglibData} {d : SpglibData}
    (h₁ : getSpglibTypes lower atoms₁ = .ok d.original.types)
    (h₂ : getSpglibTypes lower atoms₂ = .ok o₂.types)
    (hd₁ : resolveData lower G cell₁ atoms₁ g₁ = .ok d)
    (hd₂ : resolveData lower G cell₂ atoms₂ g₂ = .ok { d with original := o₂ })
    (convention : String) (hsub : ∀ u, conventionalParts niggli (lower convention) d = .ok u →
      ∀ t ∈ u.2.2, t ∈ d.original.types → t ∈ o₂.types) {p : Cell ℝ × Atoms ℝ}
    (hp : getConventional lower G niggli cell₁ atoms₁ convention g₁ = .ok p) :
    ∃ b, getConventional lower G niggli cell₂ atoms₂ convention g₂ = .ok (p.1, b) ∧
      AlikeAtoms (LastIndex d.original.types) (LastIndex o₂.types) atoms₁ atoms₂ p.2 b := by
  unfold getConventional at hp ⊢
  rw [hd₁] at hp
  rw [hd₂]
  simp only [bind, Except.bind, parts_original] at hp ⊢
  cases k1 : conventionalParts niggli (lower convention) d with
  | error e => rw [k1] at hp; cases hp
  | ok u =>
  simp only [k1] at hp ⊢
  cases k2 : newAtoms atoms₁ (lastIndex d.original.types) u.2.1 u.2.2 with
  | error e => rw [k2] at hp; cases hp
  | ok a =>
  rw [k2] at hp
  cases hp
  obtain ⟨b, hb, hab⟩ := newAtoms_last h₁ h₂ (hsub u k1) k2
  rw [hb]
  exact ⟨b, rfl, hab⟩

theorem conventional_types {g : Option SpglibData} {d : SpglibData}
    (h₁ : getSpglibTypes lower atoms₁ = .ok d.original.types)
    (hd₁ : resolveData lower G cell₁ atoms₁ g = .ok d) {convention : String} {p : Cell ℝ × Atoms ℝ}
    (hp : getConventional lower G niggli cell₁ atoms₁ convention g = .ok p) :
    ∀ t ∈ p.2.spglibTypes.getD [], t ∈ d.conventionalTypes ∨ t ∈ d.primitiveTypes := by
  unfold getConventional at hp
  rw [hd₁] at hp
  simp only [bind, Except.bind] at hp
  cases k1 : conventionalParts niggli (lower convention) d with
  | error e => rw [k1] at hp; cases hp
  | ok u =>
  simp only [k1] at hp
  cases k2 : newAtoms atoms₁ (lastIndex d.original.types) u.2.1 u.2.2 with
  | error e => rw [k2] at hp; cases hp
  | ok a =>
  rw [k2] at hp
  cases hp
  obtain ⟨-, -, -, T1, T2⟩ := newAtoms_ok (lastIndex_iff d.original.types) k2
  rw [returned_types (types_lengths h₁).2.2.1 (fun _ _ k => k.1) T1 T2]
  exact parts_types k1

theorem getUnique_types_mem {ps : List (Vec ℝ)} {ts : List ℤ} {r tol : ℝ} {v : List (Vec ℝ) × List ℤ}
    (h : getUnique ps ts r tol = .ok v) : ∀ t ∈ v.2, t ∈ ts := by
  unfold getUnique at h
  simp only at h
  split_ifs at h
  cases h
  intro t ht
  simp only [maskSelect, List.mem_map, List.mem_filter] at ht
  obtain ⟨x, ⟨hx, -⟩, rfl⟩ := ht
  exact List.mem_of_getElem? (List.mem_zipIdx_iff_getElem?.1 hx)

theorem primitive_same {g₁ g₂ : Option SpglibData} {d : SpglibData}
    (ho₁ : originalData lower cell₁ atoms₁ = .ok d.original)
    (ho₂ : originalData lower cell₂ atoms₂ = .ok o₂)
    (hd₁ : resolveData lower G cell₁ atoms₁ g₁ = .ok d)
    (hd₂ : resolveData lower G cell₂ atoms₂ g₂ = .ok { d with original := o₂ })
    (hsub : TypesIn d o₂.types) (convention : String) {p : Cell ℝ × Atoms ℝ}
    (hp : getPrimitive lower G niggli cell₁ atoms₁ convention g₁ = .ok p) :
    ∃ b, getPrimitive lower G niggli cell₂ atoms₂ convention g₂ = .ok (p.1, b) ∧
      AlikeAtoms (FirstIndex d.original.types) (FirstIndex o₂.types) atoms₁ atoms₂ p.2 b := by
  have h₁ := original_types ho₁
  have h₂ := original_types ho₂
  unfold getPrimitive at hp ⊢
  rw [hd₁] at hp
  rw [hd₂]
  simp only [bind, Except.bind] at hp ⊢
  have parts : ∀ u, primitiveParts lower G niggli cell₁ atoms₁ (lower convention) d = .ok u →
      primitiveParts lower G niggli cell₂ atoms₂ (lower convention) { d with original := o₂ } =
        .ok u ∧ ∀ t ∈ u.2.2, t ∈ d.conventionalTypes ∨ t ∈ d.primitiveTypes := by
    intro u hu
    unfold primitiveParts at hu ⊢
    split_ifs at hu ⊢
    · cases hu; exact ⟨rfl, fun t ht => .inr ht⟩
    · simp only [bind, Except.bind] at hu ⊢
      cases k1 : getConventional lower G niggli cell₁ atoms₁ (lower convention) (some d) with
      | error e => rw [k1] at hu; cases hu
      | ok w =>
        have ht := conventional_types h₁ (resolve_own ho₁) k1
        rw [k1] at hu
        obtain ⟨b, hb, e1, e2, -⟩ := conventional_same (d := d) (o₂ := o₂) h₁ h₂ (resolve_own ho₁)
          (resolve_own (d := { d with original := o₂ }) ho₂) (lower convention)
          (fun u hu t ht => hsub t (parts_types hu t ht)) k1
        rw [hb]
        simp only [Atoms.getPositions, e1, e2] at hu ⊢
        refine ⟨hu, ?_⟩
        split at hu
        · cases hu
        · split at hu
          · cases hu
          · split at hu
            · cases hu
            · split at hu
              · cases hu
              · rename_i v hv
                cases hu
                intro t htm
                exact ht t (getUnique_types_mem hv t htm)
  cases k1 : primitiveParts lower G niggli cell₁ atoms₁ (lower convention) d with
  | error e => rw [k1] at hp; cases hp
  | ok u =>
  obtain ⟨k3, k4⟩ := parts u k1
  rw [k3]
  simp only [k1] at hp ⊢
  cases k2 : newAtoms atoms₁ (firstIndex d.original.types) u.2.1 u.2.2 with
  | error e => rw [k2] at hp; cases hp
  | ok a =>
  rw [k2] at hp
  cases hp
  obtain ⟨b, hb, hab⟩ := newAtoms_first h₁ h₂ (fun t ht => hsub t (k4 t ht)) k2
  rw [hb]
  exact ⟨b, rfl, hab⟩

end Same

/-- The data are found for the second description too. -/
theorem resolve_second {o₁ o₂ : OriginalData ℝ} (h₁ : originalData lower cell₁ atoms₁ = .ok o₁)
    (h₂ : originalData lower cell₂ atoms₂ = .ok o₂)
    (h : SameReply lib symprec angtol cell₁ o₁.positions o₁.types cell₂ o₂.positions o₂.types)
    {d : SpglibData} :
    let G := fun c a => getSpglibData lib lower c a symprec angtol
    resolveData lower G cell₁ atoms₁ none = .ok d →
      d.original = o₁ ∧ resolveData lower G cell₂ atoms₂ none = .ok { d with original := o₂ } := by
  intro G hd
  obtain ⟨e, k⟩ := data_same h₁ h₂ h (resolve_none hd)
  refine ⟨e, ?_⟩
  obtain ⟨b, hb⟩ := valid_of_original h₂
  unfold resolveData
  rw [hb]
  exact k

/-- C73, atoms: if spglib gives the same answers for both inputs, atoms included (`SameReply`), then
whenever `get_conventional` or `get_primitive` returns for the first input it returns for the second
one, the same cell, positions and types; the same names if the atoms of a type have the same name in
both inputs (`SameMeaning`), and the same for the species. -/
theorem C73_atoms {o₁ o₂ : OriginalData ℝ} (h₁ : originalData lower cell₁ atoms₁ = .ok o₁)
    (h₂ : originalData lower cell₂ atoms₂ = .ok o₂)
    (h : SameReply lib symprec angtol cell₁ o₁.positions o₁.types cell₂ o₂.positions o₂.types)
    (hsub : ∀ t ∈ o₁.types, t ∈ o₂.types) (convention : String) (p : Cell ℝ × Atoms ℝ) :
    let G := fun c a => getSpglibData lib lower c a symprec angtol
    let Alike := fun a b : Atoms ℝ => b.positions = a.positions ∧ b.spglibTypes = a.spglibTypes ∧
      (SameMeaning atoms₁.names o₁.types atoms₂.names o₂.types → b.names = a.names) ∧
      (SameMeaning atoms₁.species o₁.types atoms₂.species o₂.types → b.species = a.species)
    (getConventional lower G niggli cell₁ atoms₁ convention none = .ok p →
      ∃ b, getConventional lower G niggli cell₂ atoms₂ convention none = .ok (p.1, b) ∧
        Alike p.2 b) ∧
    (getPrimitive lower G niggli cell₁ atoms₁ convention none = .ok p →
      ∃ b, getPrimitive lower G niggli cell₂ atoms₂ convention none = .ok (p.1, b) ∧
        Alike p.2 b) := by
  intro G Alike
  constructor
  · intro hp
    cases hd : resolveData lower G cell₁ atoms₁ none with
    | error e => unfold getConventional at hp; rw [hd] at hp; cases hp
    | ok d =>
      obtain ⟨rfl, k⟩ := resolve_second h₁ h₂ h hd
      obtain ⟨b, hb, e1, e2, e3, e4⟩ := conventional_same (original_types h₁) (original_types h₂) hd k
        convention (fun _ _ t _ => hsub t) hp
      exact ⟨b, hb, e1, e2, fun m => e3 (m.pick (fun _ _ k => k.1) (fun _ _ k => k.1)),
        fun m => e4 (m.pick (fun _ _ k => k.1) (fun _ _ k => k.1))⟩
  · intro hp
    cases hd : resolveData lower G cell₁ atoms₁ none with
    | error e => unfold getPrimitive at hp; rw [hd] at hp; cases hp
    | ok d =>
      obtain ⟨rfl, k⟩ := resolve_second h₁ h₂ h hd
      obtain ⟨b, hb, e1, e2, e3, e4⟩ := primitive_same h₁ h₂ hd k (fun t _ => hsub t) convention hp
      exact ⟨b, hb, e1, e2, fun m => e3 (m.pick (fun _ _ k => k.1) (fun _ _ k => k.1)),
        fun m => e4 (m.pick (fun _ _ k => k.1) (fun _ _ k => k.1))⟩

/-- C73: when the types come from the species, only the set of species matters: any order of the
atoms and any supercell. -/
theorem C73_species {species₁ species₂ : List String} {o₁ o₂ : OriginalData ℝ}
    (s₁ : atoms₁.species = some species₁) (s₂ : atoms₂.species = some species₂)
    (t₁ : atoms₁.spglibTypes = none) (t₂ : atoms₂.spglibTypes = none)
    (h₁ : originalData lower cell₁ atoms₁ = .ok o₁) (h₂ : originalData lower cell₂ atoms₂ = .ok o₂)
    (hset : ∀ x, x ∈ species₁ ↔ x ∈ species₂) :
    (∀ t, t ∈ o₁.types ↔ t ∈ o₂.types) ∧
      SameMeaning atoms₁.species o₁.types atoms₂.species o₂.types := by
  have key : ∀ {cell : Cell ℝ} {atoms : Atoms ℝ} {species : List String} {o : OriginalData ℝ},
      atoms.species = some species → atoms.spglibTypes = none →
      originalData lower cell atoms = .ok o → ValidAtoms atoms.toDict [] ∧ o.types =
        species.map fun a => (((species.toFinset.filter (· < a)).card + 1 : ℕ) : ℤ) := by
    intro cell atoms species o hs ht ho
    have k := original_types ho
    have hv : ValidAtoms atoms.toDict [] := by
      rcases validate_cases atoms [] with ⟨hv, -⟩ | ⟨-, err, e⟩
      · exact hv
      · unfold getSpglibTypes at k; rw [e] at k; cases k
    have := C31_rank lower atoms species hv ht ((C31_identifiers lower atoms).1 species hs)
    rw [k] at this
    exact ⟨hv, Except.ok.inj this⟩
  obtain ⟨v1, e1⟩ := key s₁ t₁ h₁
  obtain ⟨v2, e2⟩ := key s₂ t₂ h₂
  have hf : species₂.toFinset = species₁.toFinset := by
    ext x; simp only [List.mem_toFinset]; exact (hset x).symm
  rw [e1, e2, hf]
  refine ⟨fun t => ?_, ?_, ?_⟩
  · simp only [List.mem_map]
    constructor
    · rintro ⟨a, ha, rfl⟩; exact ⟨a, (hset a).1 ha, rfl⟩
    · rintro ⟨a, ha, rfl⟩; exact ⟨a, (hset a).2 ha, rfl⟩
  · simp [s₁, s₂]
  · intro l₁ l₂ k1 k2 i j t x y hi hj hx hy
    rw [s₁] at k1; rw [s₂] at k2
    cases k1; cases k2
    obtain ⟨ts, ht, -, hiff⟩ := C31_equal lower atoms₁ species₁ v1 t₁
      ((C31_identifiers lower atoms₁).1 species₁ s₁)
    rw [original_types h₁, e1] at ht
    cases ht
    have hy' : y ∈ species₁ := (hset y).2 (List.mem_of_getElem? hy)
    obtain ⟨k, hk, e⟩ := List.getElem_of_mem hy'
    have hk' : species₁[k]? = some y := by rw [List.getElem?_eq_getElem hk, e]
    rw [List.getElem?_map] at hi hj
    rw [hx, Option.map_some, Option.some.injEq] at hi
    rw [hy, Option.map_some, Option.some.injEq] at hj
    refine ((hiff i k x y t t hx hk' ?_ ?_).1.1 rfl)
    · rw [List.getElem?_map, hx, Option.map_some, hi]
    · rw [List.getElem?_map, hk', Option.map_some, hj]

/-! ## An instance: simple cubic polonium and its supercell -/

/-- A library that finds simple cubic polonium in every input. -/
noncomputable def poLib : SpglibLib where
  symDataset _ _ _ _ _ := some ⟨221, 1, 1, [0], [1]⟩
  findPrimitive _ _ _ _ _ := some (1, [0], [1])

/-- `n` polonium atoms. -/
noncomputable def poAtoms (ps : List (Vec ℝ)) (species : List String) : Atoms ℝ :=
  { species := some species, positions := some ps }

theorem po_one (lower : String → String) (cell : Cell ℝ) (p : Vec ℝ) :
    originalData lower cell (poAtoms [p] ["Po"]) = .ok ⟨cell, [p], [1]⟩ := by
  have hv : validateAtoms (poAtoms [p] ["Po"]).toDict ["positions"] true = .ok true := by
    simp only [Atoms.toDict, poAtoms, List.map_cons, List.map_nil, List.length_cons, List.length_nil]
    decide +kernel
  have hv' : validateAtoms (poAtoms [p] ["Po"]).toDict [] true = .ok true := by
    simp only [Atoms.toDict, poAtoms, List.map_cons, List.map_nil, List.length_cons, List.length_nil]
    decide +kernel
  have ht : getSpglibTypes lower (poAtoms [p] ["Po"]) = .ok [1] := by
    unfold getSpglibTypes
    rw [hv']
    simp [poAtoms, identifiers, bind, Except.bind, pure, Except.pure]
  unfold originalData
  rw [hv, ht]
  rfl

theorem po_two (lower : String → String) (cell : Cell ℝ) (p q : Vec ℝ) :
    originalData lower cell (poAtoms [p, q] ["Po", "Po"]) = .ok ⟨cell, [p, q], [1, 1]⟩ := by
  have hv : validateAtoms (poAtoms [p, q] ["Po", "Po"]).toDict ["positions"] true = .ok true := by
    simp only [Atoms.toDict, poAtoms, List.map_cons, List.map_nil, List.length_cons, List.length_nil]
    decide +kernel
  have hv' : validateAtoms (poAtoms [p, q] ["Po", "Po"]).toDict [] true = .ok true := by
    simp only [Atoms.toDict, poAtoms, List.map_cons, List.map_nil, List.length_cons, List.length_nil]
    decide +kernel
  have ht : getSpglibTypes lower (poAtoms [p, q] ["Po", "Po"]) = .ok [1, 1] := by
    unfold getSpglibTypes
    rw [hv']
    simp [poAtoms, identifiers, bind, Except.bind, pure, Except.pure]
  unfold originalData
  rw [hv, ht]
  rfl

/-- The supercell gives the conventional cell of the crystal, and its single atom. -/
example (lower : String → String) (hl : lower "HPKOT" = "hpkot")
    (niggli : Cell ℝ → Except Err (Cell ℝ)) :
    let G := fun c a => getSpglibData poLib lower c a (1 / 10 ^ 5) (-1)
    ∃ a, getConventional lower G niggli 1 (poAtoms [0] ["Po"]) "HPKOT" none = .ok (1, a) ∧
      getConventional lower G niggli !![1, 0, 0; 0, 1, 0; 0, 0, 2]
        (poAtoms [0, ![0, 0, 1 / 2]] ["Po", "Po"]) "HPKOT" none = .ok (1, a) := by
  intro G
  have h₁ := po_one lower 1 0
  have h₂ := po_two lower !![1, 0, 0; 0, 1, 0; 0, 0, 2] 0 ![0, 0, 1 / 2]
  have h3 : crystalFamily.getItem 221 = .ok "c" := by decide +kernel
  have h4 : centringType.getItem 221 = .ok "P" := by decide +kernel
  obtain ⟨b, hb⟩ := valid_of_original h₁
  have hd : resolveData lower G 1 (poAtoms [0] ["Po"]) none =
      .ok ⟨⟨1, [0], [1]⟩, 221, "c", "P", 1 * 1, [0], [1], 1 * 1, [0], [1], 1 / 10 ^ 5, -1⟩ := by
    unfold resolveData
    rw [hb]
    simp only [bind, Except.bind, G]
    unfold getSpglibData
    rw [h₁]
    simp only [bind, Except.bind, poLib, h3, h4, pure, Except.pure]
  obtain ⟨a, ha⟩ := C36_defined lower G niggli 1 (poAtoms [0] ["Po"]) "HPKOT" none _ 1 [0] [1] hd (by
      rw [hl]
      unfold conventionalParts
      rw [if_pos (by decide), if_neg (by decide)]
      simp) (by simp) (by intro l hl; cases hl) (by intro l hl; cases hl; rfl)
    (by intro l hl; cases hl)
  refine ⟨a, ha, ?_⟩
  have hsp := C73_species (atoms₁ := poAtoms [0] ["Po"])
    (atoms₂ := poAtoms [0, ![0, 0, 1 / 2]] ["Po", "Po"]) rfl rfl rfl rfl h₁ h₂ (by simp)
  obtain ⟨b', hb', e1, e2, e3, e4⟩ := (C73_atoms h₁ h₂ ⟨rfl, rfl⟩ (fun t => (hsp.1 t).1) "HPKOT"
    (1, a)).1 ha
  replace e3 := e3 ⟨Iff.rfl, by intro l₁ l₂ e; cases e⟩
  replace e4 := e4 hsp.2
  rw [hb']
  cases a; cases b'
  simp only at e1 e2 e3 e4
  rw [e1, e2, e3, e4]

end Wulfric
