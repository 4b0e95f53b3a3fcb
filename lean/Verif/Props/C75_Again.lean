import Verif.Props.C74_Precomputed

/-!
# C75: standardising twice

`get_conventional` and `get_primitive` leave their own results alone, if spglib gives the same
answers for the result as for the given crystal.
-/

namespace Wulfric

open Matrix _root_.Spec Wulfric.Spec

theorem original_parts {lower : String → String} {cell : Cell ℝ} {atoms : Atoms ℝ}
    {o : OriginalData ℝ} (h : originalData lower cell atoms = .ok o) :
    o.cell = cell ∧ atoms.positions = some o.positions := by
  unfold originalData at h
  cases h1 : validateAtoms atoms.toDict ["positions"] true with
  | error e => rw [h1] at h; cases h
  | ok u =>
  cases h2 : atoms.positions with
  | none => simp only [h1, Atoms.getPositions, h2, bind, Except.bind] at h; cases h
  | some ps =>
  cases h3 : getSpglibTypes lower atoms with
  | error e => simp only [h1, Atoms.getPositions, h2, h3, bind, Except.bind] at h; cases h
  | ok ts => simp only [h1, Atoms.getPositions, h2, h3, bind, Except.bind] at h; cases h; exact ⟨rfl, rfl⟩

/-- Inherited values are inherited again. -/
theorem inherited_again {α : Type} {r₁ r₂ : ℤ → ℕ → Prop} {ts : List ℤ} {v w : Option (List α)}
    (h : Inherited r₁ v ts w) (hu : ∀ t i j, r₁ t i → r₁ t j → i = j)
    (hr : ∀ t i, r₂ t i → ts[i]? = some t) : PickSame r₁ r₂ v w := by
  constructor
  · constructor
    · exact h.1
    · intro hw
      by_contra hv
      obtain ⟨l, hl⟩ := Option.ne_none_iff_exists'.1 hv
      obtain ⟨l', hl', -⟩ := h.2 l hl
      rw [hw] at hl'; cases hl'
  · intro l l' hl hl' t i j x y hi hj hx hy
    obtain ⟨l'', e, hf⟩ := h.2 l hl
    rw [hl'] at e
    cases e
    have k1 := hr t j hj
    obtain ⟨j1, e1⟩ := List.getElem?_eq_some_iff.1 k1
    obtain ⟨j2, e2⟩ := List.getElem?_eq_some_iff.1 hy
    obtain ⟨i', a1, a2⟩ := List.forall₂_iff_get.1 hf |>.2 j j1 j2
    simp only [List.get_eq_getElem, e1, e2] at a1 a2
    rw [hu t i i' hi a1, a2] at hx
    exact (Option.some.inj hx).symm

theorem lastIndex_unique {ts : List ℤ} (t : ℤ) (i j : ℕ) (h : LastIndex ts t i)
    (k : LastIndex ts t j) : i = j := by
  by_contra hne
  rcases Nat.lt_or_gt_of_ne hne with g | g
  · exact h.2 j g k.1
  · exact k.2 i g h.1

theorem firstIndex_unique {ts : List ℤ} (t : ℤ) (i j : ℕ) (h : FirstIndex ts t i)
    (k : FirstIndex ts t j) : i = j := by
  by_contra hne
  rcases Nat.lt_or_gt_of_ne hne with g | g
  · exact k.2 i g h.1
  · exact h.2 j g k.1

section Again

variable {lib : SpglibLib} {lower : String → String} {symprec angtol : ℝ}
  {niggli : Cell ℝ → Except Err (Cell ℝ)} {cell : Cell ℝ} {atoms : Atoms ℝ}

/-- Steps of `get_conventional`. -/
theorem conventional_parts {G : Cell ℝ → Atoms ℝ → Except Err SpglibData} {convention : String}
    {g : Option SpglibData} {p : Cell ℝ × Atoms ℝ}
    (h : getConventional lower G niggli cell atoms convention g = .ok p) :
    ∃ d u, resolveData lower G cell atoms g = .ok d ∧
      conventionalParts niggli (lower convention) d = .ok u ∧ u.1 = p.1 ∧
      newAtoms atoms (lastIndex d.original.types) u.2.1 u.2.2 = .ok p.2 := by
  unfold getConventional at h
  simp only [bind, Except.bind] at h
  cases k0 : resolveData lower G cell atoms g with
  | error e => rw [k0] at h; cases h
  | ok d =>
  simp only [k0] at h
  cases k1 : conventionalParts niggli (lower convention) d with
  | error e => rw [k1] at h; cases h
  | ok u =>
  simp only [k1] at h
  cases k2 : newAtoms atoms (lastIndex d.original.types) u.2.1 u.2.2 with
  | error e => rw [k2] at h; cases h
  | ok a =>
  rw [k2] at h
  cases h
  exact ⟨d, u, rfl, k1, rfl, k2⟩

/-- Steps of `get_primitive`. -/
theorem primitive_parts {G : Cell ℝ → Atoms ℝ → Except Err SpglibData} {convention : String}
    {g : Option SpglibData} {p : Cell ℝ × Atoms ℝ}
    (h : getPrimitive lower G niggli cell atoms convention g = .ok p) :
    ∃ d u, resolveData lower G cell atoms g = .ok d ∧
      primitiveParts lower G niggli cell atoms (lower convention) d = .ok u ∧ u.1 = p.1 ∧
      newAtoms atoms (firstIndex d.original.types) u.2.1 u.2.2 = .ok p.2 := by
  unfold getPrimitive at h
  simp only [bind, Except.bind] at h
  cases k0 : resolveData lower G cell atoms g with
  | error e => rw [k0] at h; cases h
  | ok d =>
  simp only [k0] at h
  cases k1 : primitiveParts lower G niggli cell atoms (lower convention) d with
  | error e => rw [k1] at h; cases h
  | ok u =>
  simp only [k1] at h
  cases k2 : newAtoms atoms (firstIndex d.original.types) u.2.1 u.2.2 with
  | error e => rw [k2] at h; cases h
  | ok a =>
  rw [k2] at h
  cases h
  exact ⟨d, u, rfl, k1, rfl, k2⟩

theorem atoms_eq {a b : Atoms ℝ} (h1 : b.positions = a.positions)
    (h2 : b.spglibTypes = a.spglibTypes) (h3 : b.names = a.names) (h4 : b.species = a.species) :
    b = a := by
  cases a; cases b
  simp only at h1 h2 h3 h4
  rw [h1, h2, h3, h4]

/-- The types of a valid crystal are positive, its species are symbols. -/
theorem original_valid {o : OriginalData ℝ} (h : originalData lower cell atoms = .ok o) :
    (∀ t ∈ o.types, 1 ≤ t) ∧
      ∀ l, atoms.species = some l → ∀ s ∈ l, s = "X" ∨ s ∈ atomSpecies := by
  have ht := original_types h
  rcases validate_cases atoms [] with ⟨hv, -⟩ | ⟨-, err, e⟩
  · constructor
    · cases hs : atoms.spglibTypes with
      | some l =>
        rw [C31_given lower atoms l hv hs] at ht
        cases ht
        intro t htm
        rcases hv.types (.seq (o.types.map .int)) (by simp [Atoms.toDict, hs]) (.int t)
          (by simpa [pyIter] using htm) with ⟨n, e, hn⟩ | e
        · cases e; exact hn
        · cases e
      | none =>
        cases hi : identifiers lower atoms with
        | error e =>
          unfold getSpglibTypes at ht
          simp only [hs, hi, bind, Except.bind] at ht
          split at ht <;> cases ht
        | ok ids =>
          rw [C31_rank lower atoms ids hv hs hi] at ht
          rw [← Except.ok.inj ht]
          intro t htm
          obtain ⟨a, -, rfl⟩ := List.mem_map.1 htm
          push_cast
          linarith [Int.natCast_nonneg ((ids.toFinset.filter (· < a)).card)]
    · intro l hl s hs
      obtain ⟨x, e, hx⟩ := hv.species (.seq (l.map .str)) (by simp [Atoms.toDict, hl]) (.str s)
        (by simpa [pyIter] using hs)
      cases e
      exact hx
  · unfold getSpglibTypes at ht
    rw [e] at ht; cases ht

theorem inherited_length {α : Type} {r : ℤ → ℕ → Prop} {ts : List ℤ} {v w : Option (List α)}
    (h : Inherited r v ts w) : ∀ l, w = some l → l.length = ts.length := by
  intro l hl
  cases hv : v with
  | none => rw [h.1 hv] at hl; cases hl
  | some l' =>
    obtain ⟨l'', e, hf⟩ := h.2 l' hv
    rw [hl] at e; cases e
    exact hf.length_eq.symm

theorem inherited_values {α : Type} {r : ℤ → ℕ → Prop} {ts : List ℤ} {v w : Option (List α)}
    (h : Inherited r v ts w) : ∀ l, w = some l → ∃ l', v = some l' ∧ ∀ x ∈ l, x ∈ l' := by
  intro l hl
  cases hv : v with
  | none => rw [h.1 hv] at hl; cases hl
  | some l' =>
    obtain ⟨l'', e, hf⟩ := h.2 l' hv
    rw [hl] at e; cases e
    refine ⟨l', rfl, fun x hx => ?_⟩
    obtain ⟨t, i, -, hi⟩ := forall₂_some hf.flip x hx
    exact List.mem_of_getElem? hi

/-- New atoms, with as many positions as types, are valid. -/
theorem newAtoms_valid {o : OriginalData ℝ} (h : originalData lower cell atoms = .ok o)
    {m : PyDict ℤ ℕ} {r : ℤ → ℕ → Prop} (hm : ∀ t i, m.get? t = some i ↔ r t i)
    (hr : ∀ t i, r t i → o.types[i]? = some t) {ps : List (Vec ℝ)} {ts : List ℤ} {a : Atoms ℝ}
    (ha : newAtoms atoms m ps ts = .ok a) (hl : ps.length = ts.length) (c : Cell ℝ) :
    originalData lower c a = .ok ⟨c, ps, ts⟩ := by
  obtain ⟨P, N, S, T, T'⟩ := newAtoms_ok hm ha
  have ht := returned_types (types_lengths (original_types h)).2.2.1 hr T T'
  have hmem := newAtoms_mem (original_types h) hm hr ha
  obtain ⟨v1, v2⟩ := original_valid h
  have hn := inherited_length N
  have hs := inherited_length S
  have hsv := inherited_values S
  have val : ∀ req : List String, (∀ k ∈ req, k = "positions") → ValidAtoms a.toDict req := by
    intro req hreq
    have cases' : ∀ k v, (k, v) ∈ a.toDict →
        (k = "names" ∧ ∃ l, a.names = some l ∧ v = .seq (l.map .str)) ∨
        (k = "species" ∧ ∃ l, a.species = some l ∧ v = .seq (l.map .str)) ∨
        (k = "positions" ∧ v = PyVal.ndarray [ps.length, 3]
          (ps.map fun _ => .ndarray [3] [.scalar, .scalar, .scalar])) ∨
        (k = "spglib_types" ∧ v = .seq (ts.map .int)) := by
      intro k v hkv
      unfold Atoms.toDict at hkv
      rw [P, ht] at hkv
      simp only [List.mem_append, List.mem_singleton, Prod.mk.injEq] at hkv
      rcases hkv with hkv | hkv | hkv | hkv
      · cases e : a.names with
        | none => rw [e] at hkv; cases hkv
        | some l =>
          rw [e] at hkv
          simp only [List.mem_singleton, Prod.mk.injEq] at hkv
          exact .inl ⟨hkv.1, l, rfl, hkv.2⟩
      · cases e : a.species with
        | none => rw [e] at hkv; cases hkv
        | some l =>
          rw [e] at hkv
          simp only [List.mem_singleton, Prod.mk.injEq] at hkv
          exact .inr (.inl ⟨hkv.1, l, rfl, hkv.2⟩)
      · exact .inr (.inr (.inl hkv))
      · exact .inr (.inr (.inr hkv))
    refine ⟨⟨ts.length, fun k v hkv => ?_⟩, fun k hk => ?_, fun v hv => ?_, fun v hv x hx => ?_,
      fun v hv x hx => ?_, fun v hv x hx => ?_⟩
    · rcases cases' k v hkv with ⟨-, l, e, rfl⟩ | ⟨-, l, e, rfl⟩ | ⟨-, rfl⟩ | ⟨-, rfl⟩
      · simp [pyLen, hn l e]
      · simp [pyLen, hs l e]
      · simp [pyLen, hl]
      · simp [pyLen]
    · rw [hreq k hk]
      exact ⟨PyVal.ndarray [ps.length, 3] (ps.map fun _ => .ndarray [3] [.scalar, .scalar, .scalar]),
        by unfold Atoms.toDict; rw [P]; simp⟩
    · rcases cases' _ v hv with ⟨e, -⟩ | ⟨e, -⟩ | ⟨-, rfl⟩ | ⟨e, -⟩
      · exact absurd e (by decide)
      · exact absurd e (by decide)
      · exact ⟨_, .array _ _⟩
      · exact absurd e (by decide)
    · rcases cases' _ v hv with ⟨-, l, e, rfl⟩ | ⟨e, -⟩ | ⟨e, -⟩ | ⟨e, -⟩
      · obtain ⟨s, -, rfl⟩ := List.mem_map.1 (show x ∈ l.map PyVal.str from hx)
        exact ⟨s, rfl⟩
      all_goals exact absurd e (by decide)
    · rcases cases' _ v hv with ⟨e, -⟩ | ⟨-, l, e, rfl⟩ | ⟨e, -⟩ | ⟨e, -⟩
      · exact absurd e (by decide)
      · obtain ⟨s, hsm, rfl⟩ := List.mem_map.1 (show x ∈ l.map PyVal.str from hx)
        obtain ⟨l', e', hl'⟩ := hsv l e
        exact ⟨s, rfl, v2 l' e' s (hl' s hsm)⟩
      all_goals exact absurd e (by decide)
    · rcases cases' _ v hv with ⟨e, -⟩ | ⟨e, -⟩ | ⟨e, -⟩ | ⟨-, rfl⟩
      · exact absurd e (by decide)
      · exact absurd e (by decide)
      · exact absurd e (by decide)
      · obtain ⟨t, htm, rfl⟩ := List.mem_map.1 (show x ∈ ts.map PyVal.int from hx)
        exact .inl ⟨t, rfl, v1 t (hmem t htm)⟩
  have k1 := val ["positions"] (by simp)
  have k2 := val [] (by simp)
  rcases validate_cases a ["positions"] with ⟨-, e⟩ | ⟨hc, -⟩
  · unfold originalData
    rw [e, C31_given lower a ts k2 ht]
    simp only [Atoms.getPositions, P, bind, Except.bind, pure, Except.pure]
  · exact absurd k1 hc

/-- The data record the input. -/
theorem data_original {o : OriginalData ℝ} (h : originalData lower cell atoms = .ok o)
    {d : SpglibData} (hd : getSpglibData lib lower cell atoms symprec angtol = .ok d) :
    o = d.original := by
  obtain ⟨h1, -⟩ := spglibData_ok hd
  rw [h] at h1
  exact Except.ok.inj h1

/-- C75: every function accepts the crystal that `get_conventional` or `get_primitive` returned, if
it has as many positions as types (spglib's lists have the same length). -/
theorem C75_accepted {o : OriginalData ℝ} (h : originalData lower cell atoms = .ok o)
    (convention : String) {p : Cell ℝ × Atoms ℝ}
    (hp : getConventional lower (fun c a => getSpglibData lib lower c a symprec angtol) niggli cell
        atoms convention none = .ok p ∨
      getPrimitive lower (fun c a => getSpglibData lib lower c a symprec angtol) niggli cell
        atoms convention none = .ok p)
    (hl : p.2.positions.map List.length = p.2.spglibTypes.map List.length) :
    ∃ ps ts, p.2.positions = some ps ∧ p.2.spglibTypes = some ts ∧
      validateAtoms p.2.toDict ["positions"] true = .ok true ∧
      getSpglibTypes lower p.2 = .ok ts ∧ originalData lower p.1 p.2 = .ok ⟨p.1, ps, ts⟩ := by
  have key : ∀ (ps : List (Vec ℝ)) (ts : List ℤ), p.2.positions = some ps →
      p.2.spglibTypes = some ts → originalData lower p.1 p.2 = .ok ⟨p.1, ps, ts⟩ →
      ∃ ps ts, p.2.positions = some ps ∧ p.2.spglibTypes = some ts ∧
      validateAtoms p.2.toDict ["positions"] true = .ok true ∧
      getSpglibTypes lower p.2 = .ok ts ∧ originalData lower p.1 p.2 = .ok ⟨p.1, ps, ts⟩ := by
    intro ps ts e1 e2 k
    refine ⟨ps, ts, e1, e2, ?_, original_types k, k⟩
    rcases validate_cases p.2 ["positions"] with ⟨-, e⟩ | ⟨-, err, e⟩
    · exact e
    · unfold originalData at k
      rw [e] at k; cases k
  rcases hp with hp | hp
  · obtain ⟨d, u, hd, hu, e, ha⟩ := conventional_parts hp
    obtain rfl := data_original h (resolve_none hd)
    have T := (newAtoms_ok (lastIndex_iff d.original.types) ha)
    have ht := returned_types (types_lengths (original_types h)).2.2.1 (fun _ _ k => k.1) T.2.2.2.1
      T.2.2.2.2
    rw [T.1, ht] at hl
    exact key _ _ T.1 ht (newAtoms_valid h (lastIndex_iff d.original.types) (fun _ _ k => k.1) ha
      (by simpa using hl) p.1)
  · obtain ⟨d, u, hd, hu, e, ha⟩ := primitive_parts hp
    obtain rfl := data_original h (resolve_none hd)
    have T := (newAtoms_ok (firstIndex_iff d.original.types) ha)
    have ht := returned_types (types_lengths (original_types h)).2.2.1 (fun _ _ k => k.1) T.2.2.2.1
      T.2.2.2.2
    rw [T.1, ht] at hl
    exact key _ _ T.1 ht (newAtoms_valid h (firstIndex_iff d.original.types) (fun _ _ k => k.1) ha
      (by simpa using hl) p.1)

/-- C75: `get_conventional` of the crystal it returned returns the same crystal: cell, positions,
types, names and species. -/
theorem C75_conventional {o₁ o₂ : OriginalData ℝ} (convention : String) {p : Cell ℝ × Atoms ℝ}
    (h₁ : originalData lower cell atoms = .ok o₁) (h₂ : originalData lower p.1 p.2 = .ok o₂)
    (h : SameReply lib symprec angtol cell o₁.positions o₁.types p.1 o₂.positions o₂.types) :
    let G := fun c a => getSpglibData lib lower c a symprec angtol
    getConventional lower G niggli cell atoms convention none = .ok p →
      getConventional lower G niggli p.1 p.2 convention none = .ok p := by
  intro G hp
  obtain ⟨d, u, hd, hu, e, ha⟩ := conventional_parts hp
  obtain ⟨rfl, hd₂⟩ := resolve_second h₁ h₂ h hd
  obtain ⟨-, N, S, T, T'⟩ := newAtoms_ok (lastIndex_iff d.original.types) ha
  have ht := returned_types (types_lengths (original_types h₁)).2.2.1 (fun _ _ k => k.1) T T'
  have hts : o₂.types = u.2.2 :=
    ((types_lengths (original_types h₂)).2.2.1 _ ht).symm
  obtain ⟨b, hb, e1, e2, e3, e4⟩ := conventional_same (original_types h₁) (original_types h₂) hd hd₂
    convention (fun v hv t htv _ => by
      rw [hu] at hv; cases hv; rw [hts]; exact htv) hp
  rw [hb]
  have hr : ∀ t i, LastIndex o₂.types t i → u.2.2[i]? = some t := fun t i k => by
    rw [← hts]; exact k.1
  rw [atoms_eq e1 e2 (e3 (inherited_again N lastIndex_unique hr))
    (e4 (inherited_again S lastIndex_unique hr))]

/-- C75: `get_primitive` of the crystal it returned returns the same crystal, if no type of atoms is
lost in it. -/
theorem C75_primitive {o₁ o₂ : OriginalData ℝ} (convention : String) {p : Cell ℝ × Atoms ℝ}
    (h₁ : originalData lower cell atoms = .ok o₁) (h₂ : originalData lower p.1 p.2 = .ok o₂)
    (h : SameReply lib symprec angtol cell o₁.positions o₁.types p.1 o₂.positions o₂.types)
    (hsub : ∀ t ∈ o₁.types, t ∈ o₂.types) :
    let G := fun c a => getSpglibData lib lower c a symprec angtol
    getPrimitive lower G niggli cell atoms convention none = .ok p →
      getPrimitive lower G niggli p.1 p.2 convention none = .ok p := by
  intro G hp
  obtain ⟨d, u, hd, hu, e, ha⟩ := primitive_parts hp
  obtain ⟨rfl, hd₂⟩ := resolve_second h₁ h₂ h hd
  obtain ⟨-, N, S, T, T'⟩ := newAtoms_ok (firstIndex_iff d.original.types) ha
  have ht := returned_types (types_lengths (original_types h₁)).2.2.1 (fun _ _ k => k.1) T T'
  have hts : o₂.types = u.2.2 :=
    ((types_lengths (original_types h₂)).2.2.1 _ ht).symm
  obtain ⟨b, hb, e1, e2, e3, e4⟩ := primitive_same h₁ h₂ hd hd₂ (fun t _ => hsub t) convention hp
  rw [hb]
  have hr : ∀ t i, FirstIndex o₂.types t i → u.2.2[i]? = some t := fun t i k => by
    rw [← hts]; exact k.1
  rw [atoms_eq e1 e2 (e3 (inherited_again N firstIndex_unique hr))
    (e4 (inherited_again S firstIndex_unique hr))]

/-- C75: the two conversions do not disturb each other: `get_primitive` of the conventional cell
is the primitive cell of the given crystal (cell, positions and types; names only if they follow
the types, since the two functions take them from the first and from the last atom of a type). -/
theorem C75_primitive_of_conventional {o₁ o₂ : OriginalData ℝ} (convention convention' : String)
    {p q : Cell ℝ × Atoms ℝ}
    (h₁ : originalData lower cell atoms = .ok o₁) (h₂ : originalData lower p.1 p.2 = .ok o₂)
    (h : SameReply lib symprec angtol cell o₁.positions o₁.types p.1 o₂.positions o₂.types)
    (hsub : ∀ t ∈ o₁.types, t ∈ o₂.types) :
    let G := fun c a => getSpglibData lib lower c a symprec angtol
    getConventional lower G niggli cell atoms convention none = .ok p →
      getPrimitive lower G niggli cell atoms convention' none = .ok q →
      ∃ b, getPrimitive lower G niggli p.1 p.2 convention' none = .ok (q.1, b) ∧
        b.positions = q.2.positions ∧ b.spglibTypes = q.2.spglibTypes := by
  intro G _ hq
  obtain ⟨b, hb, e1, e2, -⟩ := (C73_atoms h₁ h₂ h hsub convention' q).2 hq
  exact ⟨b, hb, e1, e2⟩

end Again

/-! ## An instance: the supercell of C73 -/

/-- The supercell gives one atom, accepted with its types; the same is returned again. -/
example (lower : String → String) (hl : lower "HPKOT" = "hpkot")
    (niggli : Cell ℝ → Except Err (Cell ℝ)) :
    let G := fun c a => getSpglibData poLib lower c a (1 / 10 ^ 5) (-1)
    let p : Cell ℝ × Atoms ℝ :=
      (1, { species := some ["Po"], positions := some [0], spglibTypes := some [1] })
    getConventional lower G niggli !![1, 0, 0; 0, 1, 0; 0, 0, 2]
        (poAtoms [0, ![0, 0, 1 / 2]] ["Po", "Po"]) "HPKOT" none = .ok p ∧
      getConventional lower G niggli p.1 p.2 "HPKOT" none = .ok p := by
  intro G p
  have h₁ := po_two lower !![1, 0, 0; 0, 1, 0; 0, 0, 2] 0 ![0, 0, 1 / 2]
  have h3 : crystalFamily.getItem 221 = .ok "c" := by decide +kernel
  have h4 : centringType.getItem 221 = .ok "P" := by decide +kernel
  obtain ⟨b, hb⟩ := valid_of_original h₁
  have first : getConventional lower G niggli !![1, 0, 0; 0, 1, 0; 0, 0, 2]
      (poAtoms [0, ![0, 0, 1 / 2]] ["Po", "Po"]) "HPKOT" none = .ok p := by
    unfold getConventional resolveData
    rw [hb]
    simp only [bind, Except.bind, G]
    unfold getSpglibData
    rw [h₁]
    simp only [bind, Except.bind, poLib, h3, h4, pure, Except.pure, hl]
    unfold conventionalParts
    rw [if_pos (by decide), if_neg (by decide)]
    simp only [Matrix.mul_one]
    rfl
  obtain ⟨ps, ts, e1, e2, -, -, h₂⟩ := C75_accepted h₁ "HPKOT" (.inl first) rfl
  cases e1
  cases e2
  exact ⟨first, C75_conventional "HPKOT" h₁ h₂ ⟨rfl, rfl⟩ first⟩

end Wulfric
