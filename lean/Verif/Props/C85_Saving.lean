import Verif.Props.C48_Poscar

/-!
# C85: saving and loading again and again changes nothing
-/

namespace Wulfric

open Matrix _root_.Spec Wulfric.Spec

theorem dropWhile_twice {α : Type*} (p : α → Bool) (l : List α) :
    (l.dropWhile p).dropWhile p = l.dropWhile p := by
  induction l with
  | nil => rfl
  | cons a l ih =>
    by_cases h : p a = true
    · rw [List.dropWhile_cons_of_pos h, ih]
    · rw [List.dropWhile_cons_of_neg h, List.dropWhile_cons_of_neg h]

theorem dropWhile_head {α : Type*} (p : α → Bool) {l : List α}
    (h : ∀ a, l.head? = some a → p a = false) : l.dropWhile p = l := by
  cases l with
  | nil => rfl
  | cons a l => rw [List.dropWhile_cons_of_neg (by simp [h a rfl])]

theorem head_dropWhile {α : Type*} (p : α → Bool) (l : List α) (a : α)
    (h : (l.dropWhile p).head? = some a) : p a = false := by
  induction l with
  | nil => simp at h
  | cons b l ih =>
    by_cases hb : p b = true
    · rw [List.dropWhile_cons_of_pos hb] at h
      exact ih h
    · rw [List.dropWhile_cons_of_neg hb] at h
      cases h
      simpa using hb

theorem head_reverse_dropWhile {α : Type*} (p : α → Bool) {l : List α}
    (h : ∀ a, l.head? = some a → p a = false) (a : α)
    (ha : (l.reverse.dropWhile p).reverse.head? = some a) : p a = false := by
  have e : l.reverse = l.reverse.takeWhile p ++ l.reverse.dropWhile p :=
    List.takeWhile_append_dropWhile.symm
  have e' : l = (l.reverse.dropWhile p).reverse ++ (l.reverse.takeWhile p).reverse := by
    rw [← List.reverse_append, ← e, List.reverse_reverse]
  apply h
  rw [e', List.head?_append, ha]
  rfl

theorem pyStrip_twice (l : List Char) : pyStrip (pyStrip l) = pyStrip l := by
  have h1 : (pyStrip l).dropWhile isSpace = pyStrip l := by
    apply dropWhile_head
    intro a ha
    exact head_reverse_dropWhile isSpace (fun b hb => head_dropWhile isSpace l b hb) a ha
  rw [pyStrip, h1]
  unfold pyStrip
  rw [List.reverse_reverse, dropWhile_twice]

theorem pyStrip_subset {l : List Char} {c : Char} (h : c ∈ pyStrip l) : c ∈ l := by
  unfold pyStrip at h
  rw [List.mem_reverse] at h
  have h := (List.dropWhile_sublist _).subset h
  rw [List.mem_reverse] at h
  exact (List.dropWhile_sublist _).subset h

theorem writtenComment_newline {now : String} (hnow : '\n' ∉ now.toList) (comment : Option String) :
    '\n' ∉ writtenComment now comment := by
  cases comment with
  | none => exact hnow
  | some c =>
    intro h
    simp only [writtenComment, List.mem_map] at h
    obtain ⟨ch, -, h⟩ := h
    split_ifs at h with q
    · exact absurd h (by decide)
    · exact q h

theorem writtenComment_again {w : List Char} (h : '\n' ∉ w) (now : String) :
    writtenComment now (some (String.ofList (pyStrip w))) = pyStrip w := by
  show List.map _ (String.ofList (pyStrip w)).toList = _
  rw [String.toList_ofList]
  conv_rhs => rw [← List.map_id (pyStrip w)]
  apply List.map_congr_left
  intro ch hch
  rw [if_neg]
  · rfl
  · rintro rfl
    exact h (pyStrip_subset hch)

/-- What a program does that loads a file and writes the crystal again: `load_poscar` and then
`dump_poscar` with the loaded comment. -/
noncomputable def loadAndDump (now : String) (universal : Bool) (d : ℕ) (mode : String)
    (text : List Char) : Except Err (List Char) :=
  match loadPoscar universal text with
  | .error e => .error e
  | .ok (cell, atoms, comment) => dumpPoscar String.toLower now cell atoms (some comment) d mode

/-- The symbol of an element is deduced from itself. -/
theorem species_self {t : String} (ht : t ∈ atomSpecies) (r : Bool) :
    getAtomSpecies String.toLower t r = .ok t := by
  have := C29_indexed t ht "" (by decide +kernel) r
  rwa [String.append_empty] at this

theorem table_not_X : ∀ t ∈ atomSpecies, t ≠ "X" := by decide +kernel

theorem sorted_again {l m : List (String × Vec ℚ)} (hl : (l.map Prod.fst).Pairwise (fun a b => ¬ b < a))
    (hm : (m.map Prod.fst).Pairwise (fun a b => ¬ b < a)) (hp : m.Perm l)
    (hf : ∀ s, m.filter (fun a => a.1 = s) = l.filter (fun a => a.1 = s)) : m = l := by
  induction l generalizing m with
  | nil => exact hp.eq_nil
  | cons x l ih =>
    cases m with
    | nil => exact absurd hp.symm.eq_nil (by simp)
    | cons y m =>
      rw [List.map_cons, List.pairwise_cons] at hl hm
      have hyx : y.1 = x.1 := by
        have h1 : ¬ x.1 < y.1 := by
          rcases List.mem_cons.1 (hp.symm.subset (List.mem_cons_self (a := x) (l := l))) with e | e
          · rw [e]
            exact lt_irrefl _
          · exact hm.1 _ (List.mem_map_of_mem e)
        have h2 : ¬ y.1 < x.1 := by
          rcases List.mem_cons.1 (hp.subset (List.mem_cons_self (a := y) (l := m))) with e | e
          · rw [e]
            exact lt_irrefl _
          · exact hl.1 _ (List.mem_map_of_mem e)
        exact le_antisymm (not_lt.1 h1) (not_lt.1 h2)
      have e := hf x.1
      rw [List.filter_cons_of_pos (by simpa using hyx), List.filter_cons_of_pos (by simp)] at e
      have hxy : y = x := (List.cons.inj e).1
      subst hxy
      rw [ih hl.2 hm.2 (List.perm_cons y |>.1 hp)]
      intro s
      have e := hf s
      by_cases hs : y.1 = s
      · rw [List.filter_cons_of_pos (by simpa using hs), List.filter_cons_of_pos (by simpa using hs)] at e
        exact (List.cons.inj e).2
      · rwa [List.filter_cons_of_neg (by simpa using hs),
          List.filter_cons_of_neg (by simpa using hs)] at e

section
variable (now : String) (universal : Bool) (cell : Cell ℚ)
    (atoms : Atoms ℚ) (ps : List (Vec ℚ)) (types : List String) (comment : Option String) (d : ℕ)
    (mode : String) (hm : mode = "Direct" ∨ mode = "Cartesian")
    (hp : atoms.positions = some ps) (ht : HasTypes String.toLower atoms types)
    (hlen : types.length = ps.length) (htab : ∀ t ∈ types, t ∈ atomSpecies)
    (hnow : '\n' ∉ now.toList) (hr : universal = true → '\r' ∉ writtenComment now comment)
    (hdet : mode = "Cartesian" → ∀ c : Cell ℚ,
      (∀ i j, NearestDecimal d (cell i j) (c i j)) → c.det ≠ 0)

include hm hp ht hlen htab hnow hr hdet

/-- C85: the crystal loaded from a file that was written is the same after it is written and loaded
once more: cell, names, positions and comment, exactly, whatever was rounded the first time. -/
theorem C85_again : ∃ text crystal text', dumpPoscar String.toLower now cell atoms comment d mode =
      .ok text ∧ loadPoscar universal text = .ok crystal ∧
    dumpPoscar String.toLower now crystal.1 crystal.2.1 (some crystal.2.2) d mode = .ok text' ∧
    loadPoscar universal text' = .ok crystal := by
  obtain ⟨text, h1, cell', sorted, positions, h2, h3, h4, h5, h6, h7⟩ := C48_precision
    String.toLower now universal cell atoms ps types comment d mode hm hp ht hlen
    (fun _ t h => (table_words t (htab t h)).1) (fun _ h => by
      obtain ⟨t, h⟩ := List.exists_mem_of_ne_nil _ h
      exact ⟨t, h, (table_words t (htab t h)).2⟩) hnow hr (fun h _ => hdet h)
  have hlen' : (sorted.map Prod.fst).length = positions.length := by
    rw [List.length_map]
    exact h7.length_eq
  have hmem : ∀ t ∈ sorted.map Prod.fst, t ∈ atomSpecies := by
    intro t h
    obtain ⟨p, hp', rfl⟩ := List.mem_map.1 h
    exact htab _ (List.of_mem_zip (h4.subset hp')).1
  have hnl := writtenComment_newline hnow comment
  have hw' := writtenComment_again hnl now
  have hty : HasTypes String.toLower
      ({ names := some (sorted.map Prod.fst), positions := some positions } : Atoms ℚ)
      (sorted.map Prod.fst) := by
    refine .inr ⟨rfl, _, rfl, ?_⟩
    rw [List.forall₂_same]
    exact fun t h => ⟨species_self (hmem t h) false, table_not_X t (hmem t h)⟩
  obtain ⟨text', k1, names, positions', k2, k3, k4, k5, k6⟩ := C48_round_trip String.toLower now
    universal cell' { names := some (sorted.map Prod.fst), positions := some positions } positions
    (sorted.map Prod.fst) (some (String.ofList (pyStrip (writtenComment now comment)))) d mode hm
    rfl hty hlen' (fun h => by cases h) (fun h => by cases h) hnow
    (fun h h' => hr h (pyStrip_subset (by rwa [hw'] at h'))) (fun i j => (h3 i j).1) (by
      intro p hp' i
      have : ∀ {l : List (String × Vec ℚ)} {m : List (Vec ℚ)}, List.Forall₂ (fun p v => ∀ i,
          if mode = "Direct" then NearestDecimal d (p.2 i) (v i)
          else NearestDecimal d ((p.2 ᵥ* cell) i) ((v ᵥ* cell') i)) l m → ∀ v ∈ m, ∀ i,
          if mode = "Direct" then Representable d (v i) else Representable d ((v ᵥ* cell') i) := by
        intro l m h
        induction h with
        | nil => simp
        | cons h0 _ ih =>
          intro v hv i
          rcases List.mem_cons.1 hv with rfl | hv
          · have := h0 i
            split_ifs at this ⊢
            · exact this.1
            · exact this.1
          · exact ih v hv i
      exact this h7 p hp' i) (fun h => hdet h _ h3)
  have e : names.zip positions' = (sorted.map Prod.fst).zip positions := by
    apply sorted_again _ _ k4 k6
    · rw [List.map_fst_zip (by rw [hlen'])]
      exact h5
    · rw [List.map_fst_zip (by rw [k3])]
      exact k5
  have e1 : names = sorted.map Prod.fst := by
    have := congrArg (List.map Prod.fst) e
    rwa [List.map_fst_zip (by rw [k3]), List.map_fst_zip (by rw [hlen'])] at this
  have e2 : positions' = positions := by
    have := congrArg (List.map Prod.snd) e
    rwa [List.map_snd_zip (by rw [k3]), List.map_snd_zip (by rw [hlen'])] at this
  refine ⟨text, _, text', h1, h2, k1, ?_⟩
  rw [k2, e1, e2, hw', pyStrip_twice]

/-- C85: however often the crystal is loaded and written, the file is the same from the second time
on. -/
theorem C85_forever : ∃ text text', dumpPoscar String.toLower now cell atoms comment d mode =
      .ok text ∧ ∀ n : ℕ, ((fun r => Except.bind r (loadAndDump now universal d mode))^[n + 1])
        (.ok text) = .ok text' := by
  obtain ⟨text, crystal, text', h1, h2, h3, h4⟩ := C85_again now universal cell atoms ps types
    comment d mode hm hp ht hlen htab hnow hr hdet
  refine ⟨text, text', h1, fun n => ?_⟩
  induction n with
  | zero =>
    show loadAndDump now universal d mode text = _
    unfold loadAndDump
    rw [h2]
    exact h3
  | succ n ih =>
    rw [Function.iterate_succ_apply', ih]
    show loadAndDump now universal d mode text' = _
    unfold loadAndDump
    rw [h4]
    exact h3

end

/-- The hypotheses are met: iron and oxygen in a cubic cell, with more decimals than are written,
in the Cartesian mode. -/
example : ∃ text text', dumpPoscar String.toLower "now" !![3, 0, 0; 0, 3, 0; 0, 0, 3]
      { species := some ["O", "Fe"], positions := some [![1 / 3, 0, 0], 0] } none 2 "Cartesian" =
      .ok text ∧ ∀ n : ℕ, ((fun r => Except.bind r (loadAndDump "now" true 2 "Cartesian"))^[n + 1])
        (.ok text) = .ok text' := by
  refine C85_forever "now" true !![3, 0, 0; 0, 3, 0; 0, 0, 3] _ [![1 / 3, 0, 0], 0] ["O", "Fe"] none
    2 "Cartesian" (.inr rfl) rfl (.inl rfl) rfl (by decide +kernel) (by decide +kernel)
    (fun _ => by decide +kernel) ?_
  intro _ c hc
  have e : c = !![3, 0, 0; 0, 3, 0; 0, 0, 3] := by
    ext i j
    refine nearest_exact ?_ (hc i j)
    fin_cases i <;> fin_cases j <;>
      first
      | (refine ⟨300, ?_⟩; norm_num; done)
      | (refine ⟨0, ?_⟩; norm_num; done)
  rw [e]
  simp [det_fin_three]

end Wulfric
