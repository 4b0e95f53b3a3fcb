import Verif.Lemmas.Poscar
import Verif.Props.C29_Species

/-!
# C48: what is dumped to a POSCAR file is loaded again

The files are texts: the theorems go through every character written and read.
-/

namespace Wulfric
open Matrix _root_.Spec Wulfric.Spec

theorem linesLoop_all (ls : List (List Char)) (h : ∀ l ∈ ls, '\n' ∉ l) :
    linesLoop (ls.flatMap fun l => l ++ ['\n']) [] = ls := by
  induction ls with
  | nil => rfl
  | cons l ls ih =>
    rw [List.flatMap_cons, List.append_assoc, List.singleton_append,
      linesLoop_line _ _ _ (h l (by simp)), ih fun q hq => h q (by simp [hq])]
    rfl

/-- The lines of the written file. -/
def poscarLines (comment : List Char) (cell : Cell ℚ) (d : ℕ) (mode : String)
    (l : List (String × Vec ℚ)) : List (List Char) :=
  let counts := countSpecies (l.map Prod.fst) []
  [comment, ['1', '.', '0'], rowLine d (cell 0), rowLine d (cell 1), rowLine d (cell 2),
    counts.flatMap fun p => p.1.toList ++ [' '],
    counts.flatMap fun p => Nat.toDigits 10 p.2 ++ [' '], mode.toList] ++
    l.map fun p => rowLine d p.2

theorem poscarText_lines (comment : List Char) (cell : Cell ℚ) (d : ℕ) (mode : String)
    (l : List (String × Vec ℚ)) : poscarText comment cell d mode l =
      (poscarLines comment cell d mode l).flatMap fun l => l ++ ['\n'] := by
  simp only [poscarText, poscarLines, writeRow_eq, List.flatMap_append, List.flatMap_cons,
    List.flatMap_nil, List.append_assoc, List.append_nil, List.flatMap_map]

theorem lines_chars {comment : List Char} {cell : Cell ℚ} {d : ℕ} {mode : String}
    (hm : mode = "Direct" ∨ mode = "Cartesian") {l : List (String × Vec ℚ)} {ch : Char}
    (hch : ch = '\n' ∨ ch = '\r') (hc : ch ∉ comment) (hw : ∀ p ∈ l, OneWord isSpace p.1) :
    ∀ line ∈ poscarLines comment cell d mode l, ch ∉ line := by
  intro line hline hmem
  have hsp : isSpace ch = true := by rcases hch with rfl | rfl <;> decide
  have hrow : ∀ v, ch ∉ rowLine d v := by
    intro v hv
    have := row_chars d v ch hv
    rcases hch with rfl | rfl
    · exact this.1 rfl
    · exact this.2 rfl
  have hne : ch ≠ ' ' := by rcases hch with rfl | rfl <;> decide
  simp only [poscarLines, List.mem_append, List.mem_cons, List.not_mem_nil, or_false,
    List.mem_map] at hline
  rcases hline with (rfl | rfl | rfl | rfl | rfl | rfl | rfl | rfl) | ⟨p, hp, rfl⟩
  · exact hc hmem
  · rcases hch with rfl | rfl <;> simp at hmem
  · exact hrow _ hmem
  · exact hrow _ hmem
  · exact hrow _ hmem
  · rw [List.mem_flatMap] at hmem
    obtain ⟨q, hq, hmem⟩ := hmem
    rw [List.mem_append, List.mem_singleton] at hmem
    rcases hmem with hmem | hmem
    · have : q.1 ∈ (countSpecies (l.map Prod.fst) []).keys := List.mem_map_of_mem hq
      rw [countSpecies_keys] at this
      simp only [PyDict.keys, List.map_nil, List.not_mem_nil, false_or, List.mem_map] at this
      obtain ⟨p, hp, e⟩ := this
      have := (hw p hp).2 ch (by rw [e]; exact hmem)
      rw [hsp] at this
      exact absurd this (by simp)
    · exact hne hmem
  · rw [List.mem_flatMap] at hmem
    obtain ⟨q, hq, hmem⟩ := hmem
    rw [List.mem_append, List.mem_singleton] at hmem
    rcases hmem with hmem | hmem
    · have := digit_not_space (toDigits_digit _ ch hmem)
      rw [hsp] at this
      exact absurd this (by simp)
    · exact hne hmem
  · rcases hm with rfl | rfl <;> rcases hch with rfl | rfl <;> exact absurd hmem (by decide)
  · exact hrow _ hmem

theorem readLines_text {universal : Bool} {comment : List Char} {cell : Cell ℚ} {d : ℕ}
    {mode : String} (hm : mode = "Direct" ∨ mode = "Cartesian") {l : List (String × Vec ℚ)}
    (hn : '\n' ∉ comment) (hr : universal = true → '\r' ∉ comment)
    (hw : ∀ p ∈ l, OneWord isSpace p.1) :
    readLines universal (poscarText comment cell d mode l) = poscarLines comment cell d mode l := by
  unfold readLines
  have h1 : linesLoop (poscarText comment cell d mode l) [] = poscarLines comment cell d mode l := by
    rw [poscarText_lines]
    exact linesLoop_all _ (lines_chars hm (.inl rfl) hn hw)
  cases universal with
  | false => simpa using h1
  | true =>
    simp only [if_true]
    rw [translate_id, h1]
    rw [poscarText_lines]
    intro h
    rw [List.mem_flatMap] at h
    obtain ⟨line, hl, h⟩ := h
    rw [List.mem_append, List.mem_singleton] at h
    rcases h with h | h
    · exact lines_chars hm (.inr rfl) (hr rfl) hw line hl h
    · exact absurd h (by decide)

/-- The cell read back. -/
def readCell (d : ℕ) (cell : Cell ℚ) : Cell ℚ := fun i j => roundTo d (cell i j)

/-- The position read back. -/
noncomputable def readBack (d : ℕ) (cell : Cell ℚ) (direct : Bool) (v : Vec ℚ) : Vec ℚ :=
  if direct then fun i => roundTo d (v i)
  else vecMat (fun i => roundTo d (v i)) (readCell d cell)⁻¹

theorem vec_eta (v : Vec ℚ) : ![v 0, v 1, v 2] = v := by
  funext i
  fin_cases i <;> rfl

theorem readVec_row (d : ℕ) (v : Vec ℚ) :
    readVec [roundTo d (v 0), roundTo d (v 1), roundTo d (v 2)] = .ok fun i => roundTo d (v i) := by
  show Except.ok _ = Except.ok _
  rw [vec_eta fun i => roundTo d (v i)]

theorem readPosition_row (d : ℕ) (cell : Cell ℚ) (direct : Bool) (v : Vec ℚ)
    (hdet : direct = false → (readCell d cell).det ≠ 0) :
    readPosition (.one 1) (readCell d cell) (!direct) (rowLine d v) =
      .ok (readBack d cell direct v) := by
  unfold readPosition
  rw [tokens_row]
  simp only [List.take_succ_cons, List.take_zero, List.mapM_cons, List.mapM_nil, parseFloat_format,
    bind, Except.bind, pure, Except.pure, readVec_row]
  cases direct with
  | true => simp [readBack]
  | false =>
    simp only [Bool.not_false, if_true]
    rw [if_neg (hdet rfl)]
    simp [readBack, scaleVec]

theorem parse_one : readFloats ['1', '.', '0'] = .ok [1] := by
  have e : tokens ['1', '.', '0'] = [formatFixed 1 1] := by decide +kernel
  have r : roundTo 1 1 = 1 := roundTo_exact ⟨10, by norm_num⟩
  unfold readFloats
  rw [e]
  simp only [List.mapM_cons, List.mapM_nil, parseFloat_format, r, bind, Except.bind, pure,
    Except.pure]

theorem mapM_counts (d : PyDict String ℕ) :
    (d.map fun p => Nat.toDigits 10 p.2).mapM parseInt = .ok (d.map fun p => (p.2 : ℤ)) := by
  induction d with
  | nil => rfl
  | cons p d ih =>
    rw [List.map_cons, List.mapM_cons, parseInt_digits, ih]
    rfl

theorem loadBody_ok {d : ℕ} {cell : Cell ℚ} {mode : String}
    (hm : mode = "Direct" ∨ mode = "Cartesian") (l : List (String × Vec ℚ))
    (hl : (l.map Prod.fst).Pairwise (fun a b => ¬ b < a))
    (hdet : mode = "Cartesian" → l ≠ [] → (readCell d cell).det ≠ 0) :
    loadBody (.one 1) (readCell d cell)
      (some ((countSpecies (l.map Prod.fst) []).map fun p => p.1.toList))
      ((countSpecies (l.map Prod.fst) []).map fun p => Nat.toDigits 10 p.2)
      (mode.toList :: l.map fun p => rowLine d p.2) =
    .ok (l.map fun p => (p.1, readBack d cell (decide (mode = "Direct")) p.2)) := by
  unfold loadBody
  rw [mapM_counts]
  simp only [bind, Except.bind]
  have hhead : ¬ (mode.toList.head? = some 'S' ∨ mode.toList.head? = some 's') := by
    rcases hm with rfl | rfl <;> decide
  rw [if_neg hhead]
  unfold loadMode
  have hcart : isCartesian mode.toList = !decide (mode = "Direct") := by
    rcases hm with rfl | rfl <;> decide
  rw [hcart]
  have hf : List.Forall₂ (fun line (p : String × Vec ℚ) =>
      readPosition (.one 1) (readCell d cell) (!decide (mode = "Direct")) line = .ok p.2)
      (l.map fun p => rowLine d p.2)
      (l.map fun p => (p.1, readBack d cell (decide (mode = "Direct")) p.2)) := by
    rw [List.forall₂_map_left_iff, List.forall₂_map_right_iff, List.forall₂_same]
    intro p hp
    apply readPosition_row
    intro h
    apply hdet
    · rcases hm with rfl | rfl
      · simp at h
      · rfl
    · rintro rfl
      simp at hp
  have := loadAtoms_ok (countSpecies (l.map Prod.fst) []) [] _ _ hf (by
    rw [countSpecies_expand _ hl, List.map_map]
    rfl)
  simpa using this

theorem load_text {universal : Bool} {comment : List Char} {cell : Cell ℚ} {d : ℕ}
    {mode : String} (hm : mode = "Direct" ∨ mode = "Cartesian") {l : List (String × Vec ℚ)}
    (hl : (l.map Prod.fst).Pairwise (fun a b => ¬ b < a))
    (hn : '\n' ∉ comment) (hr : universal = true → '\r' ∉ comment)
    (hw : ∀ p ∈ l, OneWord isSpace p.1)
    (hi : l ≠ [] → ∃ p ∈ l, parseInt p.1.toList = .error .valueError)
    (hdet : mode = "Cartesian" → l ≠ [] → (readCell d cell).det ≠ 0) :
    loadPoscar universal (poscarText comment cell d mode l) =
      .ok (readCell d cell, { names := some (l.map Prod.fst), positions := some (l.map fun p =>
        readBack d cell (decide (mode = "Direct")) p.2) }, String.ofList (pyStrip comment)) := by
  unfold loadPoscar
  rw [readLines_text hm hn hr hw]
  simp only [poscarLines, List.cons_append, List.nil_append, parse_one, readFloats_row, readVec_row,
    bind, Except.bind]
  have hscale : ∀ c : Cell ℚ, readScale [1] c = .ok (.one 1) := by
    intro c
    simp [readScale]
  rw [hscale]
  have hcell : scaleCell (of ![fun i => roundTo d (cell 0 i), fun i => roundTo d (cell 1 i),
      fun i => roundTo d (cell 2 i)]) (.one 1) = readCell d cell := by
    funext i j
    fin_cases i <;> simp [scaleCell, readCell]
  simp only [hcell]
  have hspecies : tokens ((countSpecies (l.map Prod.fst) []).flatMap fun p => p.1.toList ++ [' ']) =
      (countSpecies (l.map Prod.fst) []).map fun p => p.1.toList := by
    apply tokens_items
    intro p hp
    have : p.1 ∈ (countSpecies (l.map Prod.fst) []).keys := List.mem_map_of_mem hp
    rw [countSpecies_keys] at this
    simp only [PyDict.keys, List.map_nil, List.not_mem_nil, false_or, List.mem_map] at this
    obtain ⟨q, hq, e⟩ := this
    rw [← e]
    refine ⟨?_, (hw q hq).2⟩
    intro h
    exact (hw q hq).1 (String.toList_inj.1 h)
  have hcounts : tokens ((countSpecies (l.map Prod.fst) []).flatMap fun p =>
      Nat.toDigits 10 p.2 ++ [' ']) =
      (countSpecies (l.map Prod.fst) []).map fun p => Nat.toDigits 10 p.2 :=
    tokens_items _ _ fun p _ => ⟨Nat.toDigits_ne_nil, fun c hc => digit_not_space (toDigits_digit _ c hc)⟩
  have hload : loadSpecies (.one 1) (readCell d cell)
      ((countSpecies (l.map Prod.fst) []).flatMap fun p => p.1.toList ++ [' '])
      (((countSpecies (l.map Prod.fst) []).flatMap fun p => Nat.toDigits 10 p.2 ++ [' ']) ::
        mode.toList :: l.map fun p => rowLine d p.2) =
      .ok (l.map fun p => (p.1, readBack d cell (decide (mode = "Direct")) p.2)) := by
    unfold loadSpecies
    simp only [hspecies]
    by_cases h0 : l = []
    · subst h0
      simp [countSpecies, loadBody, loadMode, loadAtoms, bind, Except.bind, pure, Except.pure]
    · obtain ⟨p, hp, he⟩ := hi h0
      have hk : p.1 ∈ (countSpecies (l.map Prod.fst) []).keys := by
        rw [countSpecies_keys]
        exact .inr (List.mem_map_of_mem hp)
      simp only [PyDict.keys, List.mem_map] at hk
      obtain ⟨q, hq, e⟩ := hk
      rw [if_neg]
      · rw [hcounts]
        exact loadBody_ok hm l hl hdet
      · intro hall
        rw [List.all_eq_true] at hall
        have := hall q.1.toList (List.mem_map_of_mem hq)
        rw [e, he] at this
        exact absurd this (by decide)
  rw [hload]
  simp only [pure, Except.pure, List.map_map, Function.comp_def]

/-! ### The atoms written -/

/-- `types` are the species of the atoms: given, or deduced from the names. -/
def HasTypes (lower : String → String) (atoms : Atoms ℚ) (types : List String) : Prop :=
  atoms.species = some types ∨ (atoms.species = none ∧ ∃ names, atoms.names = some names ∧
    List.Forall₂ (fun name t => getAtomSpecies lower name false = .ok t ∧ t ≠ "X") names types)

theorem poscarType_ok {lower : String → String} {atoms : Atoms ℚ} {types : List String}
    (ht : HasTypes lower atoms types) {i : ℕ} {t : String} (hi : types[i]? = some t) :
    poscarType lower atoms i = .ok t := by
  unfold poscarType
  rcases ht with h | ⟨h, names, hn, hf⟩
  · simp only [h, hi]
  · have hlen := hf.length_eq
    have hi' : i < types.length := by
      by_contra q
      rw [List.getElem?_eq_none (by omega)] at hi
      exact absurd hi (by simp)
    have e := List.getElem?_eq_getElem (by omega : i < names.length)
    have e' := List.getElem?_eq_getElem hi'
    rw [e'] at hi
    have hi := Option.some.inj hi
    have := hf.get (i := i) (by omega) hi'
    simp only [List.get_eq_getElem, hi] at this
    simp only [h, hn, e, this.1, bind, Except.bind]
    rw [if_neg this.2]
    rfl

theorem poscarAtoms_ok {lower : String → String} {atoms : Atoms ℚ} {types : List String}
    (ht : HasTypes lower atoms types) (cell : Cell ℚ) (direct : Bool) (ps : List (Vec ℚ)) (i : ℕ)
    (hlen : types.length = i + ps.length) :
    poscarAtoms lower atoms cell direct i ps =
      .ok (((types.drop i).zip ps).map fun p => (p.1, if direct then p.2 else vecMat p.2 cell)) := by
  induction ps generalizing i with
  | nil => simp [poscarAtoms]
  | cons p ps ih =>
    have hi : i < types.length := by
      rw [hlen, List.length_cons]; omega
    rw [poscarAtoms, poscarType_ok ht (List.getElem?_eq_getElem hi)]
    simp only [bind, Except.bind]
    rw [ih (i + 1) (by rw [hlen, List.length_cons]; omega)]
    simp only [pure, Except.pure]
    rw [List.drop_eq_getElem_cons hi, List.zip_cons_cons, List.map_cons]

theorem alpha_not_space {c : Char} (h : c.isAlpha = true) : isSpace c = false := by
  simp only [Char.isAlpha, Char.isUpper, Char.isLower, Bool.or_eq_true, Bool.and_eq_true,
    decide_eq_true_eq] at h
  have : (65 ≤ c.toNat ∧ c.toNat ≤ 90) ∨ (97 ≤ c.toNat ∧ c.toNat ≤ 122) := h
  simp only [isSpace, decide_eq_false_iff_not]
  omega

theorem alpha_not_digit {c : Char} (h : c.isAlpha = true) : c.isDigit = false := by
  simp only [Char.isAlpha, Char.isUpper, Char.isLower, Bool.or_eq_true, Bool.and_eq_true,
    decide_eq_true_eq] at h
  have h : (65 ≤ c.toNat ∧ c.toNat ≤ 90) ∨ (97 ≤ c.toNat ∧ c.toNat ≤ 122) := h
  by_contra q
  have := digit_cases (by simpa using q)
  omega

theorem table_alpha : ∀ t ∈ atomSpecies, t.toList ≠ [] ∧ ∀ c ∈ t.toList, c.isAlpha = true := by
  have h : (atomSpecies.all fun t => !t.toList.isEmpty && t.toList.all Char.isAlpha) = true := by
    decide +kernel
  intro t ht
  rw [List.all_eq_true] at h
  have := h t ht
  simp only [Bool.and_eq_true, List.all_eq_true, Bool.not_eq_true', List.isEmpty_eq_false_iff] at this
  exact this

/-- The species from the table are words and not numbers. -/
theorem table_words : ∀ t ∈ atomSpecies, OneWord isSpace t ∧
    parseInt t.toList = .error .valueError := by
  intro t ht
  obtain ⟨h0, h⟩ := table_alpha t ht
  refine ⟨⟨fun e => h0 (by rw [e]; rfl), fun c hc => alpha_not_space (h c hc)⟩, ?_⟩
  unfold parseInt
  rw [takeSign_plain fun c hc => ⟨fun e => absurd (h c hc) (by rw [e]; decide),
    fun e => absurd (h c hc) (by rw [e]; decide)⟩]
  simp only
  rw [if_neg]
  match hl : t.toList, h0 with
  | c :: l, _ =>
    have := alpha_not_digit (h c (by rw [hl]; simp))
    simp [isDigits, this]

theorem deduced_words {lower : String → String} {names types : List String}
    (hf : List.Forall₂ (fun name t => getAtomSpecies lower name false = .ok t ∧ t ≠ "X")
      names types) : ∀ t ∈ types, OneWord isSpace t ∧ parseInt t.toList = .error .valueError := by
  intro t ht
  induction hf with
  | nil => simp at ht
  | @cons name t' _ _ h _ ih =>
    rw [List.mem_cons] at ht
    rcases ht with rfl | ht
    · obtain ⟨s, e, -, hs⟩ := C29_sound lower name
      rw [h.1] at e
      cases e
      exact table_words _ (hs h.2).1
    · exact ih ht

/-- The comment as it is written. -/
def writtenComment (now : String) : Option String → List Char
  | none => now.toList
  | some c => c.toList.map fun ch => if ch = '\n' then ' ' else ch

theorem nearest_exact {d : ℕ} {x y : ℚ} (hx : Representable d x) (h : NearestDecimal d x y) :
    y = x := by
  obtain ⟨⟨z, hz⟩, hn⟩ := h
  obtain ⟨w, hw⟩ := hx
  have hp : (0 : ℚ) < 10 ^ d := by positivity
  have : |(z - w : ℚ)| < 1 := by
    rw [← hz, ← hw, ← sub_mul, abs_mul, abs_of_pos hp]
    have := mul_le_mul_of_nonneg_right hn hp.le
    have e : 1 / 2 / (10 : ℚ) ^ d * 10 ^ d = 1 / 2 := by field_simp
    rw [e] at this
    linarith
  have h' : |z - w| < 1 := by exact_mod_cast this
  have : z = w := by
    have := abs_lt.1 h'
    omega
  subst this
  have : y * 10 ^ d = x * 10 ^ d := by rw [hz, hw]
  exact mul_right_cancel₀ hp.ne' this

/-- C48: the file can be loaded whatever the numbers are. The cell has each number rounded to
the given number of decimals; the atoms are sorted by species, those of one species keep their
order, and each position (in the direct mode) or each Cartesian coordinate (in the Cartesian mode)
is rounded in the same way. -/
theorem C48_precision (lower : String → String) (now : String) (universal : Bool) (cell : Cell ℚ)
    (atoms : Atoms ℚ) (ps : List (Vec ℚ)) (types : List String) (comment : Option String) (d : ℕ)
    (mode : String) (hm : mode = "Direct" ∨ mode = "Cartesian")
    (hp : atoms.positions = some ps) (ht : HasTypes lower atoms types)
    (hlen : types.length = ps.length)
    (hw : atoms.species = some types → ∀ t ∈ types, OneWord isSpace t)
    (hi : atoms.species = some types → types ≠ [] →
      ∃ t ∈ types, parseInt t.toList = .error .valueError)
    (hnow : '\n' ∉ now.toList) (hr : universal = true → '\r' ∉ writtenComment now comment)
    (hdet : mode = "Cartesian" → ps ≠ [] → ∀ c : Cell ℚ,
      (∀ i j, NearestDecimal d (cell i j) (c i j)) → c.det ≠ 0) :
    ∃ text, dumpPoscar lower now cell atoms comment d mode = .ok text ∧
      ∃ (cell' : Cell ℚ) (sorted : List (String × Vec ℚ)) (positions : List (Vec ℚ)),
        loadPoscar universal text =
          .ok (cell', { names := some (sorted.map Prod.fst), positions := some positions },
            String.ofList (pyStrip (writtenComment now comment))) ∧
        (∀ i j, NearestDecimal d (cell i j) (cell' i j)) ∧
        sorted.Perm (types.zip ps) ∧ (sorted.map Prod.fst).Pairwise (fun a b => ¬ b < a) ∧
        (∀ s, sorted.filter (fun a => a.1 = s) = (types.zip ps).filter (fun a => a.1 = s)) ∧
        List.Forall₂ (fun p v => ∀ i, if mode = "Direct" then NearestDecimal d (p.2 i) (v i)
          else NearestDecimal d ((p.2 ᵥ* cell) i) ((v ᵥ* cell') i)) sorted positions := by
  -- the two lists: original relative positions and what is written
  let f : String × Vec ℚ → String × Vec ℚ := fun p =>
    (p.1, if decide (mode = "Direct") then p.2 else vecMat p.2 cell)
  have hwr : poscarAtoms lower atoms cell (decide (mode = "Direct")) 0 ps =
      .ok ((types.zip ps).map f) := by
    rw [poscarAtoms_ok ht cell _ ps 0 (by omega)]
    rfl
  have hsort : sortAtoms ((types.zip ps).map f) = (sortAtoms (types.zip ps)).map f := by
    unfold sortAtoms
    rw [List.map_mergeSort]
    intro a _ b _
    rfl
  have hmem : ∀ p ∈ (sortAtoms (types.zip ps)).map f, p.1 ∈ types := by
    intro p hp
    rw [List.mem_map] at hp
    obtain ⟨q, hq, rfl⟩ := hp
    have := (sortAtoms_perm _).subset hq
    exact (List.of_mem_zip this).1
  have hword : ∀ t ∈ types, OneWord isSpace t := by
    rcases ht with h | ⟨-, names, -, hf⟩
    · exact hw h
    · exact fun t ht => (deduced_words hf t ht).1
  have hint : types ≠ [] → ∃ t ∈ types, parseInt t.toList = .error .valueError := by
    intro h0
    rcases ht with h | ⟨-, names, -, hf⟩
    · exact hi h h0
    · obtain ⟨t, ht⟩ := List.exists_mem_of_ne_nil _ h0
      exact ⟨t, ht, (deduced_words hf t ht).2⟩
  have hcom : '\n' ∉ writtenComment now comment := by
    cases comment with
    | none => exact hnow
    | some c =>
      intro h
      simp only [writtenComment, List.mem_map] at h
      obtain ⟨ch, -, h⟩ := h
      split_ifs at h with q
      · exact absurd h (by decide)
      · exact q h
  have hnear : ∀ i j, NearestDecimal d (cell i j) (readCell d cell i j) := fun i j => roundTo_near _ _
  have hfst : ((sortAtoms (types.zip ps)).map f).map Prod.fst =
      (sortAtoms (types.zip ps)).map Prod.fst := by
    rw [List.map_map]
    rfl
  have hpairs : (((sortAtoms (types.zip ps)).map f).map Prod.fst).Pairwise (fun a b => ¬ b < a) := by
    rw [hfst]
    exact sortAtoms_pairwise _
  have hnil : (sortAtoms (types.zip ps)).map f ≠ [] → types.zip ps ≠ [] := by
    intro h h'
    apply h
    have := (sortAtoms_perm (types.zip ps)).length_eq
    rw [h', List.length_nil, List.length_eq_zero_iff] at this
    rw [h', this]
    rfl
  have hload := load_text (universal := universal) (comment := writtenComment now comment)
    (cell := cell) (d := d) hm hpairs hcom hr (fun p hp => hword _ (hmem p hp)) (by
      intro h0
      have h1 := hnil h0
      obtain ⟨t, ht, he⟩ := hint (by
        rintro rfl
        exact h1 rfl)
      obtain ⟨i, hi, e⟩ := List.getElem_of_mem ht
      have : (t, ps[i]'(by omega)) ∈ types.zip ps := by
        rw [List.mem_iff_getElem]
        refine ⟨i, by simp; omega, ?_⟩
        simp [e]
      have hs : (t, ps[i]'(by omega)) ∈ sortAtoms (types.zip ps) := (sortAtoms_perm _).symm.subset this
      exact ⟨f (t, ps[i]'(by omega)), List.mem_map_of_mem hs, he⟩) (by
      intro h h0
      refine hdet h ?_ _ hnear
      rintro rfl
      exact hnil h0 (by simp))
  refine ⟨poscarText (writtenComment now comment) cell d mode ((sortAtoms (types.zip ps)).map f),
    ?_, readCell d cell, sortAtoms (types.zip ps), _, by rw [hfst] at hload; exact hload, hnear,
    sortAtoms_perm _, sortAtoms_pairwise _, sortAtoms_stable _, ?_⟩
  · unfold dumpPoscar
    simp only
    rw [if_neg (by rcases hm with rfl | rfl <;> simp)]
    simp only [Atoms.getPositions, hp, bind, Except.bind, hwr, hsort, pure, Except.pure]
    cases comment <;> rfl
  · rw [List.map_map, List.forall₂_map_right_iff, List.forall₂_same]
    intro p hp i
    split_ifs with hdir
    · simp only [Function.comp, f, hdir, decide_true, if_true, readBack]
      exact roundTo_near _ _
    · have hps : ps ≠ [] := by
        rintro rfl
        have := (sortAtoms_perm _).subset hp
        simp at this
      have hc : mode = "Cartesian" := hm.resolve_left hdir
      have hd := hdet hc hps _ hnear
      simp only [Function.comp, f, hdir, decide_false, Bool.false_eq_true, if_false, readBack]
      have e1 : ∀ (u : Vec ℚ) (m : Cell ℚ), vecMat u m = u ᵥ* m := by
        intro u m
        funext j
        simp [vecMat, vecMul, dotProduct, Fin.sum_univ_three]
      rw [e1, e1, vecMul_vecMul, nonsing_inv_mul _ (isUnit_iff_ne_zero.2 hd), vecMul_one]
      exact roundTo_near _ _

/-- C48: numbers that have the given number of decimals are loaded exactly: the same cell, the
same species and positions, sorted by species, those of one species in their order. -/
theorem C48_round_trip (lower : String → String) (now : String) (universal : Bool) (cell : Cell ℚ)
    (atoms : Atoms ℚ) (ps : List (Vec ℚ)) (types : List String) (comment : Option String) (d : ℕ)
    (mode : String) (hm : mode = "Direct" ∨ mode = "Cartesian")
    (hp : atoms.positions = some ps) (ht : HasTypes lower atoms types)
    (hlen : types.length = ps.length)
    (hw : atoms.species = some types → ∀ t ∈ types, OneWord isSpace t)
    (hi : atoms.species = some types → types ≠ [] →
      ∃ t ∈ types, parseInt t.toList = .error .valueError)
    (hnow : '\n' ∉ now.toList) (hr : universal = true → '\r' ∉ writtenComment now comment)
    (hcell : ∀ i j, Representable d (cell i j))
    (hpos : ∀ p ∈ ps, ∀ i, if mode = "Direct" then Representable d (p i)
      else Representable d ((p ᵥ* cell) i))
    (hdet : mode = "Cartesian" → cell.det ≠ 0) :
    ∃ text, dumpPoscar lower now cell atoms comment d mode = .ok text ∧
      ∃ (names : List String) (positions : List (Vec ℚ)),
        loadPoscar universal text =
          .ok (cell, { names := some names, positions := some positions },
            String.ofList (pyStrip (writtenComment now comment))) ∧
        names.length = positions.length ∧ (names.zip positions).Perm (types.zip ps) ∧
        names.Pairwise (fun a b => ¬ b < a) ∧
        ∀ s, (names.zip positions).filter (fun a => a.1 = s) =
          (types.zip ps).filter (fun a => a.1 = s) := by
  have hex : ∀ c : Cell ℚ, (∀ i j, NearestDecimal d (cell i j) (c i j)) → c = cell := by
    intro c hc
    funext i j
    exact nearest_exact (hcell i j) (hc i j)
  obtain ⟨text, h1, cell', sorted, positions, h2, h3, h4, h5, h6, h7⟩ := C48_precision lower now
    universal cell atoms ps types comment d mode hm hp ht hlen hw hi hnow hr (by
      intro h _ c hc
      rw [hex c hc]
      exact hdet h)
  have e := hex _ h3
  subst e
  have epos : positions = sorted.map Prod.snd := by
    have hmem : ∀ p ∈ sorted, p.2 ∈ ps := fun p hp => (List.of_mem_zip (h4.subset hp)).2
    clear h2 h4 h5 h6
    induction h7 with
    | nil => rfl
    | @cons p v _ _ h _ ih =>
      rw [List.map_cons, ← ih fun q hq => hmem q (by simp [hq])]
      congr 1
      have hp := hpos p.2 (hmem p (by simp))
      by_cases hd : mode = "Direct"
      · simp only [hd, if_true] at h hp
        funext i
        exact nearest_exact (hp i) (h i)
      · simp only [hd, if_false] at h hp
        have hv : v ᵥ* cell' = p.2 ᵥ* cell' := by
          funext i
          exact nearest_exact (hp i) (h i)
        have hu := isUnit_iff_ne_zero.2 (hdet (hm.resolve_left hd))
        have := congrArg (fun u => u ᵥ* cell'⁻¹) hv
        simpa [vecMul_vecMul, mul_nonsing_inv _ hu] using this
  have ez : (sorted.map Prod.fst).zip positions = sorted := by
    rw [epos]
    exact (List.zip_of_prod rfl rfl).symm
  refine ⟨text, h1, sorted.map Prod.fst, positions, h2, ?_, ?_, h5, ?_⟩
  · rw [epos]
    simp
  · rw [ez]
    exact h4
  · rw [ez]
    exact h6

/-- C48: a carriage return in the comment is written as it is; when the file is opened again it ends
the line, and the file cannot be loaded. -/
theorem C48_carriage_return (lower : String → String) (now : String) (cell : Cell ℚ)
    (atoms : Atoms ℚ) (d : ℕ) (mode : String) (text : List Char)
    (h : dumpPoscar lower now cell atoms (some "a\rb") d mode = .ok text) :
    ∀ r, loadPoscar true text ≠ .ok r := by
  have e : ∃ more, text = 'a' :: '\r' :: 'b' :: '\n' :: more := by
    unfold dumpPoscar at h
    simp only at h
    split_ifs at h with q
    cases h1 : atoms.getPositions with
    | error _ => simp [h1, bind, Except.bind] at h
    | ok ps =>
    simp only [h1, bind, Except.bind] at h
    cases h2 : poscarAtoms lower atoms cell (decide (mode = "Direct")) 0 ps with
    | error _ => simp [h2] at h
    | ok l =>
    simp only [h2, pure, Except.pure, Except.ok.injEq] at h
    have e : ("a\rb".toList.map fun ch => if ch = '\n' then ' ' else ch) = ['a', '\r', 'b'] := by
      decide +kernel
    rw [e] at h
    refine ⟨(poscarText [] cell d mode (sortAtoms l)).drop 1, ?_⟩
    rw [← h]
    simp [poscarText]
  obtain ⟨more, rfl⟩ := e
  intro r hr
  unfold loadPoscar at hr
  have hl : readLines true ('a' :: '\r' :: 'b' :: '\n' :: more) =
      ['a'] :: ['b'] :: linesLoop (translateNewlines more) [] := by
    simp [readLines, translateNewlines, linesLoop]
  rw [hl] at hr
  have hb : readFloats ['b'] = .error .valueError := rfl
  split at hr
  · rename_i h
    simp only [List.cons.injEq] at h
    rw [← h.2.1, hb] at hr
    simp [bind, Except.bind] at hr
  · simp at hr

/-- C48: species that are all numbers are taken for the numbers of atoms, and the file cannot be
loaded. -/
theorem C48_number_species (lower : String → String) (now : String) (universal : Bool) :
    ∃ text, dumpPoscar lower now 1 { species := some ["1"], positions := some [0] } (some "c") 8
      "Direct" = .ok text ∧ ∀ r, loadPoscar universal text ≠ .ok r := by
  refine ⟨poscarText ['c'] 1 8 "Direct" [("1", 0)], ?_, ?_⟩
  · have e : ("c".toList.map fun ch => if ch = '\n' then ' ' else ch) = ['c'] := by decide +kernel
    unfold dumpPoscar
    simp only [e]
    rw [if_neg (by simp)]
    simp [Atoms.getPositions, poscarAtoms, poscarType, sortAtoms, bind, Except.bind, pure,
      Except.pure]
  · intro r hr
    unfold loadPoscar at hr
    rw [readLines_text (.inl rfl) (by decide) (fun _ => by decide) (by
      intro p hp
      rw [List.mem_singleton] at hp
      subst hp
      exact ⟨by decide, by decide⟩)] at hr
    simp only [poscarLines, List.cons_append, List.nil_append, parse_one, readFloats_row, readVec_row,
      bind, Except.bind] at hr
    have hscale : ∀ c : Cell ℚ, readScale [1] c = .ok (.one 1) := by
      intro c
      simp [readScale]
    rw [hscale] at hr
    have h1 : tokens ((countSpecies ([("1", (0 : Vec ℚ))].map Prod.fst) []).flatMap fun p =>
        p.1.toList ++ [' ']) = [['1']] := by decide +kernel
    have h2 : ([['1']] : List (List Char)).mapM parseInt = .ok [1] := by decide +kernel
    have h3 : (parseInt ['1']).isOk = true := by decide +kernel
    have h4 : (((countSpecies ([("1", (0 : Vec ℚ))].map Prod.fst) []).flatMap fun p =>
        Nat.toDigits 10 p.2 ++ [' '])).head? = some '1' := by decide +kernel
    have h5 : (tokens "Direct".toList).take 3 = ["Direct".toList] := by decide +kernel
    have h6 : ["Direct".toList].mapM parseFloat = .error .valueError := by decide +kernel
    have h7 : ∀ sc c, readPosition sc c false "Direct".toList = .error .valueError := by
      intro sc c
      unfold readPosition
      rw [h5, h6]
      rfl
    have h8 : isCartesian ((countSpecies ([("1", (0 : Vec ℚ))].map Prod.fst) []).flatMap fun p =>
        Nat.toDigits 10 p.2 ++ [' ']) = false := by
      unfold isCartesian
      rw [h4]
      decide
    simp only [loadSpecies, h1, List.all_cons, List.all_nil, h3, Bool.and_self, if_true, loadBody,
      h2, bind, Except.bind, h4, loadMode, h8] at hr
    rw [if_neg (by decide)] at hr
    simp only [loadAtoms, loadIons, h7, bind, Except.bind, Int.toNat_one, reduceCtorEq] at hr

/-- C48: an atom whose species cannot be deduced raises `KeyError` rather than the intended
`ValueError`. -/
theorem C48_unknown_name (lower : String → String) (now name : String) (cell : Cell ℚ) (p : Vec ℚ)
    (comment : Option String) (d : ℕ)
    (h : ∀ t ∈ atomSpecies, ¬ Occurs lower t name) :
    dumpPoscar lower now cell { names := some [name], positions := some [p] } comment d "Direct" =
      .error .keyError := by
  have e := (C29_none lower name h).1
  unfold dumpPoscar
  simp only
  rw [if_neg (by simp)]
  simp [Atoms.getPositions, poscarAtoms, poscarType, e, bind, Except.bind]

/-- The hypotheses are met by two sorts of atoms given out of order. -/
example : HasTypes String.toLower
    { species := some ["Fe", "Cr", "Fe"],
      positions := some [![0, 0, 0], ![1/2, 0, 0], ![0, 1/4, 0]] } ["Fe", "Cr", "Fe"] ∧
    (∀ t ∈ ["Fe", "Cr", "Fe"], OneWord isSpace t) ∧
    (∀ i j, Representable 8 ((!![3, 0, 0; 1/2, 3, 0; 0, 0, 5] : Cell ℚ) i j)) := by
  refine ⟨.inl rfl, ?_, ?_⟩
  · intro t ht
    simp only [List.mem_cons, List.not_mem_nil, or_false] at ht
    rcases ht with rfl | rfl | rfl <;> exact ⟨by decide, by decide⟩
  · intro i j
    fin_cases i <;> fin_cases j
    · exact ⟨3 * 10 ^ 8, by norm_num⟩
    · exact ⟨0, by norm_num⟩
    · exact ⟨0, by norm_num⟩
    · exact ⟨50000000, by norm_num⟩
    · exact ⟨3 * 10 ^ 8, by norm_num⟩
    · exact ⟨0, by norm_num⟩
    · exact ⟨0, by norm_num⟩
    · exact ⟨0, by norm_num⟩
    · exact ⟨5 * 10 ^ 8, by norm_num⟩

/-! ### C49 -/

theorem loadAtoms_congr {f g : List Char → Except Err (Vec ℚ)} (h : f = g)
    (names : Option (List (List Char))) (i : ℕ) (ions : List ℤ) (lines : List (List Char)) :
    loadAtoms f names i ions lines = loadAtoms g names i ions lines := by
  rw [h]

theorem readPosition_scale (s : ℚ) (hs : s ≠ 0) (base : Cell ℚ) (cartesian : Bool) :
    readPosition (.one s) (scaleCell base (.one s)) cartesian = readPosition (.one 1) base cartesian := by
  have e0 : scaleCell base (.one s) = s • base := by
    funext i j
    simp [scaleCell, mul_comm]
  funext line
  unfold readPosition
  cases h1 : ((tokens line).take 3).mapM parseFloat with
  | error _ => simp only [bind, Except.bind]
  | ok l =>
  simp only [bind, Except.bind]
  cases h2 : readVec l with
  | error _ => simp only
  | ok v =>
  simp only
  cases cartesian with
  | false => simp only [Bool.false_eq_true, if_false]
  | true =>
    have hd : (s • base).det = s ^ 3 * base.det := by rw [det_smul]; simp
    simp only [if_true, e0, hd, mul_eq_zero, pow_eq_zero_iff (three_ne_zero), hs, false_or]
    by_cases hb : base.det = 0
    · rw [if_pos hb, if_pos hb]
    · rw [if_neg hb, if_neg hb]
      congr 1
      have hu := isUnit_iff_ne_zero.2 hb
      have hinv : (s • base)⁻¹ = s⁻¹ • base⁻¹ := by
        apply inv_eq_right_inv
        rw [smul_mul_smul_comm, mul_nonsing_inv _ hu, mul_inv_cancel₀ hs, one_smul]
      have ev : ∀ (u : Vec ℚ) (m : Cell ℚ), vecMat u m = u ᵥ* m := by
        intro u m
        funext j
        simp [vecMat, vecMul, dotProduct, Fin.sum_univ_three]
      rw [ev, ev, hinv]
      have e1 : scaleVec v (.one s) = s • v := by
        funext i
        simp [scaleVec, mul_comm]
      have e2 : scaleVec v (.one 1) = v := by
        funext i
        simp [scaleVec]
      rw [e1, e2, smul_vecMul, vecMul_smul, smul_smul, mul_inv_cancel₀ hs, one_smul]

theorem loadSpecies_scale (s : ℚ) (hs : s ≠ 0) (base : Cell ℚ) (line : List Char)
    (lines : List (List Char)) :
    loadSpecies (.one s) (scaleCell base (.one s)) line lines =
      loadSpecies (.one 1) base line lines := by
  simp only [loadSpecies, loadBody, loadMode, readPosition_scale s hs base]

theorem load_lines {universal : Bool} {text : List Char} {l0 l1 l2 l3 l4 l5 : List Char}
    {rest : List (List Char)} {base : Cell ℚ} {numbers : List ℚ}
    (hl : readLines universal text = l0 :: l1 :: l2 :: l3 :: l4 :: l5 :: rest)
    (h1 : readFloats l1 = .ok numbers) (h2 : readFloats l2 = .ok [base 0 0, base 0 1, base 0 2])
    (h3 : readFloats l3 = .ok [base 1 0, base 1 1, base 1 2])
    (h4 : readFloats l4 = .ok [base 2 0, base 2 1, base 2 2]) :
    loadPoscar universal text = (readScale numbers base).bind fun scale =>
      (loadSpecies scale (scaleCell base scale) l5 rest).map fun l =>
        (scaleCell base scale, { names := some (l.map Prod.fst), positions := some (l.map Prod.snd) },
          String.ofList (pyStrip l0)) := by
  have eb : of ![![base 0 0, base 0 1, base 0 2], ![base 1 0, base 1 1, base 1 2],
      ![base 2 0, base 2 1, base 2 2]] = base := by
    funext i j
    fin_cases i <;> fin_cases j <;> rfl
  unfold loadPoscar
  rw [hl]
  simp only [h1, h2, h3, h4, readVec, bind, Except.bind, eb]
  cases readScale numbers base with
  | error _ => rfl
  | ok scale =>
    simp only
    cases loadSpecies scale (scaleCell base scale) l5 rest <;> rfl

section scale
variable {universal : Bool} {text text1 : List Char} {l0 l1 l1' l2 l3 l4 l5 : List Char}
  {rest : List (List Char)} {base : Cell ℚ}
  (hl : readLines universal text = l0 :: l1 :: l2 :: l3 :: l4 :: l5 :: rest)
  (h2 : readFloats l2 = .ok [base 0 0, base 0 1, base 0 2])
  (h3 : readFloats l3 = .ok [base 1 0, base 1 1, base 1 2])
  (h4 : readFloats l4 = .ok [base 2 0, base 2 1, base 2 2])
include hl h2 h3 h4

/-- C49: a positive scale multiplies the lattice vectors; all positions, also those given in Cartesian
coordinates, stay the same relative to the cell as in the file with the scale 1, that is Cartesian
coordinates are multiplied as well. -/
theorem C49_positive_partial (s : ℚ) (hs : 0 < s) (h1 : readFloats l1 = .ok [s])
    (hl' : readLines universal text1 = l0 :: l1' :: l2 :: l3 :: l4 :: l5 :: rest)
    (h1' : readFloats l1' = .ok [1]) :
    (∀ cell atoms c, loadPoscar universal text = .ok (cell, atoms, c) → cell = s • base ∧
      loadPoscar universal text1 = .ok (base, atoms, c)) ∧
    ∀ e, loadPoscar universal text = .error e ↔ loadPoscar universal text1 = .error e := by
  have e1 : readScale [s] base = .ok (.one s) := by simp [readScale, not_lt.2 hs.le]
  have e2 : readScale [1] base = .ok (.one 1) := by simp [readScale]
  have e3 : scaleCell base (.one 1) = base := by funext i j; simp [scaleCell]
  have e4 : scaleCell base (.one s) = s • base := by funext i j; simp [scaleCell, mul_comm]
  rw [load_lines hl h1 h2 h3 h4, load_lines hl' h1' h2 h3 h4, e1, e2]
  simp only [Except.bind]
  rw [loadSpecies_scale s hs.ne', e3, e4]
  cases loadSpecies (.one 1) base l5 rest with
  | error e =>
    constructor
    · intro cell atoms c h
      simp [Except.map] at h
    · intro e'
      simp [Except.map]
  | ok l =>
    constructor
    · intro cell atoms c h
      simp only [Except.map, Except.ok.injEq, Prod.mk.injEq] at h ⊢
      exact ⟨h.1.symm, trivial, h.2⟩
    · intro e'
      simp [Except.map]

/-- C49: with a negative scale `s` the volume of the loaded cell is `|s| ^ 3 / V ^ 2`, where `V` is the
volume of the written vectors. It is the intended `|s|` only if the vectors already have that
volume. -/
theorem C49_negative_wrong (s : ℚ) (hs : s < 0) (h1 : readFloats l1 = .ok [s])
    (hb : base.det ≠ 0) (cell : Cell ℚ) (atoms : Atoms ℚ) (c : String)
    (h : loadPoscar universal text = .ok (cell, atoms, c)) :
    |cell.det| = |s| ^ 3 / |base.det| ^ 2 ∧ (|cell.det| = |s| ↔ |base.det| = |s|) := by
  have e1 : readScale [s] base = .ok (.one |s / abs base.det|) := by simp [readScale, hs, hb]
  rw [load_lines hl h1 h2 h3 h4, e1] at h
  simp only [Except.bind] at h
  cases hload : loadSpecies (.one |s / abs base.det|) (scaleCell base (.one |s / abs base.det|)) l5 rest with
  | error e => simp [hload, Except.map] at h
  | ok l =>
  simp only [hload, Except.map, Except.ok.injEq, Prod.mk.injEq] at h
  obtain ⟨rfl, -⟩ := h
  have e4 : scaleCell base (.one |s / abs base.det|) = |s / abs base.det| • base := by
    funext i j; simp [scaleCell, mul_comm]
  have hV : 0 < |base.det| := abs_pos.2 hb
  have hS : 0 < |s| := abs_pos.2 hs.ne
  have key : |(scaleCell base (.one |s / abs base.det|)).det| = |s| ^ 3 / |base.det| ^ 2 := by
    rw [e4, det_smul, abs_mul, abs_pow, abs_abs, abs_div, abs_abs]
    simp only [Fintype.card_fin]
    field_simp
  refine ⟨key, ?_⟩
  rw [key]
  constructor
  · intro h
    rw [div_eq_iff (by positivity)] at h
    have : |s| ^ 2 = |base.det| ^ 2 := by
      have : |s| * |s| ^ 2 = |s| * |base.det| ^ 2 := by rw [← h]; ring
      exact mul_left_cancel₀ hS.ne' this
    exact ((pow_left_inj₀ hS.le hV.le two_ne_zero).1 this).symm
  · intro h
    rw [h]
    field_simp

/-- C49: with three scales the vectors, not the components, are multiplied; this is as intended only if
components mixed by different scales vanish. -/
theorem C49_three_wrong (x : Vec ℚ) (hx : ∀ i, 0 < x i) (h1 : readFloats l1 = .ok [x 0, x 1, x 2])
    (cell : Cell ℚ) (atoms : Atoms ℚ) (c : String)
    (h : loadPoscar universal text = .ok (cell, atoms, c)) :
    (∀ i j, cell i j = base i j * x i) ∧
    ((∀ i j, cell i j = base i j * x j) ↔ ∀ i j, base i j = 0 ∨ x i = x j) := by
  have e1 : readScale [x 0, x 1, x 2] base = .ok (.three x) := by
    simp only [readScale]
    rw [if_pos ⟨hx 0, hx 1, hx 2⟩, vec_eta]
  rw [load_lines hl h1 h2 h3 h4, e1] at h
  simp only [Except.bind] at h
  cases hload : loadSpecies (.three x) (scaleCell base (.three x)) l5 rest with
  | error e => simp [hload, Except.map] at h
  | ok l =>
  simp only [hload, Except.map, Except.ok.injEq, Prod.mk.injEq] at h
  obtain ⟨rfl, -⟩ := h
  refine ⟨fun i j => rfl, ?_⟩
  constructor
  · intro h i j
    have := h i j
    simp only [scaleCell] at this
    by_cases hb : base i j = 0
    · exact .inl hb
    · exact .inr (mul_left_cancel₀ hb this)
  · intro h i j
    simp only [scaleCell]
    rcases h i j with h | h
    · rw [h]; simp
    · rw [h]

end scale

/-- The file of the examples. -/
def sampleFile (scale : String) : List Char :=
  ("c\n" ++ scale ++ "\n1 1 0\n0 1 0\n0 0 1\nFe\n1\nCartesian\n0.5 0 0\n").toList

/-- The hypotheses are met, also those of the theorems on negative and on three scales. -/
example : ∃ rest, readLines true (sampleFile "-8") =
      ['c'] :: ['-', '8'] :: ['1', ' ', '1', ' ', '0'] :: ['0', ' ', '1', ' ', '0'] ::
        ['0', ' ', '0', ' ', '1'] :: ['F', 'e'] :: rest ∧
    readFloats ['-', '8'] = .ok [-8] ∧ readFloats ['1', ' ', '1', ' ', '0'] = .ok [1, 1, 0] ∧
    readFloats ['0', ' ', '1', ' ', '0'] = .ok [0, 1, 0] ∧
    readFloats ['0', ' ', '0', ' ', '1'] = .ok [0, 0, 1] :=
  ⟨[['1'], "Cartesian".toList, "0.5 0 0".toList], by decide +kernel, by decide +kernel,
    by decide +kernel, by decide +kernel, by decide +kernel⟩

end Wulfric
