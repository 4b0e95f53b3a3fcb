import Verif.Lemmas.ExampleChecks
import Mathlib.LinearAlgebra.Matrix.Determinant.Basic

/-!
# C71: the examples of the HPKOT convention

Everything is proved about all symbols: the files of the package are a finite table, and each file
is checked.
-/

namespace Wulfric
open Matrix Spec

/-! ### What is claimed -/

/-- Names and positions of the atoms, one after the other. -/
def placedAtoms (names : List String) (positions : List (Vec ℚ)) : List (String × Vec ℚ) :=
  names.zip positions

/-- The symbols of the documentation: the 29 extended symbols and the 15 families with a
centring letter ("oA" and "oC" apart). -/
def documentedSymbols : List String := [
  "cP1", "cP2", "cF1", "cF2", "cI1", "tP1", "tI1", "tI2", "oP1", "oF1", "oF2", "oF3", "oI1",
  "oI2", "oI3", "oC1", "oC2", "oA1", "oA2", "hP1", "hP2", "hR1", "hR2", "mP1", "mC1", "mC2",
  "mC3", "aP2", "aP3",
  "cP", "cF", "cI", "tP", "tI", "oP", "oF", "oI", "oC", "oA", "hP", "hR", "mP", "mC", "aP"]

/-- The tolerance of a symmetry: 1e-4 of each lattice vector. -/
def symTol : ℚ := 1 / 10 ^ 4

/-- The tolerance of the shape of the cell. -/
def shapeTol : ℚ := 1 / 10 ^ 10

/-! ### The checks -/

def tolInt : ℤ := 3000000000000

theorem tolInt_eq : (tolInt : ℚ) / exampleUnit = symTol := by
  unfold tolInt exampleUnit symTol; norm_num

theorem tolInt_eq' : ((2 * tolInt : ℤ) : ℚ) / exampleUnit = 2 * symTol := by
  unfold tolInt exampleUnit symTol; norm_num

def inversionCheck (inversion : Bool) (d : ExampleData) : Bool :=
  if inversion then (candidates (-1) d.groups).any fun t => isMotion tolInt (-1) t d.groups
  else (candidates (-1) d.groups).all fun t => !isMotion (2 * tolInt) (-1) t d.groups

theorem inversionCheck_iff {inversion : Bool} {d : ExampleData}
    (hd : (d.groups.map Prod.fst).Nodup) (ho : occupied d.groups = true)
    (h : inversionCheck inversion d = true) :
    (∃ t, IsMotion symTol (-1) t d.placed) ↔ inversion = true := by
  unfold inversionCheck at h
  constructor
  · rintro ⟨t, ht⟩
    by_contra hc
    rw [if_neg hc] at h
    rw [← tolInt_eq] at ht
    obtain ⟨t', hm, _, hi⟩ := candidates_complete hd ho ht
    have := (List.all_eq_true.1 h) t' hm
    simp [hi] at this
  · rintro rfl
    rw [if_pos rfl] at h
    obtain ⟨t, _, hi⟩ := List.any_eq_true.1 h
    exact ⟨vecOf t, by rw [← tolInt_eq]; exact (isMotion_iff hd).1 hi⟩

def centringInts : Char → List (List ℤ)
  | 'P' => [[0, 0, 0]]
  | 'I' => [[0, 0, 0], [15000000000000000, 15000000000000000, 15000000000000000]]
  | 'F' => [[0, 0, 0], [0, 15000000000000000, 15000000000000000],
      [15000000000000000, 0, 15000000000000000], [15000000000000000, 15000000000000000, 0]]
  | 'C' => [[0, 0, 0], [15000000000000000, 15000000000000000, 0]]
  | 'A' => [[0, 0, 0], [0, 15000000000000000, 15000000000000000]]
  | 'R' => [[0, 0, 0], [20000000000000000, 10000000000000000, 10000000000000000],
      [10000000000000000, 20000000000000000, 20000000000000000]]
  | _ => []

theorem vecOf_triple (x y z : ℤ) : vecOf [x, y, z] =
    ![(x : ℚ) / exampleUnit, (y : ℚ) / exampleUnit, (z : ℚ) / exampleUnit] := by
  funext k
  match k with
  | 0 => rfl
  | 1 => rfl
  | 2 => rfl

theorem centringInts_eq (c : Char) : (centringInts c).map vecOf = centringVectors c := by
  unfold centringInts centringVectors
  split <;> simp only [List.map_cons, List.map_nil, vecOf_triple, exampleUnit] <;> norm_num

def centringCheck (c : Char) (d : ExampleData) : Bool :=
  ((centringInts c).all fun v => isMotion tolInt 1 v d.groups) &&
    (candidates 1 d.groups).all fun t =>
      ((centringInts c).any fun v => atPlace tolInt 1 [0, 0, 0] t v) ||
        !isMotion (2 * tolInt) 1 t d.groups

theorem centringCheck_spec {c : Char} {d : ExampleData}
    (hd : (d.groups.map Prod.fst).Nodup) (ho : occupied d.groups = true)
    (h : centringCheck c d = true) :
    (∀ v ∈ centringVectors c, IsMotion symTol 1 v d.placed) ∧
      ∀ t, IsMotion symTol 1 t d.placed → ∃ v ∈ centringVectors c, SamePlace (2 * symTol) t v := by
  unfold centringCheck at h
  rw [Bool.and_eq_true, List.all_eq_true, List.all_eq_true] at h
  obtain ⟨h1, h2⟩ := h
  rw [← centringInts_eq]
  constructor
  · intro v hv
    obtain ⟨w, hw, rfl⟩ := List.mem_map.1 hv
    rw [← tolInt_eq]
    exact_mod_cast (isMotion_iff hd).1 (h1 w hw)
  · intro t ht
    rw [← tolInt_eq] at ht
    obtain ⟨t', hm, hs, hi⟩ := candidates_complete hd ho ht
    have := h2 t' hm
    rw [hi, Bool.not_true, Bool.or_false, List.any_eq_true] at this
    obtain ⟨v, hv, ha⟩ := this
    refine ⟨vecOf v, List.mem_map_of_mem hv, ?_⟩
    rw [atPlace_iff, tolInt_eq] at ha
    rw [tolInt_eq] at hs
    have e : (fun k => ((1 : ℤ) : ℚ) * vecOf t' k + vecOf [0, 0, 0] k) = vecOf t' := by
      funext k
      rw [vecOf_triple]
      match k with
      | 0 => simp
      | 1 => simp
      | 2 => simp
    rw [e] at ha
    rw [two_mul]
    exact samePlace_trans hs ha

/-- The cell of the numbers. -/
def cellOf (d : ExampleData) : Cell ℚ := fun i => vecOf (d.cell.getD i [])

instance (ε : ℚ) (cell : Cell ℚ) (i j : Fin 3) : Decidable (SameLength ε cell i j) :=
  inferInstanceAs (Decidable (_ ≤ _))

instance (ε : ℚ) (cell : Cell ℚ) (i j : Fin 3) : Decidable (RightAngle ε cell i j) :=
  inferInstanceAs (Decidable (_ ≤ _))

instance (ε : ℚ) (cell : Cell ℚ) : Decidable (RhombohedralShape ε cell) :=
  inferInstanceAs (Decidable (_ ∧ _ ∧ _ ∧ _))

def shapeCheck (ε : ℚ) (cell : Cell ℚ) : Char → Bool
  | 'c' => decide (SameLength ε cell 0 1 ∧ SameLength ε cell 0 2 ∧ RightAngle ε cell 0 1 ∧
      RightAngle ε cell 0 2 ∧ RightAngle ε cell 1 2)
  | 't' => decide (SameLength ε cell 0 1 ∧ RightAngle ε cell 0 1 ∧ RightAngle ε cell 0 2 ∧
      RightAngle ε cell 1 2)
  | 'o' => decide (RightAngle ε cell 0 1 ∧ RightAngle ε cell 0 2 ∧ RightAngle ε cell 1 2)
  | 'h' => decide (SameLength ε cell 0 1 ∧
      |2 * rowDot cell 0 1 + rowDot cell 0 0| ≤ ε * rowDot cell 0 0 ∧
      RightAngle ε cell 0 2 ∧ RightAngle ε cell 1 2)
  | 'm' => decide (RightAngle ε cell 0 1 ∧ RightAngle ε cell 1 2)
  | 'a' => true
  | _ => false

theorem shapeCheck_spec {ε : ℚ} {cell : Cell ℚ} {c : Char} (h : shapeCheck ε cell c = true) :
    FamilyShape ε cell c := by
  unfold shapeCheck at h
  unfold FamilyShape
  split at h <;> simp_all

/-- The file of "hR2" with inversion is written in rhombohedral axes. -/
def rhombohedralFile : String × Bool := ("hR2", true)

/-- All the checks of one file. -/
def exampleCheck (key : String × Bool) (d : ExampleData) : Bool :=
  decide (d.groups.map Prod.fst).Nodup && occupied d.groups &&
    (d.groups.all fun g => atomSpecies.contains g.1) && decide (d.cell.length = 3) &&
    decide (0 < Matrix.det (cellOf d)) &&
    inversionCheck key.2 d &&
    if key = rhombohedralFile then centringCheck 'P' d && decide (RhombohedralShape shapeTol (cellOf d))
    else
      match key.1.toList with
      | family :: letter :: _ => centringCheck letter d && shapeCheck shapeTol (cellOf d) family
      | _ => false

theorem exampleTable_checked : ∀ r ∈ exampleTable, exampleCheck r.1 r.2.2 = true := by
  decide +kernel

/-! ### From a symbol to a file -/

theorem supportedSymbols_iff (symbol : String) :
    symbol ∈ supportedSymbols ↔ symbol ∈ documentedSymbols := by
  have h1 : ∀ s ∈ supportedSymbols, s ∈ documentedSymbols := by decide +kernel
  have h2 : ∀ s ∈ documentedSymbols, s ∈ supportedSymbols := by decide +kernel
  exact ⟨h1 symbol, h2 symbol⟩

/-- The symbols for which there is no example with inversion. -/
def withoutInversion : List String := ["oF2", "oI2", "oA1", "oA2", "oA"]

theorem lookup_table (key : String × Bool) : exampleFiles.lookup key =
    (exampleTable.lookup key).map Prod.fst := by
  rw [exampleTable_files]
  generalize exampleTable = l
  induction l with
  | nil => rfl
  | cons r l ih =>
    simp only [List.map_cons, List.lookup]
    cases key == r.1 with
    | true => rfl
    | false => exact ih

theorem lookup_mem {α β : Type} [BEq α] [LawfulBEq α] {k : α} {v : β} : ∀ {l : List (α × β)},
    l.lookup k = some v → (k, v) ∈ l
  | [], h => by cases h
  | r :: l, h => by
    rw [List.lookup] at h
    cases e : k == r.1 with
    | true =>
      rw [e] at h
      obtain rfl := eq_of_beq e
      cases h
      simp
    | false =>
      rw [e] at h
      exact List.mem_cons_of_mem _ (lookup_mem h)

/-- The files are there. -/
theorem files_there : ∀ s ∈ documentedSymbols, ∀ i : Bool, s ∉ withoutInversion ∨ i = false →
    (exampleTable.lookup (exampleDirectory s, i)).isSome = true := by decide +kernel

theorem file_missing : (exampleTable.lookup (exampleDirectory "oA", true)) = none := by
  decide +kernel

/-- What stands behind an answer. -/
theorem example_source {symbol : String} {inversion : Bool} {c : Cell ℚ} {a : Atoms ℚ}
    (h : hpkotGetExample symbol inversion = .ok (c, a)) :
    symbol ∈ documentedSymbols ∧ ∃ d, exampleCheck (exampleDirectory symbol, inversion) d = true ∧
      [c 0, c 1, c 2] = d.cell.map vecOf ∧ a.names = some (d.placed.map Prod.fst) ∧
      a.positions = some (d.placed.map Prod.snd) ∧ a.species = none ∧ a.spglibTypes = none := by
  unfold hpkotGetExample at h
  split at h
  · cases h
  split at h
  · cases h
  rename_i h1 h2
  refine ⟨(supportedSymbols_iff symbol).1 (not_not.1 h2), ?_⟩
  rw [lookup_table] at h
  cases e : exampleTable.lookup (exampleDirectory symbol, inversion) with
  | none => rw [e] at h; cases h
  | some r =>
    rw [e] at h
    have hm := lookup_mem e
    obtain ⟨c', a', comment, hl, hr⟩ := readsAs_spec (exampleTable_reads _ hm)
    simp only [Option.map_some] at h
    simp only at hl
    rw [hl] at h
    cases h
    exact ⟨r.2, exampleTable_checked _ hm, hr⟩

theorem cell_eq {c : Cell ℚ} {d : ExampleData} (hl : d.cell.length = 3)
    (h : [c 0, c 1, c 2] = d.cell.map vecOf) : c = cellOf d := by
  obtain ⟨x, y, z, e⟩ := List.length_eq_three.1 hl
  rw [e] at h
  simp only [List.map_cons, List.map_nil, List.cons.injEq, and_true] at h
  obtain ⟨h0, h1, h2⟩ := h
  funext i
  unfold cellOf
  rw [e]
  match i with
  | 0 => exact h0
  | 1 => exact h1
  | 2 => exact h2

theorem zip_placed (l : List (String × Vec ℚ)) : (l.map Prod.fst).zip (l.map Prod.snd) = l := by
  induction l with
  | nil => rfl
  | cons a l ih => simp [ih]

/-! ### The theorems -/

/-- An example is returned exactly for the documented symbols, with the documented exceptions (and
"oA"). -/
theorem C71_supported (symbol : String) (inversion : Bool) :
    (∃ r, hpkotGetExample symbol inversion = .ok r) ↔
      symbol ∈ documentedSymbols ∧ (inversion = true → symbol ∉ withoutInversion) := by
  constructor
  · rintro ⟨⟨c, a⟩, h⟩
    refine ⟨(example_source h).1, ?_⟩
    rintro rfl hw
    unfold hpkotGetExample at h
    have : symbol ∈ ["oF2", "oI2", "oA1", "oA2"] ∨ symbol = "oA" := by
      simp only [withoutInversion, List.mem_cons, List.not_mem_nil, or_false] at hw ⊢
      tauto
    rcases this with hs | rfl
    · rw [if_pos ⟨hs, rfl⟩] at h
      cases h
    · rw [if_neg (by decide +kernel), if_neg (by decide +kernel), lookup_table, file_missing] at h
      cases h
  · rintro ⟨hs, hw⟩
    unfold hpkotGetExample
    rw [if_neg, if_neg (not_not.2 ((supportedSymbols_iff symbol).2 hs)), lookup_table]
    · have := files_there symbol hs inversion (by
        cases inversion with
        | true => exact Or.inl (hw rfl)
        | false => exact Or.inr rfl)
      obtain ⟨r, e⟩ := Option.isSome_iff_exists.1 this
      obtain ⟨c', a', comment, hl, hr⟩ := readsAs_spec (exampleTable_reads _ (lookup_mem e))
      rw [e]
      simp only [Option.map_some]
      simp only at hl
      rw [hl]
      exact ⟨_, rfl⟩
    · rintro ⟨hm, hi⟩
      refine hw hi ?_
      simp only [withoutInversion, List.mem_cons, List.not_mem_nil, or_false] at hm ⊢
      tauto

/-- Everything else raises `ValueError`, as documented, ... -/
theorem C71_value_error (symbol : String) (inversion : Bool)
    (h : symbol ∉ documentedSymbols ∨ inversion = true ∧ symbol ∈ ["oF2", "oI2", "oA1", "oA2"]) :
    hpkotGetExample symbol inversion = .error (.raised .valueError) := by
  unfold hpkotGetExample
  rcases h with h | ⟨rfl, h⟩
  · split
    · rfl
    · rw [if_pos (mt (supportedSymbols_iff symbol).1 h)]
  · rw [if_pos ⟨h, rfl⟩]

/-- ... except for "oA" with inversion, where the program looks for a file that is not there. -/
theorem C71_missing_file : hpkotGetExample "oA" true = .error .fileNotFound := by
  unfold hpkotGetExample
  rw [if_neg (by decide +kernel), if_neg (by decide +kernel), lookup_table, file_missing]
  rfl

/-- The example is a crystal: a right-handed cell with a volume, at least one atom, and as many
positions as names; each name is a chemical symbol. -/
theorem C71_crystal (symbol : String) (inversion : Bool) (c : Cell ℚ) (a : Atoms ℚ)
    (h : hpkotGetExample symbol inversion = .ok (c, a)) :
    0 < c.det ∧ a.species = none ∧ a.spglibTypes = none ∧
      ∃ names positions, a.names = some names ∧ a.positions = some positions ∧ names ≠ [] ∧
        names.length = positions.length ∧ ∀ name ∈ names, name ∈ atomSpecies := by
  obtain ⟨_, d, hc, hcell, hn, hp, hs, ht⟩ := example_source h
  unfold exampleCheck at hc
  simp only [Bool.and_eq_true, decide_eq_true_eq] at hc
  obtain ⟨⟨⟨⟨⟨⟨hd, ho⟩, hk⟩, hl⟩, hv⟩, _⟩, _⟩ := hc
  refine ⟨cell_eq hl hcell ▸ hv, hs, ht, _, _, hn, hp, ?_, by simp, ?_⟩
  · intro e
    cases hg : d.groups with
    | nil => rw [hg] at ho; cases ho
    | cons g rest =>
      have hm : smallest rest g ∈ d.groups := hg ▸ smallest_mem rest g
      cases he : (smallest rest g).2 with
      | nil => rw [hg] at ho; simp [occupied, he] at ho
      | cons p l =>
        have := List.mem_map_of_mem (f := Prod.fst)
          (placed_mem.2 ⟨_, hm, p, by rw [he]; simp, rfl⟩)
        rw [e] at this
        cases this
  · intro name hname
    obtain ⟨x, hx, rfl⟩ := List.mem_map.1 hname
    obtain ⟨g, hg, p, _, rfl⟩ := placed_mem.1 hx
    exact List.contains_iff_mem.1 (List.all_eq_true.1 hk g hg)

/-- The example has an inversion, about any point, exactly if one was asked for. -/
theorem C71_inversion (symbol : String) (inversion : Bool) (c : Cell ℚ) (a : Atoms ℚ)
    (names : List String) (positions : List (Vec ℚ))
    (h : hpkotGetExample symbol inversion = .ok (c, a)) (hn : a.names = some names)
    (hp : a.positions = some positions) :
    (∃ t, IsMotion symTol (-1) t (placedAtoms names positions)) ↔ inversion = true := by
  obtain ⟨_, d, hc, hcell, hn', hp', hs, ht⟩ := example_source h
  obtain rfl := Option.some.inj (hn ▸ hn')
  obtain rfl := Option.some.inj (hp ▸ hp')
  unfold exampleCheck at hc
  simp only [Bool.and_eq_true, decide_eq_true_eq] at hc
  obtain ⟨⟨⟨⟨⟨⟨hd, ho⟩, hk⟩, hl⟩, hv⟩, hi⟩, _⟩ := hc
  unfold placedAtoms
  rw [zip_placed]
  exact inversionCheck_iff hd ho hi

/-- The two letters of the symbol. -/
theorem directory_letters : ∀ s ∈ documentedSymbols, ∃ f l : Char,
    s.toList.head? = some f ∧ s.toList[1]? = some l ∧
      ∃ rest, (exampleDirectory s).toList = f :: l :: rest := by
  intro s hs
  have h : ∀ s ∈ documentedSymbols, s.toList.take 2 = (exampleDirectory s).toList.take 2 ∧
      2 ≤ s.toList.length := by decide +kernel
  obtain ⟨e, hl⟩ := h s hs
  cases hs' : s.toList with
  | nil => rw [hs'] at hl; simp at hl
  | cons f t =>
    cases t with
    | nil => rw [hs'] at hl; simp at hl
    | cons l t =>
      refine ⟨f, l, rfl, rfl, ?_⟩
      rw [hs'] at e
      cases hd : (exampleDirectory s).toList with
      | nil => rw [hd] at e; simp at e
      | cons f' t' =>
        cases t' with
        | nil => rw [hd] at e; simp at e
        | cons l' t' =>
          rw [hd] at e
          simp only [List.take_succ_cons, List.take_zero, List.cons.injEq, and_true] at e
          exact ⟨t', by rw [e.1, e.2]⟩

theorem directory_hR2 : ∀ s ∈ documentedSymbols, exampleDirectory s = "hR2" ↔ s = "hR2" := by
  decide +kernel

/-- The translations of the example are those of the centring that the second letter of the symbol
stands for, so that the cell is the conventional one ("hR2" with inversion is given in a primitive
cell). -/
theorem C71_centring (symbol : String) (inversion : Bool) (c : Cell ℚ) (a : Atoms ℚ)
    (names : List String) (positions : List (Vec ℚ)) (letter : Char)
    (h : hpkotGetExample symbol inversion = .ok (c, a)) (hn : a.names = some names)
    (hp : a.positions = some positions)
    (hletter : if symbol = "hR2" ∧ inversion = true then letter = 'P'
      else symbol.toList[1]? = some letter) :
    (∀ v ∈ centringVectors letter, IsMotion symTol 1 v (placedAtoms names positions)) ∧
      ∀ t, IsMotion symTol 1 t (placedAtoms names positions) →
        ∃ v ∈ centringVectors letter, SamePlace (2 * symTol) t v := by
  obtain ⟨hsym, d, hc, hcell, hn', hp', hs, ht⟩ := example_source h
  obtain rfl := Option.some.inj (hn ▸ hn')
  obtain rfl := Option.some.inj (hp ▸ hp')
  unfold exampleCheck at hc
  simp only [Bool.and_eq_true, decide_eq_true_eq] at hc
  obtain ⟨⟨⟨⟨⟨⟨hd, ho⟩, hk⟩, hl⟩, hv⟩, hi⟩, hr⟩ := hc
  unfold placedAtoms
  rw [zip_placed]
  refine centringCheck_spec hd ho ?_
  have hk : (exampleDirectory symbol, inversion) = rhombohedralFile ↔
      symbol = "hR2" ∧ inversion = true := by
    rw [rhombohedralFile, Prod.mk.injEq, directory_hR2 symbol hsym]
  split at hr
  · rename_i he
    rw [if_pos (hk.1 he)] at hletter
    rw [Bool.and_eq_true] at hr
    exact hletter ▸ hr.1
  · rename_i he
    rw [if_neg (mt hk.2 he)] at hletter
    obtain ⟨f, l, _, e1, rest, e2⟩ := directory_letters symbol hsym
    rw [e1] at hletter
    cases hletter
    rw [e2] at hr
    simp only [Bool.and_eq_true] at hr
    exact hr.1

/-- The cell has the shape of the crystal family that the first letter of the symbol stands for. -/
theorem C71_family (symbol : String) (inversion : Bool) (c : Cell ℚ) (a : Atoms ℚ) (family : Char)
    (h : hpkotGetExample symbol inversion = .ok (c, a))
    (hfamily : symbol.toList.head? = some family) :
    if symbol = "hR2" ∧ inversion = true then RhombohedralShape shapeTol c
    else FamilyShape shapeTol c family := by
  obtain ⟨hsym, d, hc, hcell, hn', hp', hs, ht⟩ := example_source h
  unfold exampleCheck at hc
  simp only [Bool.and_eq_true, decide_eq_true_eq] at hc
  obtain ⟨⟨⟨⟨⟨⟨hd, ho⟩, hk⟩, hl⟩, hv⟩, hi⟩, hr⟩ := hc
  obtain rfl := cell_eq hl hcell
  have hk : (exampleDirectory symbol, inversion) = rhombohedralFile ↔
      symbol = "hR2" ∧ inversion = true := by
    rw [rhombohedralFile, Prod.mk.injEq, directory_hR2 symbol hsym]
  split at hr
  · rename_i he
    rw [if_pos (hk.1 he)]
    simp only [Bool.and_eq_true, decide_eq_true_eq] at hr
    exact hr.2
  · rename_i he
    rw [if_neg (mt hk.2 he)]
    obtain ⟨f, l, e1, _, rest, e2⟩ := directory_letters symbol hsym
    rw [e1] at hfamily
    cases hfamily
    rw [e2] at hr
    simp only [Bool.and_eq_true] at hr
    exact shapeCheck_spec hr.2

/-- A two-letter symbol gives the example of the first of its extended symbols. -/
theorem C71_short (inversion : Bool) (symbol : String) (h : symbol.toList.length = 2)
    (hA : symbol ≠ "oA" ∨ inversion = false) (hs : symbol ∈ documentedSymbols) :
    ∃ long ∈ hpkotExtendedBlSymbols, long.toList.take 2 = symbol.toList ∧
      hpkotGetExample symbol inversion = hpkotGetExample long inversion := by
  have key : ∀ s ∈ documentedSymbols, s.toList.length = 2 →
      exampleDirectory s ∈ hpkotExtendedBlSymbols ∧ (exampleDirectory s).toList.take 2 = s.toList ∧
      exampleDirectory (exampleDirectory s) = exampleDirectory s ∧
      exampleDirectory s ∈ supportedSymbols ∧ s ∈ supportedSymbols ∧
      s ∉ ["oF2", "oI2", "oA1", "oA2"] ∧
      (s ≠ "oA" → exampleDirectory s ∉ ["oF2", "oI2", "oA1", "oA2"]) := by decide +kernel
  obtain ⟨k1, k2, k3, k4, k5, k6, k7⟩ := key symbol hs h
  refine ⟨exampleDirectory symbol, k1, k2, ?_⟩
  unfold hpkotGetExample
  rw [if_neg (fun hc => k6 hc.1), if_neg (not_not.2 k5), if_neg, if_neg (not_not.2 k4), k3]
  rintro ⟨hm, hi⟩
  rcases hA with hA | hA
  · exact k7 hA hm
  · rw [hA] at hi
    cases hi

/-! ### Examples -/

/-- The hypotheses are met: "hR" without inversion is the example of "hR1". -/
example : ∃ r, hpkotGetExample "hR" false = .ok r :=
  (C71_supported _ _).2 ⟨by decide +kernel, by decide⟩

example : ∃ r, hpkotGetExample "cF1" true = .ok r :=
  (C71_supported _ _).2 ⟨by decide +kernel, fun _ => by decide +kernel⟩

/-- Three translations. -/
example (c : Cell ℚ) (a : Atoms ℚ) (names : List String) (positions : List (Vec ℚ))
    (h : hpkotGetExample "hR" false = .ok (c, a)) (hn : a.names = some names)
    (hp : a.positions = some positions) :
    IsMotion symTol 1 ![2 / 3, 1 / 3, 1 / 3] (placedAtoms names positions) :=
  (C71_centring "hR" false c a names positions 'R' h hn hp (by decide +kernel)).1 _
    (by simp [centringVectors])

/-- "aP" is the example of "aP2": there is no "aP1". -/
example : exampleDirectory "aP" = "aP2" ∧ "aP1" ∉ documentedSymbols := by decide +kernel

end Wulfric
