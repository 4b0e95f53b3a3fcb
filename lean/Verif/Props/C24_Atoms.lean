import Verif.Lemmas.Atoms
import Verif.Spec.Lattice
import Mathlib.Tactic.Linarith
import Mathlib.Tactic.LinearCombination
import Mathlib.Analysis.SpecialFunctions.Pow.Real

/-! # C24-C27: moving atoms and measuring between them -/

set_option linter.unusedSectionVars false

namespace Wulfric
variable {K : Type*} [Field K] [LinearOrder K] [IsStrictOrderedRing K]

/-- C24: every coordinate of every atom ends up in `[0, 1)`, moved by an integer; the
number and order of atoms and the other keys stay. -/
theorem C24_wrapped [FloorRing K] (atoms : Atoms K) (ps : List (Vec K))
    (h : atoms.positions = some ps) :
    ∃ ps', ensure000 atoms = .ok { atoms with positions := some ps' } ∧ ps'.length = ps.length ∧
      ∀ (i : ℕ) (v : Vec K), ps[i]? = some v → ∃ w : Vec K, ps'[i]? = some w ∧
        ∀ j, 0 ≤ w j ∧ w j < 1 ∧ ∃ n : ℤ, w j = v j + n := by
  refine ⟨_, ensure000_eq atoms ps h, by simp, ?_⟩
  intro i v hv
  refine ⟨fun j => Int.fract (v j), by simp [List.getElem?_map, hv], ?_⟩
  intro j
  refine ⟨Int.fract_nonneg _, Int.fract_lt_one _, -⌊v j⌋, ?_⟩
  push_cast
  rw [Int.fract]; ring

/-- C24: the occupied sites of the infinite crystal, atom by atom, are the same. -/
theorem C24_same_crystal [FloorRing K] (atoms : Atoms K) (ps : List (Vec K))
    (h : atoms.positions = some ps) :
    ∃ ps', ensure000 atoms = .ok { atoms with positions := some ps' } ∧ ps'.length = ps.length ∧
      ∀ (i : ℕ) (v w : Vec K), ps[i]? = some v → ps'[i]? = some w →
        {x : Vec K | ∃ R : Fin 3 → ℤ, ∀ j, x j = v j + R j} =
        {x : Vec K | ∃ R : Fin 3 → ℤ, ∀ j, x j = w j + R j} := by
  obtain ⟨ps', e, hl, hw⟩ := C24_wrapped atoms ps h
  refine ⟨ps', e, hl, ?_⟩
  intro i v w hv hw'
  obtain ⟨w2, h2, h3⟩ := hw i v hv
  rw [hw'] at h2
  obtain rfl := Option.some.inj h2
  choose n hn using fun j => (h3 j).2.2
  ext x
  constructor
  · rintro ⟨R, hR⟩
    refine ⟨fun j => R j - n j, fun j => ?_⟩
    rw [hR j, hn j]; push_cast; ring
  · rintro ⟨R, hR⟩
    refine ⟨fun j => R j + n j, fun j => ?_⟩
    rw [hR j, hn j]; push_cast; ring

/-- C24: a second call changes nothing; positions inside the unit cell are left alone. -/
theorem C24_idempotent [FloorRing K] (atoms atoms' : Atoms K) (h : ensure000 atoms = .ok atoms') :
    ensure000 atoms' = .ok atoms' := by
  cases hp : atoms.positions with
  | none => simp only [ensure000, Atoms.getPositions, hp] at h; cases h
  | some ps =>
    rw [ensure000_eq atoms ps hp] at h
    cases h
    rw [ensure000_eq _ _ rfl]
    simp [Function.comp_def]

/-- C24: without positions the call raises `KeyError`. -/
theorem C24_no_positions [FloorRing K] (atoms : Atoms K) (h : atoms.positions = none) :
    ensure000 atoms = .error .keyError := by
  simp only [ensure000, Atoms.getPositions, h]; rfl

example : ensure000 ({ positions := some [![5 / 4, 0, -13 / 25]] } : Atoms ℚ) =
    .ok { positions := some [![1 / 4, 0, 12 / 25]] } := by
  rw [ensure000_eq _ _ rfl]
  have e1 : Int.fract (5 / 4 : ℚ) = 1 / 4 := by rw [Int.fract_eq_iff]; norm_num; exact ⟨1, by norm_num⟩
  have e2 : Int.fract (-13 / 25 : ℚ) = 12 / 25 := by
    rw [Int.fract_eq_iff]; norm_num; exact ⟨-1, by norm_num⟩
  simp only [List.map_cons, List.map_nil]
  congr 5
  funext j
  fin_cases j <;> simp [e1, e2]

/-- C25: all atoms are moved by one vector, each component of which is the smallest
non-negative number that makes that coordinate of all atoms non-negative. -/
theorem C25_minimal (atoms : Atoms K) (ps : List (Vec K)) (h : atoms.positions = some ps)
    (hne : ps ≠ []) :
    ∃ s : Vec K, cureNegative atoms true =
        .ok { atoms with positions := some (ps.map fun q j => q j + s j) } ∧
      ∀ j, IsLeast {t | 0 ≤ t ∧ ∀ q ∈ ps, 0 ≤ q j + t} (s j) := by
  obtain ⟨p, rest, rfl⟩ := List.exists_cons_of_ne_nil hne
  refine ⟨fun j => if rest.foldl npMinimum p j < 0 then -rest.foldl npMinimum p j else 0, ?_, ?_⟩
  · simp [cureNegative, Atoms.getPositions, h]; rfl
  · intro j
    have hl := isLeast_foldl_min j rest p
    set m := rest.foldl npMinimum p j
    constructor
    · refine ⟨?_, ?_⟩
      · simp only; split <;> linarith
      · intro q hq
        have := hl.2 ⟨q, hq, rfl⟩
        simp only; split <;> linarith
    · rintro t ⟨ht, hq⟩
      simp only
      split
      · obtain ⟨q, hq', e⟩ := hl.1
        have := hq q hq'
        rw [e] at this; linarith
      · exact ht

/-- C25: afterwards nothing is negative. -/
theorem C25_nonneg (atoms atoms' : Atoms K) (arrayRows : Bool)
    (h : cureNegative atoms arrayRows = .ok atoms') :
    ∃ ps', atoms'.positions = some ps' ∧ ∀ q ∈ ps', ∀ j, 0 ≤ q j := by
  cases hp : atoms.positions with
  | none => simp [cureNegative, Atoms.getPositions, hp] at h; cases h
  | some ps =>
    by_cases hne : ps = []
    · subst hne; simp [cureNegative, Atoms.getPositions, hp] at h; cases h
    · obtain ⟨s, e, hs⟩ := C25_minimal atoms ps hp hne
      have : cureNegative atoms arrayRows = cureNegative atoms true ∨
          cureNegative atoms arrayRows = .error .typeError := by
        obtain ⟨p, rest, rfl⟩ := List.exists_cons_of_ne_nil hne
        cases arrayRows
        · by_cases hr : rest = []
          · right; simp [cureNegative, Atoms.getPositions, hp, hr]; rfl
          · left
            simp only [cureNegative, Atoms.getPositions, hp]
            show (if rest = [] ∧ _ then _ else _) = (if rest = [] ∧ _ then _ else _)
            simp [hr]
        · exact Or.inl rfl
      rcases this with e' | e'
      · rw [e', e] at h
        cases h
        refine ⟨_, rfl, ?_⟩
        intro q hq j
        obtain ⟨q0, hq0, rfl⟩ := List.mem_map.1 hq
        exact (hs j).1.2 q0 hq0
      · rw [e'] at h; cases h

/-- C25: if nothing is negative the positions stay as they are. -/
theorem C25_unchanged (atoms : Atoms K) (ps : List (Vec K)) (h : atoms.positions = some ps)
    (hne : ps ≠ []) (h0 : ∀ q ∈ ps, ∀ j, 0 ≤ q j) : cureNegative atoms true = .ok atoms := by
  obtain ⟨s, e, hs⟩ := C25_minimal atoms ps h hne
  have hs0 : ∀ j, s j = 0 := by
    intro j
    refine le_antisymm ((hs j).2 ⟨le_rfl, fun q hq => ?_⟩) (hs j).1.1
    simpa using h0 q hq j
  rw [e]
  have : (ps.map fun q j => q j + s j) = ps := by
    conv_rhs => rw [← List.map_id ps]
    apply List.map_congr_left
    intro q _
    funext j
    simp [hs0 j]
  rw [this, ← h]

/-- C25: a second call changes nothing. -/
theorem C25_idempotent (atoms atoms' : Atoms K) (h : cureNegative atoms true = .ok atoms') :
    cureNegative atoms' true = .ok atoms' := by
  obtain ⟨ps', h1, h2⟩ := C25_nonneg atoms atoms' true h
  refine C25_unchanged atoms' ps' h1 ?_ h2
  rintro rfl
  cases hp : atoms.positions with
  | none => simp [cureNegative, Atoms.getPositions, hp] at h; cases h
  | some ps =>
    by_cases hne : ps = []
    · subst hne; simp [cureNegative, Atoms.getPositions, hp] at h; cases h
    · obtain ⟨s, e, hs⟩ := C25_minimal atoms ps hp hne
      rw [e] at h
      cases h
      simp at h1
      exact hne h1

/-- C25, limits: one atom whose position is a python list is refused with a `TypeError`. -/
theorem C25_single_list (atoms : Atoms K) (p : Vec K) (h : atoms.positions = some [p]) :
    cureNegative atoms false = .error .typeError := by
  simp [cureNegative, Atoms.getPositions, h]; rfl

example : ∃ ps', cureNegative ({ positions := some [![-1 / 2, 1 / 2, 0], ![1 / 10, 1 / 2, 0]] } :
    Atoms ℚ) true = .ok { positions := some ps' } ∧ ps' = [![0, 1 / 2, 0], ![6 / 10, 1 / 2, 0]] := by
  refine ⟨_, rfl, ?_⟩
  simp only [List.map_cons, List.map_nil, List.foldl_cons, List.foldl_nil, npMinimum]
  congr 1
  · funext j; fin_cases j <;> norm_num
  · congr 1; funext j; fin_cases j <;> norm_num

/-- C26: with a gravity point in relative coordinates, the middle between the smallest and
the largest coordinate of the shifted atoms is the gravity point, for each lattice vector,
and the atoms moved by one common vector. -/
theorem C26_centre (atoms : Atoms K) (ps : List (Vec K)) (gp : Vec K) (cell : Option (Cell K))
    (h : atoms.positions = some ps) (hne : ps ≠ []) :
    ∃ (ps' : List (Vec K)) (t : Vec K), shiftAtoms atoms gp cell true =
        .ok { atoms with positions := some ps' } ∧
      ps' = ps.map (fun q j => q j + t j) ∧
      ∀ j, ∃ lo hi, IsLeast {x | ∃ q ∈ ps', q j = x} lo ∧ IsGreatest {x | ∃ q ∈ ps', q j = x} hi ∧
        (lo + hi) / 2 = gp j := by
  obtain ⟨p, rest, rfl⟩ := List.exists_cons_of_ne_nil hne
  refine ⟨_, fun j => gp j - (rest.foldl npMaximum p j + rest.foldl npMinimum p j) / 2, ?_, rfl, ?_⟩
  · simp only [shiftAtoms, gravityRelative, Atoms.getPositions, h, shiftPositions, if_true]
    show Except.ok _ = Except.ok _
    congr 4
    funext q j
    ring
  · intro j
    have h1 := isLeast_foldl_min j rest p
    have h2 := isGreatest_foldl_max j rest p
    set m := rest.foldl npMinimum p j
    set M := rest.foldl npMaximum p j
    have e : {x | ∃ q ∈ (p :: rest).map (fun q j => q j + (gp j -
        (rest.foldl npMaximum p j + rest.foldl npMinimum p j) / 2)), q j = x} =
        (fun x => x + (gp j - (M + m) / 2)) '' {x | ∃ q ∈ p :: rest, q j = x} := by
      ext x
      constructor
      · rintro ⟨q, hq, rfl⟩
        obtain ⟨q0, hq0, rfl⟩ := List.mem_map.1 hq
        exact ⟨q0 j, ⟨q0, hq0, rfl⟩, rfl⟩
      · rintro ⟨_, ⟨q0, hq0, rfl⟩, rfl⟩
        exact ⟨_, List.mem_map.2 ⟨q0, hq0, rfl⟩, rfl⟩
    rw [e]
    refine ⟨m + (gp j - (M + m) / 2), M + (gp j - (M + m) / 2), ?_, ?_, ?_⟩
    · refine ⟨⟨m, h1.1, rfl⟩, ?_⟩
      rintro _ ⟨x, hx, rfl⟩
      have := h1.2 hx
      simp only; linarith
    · refine ⟨⟨M, h2.1, rfl⟩, ?_⟩
      rintro _ ⟨x, hx, rfl⟩
      have := h2.2 hx
      simp only; linarith
    · ring

/-- C26: a gravity point in Cartesian coordinates is first converted: the call is the same as
the one with the relative vector `g` for which `g @ cell` is the given point. -/
theorem C26_absolute (atoms : Atoms K) (gp : Vec K) (cell : Cell K) (hc : cell.det ≠ 0) :
    ∃ g : Vec K, vecMat g cell = gp ∧
      shiftAtoms atoms gp (some cell) false = shiftAtoms atoms g none true := by
  refine ⟨vecMat gp cell⁻¹, ?_, ?_⟩
  · rw [vecMat_eq, vecMat_eq, Matrix.vecMul_vecMul, Matrix.nonsing_inv_mul _ (isUnit_iff_ne_zero.2 hc),
      Matrix.vecMul_one]
  · simp [shiftAtoms, gravityRelative, hc]

/-- C26: the errors: no cell, singular cell, no positions, no atoms. -/
theorem C26_errors (atoms : Atoms K) (gp : Vec K) (cell : Cell K) :
    shiftAtoms atoms gp none false = .error .valueError ∧
    (cell.det = 0 → shiftAtoms atoms gp (some cell) false = .error .linAlgError) ∧
    (atoms.positions = none → shiftAtoms atoms gp none true = .error .keyError) ∧
    (atoms.positions = some [] → shiftAtoms atoms gp none true = .error .valueError) := by
  refine ⟨rfl, ?_, ?_, ?_⟩ <;> intro h <;>
    simp [shiftAtoms, gravityRelative, h, Atoms.getPositions, shiftPositions] <;> rfl

/-- C26: repeating the call changes nothing. -/
theorem C26_idempotent (atoms atoms' : Atoms K) (gp : Vec K) (cell : Option (Cell K)) (rel : Bool)
    (h : shiftAtoms atoms gp cell rel = .ok atoms') : shiftAtoms atoms' gp cell rel = .ok atoms' := by
  have key : ∀ (a a' : Atoms K) (g : Vec K), shiftAtoms a g none true = .ok a' →
      shiftAtoms a' g none true = .ok a' := by
    intro a a' g ha
    cases hp : a.positions with
    | none => rw [(C26_errors a g 1).2.2.1 hp] at ha; cases ha
    | some ps =>
      by_cases hne : ps = []
      · subst hne; rw [(C26_errors a g 1).2.2.2 hp] at ha; cases ha
      · obtain ⟨ps', t, e1, e2, e3⟩ := C26_centre a ps g none hp hne
        rw [e1] at ha
        cases ha
        have hne' : ps' ≠ [] := by rw [e2]; simpa using hne
        obtain ⟨ps'', t', f1, f2, f3⟩ := C26_centre { a with positions := some ps' } ps' g none rfl hne'
        rw [f1]
        have ht : ∀ j, t' j = 0 := by
          intro j
          obtain ⟨lo, hi, l1, l2, l3⟩ := e3 j
          obtain ⟨lo', hi', m1, m2, m3⟩ := f3 j
          have e : {x | ∃ q ∈ ps'', q j = x} = (fun x => x + t' j) '' {x | ∃ q ∈ ps', q j = x} := by
            rw [f2]
            ext x
            constructor
            · rintro ⟨q, hq, rfl⟩
              obtain ⟨q0, hq0, rfl⟩ := List.mem_map.1 hq
              exact ⟨q0 j, ⟨q0, hq0, rfl⟩, rfl⟩
            · rintro ⟨_, ⟨q0, hq0, rfl⟩, rfl⟩
              exact ⟨_, List.mem_map.2 ⟨q0, hq0, rfl⟩, rfl⟩
          rw [e] at m1 m2
          have g1 : lo' = lo + t' j := by
            apply m1.unique
            refine ⟨⟨lo, l1.1, rfl⟩, ?_⟩
            rintro _ ⟨x, hx, rfl⟩
            have := l1.2 hx
            simp only; linarith
          have g2 : hi' = hi + t' j := by
            apply m2.unique
            refine ⟨⟨hi, l2.1, rfl⟩, ?_⟩
            rintro _ ⟨x, hx, rfl⟩
            have := l2.2 hx
            simp only; linarith
          rw [g1, g2] at m3
          linarith
        have : ps'' = ps' := by
          rw [f2]
          conv_rhs => rw [← List.map_id ps']
          apply List.map_congr_left
          intro q _
          funext j
          simp [ht j]
        rw [this]
  cases rel
  · cases cell with
    | none => rw [(C26_errors atoms gp 1).1] at h; cases h
    | some c =>
      by_cases hc : c.det = 0
      · rw [(C26_errors atoms gp c).2.1 hc] at h; cases h
      · obtain ⟨g, -, e⟩ := C26_absolute atoms gp c hc
        have e2 : shiftAtoms atoms' gp (some c) false = shiftAtoms atoms' (vecMat gp c⁻¹) none true := by
          simp [shiftAtoms, gravityRelative, hc]
        have e1 : shiftAtoms atoms gp (some c) false = shiftAtoms atoms (vecMat gp c⁻¹) none true := by
          simp [shiftAtoms, gravityRelative, hc]
        rw [e1] at h
        rw [e2]
        exact key _ _ _ h
  · have e : ∀ a : Atoms K, shiftAtoms a gp cell true = shiftAtoms a gp none true := by
      intro a; simp [shiftAtoms, gravityRelative]
    rw [e] at h ⊢
    exact key _ _ _ h

example : ∃ ps', shiftAtoms ({ positions := some [![0, 0, 0], ![1 / 2, 1 / 2, 1]] } : Atoms ℚ)
    ![1 / 2, 1 / 2, 1 / 2] none true = .ok { positions := some ps' } ∧
    ps' = [![1 / 4, 1 / 4, 0], ![3 / 4, 3 / 4, 1]] := by
  refine ⟨_, rfl, ?_⟩
  simp only [List.map_cons, List.map_nil, List.foldl_cons, List.foldl_nil, npMaximum, npMinimum]
  congr 1
  · funext j; fin_cases j <;> norm_num
  · congr 1; funext j; fin_cases j <;> norm_num

theorem getVector_eq (cell : Cell K) (atoms : Atoms K) (a b : ℤ) (R : Fin 3 → ℤ) (rel : Bool)
    (v : Vec K) :
    getVector cell atoms a b R rel = .ok v ↔
      ∃ ps pa pb, atoms.positions = some ps ∧ pyGet ps a = .ok pa ∧ pyGet ps b = .ok pb ∧
        v = (if rel then fun j => (R j : K) + pb j - pa j
          else vecMat (fun j => (R j : K) + pb j - pa j) cell) := by
  unfold getVector Atoms.getPositions
  cases hp : atoms.positions with
  | none => simp [bind, Except.bind]
  | some ps =>
    simp only [bind, Except.bind, Option.some.injEq]
    cases hb : pyGet ps b with
    | error e => simp [hb]
    | ok pb =>
      cases ha : pyGet ps a with
      | error e => simp [ha]
      | ok pa =>
        simp only []
        constructor
        · intro h
          refine ⟨ps, pa, pb, rfl, ha, hb, ?_⟩
          cases rel <;> simpa [pure, Except.pure, eq_comm] using h
        · rintro ⟨_, _, _, rfl, h1, h2, rfl⟩
          rw [ha] at h1; rw [hb] at h2
          cases h1; cases h2
          cases rel <;> rfl

/-- C27: defined exactly when there are positions and both indices are valid for python. -/
theorem C27_defined (cell : Cell K) (atoms : Atoms K) (a b : ℤ) (R : Fin 3 → ℤ) (rel : Bool) :
    (∃ v, getVector cell atoms a b R rel = .ok v) ↔
      ∃ ps, atoms.positions = some ps ∧ -(ps.length : ℤ) ≤ a ∧ a < ps.length ∧
        -(ps.length : ℤ) ≤ b ∧ b < ps.length := by
  simp only [getVector_eq]
  constructor
  · rintro ⟨v, ps, pa, pb, h1, h2, h3, -⟩
    have i1 := (pyGet_isOk ps a).1 ⟨pa, h2⟩
    have i2 := (pyGet_isOk ps b).1 ⟨pb, h3⟩
    exact ⟨ps, h1, i1.1, i1.2, i2.1, i2.2⟩
  · rintro ⟨ps, h1, i1, i2, i3, i4⟩
    obtain ⟨pa, ha⟩ := (pyGet_isOk ps a).2 ⟨i1, i2⟩
    obtain ⟨pb, hb⟩ := (pyGet_isOk ps b).2 ⟨i3, i4⟩
    exact ⟨_, ps, pa, pb, h1, ha, hb, rfl⟩

/-- C27: the value: atom `b` of cell `R` minus atom `a`, in Cartesian coordinates. -/
theorem C27_value (cell : Cell K) (atoms : Atoms K) (ps : List (Vec K))
    (h : atoms.positions = some ps) (a b : ℕ) (ha : a < ps.length) (hb : b < ps.length)
    (R : Fin 3 → ℤ) :
    getVector cell atoms a b R false = .ok (fun j => ∑ i, (R i + ps[b] i) * cell i j -
      ∑ i, ps[a] i * cell i j) ∧
    getVector cell atoms a b R true = .ok (fun j => R j + ps[b] j - ps[a] j) := by
  constructor <;> rw [getVector_eq] <;>
    refine ⟨ps, ps[a], ps[b], h, pyGet_nat ps a ha, pyGet_nat ps b hb, ?_⟩
  · funext j
    simp [vecMat, Fin.sum_univ_three]
    ring
  · rfl

/-- C27: vectors add up along a chain of atoms. -/
theorem C27_additive (cell : Cell K) (atoms : Atoms K) (a b c : ℤ) (R S : Fin 3 → ℤ) (rel : Bool)
    (v w : Vec K) (h1 : getVector cell atoms a b R rel = .ok v)
    (h2 : getVector cell atoms b c S rel = .ok w) :
    getVector cell atoms a c (fun j => R j + S j) rel = .ok (fun j => v j + w j) := by
  rw [getVector_eq] at h1 h2 ⊢
  obtain ⟨ps, pa, pb, e1, e2, e3, rfl⟩ := h1
  obtain ⟨ps', pb', pc, f1, f2, f3, rfl⟩ := h2
  rw [e1] at f1; cases f1
  rw [e3] at f2; cases f2
  refine ⟨ps, pa, pc, e1, e2, f3, ?_⟩
  cases rel
  · funext j; simp [vecMat]; ring
  · funext j; simp; ring

/-- C27: exchanging the atoms (and `R`) changes the sign. -/
theorem C27_antisymm (cell : Cell K) (atoms : Atoms K) (a b : ℤ) (R : Fin 3 → ℤ) (rel : Bool)
    (v : Vec K) (h : getVector cell atoms a b R rel = .ok v) :
    getVector cell atoms b a (fun j => -R j) rel = .ok (fun j => -v j) := by
  rw [getVector_eq] at h ⊢
  obtain ⟨ps, pa, pb, e1, e2, e3, rfl⟩ := h
  refine ⟨ps, pb, pa, e1, e3, e2, ?_⟩
  cases rel
  · funext j; simp [vecMat]; ring
  · funext j; simp; ring

/-- C27: a common shift of all atoms changes no vector. -/
theorem C27_shift (cell : Cell K) (atoms : Atoms K) (ps : List (Vec K)) (t : Vec K)
    (h : atoms.positions = some ps) (a b : ℤ) (R : Fin 3 → ℤ) (rel : Bool) :
    getVector cell { atoms with positions := some (ps.map fun q j => q j + t j) } a b R rel =
      getVector cell atoms a b R rel := by
  have key : ∀ v, getVector cell { atoms with positions := some (ps.map fun q j => q j + t j) }
      a b R rel = .ok v ↔ getVector cell atoms a b R rel = .ok v := by
    intro v
    rw [getVector_eq, getVector_eq]
    constructor
    · rintro ⟨ps', pa, pb, e1, e2, e3, rfl⟩
      cases e1
      rw [pyGet_map] at e2 e3
      cases ha : pyGet ps a with
      | error e => rw [ha] at e2; cases e2
      | ok qa =>
        cases hb : pyGet ps b with
        | error e => rw [hb] at e3; cases e3
        | ok qb =>
          rw [ha] at e2; rw [hb] at e3
          cases e2; cases e3
          refine ⟨ps, qa, qb, h, ha, hb, ?_⟩
          cases rel
          · funext j; simp [vecMat]; ring
          · funext j; simp; ring
    · rintro ⟨ps', pa, pb, e1, e2, e3, rfl⟩
      rw [h] at e1; cases e1
      refine ⟨_, _, _, rfl, by rw [pyGet_map, e2]; rfl, by rw [pyGet_map, e3]; rfl, ?_⟩
      cases rel
      · funext j; simp [vecMat]; ring
      · funext j; simp; ring
  have err : ∀ e, getVector cell { atoms with positions := some (ps.map fun q j => q j + t j) }
      a b R rel = .error e → getVector cell atoms a b R rel = .error e := by
    intro e
    simp only [getVector, Atoms.getPositions, h, bind, Except.bind, pyGet_map]
    cases pyGet ps b with
    | error e => exact id
    | ok pb =>
      cases pyGet ps a with
      | error e => exact id
      | ok pa => cases rel <;> simp [Except.map, pure, Except.pure]
  cases hr : getVector cell { atoms with positions := some (ps.map fun q j => q j + t j) } a b R rel with
  | ok v => exact ((key v).1 hr).symm
  | error e => exact (err e hr).symm

theorem getDistance_eq (cell : Cell ℝ) (atoms : Atoms ℝ) (a b : ℤ) (R : Fin 3 → ℤ) (d : ℝ) :
    getDistance cell atoms a b R = .ok d ↔ ∃ v, getVector cell atoms a b R false = .ok v ∧
      d = Real.sqrt (Spec.dot v v) := by
  unfold getDistance
  cases getVector cell atoms a b R false with
  | error e => simp [bind, Except.bind]
  | ok v => simp [bind, Except.bind, pure, Except.pure, Spec.dot, eq_comm]

/-- C27: distances are non-negative and symmetric. -/
theorem C27_distance_symm (cell : Cell ℝ) (atoms : Atoms ℝ) (a b : ℤ) (R : Fin 3 → ℤ) (d : ℝ)
    (h : getDistance cell atoms a b R = .ok d) :
    0 ≤ d ∧ getDistance cell atoms b a (fun j => -R j) = .ok d := by
  rw [getDistance_eq] at h ⊢
  obtain ⟨v, hv, rfl⟩ := h
  refine ⟨Real.sqrt_nonneg _, _, C27_antisymm _ _ _ _ _ _ _ hv, ?_⟩
  congr 1
  simp [Spec.dot]

/-- C27: the distance is zero exactly when the two sites coincide. -/
theorem C27_distance_zero (cell : Cell ℝ) (hc : cell.det ≠ 0) (atoms : Atoms ℝ) (a b : ℤ)
    (R : Fin 3 → ℤ) (d : ℝ) (h : getDistance cell atoms a b R = .ok d) :
    d = 0 ↔ ∃ ps pa pb, atoms.positions = some ps ∧ pyGet ps a = .ok pa ∧ pyGet ps b = .ok pb ∧
      ∀ j, pb j + R j = pa j := by
  rw [getDistance_eq] at h
  obtain ⟨v, hv, rfl⟩ := h
  rw [getVector_eq] at hv
  obtain ⟨ps, pa, pb, e1, e2, e3, rfl⟩ := hv
  have hz : ∀ u : Vec ℝ, Real.sqrt (Spec.dot u u) = 0 ↔ u = 0 := by
    intro u
    rw [Real.sqrt_eq_zero (by unfold Spec.dot; nlinarith [sq_nonneg (u 0), sq_nonneg (u 1), sq_nonneg (u 2)])]
    constructor
    · intro h
      unfold Spec.dot at h
      have h0 : u 0 = 0 := by nlinarith [sq_nonneg (u 0), sq_nonneg (u 1), sq_nonneg (u 2)]
      have h1 : u 1 = 0 := by nlinarith [sq_nonneg (u 0), sq_nonneg (u 1), sq_nonneg (u 2)]
      have h2 : u 2 = 0 := by nlinarith [sq_nonneg (u 0), sq_nonneg (u 1), sq_nonneg (u 2)]
      funext j; fin_cases j <;> simpa
    · rintro rfl; simp [Spec.dot]
  rw [hz]
  simp only [Bool.false_eq_true, if_false, vecMat_eq]
  constructor
  · intro h
    refine ⟨ps, pa, pb, e1, e2, e3, ?_⟩
    have : (fun j => (R j : ℝ) + pb j - pa j) = 0 := by
      have h' := congrArg (fun v => Matrix.vecMul v cell⁻¹) h
      simp only [Matrix.vecMul_vecMul, Matrix.mul_nonsing_inv _ (isUnit_iff_ne_zero.2 hc),
        Matrix.vecMul_one, Matrix.zero_vecMul] at h'
      exact h'
    intro j
    have hj := congrFun this j
    simp at hj; linarith
  · rintro ⟨_, _, _, f1, f2, f3, h⟩
    rw [e1] at f1; cases f1
    rw [e2] at f2; cases f2
    rw [e3] at f3; cases f3
    have : (fun j => (R j : ℝ) + pb j - pa j) = 0 := by
      funext j; have := h j; simp; linarith
    rw [this, Matrix.zero_vecMul]

/-- C27: the triangle inequality along a chain of atoms. -/
theorem C27_triangle (cell : Cell ℝ) (atoms : Atoms ℝ) (a b c : ℤ) (R S : Fin 3 → ℤ) (x y z : ℝ)
    (h1 : getDistance cell atoms a b R = .ok x) (h2 : getDistance cell atoms b c S = .ok y)
    (h3 : getDistance cell atoms a c (fun j => R j + S j) = .ok z) : z ≤ x + y := by
  rw [getDistance_eq] at h1 h2 h3
  obtain ⟨v, hv, rfl⟩ := h1
  obtain ⟨w, hw, rfl⟩ := h2
  obtain ⟨u, hu, rfl⟩ := h3
  rw [C27_additive _ _ _ _ _ _ _ _ _ _ hv hw] at hu
  cases hu
  have nn : ∀ u : Vec ℝ, 0 ≤ Spec.dot u u := by
    intro u; unfold Spec.dot; nlinarith [sq_nonneg (u 0), sq_nonneg (u 1), sq_nonneg (u 2)]
  have cs : Spec.dot v w ≤ Real.sqrt (Spec.dot v v) * Real.sqrt (Spec.dot w w) := by
    rw [← Real.sqrt_mul (nn v)]
    apply Real.le_sqrt_of_sq_le
    unfold Spec.dot
    nlinarith [sq_nonneg (v 0 * w 1 - v 1 * w 0), sq_nonneg (v 0 * w 2 - v 2 * w 0),
      sq_nonneg (v 1 * w 2 - v 2 * w 1)]
  rw [Real.sqrt_le_iff]
  refine ⟨add_nonneg (Real.sqrt_nonneg _) (Real.sqrt_nonneg _), ?_⟩
  have e1 := Real.sq_sqrt (nn v)
  have e2 := Real.sq_sqrt (nn w)
  have : Spec.dot (fun j => v j + w j) (fun j => v j + w j) =
      Spec.dot v v + 2 * Spec.dot v w + Spec.dot w w := by unfold Spec.dot; ring
  rw [this]
  nlinarith

/-- Non-vacuity: the doctest of `get_vector`. -/
example : getVector (!![1, 0, 0; 0, 2, 0; 0, 0, 3] : Cell ℚ)
    { positions := some [![1 / 2, 0, 0], ![0, 0, 1 / 2]] } 0 (-1) ![1, 0, -3] false =
    .ok ![1 / 2, 0, -15 / 2] := by
  rw [getVector_eq]
  refine ⟨_, ![1 / 2, 0, 0], ![0, 0, 1 / 2], rfl, rfl, rfl, ?_⟩
  funext j
  fin_cases j <;> simp [vecMat] <;> norm_num

end Wulfric
