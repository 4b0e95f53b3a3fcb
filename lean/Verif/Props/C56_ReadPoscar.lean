import Verif.Props.C48_Poscar

/-! # C56: what `load_poscar` reads from a file written by hand or by another program -/

namespace Spec

/-- The species of the atoms: species number `i`, `i + 1`, ... with the given numbers of atoms. -/
def speciesList (name : ℕ → String) : ℕ → List ℕ → List String
  | _, [] => []
  | i, n :: rest => List.replicate n (name i) ++ speciesList name (i + 1) rest

end Spec

namespace Wulfric
open Matrix _root_.Spec Wulfric.Spec

theorem speciesList_length (name : ℕ → String) (i : ℕ) (counts : List ℕ) :
    (speciesList name i counts).length = counts.sum := by
  induction counts generalizing i with
  | nil => rfl
  | cons n r ih => simp [speciesList, ih]

theorem loadAtoms_counts {position : List Char → Except Err (Vec ℚ)}
    {names : Option (List (List Char))} {name : ℕ → String} {counts : List ℕ} (i : ℕ)
    {lines : List (List Char)} {vs : List (Vec ℚ)} (extra : List (List Char))
    (hname : ∀ j < counts.length, speciesName names (i + j) = .ok (name (i + j)))
    (h : List.Forall₂ (fun line v => position line = .ok v) lines vs)
    (hlen : lines.length = counts.sum) :
    loadAtoms position names i (counts.map fun n : ℕ => (n : ℤ)) (lines ++ extra) =
      .ok ((speciesList name i counts).zip vs) := by
  induction counts generalizing i lines vs with
  | nil => rfl
  | cons n r ih =>
    rw [List.sum_cons] at hlen
    have hv := h.length_eq
    simp only [List.map_cons, loadAtoms, Int.toNat_natCast]
    have h0 := hname 0 (by simp)
    rw [add_zero] at h0
    have key := loadIons_ok (name i) (lines.take n) (lines.drop n ++ extra) _
      (List.forall₂_take n h)
    have hl1 : (vs.take n).length = n := by simp; omega
    rw [hl1, ← List.append_assoc, List.take_append_drop] at key
    rw [h0, key]
    simp only [bind, Except.bind]
    rw [ih (i + 1) (lines := lines.drop n) (vs := vs.drop n)
      (fun j hj => by
        have := hname (j + 1) (by simpa using hj)
        rwa [← add_assoc, add_right_comm] at this) (List.forall₂_drop n h) (by simp; omega)]
    simp only [pure, Except.pure, speciesList, Except.ok.injEq]
    conv_rhs => rw [← List.take_append_drop n vs]
    rw [List.zip_append (by simp; omega)]
    congr 1
    have e : ∀ (m : ℕ) (l : List (Vec ℚ)), l.length = m →
        (List.replicate m (name i)).zip l = l.map fun v => (name i, v) := by
      intro m
      induction m with
      | zero => intro l hl; rw [List.length_eq_zero_iff.1 hl]; rfl
      | succ m ihm =>
        intro l hl
        cases l with
        | nil => cases hl
        | cons x l => simp [List.replicate_succ, ihm l (by simpa using hl)]
    exact (e _ _ hl1).symm

theorem mapM_isOk {l : List (List Char)} {zs : List ℤ} (h : l.mapM parseInt = .ok zs) :
    ∀ t ∈ l, (parseInt t).isOk = true := by
  induction l generalizing zs with
  | nil => simp
  | cons t l ih =>
    rw [List.mapM_cons] at h
    cases e : parseInt t with
    | error _ => simp [e, bind, Except.bind] at h
    | ok z =>
      simp only [e, bind, Except.bind] at h
      cases e2 : l.mapM parseInt with
      | error _ => simp [e2] at h
      | ok zs' =>
        intro t' ht'
        rcases List.mem_cons.1 ht' with rfl | ht'
        · rw [e]; rfl
        · exact ih e2 t' ht'

/-- C56: a file with the comment `l0`, one positive scale `s`, the vectors `base`, a line of species
names or none, the numbers of atoms, a line of selective dynamics or none, the mode and at least as
many lines of atoms. The names are those of the file (or `X1`, `X2`, ...) repeated; positions are
relative, the coordinates in the file being Cartesian exactly when the mode begins with one of the
letters `c`, `C`, `k`, `K` (and not with the Kelvin sign, whose lower case is `k`). What follows the first three numbers of a line, and more lines, are
ignored. -/
theorem C56_load (universal : Bool) (text : List Char) (l0 l1 l2 l3 l4 lc lm : List Char)
    (ln ls lines extra : List (List Char))
    (hl : readLines universal text =
      l0 :: l1 :: l2 :: l3 :: l4 :: (ln ++ lc :: (ls ++ lm :: (lines ++ extra))))
    (s : ℚ) (hs : 0 < s) (h1 : readFloats l1 = .ok [s]) (base : Cell ℚ)
    (hvec : ∀ i, readFloats (![l2, l3, l4] i) = .ok [base i 0, base i 1, base i 2])
    (counts : List ℕ) (hcounts : (tokens lc).mapM parseInt = .ok (counts.map fun n : ℕ => (n : ℤ)))
    (name : ℕ → String)
    (hnames : (ln = [] ∧ ∀ i, name i = "X" ++ Nat.repr (i + 1)) ∨
      ∃ line, ln = [line] ∧ (∃ t ∈ tokens line, ∀ z, parseInt t ≠ .ok z) ∧
        ∀ i < counts.length, (tokens line)[i]? = some (name i).toList)
    (hsel : (ls = [] ∧ ∀ c ∈ lm.head?, c ≠ 's' ∧ c ≠ 'S') ∨
      ∃ line, ls = [line] ∧ ∃ c ∈ line.head?, c = 's' ∨ c = 'S')
    (cartesian : Prop) (hmode : cartesian ↔ ∃ c ∈ lm.head?, c = 'c' ∨ c = 'C' ∨ c = 'k' ∨ c = 'K')
    (hk : lm.head? ≠ some '\u212a')
    (vs : List (Vec ℚ))
    (hatoms : List.Forall₂ (fun line v => ((tokens line).take 3).mapM parseFloat =
      .ok [v 0, v 1, v 2]) lines vs)
    (hlen : lines.length = counts.sum) (hdet : cartesian → base.det ≠ 0) :
    ∃ positions : List (Vec ℚ),
      loadPoscar universal text = .ok (s • base,
        { names := some (speciesList name 0 counts), positions := some positions },
        String.ofList (pyStrip l0)) ∧
      List.Forall₂ (fun v p => (cartesian → p ᵥ* (s • base) = s • v) ∧ (¬ cartesian → p = v))
        vs positions := by
  have hcart : isCartesian lm = true ↔ cartesian := by
    rw [hmode]
    unfold isCartesian
    rw [decide_eq_true_eq]
    cases h : lm.head? with
    | none => simp
    | some c =>
      rw [h] at hk
      have hk : c ≠ '\u212a' := fun e => hk (by rw [e])
      simp [hk]
  have e1 : readScale [s] base = .ok (.one s) := by simp [readScale, not_lt.2 hs.le]
  have e4 : scaleCell base (.one s) = s • base := by funext i j; simp [scaleCell, mul_comm]
  -- the position of one line
  let pos : Vec ℚ → Vec ℚ := fun v =>
    if isCartesian lm then vecMat (scaleVec v (.one s)) (s • base)⁻¹ else v
  have hd : cartesian → (s • base).det ≠ 0 := fun h => by
    rw [det_smul]
    exact mul_ne_zero (pow_ne_zero _ hs.ne') (hdet h)
  have hpos : List.Forall₂ (fun line v => readPosition (.one s) (s • base) (isCartesian lm) line =
      .ok v) lines (vs.map pos) := by
    rw [List.forall₂_map_right_iff]
    refine hatoms.imp fun line v h => ?_
    unfold readPosition
    simp only [h, readVec, bind, Except.bind]
    rw [vec_eta]
    by_cases hc : isCartesian lm = true
    · rw [if_pos hc, if_neg (hd (hcart.1 hc))]
      simp [pos, hc, pure, Except.pure]
    · rw [if_neg hc]
      simp [pos, hc, pure, Except.pure]
  have hbody : ∀ names, (∀ j < counts.length, speciesName names (0 + j) = .ok (name (0 + j))) →
      loadBody (.one s) (s • base) names (tokens lc) (ls ++ lm :: (lines ++ extra)) =
        .ok ((speciesList name 0 counts).zip (vs.map pos)) := by
    intro names hn
    have key := loadAtoms_counts 0 extra hn hpos hlen
    unfold loadBody
    rw [hcounts]
    simp only [bind, Except.bind]
    rcases hsel with ⟨rfl, h⟩ | ⟨line, rfl, c, h, h'⟩
    · simp only [List.nil_append]
      rw [if_neg]
      · exact key
      · rintro (e | e)
        · exact (h _ e).2 rfl
        · exact (h _ e).1 rfl
    · simp only [List.cons_append, List.nil_append]
      rw [if_pos]
      · exact key
      · rcases h' with rfl | rfl
        · exact .inr h
        · exact .inl h
  have hlen2 : (speciesList name 0 counts).length = (vs.map pos).length := by
    rw [speciesList_length, List.length_map, ← hatoms.length_eq, hlen]
  refine ⟨vs.map pos, ?_, ?_⟩
  · have hload : ∀ l, loadSpecies (.one s) (s • base) ((ln ++ [lc]).head (by simp))
        ((ln ++ lc :: (ls ++ lm :: (lines ++ extra))).tail) = .ok l →
        loadPoscar universal text = .ok (s • base,
          { names := some (l.map Prod.fst), positions := some (l.map Prod.snd) },
          String.ofList (pyStrip l0)) := by
      intro l h
      have hl' : readLines universal text = l0 :: l1 :: l2 :: l3 :: l4 ::
          ((ln ++ [lc]).head (by simp)) ::
          ((ln ++ lc :: (ls ++ lm :: (lines ++ extra))).tail) := by
        rw [hl]
        rcases hnames with ⟨rfl, -⟩ | ⟨line, rfl, -⟩ <;> rfl
      rw [load_lines hl' h1 (hvec 0) (hvec 1) (hvec 2), e1]
      simp only [Except.bind]
      rw [e4, h]
      rfl
    have hfst : ((speciesList name 0 counts).zip (vs.map pos)).map Prod.fst =
        speciesList name 0 counts := List.map_fst_zip hlen2.le
    have hsnd : ((speciesList name 0 counts).zip (vs.map pos)).map Prod.snd =
        vs.map pos := List.map_snd_zip hlen2.ge
    suffices h : loadSpecies (.one s) (s • base) ((ln ++ [lc]).head (by simp))
        ((ln ++ lc :: (ls ++ lm :: (lines ++ extra))).tail) =
        .ok ((speciesList name 0 counts).zip (vs.map pos)) by
      have := hload _ h
      rwa [hfst, hsnd] at this
    rcases hnames with ⟨rfl, hn⟩ | ⟨line, rfl, ⟨t, ht, hz⟩, hn⟩
    · have hall : ((tokens lc).all fun t => (parseInt t).isOk) = true := by
        rw [List.all_eq_true]
        intro t ht
        exact mapM_isOk hcounts t ht
      show loadSpecies (.one s) (s • base) lc (ls ++ lm :: (lines ++ extra)) = _
      unfold loadSpecies
      rw [if_pos hall]
      exact hbody none fun j _ => by rw [hn]; rfl
    · have hall : ¬ ((tokens line).all fun t => (parseInt t).isOk) = true := by
        rw [List.all_eq_true]
        intro h
        have := h t ht
        cases e : parseInt t with
        | ok z => exact hz z e
        | error _ => rw [e] at this; cases this
      show loadSpecies (.one s) (s • base) line (lc :: (ls ++ lm :: (lines ++ extra))) = _
      unfold loadSpecies
      rw [if_neg hall]
      refine hbody (some (tokens line)) fun j hj => ?_
      simp only [speciesName, zero_add, hn j hj, String.ofList_toList]
  · rw [List.forall₂_map_right_iff, List.forall₂_same]
    intro v _
    constructor
    · intro hc
      have hu := isUnit_iff_ne_zero.2 (hd hc)
      have hrow : ∀ (u : Vec ℚ) (m : Cell ℚ), vecMat u m = u ᵥ* m := fun u m => by
        funext j
        simp [vecMat, vecMul, dotProduct, Fin.sum_univ_three]
      simp only [pos, hcart.2 hc, if_true, hrow]
      rw [vecMul_vecMul, nonsing_inv_mul _ hu, vecMul_one]
      funext j
      simp [scaleVec, mul_comm]
    · intro hc
      simp [pos, mt hcart.1 hc]

/-- The hypotheses are met: no names, selective dynamics, Cartesian coordinates, scale 2. -/
example : ∃ positions : List (Vec ℚ), loadPoscar true
    "c\n2\n1 1 0\n0 1 0\n0 0 1\n1 2\nSelective\nkart\n0.5 0 0 T T F\n0 0 0\n0 1 0\n\n".toList =
      .ok ((2 : ℚ) • !![1, 1, 0; 0, 1, 0; 0, 0, 1],
        { names := some ["X1", "X2", "X2"], positions := some positions }, "c") ∧
    List.Forall₂ (fun v p => p ᵥ* ((2 : ℚ) • !![1, 1, 0; 0, 1, 0; 0, 0, 1]) = (2 : ℚ) • v)
      [![1 / 2, 0, 0], ![0, 0, 0], ![0, 1, 0]] positions := by
  have e : speciesList (fun i => "X" ++ Nat.repr (i + 1)) 0 [1, 2] = ["X1", "X2", "X2"] := by
    decide +kernel
  obtain ⟨ps, h1, h2⟩ := C56_load true
    "c\n2\n1 1 0\n0 1 0\n0 0 1\n1 2\nSelective\nkart\n0.5 0 0 T T F\n0 0 0\n0 1 0\n\n".toList
    "c".toList "2".toList "1 1 0".toList "0 1 0".toList
    "0 0 1".toList "1 2".toList "kart".toList [] ["Selective".toList]
    ["0.5 0 0 T T F".toList, "0 0 0".toList, "0 1 0".toList] ["".toList]
    (by decide +kernel) 2 (by norm_num) (by decide +kernel) !![1, 1, 0; 0, 1, 0; 0, 0, 1]
    (by intro i; fin_cases i <;> decide +kernel) [1, 2] (by decide +kernel)
    (fun i => "X" ++ Nat.repr (i + 1)) (.inl ⟨rfl, fun _ => rfl⟩)
    (.inr ⟨_, rfl, 'S', by decide +kernel, .inr rfl⟩) True
    (by rw [true_iff]; exact ⟨'k', by decide +kernel, .inr (.inr (.inl rfl))⟩) (by decide +kernel)
    [![1 / 2, 0, 0], ![0, 0, 0], ![0, 1, 0]]
    (by
      refine .cons ?_ (.cons ?_ (.cons ?_ .nil)) <;> decide +kernel) rfl
    (by intro _; simp [det_fin_three])
  rw [e] at h1
  refine ⟨ps, ?_, h2.imp fun _ _ h => h.1 trivial⟩
  rw [h1]
  rfl

end Wulfric
