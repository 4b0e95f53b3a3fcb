import Verif.Lemmas.ScShape
import Verif.Props.C51_Examples
import Verif.Props.C59_ZeroLengthSegments

/-! # C60: the shape of the SC conventional cell -/

namespace Wulfric
open Matrix _root_.Spec Wulfric.Spec

theorem pairs_split (q : String × String) (h : q ∈
    [("c", "P"), ("c", "F"), ("c", "I"), ("t", "P"), ("t", "I"), ("o", "P"), ("o", "F"),
     ("o", "I"), ("o", "C"), ("o", "A"), ("h", "P"), ("h", "R"), ("m", "P"), ("m", "C"),
     ("a", "P")]) (hne : q ≠ ("h", "R")) :
    q ∈ [("c", "P"), ("c", "F"), ("c", "I"), ("t", "P"), ("t", "I"), ("o", "P"), ("o", "F"),
     ("o", "I"), ("o", "C"), ("o", "A"), ("h", "P"), ("m", "P"), ("m", "C"), ("a", "P")] := by
  revert q
  decide +kernel

section
variable {lower : String → String} {getData : Cell ℝ → Atoms ℝ → Except Err SpglibData}
  {niggli : Cell ℝ → Except Err (Cell ℝ)} {cell : Cell ℝ} {atoms : Atoms ℝ}
  {given : Option SpglibData} {data : SpglibData}
  (hd : given = some data ∨ (given = none ∧ getData cell atoms = .ok data))
  (hn : 1 ≤ data.spaceGroupNumber ∧ data.spaceGroupNumber ≤ 230)
  (hf : data.crystalFamily = family data.spaceGroupNumber)
  (hc : data.centringType = centring data.spaceGroupNumber) {convention : String}
  (hconv : lower convention = "sc")

include hd hconv in
theorem sc_parts {conv : Cell ℝ} {ca : Atoms ℝ}
    (h : getConventional lower getData niggli cell atoms convention given = .ok (conv, ca)) :
    (data.crystalFamily = "h" ∧ data.centringType = "R" ∧
      scConventionalHR data.primitiveCell (angleTol data) data.symprec = .ok conv) ∨
    (¬ (data.crystalFamily = "h" ∧ data.centringType = "R") ∧
      scConventionalNoHR data.conventionalCell data.crystalFamily data.centringType
        (angleTol data) = .ok conv) := by
  obtain ⟨d2, ps, ts, g1, g2, -⟩ := getConventional_steps h
  obtain rfl := resolve_given hd g1
  rw [hconv] at g2
  unfold conventionalParts at g2
  rw [if_neg (by decide), if_pos rfl] at g2
  by_cases q : d2.crystalFamily = "h" ∧ d2.centringType = "R"
  · left
    rw [if_pos q] at g2
    refine ⟨q.1, q.2, ?_⟩
    cases g3 : scConventionalHR d2.primitiveCell (angleTol d2) d2.symprec with
    | error e => rw [g3] at g2; cases g2
    | ok d =>
      simp only [g3, bind, Except.bind, pure, Except.pure] at g2
      split at g2
      · cases g2
      · cases g2; rfl
  · right
    rw [if_neg q] at g2
    refine ⟨q, ?_⟩
    cases g3 : scConventionalNoHR d2.conventionalCell d2.crystalFamily d2.centringType
        (angleTol d2) with
    | error e => rw [g3] at g2; cases g2
    | ok d =>
      simp only [g3, bind, Except.bind, pure, Except.pure] at g2
      split at g2
      · cases g2
      · cases g2; rfl

include hd hn hf hc hconv

/-- C60: if spglib's cells are in their standard shape (for the rhombohedral lattice: the three
vectors of the primitive cell are alike), the conventional cell of the SC convention has the shape
and the order of parameters that the SC tables of points assume. The only further condition: a
monoclinic angle is either exactly right, or not right within the tolerance. -/
theorem C60_shape (htol : data.angleTolerance = -1 ∨ 0 ≤ data.angleTolerance)
    (hsym : 0 ≤ data.symprec)
    (hstd : StandardCell (family data.spaceGroupNumber ++ centring data.spaceGroupNumber)
      data.conventionalCell)
    (hR : family data.spaceGroupNumber ++ centring data.spaceGroupNumber = "hR" →
      ∃ x t, HasParams data.primitiveCell x x x t t t)
    (hm : family data.spaceGroupNumber = "m" → ∀ x y z be,
      HasParams data.conventionalCell x y z 90 be 90 → be = 90 ∨ angleTol data < be - 90)
    (conv : Cell ℝ) (ca : Atoms ℝ)
    (h : getConventional lower getData niggli cell atoms convention given = .ok (conv, ca)) :
    ScCell (family data.spaceGroupNumber ++ centring data.spaceGroupNumber) conv := by
  have ht := angleTol_nonneg htol
  have hp := family_pairs _ (Finset.mem_Icc.2 hn)
  rcases sc_parts hd hconv h with ⟨g1, g2, g3⟩ | ⟨g1, g2⟩
  · rw [hf] at g1
    rw [hc] at g2
    have hbl : family data.spaceGroupNumber ++ centring data.spaceGroupNumber = "hR" := by
      rw [g1, g2]; decide
    obtain ⟨x, t, k⟩ := hR hbl
    have hok : ∃ p, getParams data.primitiveCell = .ok p := by
      cases h1 : getParams data.primitiveCell with
      | error e => simp [scConventionalHR, h1, bind, Except.bind] at g3
      | ok p => exact ⟨p, rfl⟩
    obtain ⟨ex, -, -⟩ := eps_of_params k hok
    have z0 : |x - x| ≤ data.symprec := by simpa using hsym
    rw [hR_eq _ x x x t t t _ _ k ex ex ex z0 z0 z0, if_pos (by simpa using ht), applyT_one] at g3
    cases g3
    rw [hbl]
    exact .rhombohedral k
  · rw [hf, hc] at g1 g2
    exact sc_shape ht (pairs_split _ hp (fun e => g1 (Prod.mk.inj e))) hstd hm g2

/-- C60 and C59 together: the segments of zero length of the SC paths, from the shape of spglib's
cells alone. -/
theorem C60_segments (hl : lower "SC" = "sc") (hl' : lower "sc" = "sc")
    (htol : data.angleTolerance = -1 ∨ 0 ≤ data.angleTolerance) (hsym : 0 ≤ data.symprec)
    (hstd : StandardCell (family data.spaceGroupNumber ++ centring data.spaceGroupNumber)
      data.conventionalCell)
    (hR : family data.spaceGroupNumber ++ centring data.spaceGroupNumber = "hR" →
      ∃ x t, HasParams data.primitiveCell x x x t t t)
    (hm : family data.spaceGroupNumber = "m" → ∀ x y z be,
      HasParams data.conventionalCell x y z 90 be 90 → be = 90 ∨ angleTol data < be - 90)
    (t rel : Bool) (path : String) (pts : PyDict String (Vec ℝ))
    (h : getPathAndPoints lower getData niggli cell atoms given convention t rel =
      .ok (path, pts))
    (conv : Cell ℝ) (ca : Atoms ℝ)
    (hcv : getConventional lower getData niggli cell atoms convention (some data) = .ok (conv, ca))
    (a b c al be ga : ℝ) (hpar : HasParams conv a b c al be ga) (s : String)
    (hvar : scGetVariation lower getData niggli cell atoms (some data) = .ok (some s))
    (p : List (List String)) (hp : getPathAsList path = .ok p) :
    ZeroStep p pts.get? ↔ ScBorder a b c al
      (family data.spaceGroupNumber ++ centring data.spaceGroupNumber) s :=
  C59_sc lower getData niggli cell atoms given data hd hn hf hc convention hl hl' hconv htol hsym
    t rel path pts h conv ca hcv
    (fun _ => C60_shape (.inl rfl) hn hf hc hconv htol hsym hstd hR hm conv ca hcv)
    a b c al be ga hpar s hvar p hp

/-- C55 without its condition on the cell that the package builds: the named points of the SC convention and the Brillouin zone, from the
shape of spglib's cells alone. The exceptions are those of `C55_sc_partial`. -/
theorem C55_from_spglib_partial (hl : lower "SC" = "sc") (hl' : lower "sc" = "sc")
    (htol : data.angleTolerance = -1 ∨ 0 ≤ data.angleTolerance) (hsym : 0 ≤ data.symprec)
    (hstd : StandardCell (family data.spaceGroupNumber ++ centring data.spaceGroupNumber)
      data.conventionalCell)
    (hR : family data.spaceGroupNumber ++ centring data.spaceGroupNumber = "hR" →
      ∃ x t, HasParams data.primitiveCell x x x t t t)
    (hm : family data.spaceGroupNumber = "m" → ∀ x y z be,
      HasParams data.conventionalCell x y z 90 be 90 → be = 90 ∨ angleTol data < be - 90)
    (t : Bool) (path : String) (pts : PyDict String (Vec ℝ))
    (h : getPathAndPoints lower getData niggli cell atoms given convention t false =
      .ok (path, pts))
    (prim r conv : Cell ℝ) (pa ca : Atoms ℝ) (s : String)
    (hprim : getPrimitive lower getData niggli cell atoms convention (some data) = .ok (prim, pa))
    (hr : getReciprocal prim = .ok r)
    (hcv : getConventional lower getData niggli cell atoms convention (some data) =
      .ok (conv, ca))
    (hvar : scGetVariation lower getData niggli cell atoms (some data) = .ok (some s))
    (htie : TieMet s conv r)
    (hred : family data.spaceGroupNumber = "a" → ∀ r0,
      getReciprocal data.conventionalCell = .ok r0 → PairReduced r0)
    (k : String) (v : Vec ℝ) (hv : pts.get? k = some v)
    (hmC : family data.spaceGroupNumber ++ centring data.spaceGroupNumber = "mC" →
      k ≠ "F3" ∧ k ≠ "F3_P")
    (haN : family data.spaceGroupNumber = "a" → k = "N" ∨ k = "N_P" →
      dot (r 0) (r 1) ≤ dot (r 0) (r 2) ∧ dot (r 0) (r 1) ≤ dot (r 1) (r 2)) :
    InZone r v ∧ (k ≠ "GAMMA" → OnZoneBoundary r v) :=
  C55_sc_partial lower getData niggli cell atoms given data hd hn hf hc convention hl hl' hconv
    htol hsym t path pts h prim r conv pa ca s hprim hr hcv hvar
    (C60_shape (.inl rfl) hn hf hc hconv htol hsym hstd hR hm conv ca hcv) htie hred k v hv hmC haN

/-- C60, the condition on monoclinic lattices cannot be dropped: if the angle differs from a right
angle by no more than the tolerance, the unique axis does not become the first vector. The
returned cell keeps an angle that is not right between its first vector and another one, so it is
not a cell of the SC tables. -/
theorem C60_near_right (ha : 0 ≤ angleTol data) (hfm : family data.spaceGroupNumber = "m")
    (x y z be : ℝ) (hp : HasParams data.conventionalCell x y z 90 be 90) (h1 : 90 < be)
    (h2 : be - 90 ≤ angleTol data) (conv : Cell ℝ) (ca : Atoms ℝ)
    (h : getConventional lower getData niggli cell atoms convention given = .ok (conv, ca)) :
    (∃ b c be' ga', HasParams conv x b c 90 be' ga' ∧ (be' ≠ 90 ∨ ga' ≠ 90)) ∧
    ¬ ScCell (family data.spaceGroupNumber ++ centring data.spaceGroupNumber) conv := by
  have hp' : ∃ b c be' ga', HasParams conv x b c 90 be' ga' ∧ machineEps < x ∧ machineEps < b ∧
      machineEps < c ∧ (be' ≠ 90 ∨ ga' ≠ 90) := by
    rcases sc_parts hd hconv h with ⟨g1, -, -⟩ | ⟨-, g2⟩
    · rw [hf, hfm] at g1
      exact absurd g1 (by decide)
    · rw [hf, hfm] at g2
      exact scM_near ha hp h1 h2 (by simpa [scConventionalNoHR] using g2)
  obtain ⟨b, c, be', ga', k, e1, e2, e3, k1⟩ := hp'
  refine ⟨⟨b, c, be', ga', k, k1⟩, fun hs => ?_⟩
  have key : ∀ a b' c' al, HasParams conv a b' c' al 90 90 → False := fun a b' c' al q => by
    obtain ⟨-, -, -, -, q1, q2⟩ := params_unique (params_pos k e1 e2 e3) q
    rcases k1 with k1 | k1
    · exact k1 q1.symm
    · exact k1 q2.symm
  have hp := family_pairs _ (Finset.mem_Icc.2 hn)
  rw [hfm] at hp hs
  obtain hct | hct : centring data.spaceGroupNumber = "P" ∨ centring data.spaceGroupNumber = "C" := by
    simpa using hp
  · rw [hct] at hs
    obtain ⟨a, b', c', al, q, -⟩ := scCell_monoclinic hs (by decide)
    exact key _ _ _ _ q
  · rw [hct] at hs
    obtain ⟨a, b', c', al, q, -⟩ := scCell_monoclinicC hs (by decide)
    exact key _ _ _ _ q

end

/-- The hypotheses of `C60_shape` are met: I222 in a box with decreasing edges. The returned cell
is ordered. -/
example : ∃ conv ca, getConventional String.toLower (fun _ _ => .error .runtimeError)
    (fun c => .ok c) !![5, 0, 0; 0, 4, 0; 0, 0, 3] boxAtoms "SC"
    (some (boxData 5 4 3 23 "o" "I")) = .ok (conv, ca) ∧ ScCell "oI" conv := by
  have hbox : HasParams (!![5, 0, 0; 0, 4, 0; 0, 0, 3] : Cell ℝ) 5 4 3 90 90 90 :=
    hasParams_box (by norm_num) (by norm_num) (by norm_num)
  have hbl : family 23 ++ centring 23 = "oI" := by decide +kernel
  have he : machineEps < 3 := by norm_num [machineEps]
  have h1 : scConventionalNoHR !![5, 0, 0; 0, 4, 0; 0, 0, 3] "o" "I" (1 / 10 ^ 4) =
      .ok (applyT !![0, 0, -1; 0, -1, 0; -1, 0, 0] !![5, 0, 0; 0, 4, 0; 0, 0, 3]) := by
    unfold scConventionalNoHR
    rw [if_neg (by simp), if_pos rfl, if_pos (by simp)]
    unfold scConventionalOPFI
    rw [params_pos hbox (by linarith) (by linarith) he]
    norm_num [bind, Except.bind, pure, Except.pure]
  have hdet : (applyT !![0, 0, -1; 0, -1, 0; -1, 0, 0]
      (!![5, 0, 0; 0, 4, 0; 0, 0, 3] : Cell ℝ)).det ≠ 0 := by
    have : applyT !![0, 0, -1; 0, -1, 0; -1, 0, 0] (!![5, 0, 0; 0, 4, 0; 0, 0, 3] : Cell ℝ) =
        !![0, 0, -3; 0, -4, 0; -5, 0, 0] := by
      ext i j
      rw [applyT_row]
      fin_cases i <;> fin_cases j <;> simp
    rw [this]
    simp [det_fin_three]
  obtain ⟨ca, h⟩ := box_conventional String.toLower (fun _ _ => .error .runtimeError)
    (fun c => .ok c) 5 4 3 23 "o" "I" "SC" _ _ (by
      rw [show String.toLower "SC" = "sc" by decide +kernel]
      unfold conventionalParts
      rw [if_neg (by decide), if_pos rfl, if_neg (by simp [boxData])]
      simp only [boxData, angleTol, if_true]
      rw [h1]
      simp only [bind, Except.bind, pure, Except.pure, rebase, npInv, hdet, if_false]
      rfl)
  refine ⟨_, ca, h, ?_⟩
  rw [← hbl]
  refine C60_shape (data := boxData 5 4 3 23 "o" "I") (.inl rfl) ⟨by decide, by decide⟩ rfl rfl
    (by decide +kernel) (.inl rfl) (by simp [boxData]) ?_ ?_ ?_ _ _ h
  · show StandardCell (family 23 ++ centring 23) _
    rw [hbl]
    exact .orthorhombic (by decide) hbox
  · intro e
    exact absurd (hbl.symm.trans e) (by decide)
  · intro e
    exact absurd e (by decide +kernel)

/-- The hypotheses of `C60_near_right` are met by a monoclinic cell with the angle 120 and the
tolerance 30, and the conventional cell is found. -/
example : ∃ cell : Cell ℝ, HasParams cell 2 3 2 90 120 90 ∧
    ∃ d, scConventionalNoHR cell "m" "P" 30 = .ok d := by
  have h3 : Real.sqrt 3 ^ 2 = 3 := Real.sq_sqrt (by norm_num)
  have k : HasParams (!![2, 0, 0; 0, 3, 0; -1, 0, Real.sqrt 3] : Cell ℝ) 2 3 2 90 120 90 := by
    have aa : dot (![2, 0, 0] : Vec ℝ) ![2, 0, 0] = 2 ^ 2 := by
      simp [dot]
      norm_num
    have bb : dot (![0, 3, 0] : Vec ℝ) ![0, 3, 0] = 3 ^ 2 := by
      simp [dot]
      norm_num
    have cc : dot (![-1, 0, Real.sqrt 3] : Vec ℝ) ![-1, 0, Real.sqrt 3] = 2 ^ 2 := by
      simp [dot]
      norm_num
    refine ⟨by norm_num, by norm_num, by norm_num, aa, bb, cc,
      angle_of_dot (by norm_num) (by norm_num) bb cc (by norm_num) ?_,
      angle_of_dot (by norm_num) (by norm_num) aa cc (by norm_num) ?_,
      angle_of_dot (by norm_num) (by norm_num) aa bb (by norm_num) ?_⟩
    · rw [cos_90]; simp [dot]
    · rw [cos_120]; simp [dot]
    · rw [cos_90]; simp [dot]
  refine ⟨_, k, ?_⟩
  obtain ⟨d, a, b, c, al, be, ga, h, -⟩ := C37_monoclinic _ 2 3 2 90 120 90 30 (by norm_num) k
    (by norm_num [machineEps]) (by norm_num [machineEps]) (by norm_num [machineEps]) "P"
    (.inr (.inl ⟨by norm_num, by norm_num⟩))
  exact ⟨d, h⟩

end Wulfric
