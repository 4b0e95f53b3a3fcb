import Verif.Lemmas.LettersCall
import Verif.Props.C76_Trim

/-! # C78: points that share a letter are equivalent -/

namespace Wulfric

open Matrix _root_.Spec Wulfric.Spec

theorem letter_prime (n : String) : letter (n ++ "_P") = letter n := by
  have e : ("_P" : String).toList.takeWhile Char.isUpper = [] := by decide +kernel
  simp only [letter, String.toList_append, List.takeWhile_append, e, List.append_nil]
  split
  · rename_i h
    exact ((List.takeWhile_prefix _).eq_of_length h).symm
  · rfl

/-- The points returned, with the table they come from. -/
theorem letters_call {cell rprim : Cell ℝ} {kpath path : String}
    {raw pts : PyDict String (Vec ℝ)} {inv t : Bool} (hr : IsUnit rprim.det)
    (ht : LetterTable rprim raw) (hg : GoodTable kpath raw)
    (h : (do
        let points ← allCoordinates cell rprim false raw
        extendPath inv t kpath points) = Except.ok (path, pts)) {n n' : String} {v v' : Vec ℝ}
    (hv : pts.get? n = some v) (hv' : pts.get? n' = some v') (hl : letter n = letter n') :
    EquivalentVectors rprim v v' := by
  have key : ∀ n v, pts.get? n = some v → ∃ x ∈ raw, letter n = letter x.1 ∧
      ∃ y, v = y ᵥ* rprim ∧ Near rprim y x.2 := by
    intro n v hv
    obtain ⟨x, hx, ⟨e1, e⟩ | ⟨-, e1, e⟩⟩ := points_of_table hg h n v hv
    · exact ⟨x, hx, by rw [e1], x.2, by rw [e, vecMat_row], near_refl _ _⟩
    · exact ⟨x, hx, by rw [e1, letter_prime], -x.2, by rw [e, vecMat_row, Matrix.neg_vecMul],
        (near_refl _ _).neg_left⟩
  obtain ⟨x, hx, e, y, rfl, hy⟩ := key n v hv
  obtain ⟨x', hx', e', y', rfl, hy'⟩ := key n' v' hv'
  have h1 := ht x hx x' hx' (by rw [← e, ← e', hl])
  exact ((hy.common h1.symm).common hy').equivalent hr

section
variable (lower : String → String) (getData : Cell ℝ → Atoms ℝ → Except Err SpglibData)
  (niggli : Cell ℝ → Except Err (Cell ℝ)) (cell : Cell ℝ) (atoms : Atoms ℝ)
  (given : Option SpglibData) (data : SpglibData)
  (hd : given = some data ∨ (given = none ∧ getData cell atoms = .ok data))
  (hn : 1 ≤ data.spaceGroupNumber ∧ data.spaceGroupNumber ≤ 230)
  (hf : data.crystalFamily = family data.spaceGroupNumber)
  (hc : data.centringType = centring data.spaceGroupNumber) (convention : String)

include hd hn hf hc

/-- C78, HPKOT: with spglib's standardised cell in its standard shape, any two of the points
returned whose names have the same letter (such as "Z", "Z0" and "Z0_P") are equivalent: a symmetry
of the reciprocal lattice and a translation of it carry one into the other. -/
theorem C78_hpkot (hl : lower "HPKOT" = "hpkot") (hl' : lower "hpkot" = "hpkot")
    (hconv : lower convention = "hpkot") (t : Bool) (path : String)
    (pts : PyDict String (Vec ℝ))
    (h : getPathAndPoints lower getData niggli cell atoms given convention t false =
      .ok (path, pts))
    (hstd : family data.spaceGroupNumber ≠ "a" →
      StandardCell (family data.spaceGroupNumber ++ centring data.spaceGroupNumber)
        data.conventionalCell)
    (prim r : Cell ℝ) (pa : Atoms ℝ)
    (hprim : getPrimitive lower getData niggli cell atoms convention (some data) = .ok (prim, pa))
    (hr : getReciprocal prim = .ok r) (n n' : String) (v v' : Vec ℝ)
    (hv : pts.get? n = some v) (hv' : pts.get? n' = some v') (hlet : letter n = letter n') :
    EquivalentVectors r v v' := by
  obtain ⟨kpath, raw, prim', pa', rprim, conv, ca, matrix, a, b, c, al, be, ga, ra, rb, rg, s',
    s1, s2, s3, s4, s5, s6, s7, s8, s9, ⟨s10, -, s10'⟩, s11⟩ := hpkot_path_steps lower getData niggli
      cell atoms given data hd hn hf hc convention hl hl' hconv t false path pts h
  rw [hprim] at s1
  cases s1
  rw [hr] at s2
  cases s2
  have hbl := symbols_inside _ (Finset.mem_Icc.2 hn)
  rw [hf, hc] at s4 s7 s9
  subst s5
  refine letters_call (recip_unit hr) (letters_hpkot hbl (fun haP => ?_) s4 hr s7 s9) s10 s11 hv hv'
    hlet
  have hfa : family data.spaceGroupNumber ≠ "a" :=
    fun e => haP (family_a _ (Finset.mem_Icc.2 hn) e)
  obtain ⟨d2, ps, ts, g1, g2, -⟩ := getConventional_steps s3
  obtain rfl := resolve_given (.inl rfl) g1
  rw [hconv] at g2
  unfold conventionalParts at g2
  rw [if_pos (by decide), if_neg (fun e => hfa (hf.symm.trans e.2))] at g2
  cases g2
  exact hstd hfa

/-- C78, SC: from the shape of spglib's cells, as in `C60_shape`. -/
theorem C78_sc (hl : lower "SC" = "sc") (hl' : lower "sc" = "sc") (hconv : lower convention = "sc")
    (htol : data.angleTolerance = -1 ∨ 0 ≤ data.angleTolerance) (hsym : 0 ≤ data.symprec)
    (hstd : StandardCell (family data.spaceGroupNumber ++ centring data.spaceGroupNumber)
      data.conventionalCell)
    (hR : family data.spaceGroupNumber ++ centring data.spaceGroupNumber = "hR" →
      ∃ x t, HasParams data.primitiveCell x x x t t t)
    (hm : family data.spaceGroupNumber = "m" → ∀ x y z be,
      HasParams data.conventionalCell x y z 90 be 90 → be = 90 ∨ angleTol data < be - 90)
    (t : Bool) (path : String) (pts : PyDict String (Vec ℝ))
    (h : getPathAndPoints lower getData niggli cell atoms given convention t false =
      .ok (path, pts))
    (prim r : Cell ℝ) (pa : Atoms ℝ)
    (hprim : getPrimitive lower getData niggli cell atoms convention (some data) = .ok (prim, pa))
    (hr : getReciprocal prim = .ok r) (n n' : String) (v v' : Vec ℝ)
    (hv : pts.get? n = some v) (hv' : pts.get? n' = some v') (hlet : letter n = letter n') :
    EquivalentVectors r v v' := by
  obtain ⟨kpath, raw, prim', pa', rprim, conv', ca', matrix, a, b, c, al, be, ga, kp, ka, kb, kg,
    short, s', s1, s2, s3, s4, s5, s6, s6', s7, s8, s9, s10, s11, ⟨s12, -⟩, s13⟩ :=
      sc_path_steps lower getData niggli cell
      atoms given data hd hn hf hc convention hl hl' hconv htol t false path pts h
  rw [hprim] at s1
  cases s1
  rw [hr] at s2
  cases s2
  subst s5
  have hbl := symbols_inside _ (Finset.mem_Icc.2 hn)
  have hcell := C60_shape (.inl rfl) hn hf hc hconv htol hsym hstd hR hm conv' ca' s3
  rw [hf, hc] at s4 s7 s10
  exact letters_call (recip_unit hr) (letters_sc hbl (fun _ => hcell) s4 hr s7 s10 s11) s12 s13 hv hv'
    hlet

end

/-- Letters of names. -/
example : letter "Z" = letter "Z0" ∧ letter "Z0" = letter "Z0_P" ∧ letter "SIGMA0" = letter "SIGMA1" ∧
    letter "S" ≠ letter "SIGMA" := by decide +kernel

/-- The hypotheses of `C78_hpkot` are met: P222. -/
example : ∃ path pts prim pa r, getPathAndPoints String.toLower
    (fun _ _ => .error .runtimeError) (fun c => .ok c) !![3, 0, 0; 0, 5, 0; 0, 0, 4] boxAtoms
    (some (boxData 3 5 4 16 "o" "P")) "HPKOT" false false = .ok (path, pts) ∧
    getPrimitive String.toLower (fun _ _ => .error .runtimeError) (fun c => .ok c)
      !![3, 0, 0; 0, 5, 0; 0, 0, 4] boxAtoms "HPKOT" (some (boxData 3 5 4 16 "o" "P")) =
      .ok (prim, pa) ∧ getReciprocal prim = .ok r ∧
    ∀ v v', pts.get? "X" = some v → pts.get? "X_P" = some v' → EquivalentVectors r v v' := by
  obtain ⟨⟨path, pts⟩, h⟩ := sample_path false false
  obtain ⟨b, h2⟩ := box_primitive String.toLower (fun _ _ => .error .runtimeError)
    (fun c => .ok c) 3 5 4 16 (by decide +kernel) (by decide +kernel) (by norm_num)
  obtain ⟨q, hq, -⟩ := C03_involution (!![3, 0, 0; 0, 5, 0; 0, 0, 4] : Cell ℝ)
    (by simp [det_fin_three])
  refine ⟨path, pts, _, b, q, h, h2, hq, fun v v' hv hv' => ?_⟩
  refine C78_hpkot String.toLower _ _ _ _ _ (boxData 3 5 4 16 "o" "P") (.inl rfl)
    ⟨by decide, by decide⟩ rfl rfl "HPKOT" (by decide +kernel) (by decide +kernel)
    (by decide +kernel) false path pts h
    (fun _ => .orthorhombic (a := 3) (b := 5) (c := 4)
      (by show family 16 ++ centring 16 ∈ _; decide +kernel)
      (hasParams_box (by norm_num) (by norm_num) (by norm_num))) _ q b h2 hq "X" "X_P" v v' hv hv' (by decide +kernel)

/-- The hypotheses of `C78_sc` are met: P4. -/
example : ∃ path pts prim pa r, getPathAndPoints String.toLower
    (fun _ _ => .error .runtimeError) (fun c => .ok c) boxT boxAtoms
    (some (boxData 3 3 4 75 "t" "P")) "SC" false false = .ok (path, pts) ∧
    getPrimitive String.toLower (fun _ _ => .error .runtimeError) (fun c => .ok c)
      boxT boxAtoms "SC" (some (boxData 3 3 4 75 "t" "P")) = .ok (prim, pa) ∧
    getReciprocal prim = .ok r ∧
    ∀ v v', pts.get? "X" = some v → pts.get? "X_P" = some v' → EquivalentVectors r v v' := by
  obtain ⟨⟨path, pts⟩, h⟩ := boxT_path false false
  obtain ⟨b, h2⟩ := boxT_primitive
  obtain ⟨q, hq, -⟩ := C03_involution boxT boxT_det
  refine ⟨path, pts, _, b, q, h, h2, hq, fun v v' hv hv' => ?_⟩
  have hfa : family (boxData 3 3 4 75 "t" "P").spaceGroupNumber ≠ "m" := by
    show family 75 ≠ "m"
    decide +kernel
  have hfr : family (boxData 3 3 4 75 "t" "P").spaceGroupNumber ++
      centring (boxData 3 3 4 75 "t" "P").spaceGroupNumber ≠ "hR" := by
    show family 75 ++ centring 75 ≠ "hR"
    decide +kernel
  exact C78_sc String.toLower _ _ _ _ _ (boxData 3 3 4 75 "t" "P") (.inl rfl)
    ⟨by decide, by decide⟩ rfl rfl "SC" (by decide +kernel) (by decide +kernel)
    (by decide +kernel) (.inl rfl) (by simp [boxData])
    (.tetragonal (a := 3) (c := 4) (by show family 75 ++ centring 75 ∈ _; decide +kernel)
      (hasParams_box (by norm_num) (by norm_num) (by norm_num)))
    (fun e => absurd e hfr) (fun e => absurd e hfa) false path pts h _ q b h2 hq "X" "X_P"
    v v' hv hv' (by decide +kernel)

end Wulfric
