import Verif.Lemmas.ZeroPath
import Verif.Lemmas.ZeroScPath
import Verif.Props.C55_BrillouinZone

/-! # C59: segments of zero length on the default paths -/

namespace Wulfric
open Matrix _root_.Spec Wulfric.Spec

theorem mono_groups : ∀ n ∈ Finset.Icc (1 : ℤ) 230,
    family n ++ centring n = "mP" ∨ family n ++ centring n = "mC" → family n = "m" := by
  decide +kernel

section
variable (lower : String → String) (getData : Cell ℝ → Atoms ℝ → Except Err SpglibData)
  (niggli : Cell ℝ → Except Err (Cell ℝ)) (cell : Cell ℝ) (atoms : Atoms ℝ)
  (given : Option SpglibData) (data : SpglibData)
  (hd : given = some data ∨ (given = none ∧ getData cell atoms = .ok data))
  (hn : 1 ≤ data.spaceGroupNumber ∧ data.spaceGroupNumber ≤ 230)
  (hf : data.crystalFamily = family data.spaceGroupNumber)
  (hc : data.centringType = centring data.spaceGroupNumber) (convention : String)
include hd hn hf hc

/-- C59, HPKOT: two neighbours on the returned path are the same point exactly if the lattice lies
on the border of two extended symbols, or the symbol is "aP2" (whose `Z` is the origin). Whatever
the input cell, with or without time reversal, in relative or absolute coordinates. For C-centred
monoclinic lattices spglib's standardised cell has to be in its standard shape. -/
theorem C59_hpkot (hl : lower "HPKOT" = "hpkot") (hl' : lower "hpkot" = "hpkot")
    (hconv : lower convention = "hpkot") (t rel : Bool) (path : String)
    (pts : PyDict String (Vec ℝ))
    (h : getPathAndPoints lower getData niggli cell atoms given convention t rel =
      .ok (path, pts))
    (hstd : family data.spaceGroupNumber ++ centring data.spaceGroupNumber = "mC" →
      StandardCell "mC" data.conventionalCell)
    (conv : Cell ℝ) (ca : Atoms ℝ)
    (hcv : getConventional lower getData niggli cell atoms convention (some data) = .ok (conv, ca))
    (a b c al be ga : ℝ) (hpar : HasParams conv a b c al be ga) (s : String)
    (hs : hpkotGetExtendedBlSymbol lower getData niggli cell atoms (some data) = .ok s)
    (p : List (List String)) (hp : getPathAsList path = .ok p) :
    ZeroStep p pts.get? ↔ HpkotBorder a b c be
      (family data.spaceGroupNumber ++ centring data.spaceGroupNumber) s := by
  obtain ⟨kpath, raw, prim, pa, rprim, conv', ca', matrix, a', b', c', al', be', ga', ra, rb, rg,
    s', s1, s2, s3, s4, s5, s6, s7, s8, s9, ⟨s10, s11, s12⟩, s13⟩ := hpkot_path_steps lower getData
      niggli cell atoms given data hd hn hf hc convention hl hl' hconv t rel path pts h
  rw [hcv] at s3
  cases s3
  rw [hs] at s12
  cases s12
  obtain ⟨rfl, rfl, rfl, rfl, rfl, rfl⟩ := params_unique s6 hpar
  rw [zero_transfer s10 s2 s13 p hp]
  rw [hf, hc] at s7 s9
  have hdet : conv.det ≠ 0 := by
    subst s5
    have := (recip_ok s2).1
    rw [det_mul] at this
    exact right_ne_zero_of_mul this
  refine hpkot_zero hdet (fun e => ?_) s6 s7 s9 s11
  obtain ⟨d2, ps, ts, g1, g2, -⟩ := getConventional_steps hcv
  obtain rfl := resolve_given (.inl rfl) g1
  rw [hconv] at g2
  unfold conventionalParts at g2
  have hfa : family d2.spaceGroupNumber ≠ "a" := fun e' => by
    rw [family_a _ (Finset.mem_Icc.2 hn) e'] at e
    exact absurd e (by decide)
  rw [if_pos (by decide), if_neg (fun e => hfa (hf.symm.trans e.2))] at g2
  cases g2
  rw [e]
  exact hstd e

/-- C59, SC: the same, with the border values of the variation. For monoclinic lattices the
conventional cell has to be in the shape of the SC convention. -/
theorem C59_sc (hl : lower "SC" = "sc") (hl' : lower "sc" = "sc")
    (hconv : lower convention = "sc")
    (htol : data.angleTolerance = -1 ∨ 0 ≤ data.angleTolerance) (hsym : 0 ≤ data.symprec)
    (t rel : Bool) (path : String) (pts : PyDict String (Vec ℝ))
    (h : getPathAndPoints lower getData niggli cell atoms given convention t rel =
      .ok (path, pts))
    (conv : Cell ℝ) (ca : Atoms ℝ)
    (hcv : getConventional lower getData niggli cell atoms convention (some data) = .ok (conv, ca))
    (hcell : family data.spaceGroupNumber = "m" →
      ScCell (family data.spaceGroupNumber ++ centring data.spaceGroupNumber) conv)
    (a b c al be ga : ℝ) (hpar : HasParams conv a b c al be ga) (s : String)
    (hvar : scGetVariation lower getData niggli cell atoms (some data) = .ok (some s))
    (p : List (List String)) (hp : getPathAsList path = .ok p) :
    ZeroStep p pts.get? ↔ ScBorder a b c al
      (family data.spaceGroupNumber ++ centring data.spaceGroupNumber) s := by
  obtain ⟨kpath, raw, prim, pa, rprim, conv', ca', matrix, a', b', c', al', be', ga', kp, ka, kb,
    kg, short, s', s1, s2, s3, s4, s5, s6, s6', s7, s8, s9, s10, s11, ⟨s12, s13⟩, s14⟩ :=
      sc_path_steps lower getData niggli cell atoms given data hd hn hf hc convention hl hl' hconv
        htol t rel path pts h
  rw [hcv] at s3
  cases s3
  rw [hvar] at s6'
  cases s6'
  obtain ⟨rfl, rfl, rfl, rfl, rfl, rfl⟩ := params_unique s6 hpar
  rw [zero_transfer s12 s2 s14 p hp]
  rw [hf, hc] at s4 s7 s8 s10
  subst s5
  refine sc_zero (fun e => hcell ?_) hsym (angleTol_nonneg htol) s4 s2 s6 s7 s8 s10 s11 s13
  rcases e with e | e
  · exact mono_groups _ (Finset.mem_Icc.2 hn) (.inl e)
  · exact mono_groups _ (Finset.mem_Icc.2 hn) (.inr e)

end

/-- The hypotheses of `C59_hpkot` are met: P222, with no segment of zero length. -/
example : ∃ path pts, getPathAndPoints String.toLower
    (fun _ _ => .error .runtimeError) (fun c => .ok c) !![3, 0, 0; 0, 5, 0; 0, 0, 4] boxAtoms
    (some (boxData 3 5 4 16 "o" "P")) "HPKOT" true false = .ok (path, pts) ∧
    ∀ p, getPathAsList path = .ok p → ¬ ZeroStep p pts.get? := by
  obtain ⟨⟨path, pts⟩, h⟩ := sample_path true false
  refine ⟨path, pts, h, fun p hp => ?_⟩
  obtain ⟨a, h1⟩ := box_hpkot String.toLower (fun _ _ => .error .runtimeError) (fun c => .ok c)
    3 5 4 16 "o" "P" (by decide +kernel) (by decide)
  have hbl : family 16 ++ centring 16 = "oP" := by decide +kernel
  have hs : ∃ s, hpkotGetExtendedBlSymbol String.toLower (fun _ _ => .error .runtimeError)
      (fun c => .ok c) !![3, 0, 0; 0, 5, 0; 0, 0, 4] boxAtoms
      (some (boxData 3 5 4 16 "o" "P")) = .ok s ∧ s ≠ "aP2" := by
    refine ⟨"oP1", ?_, by decide⟩
    unfold hpkotGetExtendedBlSymbol
    rw [box_resolve]
    have e1 : hpkotSimpleSymbol ((boxData 3 5 4 16 "o" "P").crystalFamily ++
        (boxData 3 5 4 16 "o" "P").centringType) (boxData 3 5 4 16 "o" "P").spaceGroupNumber =
        some (.ok "oP1") := rfl
    simp only [bind, Except.bind, e1]
  obtain ⟨s, hs, hne⟩ := hs
  rw [C59_hpkot String.toLower _ _ _ _ _ (boxData 3 5 4 16 "o" "P") (.inl rfl)
    ⟨by decide, by decide⟩ rfl rfl "HPKOT" (by decide +kernel) (by decide +kernel)
    (by decide +kernel) true false path pts h
    (fun e => absurd (hbl.symm.trans e) (by decide)) _ a h1 3 5 4 90 90 90
    (hasParams_box (by norm_num) (by norm_num) (by norm_num)) s hs p hp]
  show ¬ HpkotBorder 3 5 4 90 (family 16 ++ centring 16) s
  rw [hbl]
  simp [HpkotBorder, hne]

/-- The hypotheses of `C59_sc` are met: P4, with no segment of zero length. -/
example : ∃ path pts, getPathAndPoints String.toLower
    (fun _ _ => .error .runtimeError) (fun c => .ok c) boxT boxAtoms
    (some (boxData 3 3 4 75 "t" "P")) "SC" false true = .ok (path, pts) ∧
    ∀ p, getPathAsList path = .ok p → ¬ ZeroStep p pts.get? := by
  obtain ⟨⟨path, pts⟩, h⟩ := boxT_path false true
  refine ⟨path, pts, h, fun p hp => ?_⟩
  obtain ⟨a, h1, -⟩ := boxT_conventional "SC" (by decide +kernel)
  have hbl : family 75 ++ centring 75 = "tP" := by decide +kernel
  have hfm : family 75 ≠ "m" := by decide +kernel
  rw [C59_sc String.toLower _ _ _ _ _ (boxData 3 3 4 75 "t" "P") (.inl rfl)
    ⟨by decide, by decide⟩ rfl rfl "SC" (by decide +kernel) (by decide +kernel)
    (by decide +kernel) (.inl rfl) (by simp [boxData]) false true path pts h _ a h1
    (fun e => absurd e hfm) 3 3 4 90 90 90
    (hasParams_box (by norm_num) (by norm_num) (by norm_num)) _ boxT_variation p hp]
  show ¬ ScBorder 3 3 4 90 (family 75 ++ centring 75) _
  rw [hbl]
  simp [ScBorder]

/-- A lattice on a border: the body-centred tetragonal cell with `a = c`. Its path has a segment
of zero length. -/
example : StandardCell "tI" (!![3, 0, 0; 0, 3, 0; 0, 0, 3] : Cell ℝ) ∧
    HpkotBorder 3 3 3 90 "tI" "tI1" ∧ ∃ kpath raw, hpkotDefaultKPaths.getItem "tI1" = .ok kpath ∧
      hpkotPointsOf 3 3 3 90 "tI" "tI1" = .ok raw ∧ SameEnds kpath raw := by
  refine ⟨.tetragonal (a := 3) (c := 3) (by simp)
    (hasParams_box (by norm_num) (by norm_num) (by norm_num)), by simp [HpkotBorder], _,
    hpkotTable73 3 3, rfl, by simp [hpkotPointsOf], ?_⟩
  exact (zero_tI1 3 3 (by norm_num) (by norm_num)).2 rfl

end Wulfric
