import Verif.Lemmas.LettersHpkot
import Verif.Lemmas.LettersSc

/-! # The letters of the points in the table of a call -/

namespace Wulfric

open Matrix _root_.Spec Wulfric.Spec

section
variable {bl s : String} {n : ℤ} {conv matrix rprim : Cell ℝ} {a b c al be ga ra rb rg : ℝ}
  {raw : PyDict String (Vec ℝ)}

theorem letters_h_cP (hbl : bl = "cP") (hstd : StandardCell bl conv)
    (hm : (hpkotConventionalToPrimitive ℝ).get? bl = some matrix)
    (hr : getReciprocal (matrix.transpose * conv) = .ok rprim)
    (hs : HpkotSymbol bl n a b c be ra rb rg s) (hraw : hpkotPointsOf a b c be bl s = .ok raw) :
    LetterTable rprim raw := by
  subst hbl
  obtain ⟨a', h⟩ := std_cubic hstd (by simp)
  obtain rfl : !![1, 0, 0; 0, 1, 0; 0, 0, 1] = matrix := Option.some.inj hm
  cases hs with
  | cP1 _ =>
    simp [hpkotPointsOf] at hraw
    subst hraw
    exact letters_hpkot_cP_69 h hr
  | cP2 _ =>
    simp [hpkotPointsOf] at hraw
    subst hraw
    exact letters_hpkot_cP_69 h hr
  | _ q => exact absurd q (by decide)

theorem letters_h_cF (hbl : bl = "cF") (hstd : StandardCell bl conv)
    (hm : (hpkotConventionalToPrimitive ℝ).get? bl = some matrix)
    (hr : getReciprocal (matrix.transpose * conv) = .ok rprim)
    (hs : HpkotSymbol bl n a b c be ra rb rg s) (hraw : hpkotPointsOf a b c be bl s = .ok raw) :
    LetterTable rprim raw := by
  subst hbl
  obtain ⟨a', h⟩ := std_cubic hstd (by simp)
  obtain rfl : !![0, 1 / 2, 1 / 2; 1 / 2, 0, 1 / 2; 1 / 2, 1 / 2, 0] = matrix := Option.some.inj hm
  cases hs with
  | cF1 _ =>
    simp [hpkotPointsOf] at hraw
    subst hraw
    exact letters_hpkot_cF_70 h hr
  | cF2 _ =>
    simp [hpkotPointsOf] at hraw
    subst hraw
    exact letters_hpkot_cF_70 h hr
  | _ q => exact absurd q (by decide)

theorem letters_h_cI (hbl : bl = "cI") (hstd : StandardCell bl conv)
    (hm : (hpkotConventionalToPrimitive ℝ).get? bl = some matrix)
    (hr : getReciprocal (matrix.transpose * conv) = .ok rprim)
    (hs : HpkotSymbol bl n a b c be ra rb rg s) (hraw : hpkotPointsOf a b c be bl s = .ok raw) :
    LetterTable rprim raw := by
  subst hbl
  obtain ⟨a', h⟩ := std_cubic hstd (by simp)
  obtain rfl : !![-1 / 2, 1 / 2, 1 / 2; 1 / 2, -1 / 2, 1 / 2; 1 / 2, 1 / 2, -1 / 2] = matrix := Option.some.inj hm
  cases hs with
  | cI1 _ =>
    simp [hpkotPointsOf] at hraw
    subst hraw
    exact letters_hpkot_cI_71 _
  | _ q => exact absurd q (by decide)

theorem letters_h_tP (hbl : bl = "tP") (hstd : StandardCell bl conv)
    (hm : (hpkotConventionalToPrimitive ℝ).get? bl = some matrix)
    (hr : getReciprocal (matrix.transpose * conv) = .ok rprim)
    (hs : HpkotSymbol bl n a b c be ra rb rg s) (hraw : hpkotPointsOf a b c be bl s = .ok raw) :
    LetterTable rprim raw := by
  subst hbl
  obtain ⟨a', c', h⟩ := std_tetragonal hstd (by simp)
  obtain rfl : !![1, 0, 0; 0, 1, 0; 0, 0, 1] = matrix := Option.some.inj hm
  cases hs with
  | tP1 _ =>
    simp [hpkotPointsOf] at hraw
    subst hraw
    exact letters_hpkot_tP_72 _
  | _ q => exact absurd q (by decide)

theorem letters_h_tI (hbl : bl = "tI") (hstd : StandardCell bl conv)
    (hm : (hpkotConventionalToPrimitive ℝ).get? bl = some matrix)
    (hr : getReciprocal (matrix.transpose * conv) = .ok rprim)
    (hs : HpkotSymbol bl n a b c be ra rb rg s) (hraw : hpkotPointsOf a b c be bl s = .ok raw) :
    LetterTable rprim raw := by
  subst hbl
  obtain ⟨a', c', h⟩ := std_tetragonal hstd (by simp)
  obtain rfl : !![-1 / 2, 1 / 2, 1 / 2; 1 / 2, -1 / 2, 1 / 2; 1 / 2, 1 / 2, -1 / 2] = matrix := Option.some.inj hm
  cases hs with
  | tI1 _ =>
    simp [hpkotPointsOf] at hraw
    subst hraw
    exact letters_hpkot_tI_73 _ _ _
  | tI2 _ =>
    simp [hpkotPointsOf] at hraw
    subst hraw
    exact letters_hpkot_tI_74 _ _ _
  | _ q => exact absurd q (by decide)

theorem letters_h_oP (hbl : bl = "oP") (hstd : StandardCell bl conv)
    (hm : (hpkotConventionalToPrimitive ℝ).get? bl = some matrix)
    (hr : getReciprocal (matrix.transpose * conv) = .ok rprim)
    (hs : HpkotSymbol bl n a b c be ra rb rg s) (hraw : hpkotPointsOf a b c be bl s = .ok raw) :
    LetterTable rprim raw := by
  subst hbl
  obtain ⟨a', b', c', h⟩ := std_orthorhombic hstd (by simp)
  obtain rfl : !![1, 0, 0; 0, 1, 0; 0, 0, 1] = matrix := Option.some.inj hm
  cases hs with
  | oP1 _ =>
    simp [hpkotPointsOf] at hraw
    subst hraw
    exact letters_hpkot_oP_75 _
  | _ q => exact absurd q (by decide)

theorem letters_h_oF (hbl : bl = "oF") (hstd : StandardCell bl conv)
    (hm : (hpkotConventionalToPrimitive ℝ).get? bl = some matrix)
    (hr : getReciprocal (matrix.transpose * conv) = .ok rprim)
    (hs : HpkotSymbol bl n a b c be ra rb rg s) (hraw : hpkotPointsOf a b c be bl s = .ok raw) :
    LetterTable rprim raw := by
  subst hbl
  obtain ⟨a', b', c', h, -⟩ := std_oF hstd rfl
  obtain rfl : !![0, 1 / 2, 1 / 2; 1 / 2, 0, 1 / 2; 1 / 2, 1 / 2, 0] = matrix := Option.some.inj hm
  cases hs with
  | oF1 _ =>
    simp [hpkotPointsOf] at hraw
    subst hraw
    exact letters_hpkot_oF_76 _ _ _ _
  | oF2 _ =>
    simp [hpkotPointsOf] at hraw
    subst hraw
    exact letters_hpkot_oF_77 _ _ _ _
  | oF3 _ =>
    simp [hpkotPointsOf] at hraw
    subst hraw
    exact letters_hpkot_oF_78 _ _ _ _
  | _ q => exact absurd q (by decide)

theorem letters_h_oI (hbl : bl = "oI") (hstd : StandardCell bl conv)
    (hm : (hpkotConventionalToPrimitive ℝ).get? bl = some matrix)
    (hr : getReciprocal (matrix.transpose * conv) = .ok rprim)
    (hs : HpkotSymbol bl n a b c be ra rb rg s) (hraw : hpkotPointsOf a b c be bl s = .ok raw) :
    LetterTable rprim raw := by
  subst hbl
  obtain ⟨a', b', c', h⟩ := std_orthorhombic hstd (by simp)
  obtain rfl : !![-1 / 2, 1 / 2, 1 / 2; 1 / 2, -1 / 2, 1 / 2; 1 / 2, 1 / 2, -1 / 2] = matrix := Option.some.inj hm
  cases hs with
  | oI1 _ =>
    simp [hpkotPointsOf] at hraw
    subst hraw
    exact letters_hpkot_oI_79 _ _ _ _
  | oI2 _ =>
    simp [hpkotPointsOf] at hraw
    subst hraw
    exact letters_hpkot_oI_80 h hr _ _ _
  | oI3 _ =>
    simp [hpkotPointsOf] at hraw
    subst hraw
    exact letters_hpkot_oI_81 h hr _ _ _
  | _ q => exact absurd q (by decide)

theorem letters_h_oA (hbl : bl = "oA") (hstd : StandardCell bl conv)
    (hm : (hpkotConventionalToPrimitive ℝ).get? bl = some matrix)
    (hr : getReciprocal (matrix.transpose * conv) = .ok rprim)
    (hs : HpkotSymbol bl n a b c be ra rb rg s) (hraw : hpkotPointsOf a b c be bl s = .ok raw) :
    LetterTable rprim raw := by
  subst hbl
  obtain ⟨a', b', c', h⟩ := std_orthorhombic hstd (by simp)
  obtain rfl : !![0, 0, 1; 1 / 2, 1 / 2, 0; -1 / 2, 1 / 2, 0] = matrix := Option.some.inj hm
  cases hs with
  | oA1 _ =>
    simp [hpkotPointsOf, hpkotZeta82, Except.map] at hraw
    subst hraw
    exact letters_hpkot_oA_82 _ _
  | oA2 _ =>
    simp [hpkotPointsOf, hpkotZeta83, Except.map] at hraw
    subst hraw
    exact letters_hpkot_oA_83 _ _
  | _ q => exact absurd q (by decide)

theorem letters_h_oC (hbl : bl = "oC") (hstd : StandardCell bl conv)
    (hm : (hpkotConventionalToPrimitive ℝ).get? bl = some matrix)
    (hr : getReciprocal (matrix.transpose * conv) = .ok rprim)
    (hs : HpkotSymbol bl n a b c be ra rb rg s) (hraw : hpkotPointsOf a b c be bl s = .ok raw) :
    LetterTable rprim raw := by
  subst hbl
  obtain ⟨a', b', c', h⟩ := std_orthorhombic hstd (by simp)
  obtain rfl : !![1 / 2, 1 / 2, 0; -1 / 2, 1 / 2, 0; 0, 0, 1] = matrix := Option.some.inj hm
  cases hs with
  | oC1 _ =>
    simp [hpkotPointsOf, hpkotZeta82, Except.map] at hraw
    subst hraw
    exact letters_hpkot_oC_82 _ _
  | oC2 _ =>
    simp [hpkotPointsOf, hpkotZeta83, Except.map] at hraw
    subst hraw
    exact letters_hpkot_oC_83 _ _
  | _ q => exact absurd q (by decide)

theorem letters_h_hP (hbl : bl = "hP") (hstd : StandardCell bl conv)
    (hm : (hpkotConventionalToPrimitive ℝ).get? bl = some matrix)
    (hr : getReciprocal (matrix.transpose * conv) = .ok rprim)
    (hs : HpkotSymbol bl n a b c be ra rb rg s) (hraw : hpkotPointsOf a b c be bl s = .ok raw) :
    LetterTable rprim raw := by
  subst hbl
  obtain ⟨a', c', h⟩ := std_hexagonal hstd (by simp)
  obtain rfl : !![1, 0, 0; 0, 1, 0; 0, 0, 1] = matrix := Option.some.inj hm
  cases hs with
  | hP1 _ =>
    simp [hpkotPointsOf] at hraw
    subst hraw
    exact letters_hpkot_hP_84 _
  | hP2 _ =>
    simp [hpkotPointsOf] at hraw
    subst hraw
    exact letters_hpkot_hP_84 _
  | _ q => exact absurd q (by decide)

theorem letters_h_hR (hbl : bl = "hR") (hstd : StandardCell bl conv)
    (hm : (hpkotConventionalToPrimitive ℝ).get? bl = some matrix)
    (hr : getReciprocal (matrix.transpose * conv) = .ok rprim)
    (hs : HpkotSymbol bl n a b c be ra rb rg s) (hraw : hpkotPointsOf a b c be bl s = .ok raw) :
    LetterTable rprim raw := by
  subst hbl
  obtain ⟨a', c', h⟩ := std_hexagonal hstd (by simp)
  obtain rfl : !![1, -1 / 2, -1 / 2; 1 / 2, 1 / 2, -1; 1 / 2, 1 / 2, 1 / 2] = matrix := Option.some.inj hm
  cases hs with
  | hR1 _ =>
    simp [hpkotPointsOf] at hraw
    subst hraw
    exact letters_hpkot_hR_85 h hr _ _
  | hR2 _ =>
    simp [hpkotPointsOf] at hraw
    subst hraw
    exact letters_hpkot_hR_86 _ _ _
  | _ q => exact absurd q (by decide)

theorem letters_h_mP (hbl : bl = "mP") (hstd : StandardCell bl conv)
    (hm : (hpkotConventionalToPrimitive ℝ).get? bl = some matrix)
    (hr : getReciprocal (matrix.transpose * conv) = .ok rprim)
    (hs : HpkotSymbol bl n a b c be ra rb rg s) (hraw : hpkotPointsOf a b c be bl s = .ok raw) :
    LetterTable rprim raw := by
  subst hbl
  obtain ⟨a', b', c', be', h, -⟩ := std_mP hstd rfl
  obtain rfl : !![1, 0, 0; 0, 1, 0; 0, 0, 1] = matrix := Option.some.inj hm
  cases hs with
  | mP1 _ =>
    simp [hpkotPointsOf] at hraw
    subst hraw
    exact letters_hpkot_mP_87 _ _ _ _
  | _ q => exact absurd q (by decide)

theorem letters_h_mC (hbl : bl = "mC") (hstd : StandardCell bl conv)
    (hm : (hpkotConventionalToPrimitive ℝ).get? bl = some matrix)
    (hr : getReciprocal (matrix.transpose * conv) = .ok rprim)
    (hs : HpkotSymbol bl n a b c be ra rb rg s) (hraw : hpkotPointsOf a b c be bl s = .ok raw) :
    LetterTable rprim raw := by
  subst hbl
  obtain ⟨a', b', c', be', h, -⟩ := std_mC hstd rfl
  obtain rfl : !![1 / 2, -1 / 2, 0; 1 / 2, 1 / 2, 0; 0, 0, 1] = matrix := Option.some.inj hm
  cases hs with
  | mC1 _ =>
    simp [hpkotPointsOf] at hraw
    subst hraw
    exact letters_hpkot_mC_88 h hr _ _ _ _
  | mC2 _ =>
    simp [hpkotPointsOf] at hraw
    subst hraw
    exact letters_hpkot_mC_89 _ _ _ _ _
  | mC3 _ =>
    simp [hpkotPointsOf] at hraw
    subst hraw
    exact letters_hpkot_mC_90 h hr _ _ _ _
  | _ q => exact absurd q (by decide)

/-- All lattices of HPKOT. -/
theorem letters_hpkot (hbl : bl ∈ bravaisLattices) (hstd : bl ≠ "aP" → StandardCell bl conv)
    (hm : (hpkotConventionalToPrimitive ℝ).get? bl = some matrix)
    (hr : getReciprocal (matrix.transpose * conv) = .ok rprim)
    (hs : HpkotSymbol bl n a b c be ra rb rg s) (hraw : hpkotPointsOf a b c be bl s = .ok raw) : LetterTable rprim raw := by
  by_cases haP : bl = "aP"
  · subst haP
    obtain rfl : !![1, 0, 0; 0, 1, 0; 0, 0, 1] = matrix := Option.some.inj hm
    cases hs with
    | aP2 _ =>
      simp [hpkotPointsOf] at hraw
      subst hraw
      exact letters_hpkot_aP_91 _
    | aP3 _ =>
      simp [hpkotPointsOf] at hraw
      subst hraw
      exact letters_hpkot_aP_92 _
    | _ q => exact absurd q (by decide)
  have hstd := hstd haP
  simp only [bravaisLattices, List.mem_cons, List.not_mem_nil, or_false] at hbl
  rcases hbl with h | h | h | h | h | h | h | h | h | h | h | h | h | h | h
  exacts [letters_h_cP h hstd hm hr hs hraw, letters_h_cF h hstd hm hr hs hraw, letters_h_cI h hstd hm hr hs hraw, letters_h_tP h hstd hm hr hs hraw, letters_h_tI h hstd hm hr hs hraw, letters_h_oP h hstd hm hr hs hraw, letters_h_oF h hstd hm hr hs hraw, letters_h_oI h hstd hm hr hs hraw, letters_h_oA h hstd hm hr hs hraw, letters_h_oC h hstd hm hr hs hraw, letters_h_hP h hstd hm hr hs hraw, letters_h_hR h hstd hm hr hs hraw, letters_h_mP h hstd hm hr hs hraw, letters_h_mC h hstd hm hr hs hraw, absurd h haP]

end

section
variable {bl s short : String} {conv matrix rprim : Cell ℝ} {t u a b c al be ga kp ka kb kg : ℝ}
  {raw : PyDict String (Vec ℝ)}

theorem letters_s_cP (hbl : bl = "cP") (hcell : bl ≠ "aP" → ScCell bl conv)
    (hm : (scConventionalToPrimitive ℝ).get? bl = some matrix)
    (hr : getReciprocal (matrix.transpose * conv) = .ok rprim)
    (hs : ScVariation bl t u a b c al kp ka kb kg s)
    (hsh : scBravaisLatticeShortNames.get? bl = some short)
    (hraw : scPointsOf a b c al short (some s) = .ok raw) : LetterTable rprim raw := by
  subst hbl
  obtain rfl : "CUB" = short := Option.some.inj hsh
  have hcell := hcell (by decide)
  obtain ⟨a', h⟩ := scCell_cubic hcell (by simp)
  obtain rfl : !![1, 0, 0; 0, 1, 0; 0, 0, 1] = matrix := Option.some.inj hm
  cases hs with
  | cub _ =>
    simp [scPointsOf] at hraw
    subst hraw
    exact letters_sc_cP_2 _
  | orcc q => exact absurd q (by decide)
  | _ q => exact absurd q (by decide)

theorem letters_s_cF (hbl : bl = "cF") (hcell : bl ≠ "aP" → ScCell bl conv)
    (hm : (scConventionalToPrimitive ℝ).get? bl = some matrix)
    (hr : getReciprocal (matrix.transpose * conv) = .ok rprim)
    (hs : ScVariation bl t u a b c al kp ka kb kg s)
    (hsh : scBravaisLatticeShortNames.get? bl = some short)
    (hraw : scPointsOf a b c al short (some s) = .ok raw) : LetterTable rprim raw := by
  subst hbl
  obtain rfl : "FCC" = short := Option.some.inj hsh
  have hcell := hcell (by decide)
  obtain ⟨a', h⟩ := scCell_cubic hcell (by simp)
  obtain rfl : !![0, 1 / 2, 1 / 2; 1 / 2, 0, 1 / 2; 1 / 2, 1 / 2, 0] = matrix := Option.some.inj hm
  cases hs with
  | fcc _ =>
    simp [scPointsOf] at hraw
    subst hraw
    exact letters_sc_cF_3 _
  | orcc q => exact absurd q (by decide)
  | _ q => exact absurd q (by decide)

theorem letters_s_cI (hbl : bl = "cI") (hcell : bl ≠ "aP" → ScCell bl conv)
    (hm : (scConventionalToPrimitive ℝ).get? bl = some matrix)
    (hr : getReciprocal (matrix.transpose * conv) = .ok rprim)
    (hs : ScVariation bl t u a b c al kp ka kb kg s)
    (hsh : scBravaisLatticeShortNames.get? bl = some short)
    (hraw : scPointsOf a b c al short (some s) = .ok raw) : LetterTable rprim raw := by
  subst hbl
  obtain rfl : "BCC" = short := Option.some.inj hsh
  have hcell := hcell (by decide)
  obtain ⟨a', h⟩ := scCell_cubic hcell (by simp)
  obtain rfl : !![-1 / 2, 1 / 2, 1 / 2; 1 / 2, -1 / 2, 1 / 2; 1 / 2, 1 / 2, -1 / 2] = matrix := Option.some.inj hm
  cases hs with
  | bcc _ =>
    simp [scPointsOf] at hraw
    subst hraw
    exact letters_sc_cI_4 _
  | orcc q => exact absurd q (by decide)
  | _ q => exact absurd q (by decide)

theorem letters_s_tP (hbl : bl = "tP") (hcell : bl ≠ "aP" → ScCell bl conv)
    (hm : (scConventionalToPrimitive ℝ).get? bl = some matrix)
    (hr : getReciprocal (matrix.transpose * conv) = .ok rprim)
    (hs : ScVariation bl t u a b c al kp ka kb kg s)
    (hsh : scBravaisLatticeShortNames.get? bl = some short)
    (hraw : scPointsOf a b c al short (some s) = .ok raw) : LetterTable rprim raw := by
  subst hbl
  obtain rfl : "TET" = short := Option.some.inj hsh
  have hcell := hcell (by decide)
  obtain ⟨a', c', h⟩ := scCell_tetragonal hcell (by simp)
  obtain rfl : !![1, 0, 0; 0, 1, 0; 0, 0, 1] = matrix := Option.some.inj hm
  cases hs with
  | tet _ =>
    simp [scPointsOf] at hraw
    subst hraw
    exact letters_sc_tP_5 _
  | orcc q => exact absurd q (by decide)
  | _ q => exact absurd q (by decide)

theorem letters_s_tI (hbl : bl = "tI") (hcell : bl ≠ "aP" → ScCell bl conv)
    (hm : (scConventionalToPrimitive ℝ).get? bl = some matrix)
    (hr : getReciprocal (matrix.transpose * conv) = .ok rprim)
    (hs : ScVariation bl t u a b c al kp ka kb kg s)
    (hsh : scBravaisLatticeShortNames.get? bl = some short)
    (hraw : scPointsOf a b c al short (some s) = .ok raw) : LetterTable rprim raw := by
  subst hbl
  obtain rfl : "BCT" = short := Option.some.inj hsh
  have hcell := hcell (by decide)
  obtain ⟨a', c', h⟩ := scCell_tetragonal hcell (by simp)
  obtain rfl : !![-1 / 2, 1 / 2, 1 / 2; 1 / 2, -1 / 2, 1 / 2; 1 / 2, 1 / 2, -1 / 2] = matrix := Option.some.inj hm
  cases hs with
  | bct1 _ =>
    simp [scPointsOf] at hraw
    subst hraw
    exact letters_sc_tI_6 _ _ _
  | bct2 _ =>
    simp [scPointsOf] at hraw
    subst hraw
    exact letters_sc_tI_7 h hr _ _
  | orcc q => exact absurd q (by decide)
  | _ q => exact absurd q (by decide)

theorem letters_s_oP (hbl : bl = "oP") (hcell : bl ≠ "aP" → ScCell bl conv)
    (hm : (scConventionalToPrimitive ℝ).get? bl = some matrix)
    (hr : getReciprocal (matrix.transpose * conv) = .ok rprim)
    (hs : ScVariation bl t u a b c al kp ka kb kg s)
    (hsh : scBravaisLatticeShortNames.get? bl = some short)
    (hraw : scPointsOf a b c al short (some s) = .ok raw) : LetterTable rprim raw := by
  subst hbl
  obtain rfl : "ORC" = short := Option.some.inj hsh
  have hcell := hcell (by decide)
  obtain ⟨a', b', c', h⟩ := scCell_orthorhombic hcell (by simp)
  obtain rfl : !![1, 0, 0; 0, 1, 0; 0, 0, 1] = matrix := Option.some.inj hm
  cases hs with
  | orc _ =>
    simp [scPointsOf] at hraw
    subst hraw
    exact letters_sc_oP_8 _
  | orcc q => exact absurd q (by decide)
  | _ q => exact absurd q (by decide)

theorem letters_s_oF (hbl : bl = "oF") (hcell : bl ≠ "aP" → ScCell bl conv)
    (hm : (scConventionalToPrimitive ℝ).get? bl = some matrix)
    (hr : getReciprocal (matrix.transpose * conv) = .ok rprim)
    (hs : ScVariation bl t u a b c al kp ka kb kg s)
    (hsh : scBravaisLatticeShortNames.get? bl = some short)
    (hraw : scPointsOf a b c al short (some s) = .ok raw) : LetterTable rprim raw := by
  subst hbl
  obtain rfl : "ORCF" = short := Option.some.inj hsh
  have hcell := hcell (by decide)
  obtain ⟨a', b', c', h⟩ := scCell_orthorhombic hcell (by simp)
  obtain rfl : !![0, 1 / 2, 1 / 2; 1 / 2, 0, 1 / 2; 1 / 2, 1 / 2, 0] = matrix := Option.some.inj hm
  cases hs with
  | orcf1 _ =>
    simp [scPointsOf] at hraw
    subst hraw
    exact letters_sc_oF_9 _ _ _ _
  | orcf2 _ =>
    simp [scPointsOf] at hraw
    subst hraw
    exact letters_sc_oF_10 _ _ _ _
  | orcf3 _ =>
    simp [scPointsOf] at hraw
    subst hraw
    exact letters_sc_oF_9 _ _ _ _
  | orcc q => exact absurd q (by decide)
  | _ q => exact absurd q (by decide)

theorem letters_s_oI (hbl : bl = "oI") (hcell : bl ≠ "aP" → ScCell bl conv)
    (hm : (scConventionalToPrimitive ℝ).get? bl = some matrix)
    (hr : getReciprocal (matrix.transpose * conv) = .ok rprim)
    (hs : ScVariation bl t u a b c al kp ka kb kg s)
    (hsh : scBravaisLatticeShortNames.get? bl = some short)
    (hraw : scPointsOf a b c al short (some s) = .ok raw) : LetterTable rprim raw := by
  subst hbl
  obtain rfl : "ORCI" = short := Option.some.inj hsh
  have hcell := hcell (by decide)
  obtain ⟨a', b', c', h, -⟩ := scCell_bodyCentred hcell (by simp)
  obtain rfl : !![-1 / 2, 1 / 2, 1 / 2; 1 / 2, -1 / 2, 1 / 2; 1 / 2, 1 / 2, -1 / 2] = matrix := Option.some.inj hm
  cases hs with
  | orci _ =>
    simp [scPointsOf] at hraw
    subst hraw
    exact letters_sc_oI_11 h hr _ _ _
  | orcc q => exact absurd q (by decide)
  | _ q => exact absurd q (by decide)

theorem letters_s_oC (hbl : bl = "oC") (hcell : bl ≠ "aP" → ScCell bl conv)
    (hm : (scConventionalToPrimitive ℝ).get? bl = some matrix)
    (hr : getReciprocal (matrix.transpose * conv) = .ok rprim)
    (hs : ScVariation bl t u a b c al kp ka kb kg s)
    (hsh : scBravaisLatticeShortNames.get? bl = some short)
    (hraw : scPointsOf a b c al short (some s) = .ok raw) : LetterTable rprim raw := by
  subst hbl
  obtain rfl : "ORCC" = short := Option.some.inj hsh
  have hcell := hcell (by decide)
  obtain ⟨a', b', c', h, -⟩ := scCell_baseCentred hcell (by simp)
  obtain rfl : !![1 / 2, 1 / 2, 0; -1 / 2, 1 / 2, 0; 0, 0, 1] = matrix := Option.some.inj hm
  cases hs with
  | orcc _ =>
    simp [scPointsOf] at hraw
    subst hraw
    exact letters_sc_oC_12 _ _ _
  | _ q => exact absurd q (by decide)

theorem letters_s_oA (hbl : bl = "oA") (hcell : bl ≠ "aP" → ScCell bl conv)
    (hm : (scConventionalToPrimitive ℝ).get? bl = some matrix)
    (hr : getReciprocal (matrix.transpose * conv) = .ok rprim)
    (hs : ScVariation bl t u a b c al kp ka kb kg s)
    (hsh : scBravaisLatticeShortNames.get? bl = some short)
    (hraw : scPointsOf a b c al short (some s) = .ok raw) : LetterTable rprim raw := by
  subst hbl
  obtain rfl : "ORCC" = short := Option.some.inj hsh
  have hcell := hcell (by decide)
  obtain ⟨a', b', c', h, -⟩ := scCell_baseCentred hcell (by simp)
  obtain rfl : !![1 / 2, 1 / 2, 0; -1 / 2, 1 / 2, 0; 0, 0, 1] = matrix := Option.some.inj hm
  cases hs with
  | orcc _ =>
    simp [scPointsOf] at hraw
    subst hraw
    exact letters_sc_oA_12 _ _ _
  | _ q => exact absurd q (by decide)

theorem letters_s_hP (hbl : bl = "hP") (hcell : bl ≠ "aP" → ScCell bl conv)
    (hm : (scConventionalToPrimitive ℝ).get? bl = some matrix)
    (hr : getReciprocal (matrix.transpose * conv) = .ok rprim)
    (hs : ScVariation bl t u a b c al kp ka kb kg s)
    (hsh : scBravaisLatticeShortNames.get? bl = some short)
    (hraw : scPointsOf a b c al short (some s) = .ok raw) : LetterTable rprim raw := by
  subst hbl
  obtain rfl : "HEX" = short := Option.some.inj hsh
  have hcell := hcell (by decide)
  obtain ⟨a', c', h⟩ := scCell_hexagonal hcell (by simp)
  obtain rfl : !![1, 0, 0; 0, 1, 0; 0, 0, 1] = matrix := Option.some.inj hm
  cases hs with
  | hex _ =>
    simp [scPointsOf] at hraw
    subst hraw
    exact letters_sc_hP_13 _
  | orcc q => exact absurd q (by decide)
  | _ q => exact absurd q (by decide)

theorem letters_s_hR (hbl : bl = "hR") (hcell : bl ≠ "aP" → ScCell bl conv)
    (hm : (scConventionalToPrimitive ℝ).get? bl = some matrix)
    (hr : getReciprocal (matrix.transpose * conv) = .ok rprim)
    (hs : ScVariation bl t u a b c al kp ka kb kg s)
    (hsh : scBravaisLatticeShortNames.get? bl = some short)
    (hraw : scPointsOf a b c al short (some s) = .ok raw) : LetterTable rprim raw := by
  subst hbl
  obtain rfl : "RHL" = short := Option.some.inj hsh
  have hcell := hcell (by decide)
  obtain ⟨a', al', h⟩ := scCell_rhombohedral hcell (by simp)
  obtain rfl : !![1, 0, 0; 0, 1, 0; 0, 0, 1] = matrix := Option.some.inj hm
  cases hs with
  | rhl1 _ =>
    simp [scPointsOf] at hraw
    subst hraw
    exact letters_sc_hR_14 h hr _
  | rhl2 _ =>
    simp [scPointsOf] at hraw
    subst hraw
    exact letters_sc_hR_15 _ _
  | orcc q => exact absurd q (by decide)
  | _ q => exact absurd q (by decide)

theorem letters_s_mP (hbl : bl = "mP") (hcell : bl ≠ "aP" → ScCell bl conv)
    (hm : (scConventionalToPrimitive ℝ).get? bl = some matrix)
    (hr : getReciprocal (matrix.transpose * conv) = .ok rprim)
    (hs : ScVariation bl t u a b c al kp ka kb kg s)
    (hsh : scBravaisLatticeShortNames.get? bl = some short)
    (hraw : scPointsOf a b c al short (some s) = .ok raw) : LetterTable rprim raw := by
  subst hbl
  obtain rfl : "MCL" = short := Option.some.inj hsh
  have hcell := hcell (by decide)
  obtain ⟨a', b', c', al', h, -⟩ := scCell_monoclinic hcell (by simp)
  obtain rfl : !![1, 0, 0; 0, 1, 0; 0, 0, 1] = matrix := Option.some.inj hm
  cases hs with
  | mcl _ =>
    simp [scPointsOf] at hraw
    subst hraw
    exact letters_sc_mP_16 _ _ _ _
  | orcc q => exact absurd q (by decide)
  | _ q => exact absurd q (by decide)

theorem letters_s_mC (hbl : bl = "mC") (hcell : bl ≠ "aP" → ScCell bl conv)
    (hm : (scConventionalToPrimitive ℝ).get? bl = some matrix)
    (hr : getReciprocal (matrix.transpose * conv) = .ok rprim)
    (hs : ScVariation bl t u a b c al kp ka kb kg s)
    (hsh : scBravaisLatticeShortNames.get? bl = some short)
    (hraw : scPointsOf a b c al short (some s) = .ok raw) : LetterTable rprim raw := by
  subst hbl
  obtain rfl : "MCLC" = short := Option.some.inj hsh
  have hcell := hcell (by decide)
  obtain ⟨a', b', c', al', h, -⟩ := scCell_monoclinicC hcell (by simp)
  obtain rfl : !![1 / 2, -1 / 2, 0; 1 / 2, 1 / 2, 0; 0, 0, 1] = matrix := Option.some.inj hm
  cases hs with
  | mclc1 _ =>
    simp [scPointsOf] at hraw
    subst hraw
    exact letters_sc_mC_17 h hr _ _ _ _
  | mclc2 _ =>
    simp [scPointsOf] at hraw
    subst hraw
    exact letters_sc_mC_17 h hr _ _ _ _
  | mclc3 _ =>
    simp [scPointsOf] at hraw
    subst hraw
    exact letters_sc_mC_18 h hr _ _ _ _
  | mclc4 _ =>
    simp [scPointsOf] at hraw
    subst hraw
    exact letters_sc_mC_18 h hr _ _ _ _
  | mclc5 _ =>
    simp [scPointsOf] at hraw
    subst hraw
    exact letters_sc_mC_19 h hr _ _ _ _
  | orcc q => exact absurd q (by decide)
  | _ q => exact absurd q (by decide)

theorem letters_s_aP (hbl : bl = "aP") (hcell : bl ≠ "aP" → ScCell bl conv)
    (hm : (scConventionalToPrimitive ℝ).get? bl = some matrix)
    (hr : getReciprocal (matrix.transpose * conv) = .ok rprim)
    (hs : ScVariation bl t u a b c al kp ka kb kg s)
    (hsh : scBravaisLatticeShortNames.get? bl = some short)
    (hraw : scPointsOf a b c al short (some s) = .ok raw) : LetterTable rprim raw := by
  subst hbl
  obtain rfl : "TRI" = short := Option.some.inj hsh
  clear hcell
  obtain rfl : !![1, 0, 0; 0, 1, 0; 0, 0, 1] = matrix := Option.some.inj hm
  cases hs with
  | tri1a _ =>
    simp [scPointsOf] at hraw
    subst hraw
    exact letters_sc_aP_20 _
  | tri1b _ =>
    simp [scPointsOf] at hraw
    subst hraw
    exact letters_sc_aP_21 _
  | tri2a _ =>
    simp [scPointsOf] at hraw
    subst hraw
    exact letters_sc_aP_20 _
  | tri2b _ =>
    simp [scPointsOf] at hraw
    subst hraw
    exact letters_sc_aP_21 _
  | orcc q => exact absurd q (by decide)
  | _ q => exact absurd q (by decide)

theorem letters_sc (hbl : bl ∈ bravaisLattices) (hcell : bl ≠ "aP" → ScCell bl conv)
    (hm : (scConventionalToPrimitive ℝ).get? bl = some matrix)
    (hr : getReciprocal (matrix.transpose * conv) = .ok rprim)
    (hs : ScVariation bl t u a b c al kp ka kb kg s)
    (hsh : scBravaisLatticeShortNames.get? bl = some short)
    (hraw : scPointsOf a b c al short (some s) = .ok raw) : LetterTable rprim raw := by
  simp only [bravaisLattices, List.mem_cons, List.not_mem_nil, or_false] at hbl
  rcases hbl with h | h | h | h | h | h | h | h | h | h | h | h | h | h | h
  exacts [letters_s_cP h hcell hm hr hs hsh hraw, letters_s_cF h hcell hm hr hs hsh hraw, letters_s_cI h hcell hm hr hs hsh hraw, letters_s_tP h hcell hm hr hs hsh hraw, letters_s_tI h hcell hm hr hs hsh hraw, letters_s_oP h hcell hm hr hs hsh hraw, letters_s_oF h hcell hm hr hs hsh hraw, letters_s_oI h hcell hm hr hs hsh hraw, letters_s_oA h hcell hm hr hs hsh hraw, letters_s_oC h hcell hm hr hs hsh hraw, letters_s_hP h hcell hm hr hs hsh hraw, letters_s_hR h hcell hm hr hs hsh hraw, letters_s_mP h hcell hm hr hs hsh hraw, letters_s_mC h hcell hm hr hs hsh hraw, letters_s_aP h hcell hm hr hs hsh hraw]

end

end Wulfric
