import Verif.Lemmas.TrimHpkot
import Verif.Lemmas.TrimSc

/-! # The time-reversal-invariant momenta in the table of a call -/

namespace Wulfric

open Matrix _root_.Spec Wulfric.Spec

section
variable {bl s : String} {n : ℤ} {conv matrix rprim : Cell ℝ} {a b c al be ga ra rb rg : ℝ}
  {raw : PyDict String (Vec ℝ)}

theorem trims_h_cP (hbl : bl = "cP") (hstd : StandardCell bl conv)
    (hm : (hpkotConventionalToPrimitive ℝ).get? bl = some matrix)
    (hr : getReciprocal (matrix.transpose * conv) = .ok rprim)
    (hs : HpkotSymbol bl n a b c be ra rb rg s) (hraw : hpkotPointsOf a b c be bl s = .ok raw) :
    ∃ names, TrimTable rprim names raw ∧ (hpkotDefaultKPaths.getItem s).map (namesOn names) =
      .ok true := by
  subst hbl
  obtain ⟨a', h⟩ := std_cubic hstd (by simp)
  obtain rfl : !![1, 0, 0; 0, 1, 0; 0, 0, 1] = matrix := Option.some.inj hm
  cases hs with
  | cP1 _ =>
    simp [hpkotPointsOf] at hraw
    subst hraw
    exact ⟨_, trims_hpkot_cP_69 h hr, by decide +kernel⟩
  | cP2 _ =>
    simp [hpkotPointsOf] at hraw
    subst hraw
    exact ⟨_, trims_hpkot_cP_69 h hr, by decide +kernel⟩
  | _ q => exact absurd q (by decide)

theorem trims_h_cF (hbl : bl = "cF") (hstd : StandardCell bl conv)
    (hm : (hpkotConventionalToPrimitive ℝ).get? bl = some matrix)
    (hr : getReciprocal (matrix.transpose * conv) = .ok rprim)
    (hs : HpkotSymbol bl n a b c be ra rb rg s) (hraw : hpkotPointsOf a b c be bl s = .ok raw) :
    ∃ names, TrimTable rprim names raw ∧ (hpkotDefaultKPaths.getItem s).map (namesOn names) =
      .ok true := by
  subst hbl
  obtain ⟨a', h⟩ := std_cubic hstd (by simp)
  obtain rfl : !![0, 1 / 2, 1 / 2; 1 / 2, 0, 1 / 2; 1 / 2, 1 / 2, 0] = matrix := Option.some.inj hm
  cases hs with
  | cF1 _ =>
    simp [hpkotPointsOf] at hraw
    subst hraw
    exact ⟨_, trims_hpkot_cF_70 h hr, by decide +kernel⟩
  | cF2 _ =>
    simp [hpkotPointsOf] at hraw
    subst hraw
    exact ⟨_, trims_hpkot_cF_70 h hr, by decide +kernel⟩
  | _ q => exact absurd q (by decide)

theorem trims_h_cI (hbl : bl = "cI") (hstd : StandardCell bl conv)
    (hm : (hpkotConventionalToPrimitive ℝ).get? bl = some matrix)
    (hr : getReciprocal (matrix.transpose * conv) = .ok rprim)
    (hs : HpkotSymbol bl n a b c be ra rb rg s) (hraw : hpkotPointsOf a b c be bl s = .ok raw) :
    ∃ names, TrimTable rprim names raw ∧ (hpkotDefaultKPaths.getItem s).map (namesOn names) =
      .ok true := by
  subst hbl
  obtain ⟨a', h⟩ := std_cubic hstd (by simp)
  obtain rfl : !![-1 / 2, 1 / 2, 1 / 2; 1 / 2, -1 / 2, 1 / 2; 1 / 2, 1 / 2, -1 / 2] = matrix := Option.some.inj hm
  cases hs with
  | cI1 _ =>
    simp [hpkotPointsOf] at hraw
    subst hraw
    exact ⟨_, trims_hpkot_cI_71 h hr, by decide +kernel⟩
  | _ q => exact absurd q (by decide)

theorem trims_h_tP (hbl : bl = "tP") (hstd : StandardCell bl conv)
    (hm : (hpkotConventionalToPrimitive ℝ).get? bl = some matrix)
    (hr : getReciprocal (matrix.transpose * conv) = .ok rprim)
    (hs : HpkotSymbol bl n a b c be ra rb rg s) (hraw : hpkotPointsOf a b c be bl s = .ok raw) :
    ∃ names, TrimTable rprim names raw ∧ (hpkotDefaultKPaths.getItem s).map (namesOn names) =
      .ok true := by
  subst hbl
  obtain ⟨a', c', h⟩ := std_tetragonal hstd (by simp)
  obtain rfl : !![1, 0, 0; 0, 1, 0; 0, 0, 1] = matrix := Option.some.inj hm
  cases hs with
  | tP1 _ =>
    simp [hpkotPointsOf] at hraw
    subst hraw
    exact ⟨_, trims_hpkot_tP_72 h hr, by decide +kernel⟩
  | _ q => exact absurd q (by decide)

theorem trims_h_tI (hbl : bl = "tI") (hstd : StandardCell bl conv)
    (hm : (hpkotConventionalToPrimitive ℝ).get? bl = some matrix)
    (hr : getReciprocal (matrix.transpose * conv) = .ok rprim)
    (hs : HpkotSymbol bl n a b c be ra rb rg s) (hraw : hpkotPointsOf a b c be bl s = .ok raw) :
    ∃ names, TrimTable rprim names raw ∧ (hpkotDefaultKPaths.getItem s).map (namesOn names) =
      .ok true := by
  subst hbl
  obtain ⟨a', c', h⟩ := std_tetragonal hstd (by simp)
  obtain rfl : !![-1 / 2, 1 / 2, 1 / 2; 1 / 2, -1 / 2, 1 / 2; 1 / 2, 1 / 2, -1 / 2] = matrix := Option.some.inj hm
  cases hs with
  | tI1 _ =>
    simp [hpkotPointsOf] at hraw
    subst hraw
    exact ⟨_, trims_hpkot_tI_73 h hr _ _, by decide +kernel⟩
  | tI2 _ =>
    simp [hpkotPointsOf] at hraw
    subst hraw
    exact ⟨_, trims_hpkot_tI_74 h hr _ _, by decide +kernel⟩
  | _ q => exact absurd q (by decide)

theorem trims_h_oP (hbl : bl = "oP") (hstd : StandardCell bl conv)
    (hm : (hpkotConventionalToPrimitive ℝ).get? bl = some matrix)
    (hr : getReciprocal (matrix.transpose * conv) = .ok rprim)
    (hs : HpkotSymbol bl n a b c be ra rb rg s) (hraw : hpkotPointsOf a b c be bl s = .ok raw) :
    ∃ names, TrimTable rprim names raw ∧ (hpkotDefaultKPaths.getItem s).map (namesOn names) =
      .ok true := by
  subst hbl
  obtain ⟨a', b', c', h⟩ := std_orthorhombic hstd (by simp)
  obtain rfl : !![1, 0, 0; 0, 1, 0; 0, 0, 1] = matrix := Option.some.inj hm
  cases hs with
  | oP1 _ =>
    simp [hpkotPointsOf] at hraw
    subst hraw
    exact ⟨_, trims_hpkot_oP_75 h hr, by decide +kernel⟩
  | _ q => exact absurd q (by decide)

theorem trims_h_oF (hbl : bl = "oF") (hstd : StandardCell bl conv)
    (hm : (hpkotConventionalToPrimitive ℝ).get? bl = some matrix)
    (hr : getReciprocal (matrix.transpose * conv) = .ok rprim)
    (hs : HpkotSymbol bl n a b c be ra rb rg s) (hraw : hpkotPointsOf a b c be bl s = .ok raw) :
    ∃ names, TrimTable rprim names raw ∧ (hpkotDefaultKPaths.getItem s).map (namesOn names) =
      .ok true := by
  subst hbl
  obtain ⟨a', b', c', h, -⟩ := std_oF hstd rfl
  obtain rfl : !![0, 1 / 2, 1 / 2; 1 / 2, 0, 1 / 2; 1 / 2, 1 / 2, 0] = matrix := Option.some.inj hm
  cases hs with
  | oF1 _ =>
    simp [hpkotPointsOf] at hraw
    subst hraw
    exact ⟨_, trims_hpkot_oF_76 h hr _ _ _, by decide +kernel⟩
  | oF2 _ =>
    simp [hpkotPointsOf] at hraw
    subst hraw
    exact ⟨_, trims_hpkot_oF_77 h hr _ _ _, by decide +kernel⟩
  | oF3 _ =>
    simp [hpkotPointsOf] at hraw
    subst hraw
    exact ⟨_, trims_hpkot_oF_78 h hr _ _ _, by decide +kernel⟩
  | _ q => exact absurd q (by decide)

theorem trims_h_oI (hbl : bl = "oI") (hstd : StandardCell bl conv)
    (hm : (hpkotConventionalToPrimitive ℝ).get? bl = some matrix)
    (hr : getReciprocal (matrix.transpose * conv) = .ok rprim)
    (hs : HpkotSymbol bl n a b c be ra rb rg s) (hraw : hpkotPointsOf a b c be bl s = .ok raw) :
    ∃ names, TrimTable rprim names raw ∧ (hpkotDefaultKPaths.getItem s).map (namesOn names) =
      .ok true := by
  subst hbl
  obtain ⟨a', b', c', h⟩ := std_orthorhombic hstd (by simp)
  obtain rfl : !![-1 / 2, 1 / 2, 1 / 2; 1 / 2, -1 / 2, 1 / 2; 1 / 2, 1 / 2, -1 / 2] = matrix := Option.some.inj hm
  cases hs with
  | oI1 _ =>
    simp [hpkotPointsOf] at hraw
    subst hraw
    exact ⟨_, trims_hpkot_oI_79 h hr _ _ _, by decide +kernel⟩
  | oI2 _ =>
    simp [hpkotPointsOf] at hraw
    subst hraw
    exact ⟨_, trims_hpkot_oI_80 h hr _ _ _, by decide +kernel⟩
  | oI3 _ =>
    simp [hpkotPointsOf] at hraw
    subst hraw
    exact ⟨_, trims_hpkot_oI_81 h hr _ _ _, by decide +kernel⟩
  | _ q => exact absurd q (by decide)

theorem trims_h_oA (hbl : bl = "oA") (hstd : StandardCell bl conv)
    (hm : (hpkotConventionalToPrimitive ℝ).get? bl = some matrix)
    (hr : getReciprocal (matrix.transpose * conv) = .ok rprim)
    (hs : HpkotSymbol bl n a b c be ra rb rg s) (hraw : hpkotPointsOf a b c be bl s = .ok raw) :
    ∃ names, TrimTable rprim names raw ∧ (hpkotDefaultKPaths.getItem s).map (namesOn names) =
      .ok true := by
  subst hbl
  obtain ⟨a', b', c', h⟩ := std_orthorhombic hstd (by simp)
  obtain rfl : !![0, 0, 1; 1 / 2, 1 / 2, 0; -1 / 2, 1 / 2, 0] = matrix := Option.some.inj hm
  cases hs with
  | oA1 _ =>
    simp [hpkotPointsOf, hpkotZeta82, Except.map] at hraw
    subst hraw
    exact ⟨_, trims_hpkot_oA_82 h hr _, by decide +kernel⟩
  | oA2 _ =>
    simp [hpkotPointsOf, hpkotZeta83, Except.map] at hraw
    subst hraw
    exact ⟨_, trims_hpkot_oA_83 h hr _, by decide +kernel⟩
  | _ q => exact absurd q (by decide)

theorem trims_h_oC (hbl : bl = "oC") (hstd : StandardCell bl conv)
    (hm : (hpkotConventionalToPrimitive ℝ).get? bl = some matrix)
    (hr : getReciprocal (matrix.transpose * conv) = .ok rprim)
    (hs : HpkotSymbol bl n a b c be ra rb rg s) (hraw : hpkotPointsOf a b c be bl s = .ok raw) :
    ∃ names, TrimTable rprim names raw ∧ (hpkotDefaultKPaths.getItem s).map (namesOn names) =
      .ok true := by
  subst hbl
  obtain ⟨a', b', c', h⟩ := std_orthorhombic hstd (by simp)
  obtain rfl : !![1 / 2, 1 / 2, 0; -1 / 2, 1 / 2, 0; 0, 0, 1] = matrix := Option.some.inj hm
  cases hs with
  | oC1 _ =>
    simp [hpkotPointsOf, hpkotZeta82, Except.map] at hraw
    subst hraw
    exact ⟨_, trims_hpkot_oC_82 h hr _, by decide +kernel⟩
  | oC2 _ =>
    simp [hpkotPointsOf, hpkotZeta83, Except.map] at hraw
    subst hraw
    exact ⟨_, trims_hpkot_oC_83 h hr _, by decide +kernel⟩
  | _ q => exact absurd q (by decide)

theorem trims_h_hP (hbl : bl = "hP") (hstd : StandardCell bl conv)
    (hm : (hpkotConventionalToPrimitive ℝ).get? bl = some matrix)
    (hr : getReciprocal (matrix.transpose * conv) = .ok rprim)
    (hs : HpkotSymbol bl n a b c be ra rb rg s) (hraw : hpkotPointsOf a b c be bl s = .ok raw) :
    ∃ names, TrimTable rprim names raw ∧ (hpkotDefaultKPaths.getItem s).map (namesOn names) =
      .ok true := by
  subst hbl
  obtain ⟨a', c', h⟩ := std_hexagonal hstd (by simp)
  obtain rfl : !![1, 0, 0; 0, 1, 0; 0, 0, 1] = matrix := Option.some.inj hm
  cases hs with
  | hP1 _ =>
    simp [hpkotPointsOf] at hraw
    subst hraw
    exact ⟨_, trims_hpkot_hP_84 h hr, by decide +kernel⟩
  | hP2 _ =>
    simp [hpkotPointsOf] at hraw
    subst hraw
    exact ⟨_, trims_hpkot_hP_84 h hr, by decide +kernel⟩
  | _ q => exact absurd q (by decide)

theorem trims_h_hR (hbl : bl = "hR") (hstd : StandardCell bl conv)
    (hm : (hpkotConventionalToPrimitive ℝ).get? bl = some matrix)
    (hr : getReciprocal (matrix.transpose * conv) = .ok rprim)
    (hs : HpkotSymbol bl n a b c be ra rb rg s) (hraw : hpkotPointsOf a b c be bl s = .ok raw) :
    ∃ names, TrimTable rprim names raw ∧ (hpkotDefaultKPaths.getItem s).map (namesOn names) =
      .ok true := by
  subst hbl
  obtain ⟨a', c', h⟩ := std_hexagonal hstd (by simp)
  obtain rfl : !![1, -1 / 2, -1 / 2; 1 / 2, 1 / 2, -1; 1 / 2, 1 / 2, 1 / 2] = matrix := Option.some.inj hm
  cases hs with
  | hR1 _ =>
    simp [hpkotPointsOf] at hraw
    subst hraw
    exact ⟨_, trims_hpkot_hR_85 h hr _ _, by decide +kernel⟩
  | hR2 _ =>
    simp [hpkotPointsOf] at hraw
    subst hraw
    exact ⟨_, trims_hpkot_hR_86 h hr _ _, by decide +kernel⟩
  | _ q => exact absurd q (by decide)

theorem trims_h_mP (hbl : bl = "mP") (hstd : StandardCell bl conv)
    (hm : (hpkotConventionalToPrimitive ℝ).get? bl = some matrix)
    (hr : getReciprocal (matrix.transpose * conv) = .ok rprim)
    (hs : HpkotSymbol bl n a b c be ra rb rg s) (hraw : hpkotPointsOf a b c be bl s = .ok raw) :
    ∃ names, TrimTable rprim names raw ∧ (hpkotDefaultKPaths.getItem s).map (namesOn names) =
      .ok true := by
  subst hbl
  obtain ⟨a', b', c', be', h, -⟩ := std_mP hstd rfl
  obtain rfl : !![1, 0, 0; 0, 1, 0; 0, 0, 1] = matrix := Option.some.inj hm
  cases hs with
  | mP1 _ =>
    simp [hpkotPointsOf] at hraw
    subst hraw
    exact ⟨_, trims_hpkot_mP_87 h hr _ _ _, by decide +kernel⟩
  | _ q => exact absurd q (by decide)

theorem trims_h_mC (hbl : bl = "mC") (hstd : StandardCell bl conv)
    (hm : (hpkotConventionalToPrimitive ℝ).get? bl = some matrix)
    (hr : getReciprocal (matrix.transpose * conv) = .ok rprim)
    (hs : HpkotSymbol bl n a b c be ra rb rg s) (hraw : hpkotPointsOf a b c be bl s = .ok raw) :
    ∃ names, TrimTable rprim names raw ∧ (hpkotDefaultKPaths.getItem s).map (namesOn names) =
      .ok true := by
  subst hbl
  obtain ⟨a', b', c', be', h, -⟩ := std_mC hstd rfl
  obtain rfl : !![1 / 2, -1 / 2, 0; 1 / 2, 1 / 2, 0; 0, 0, 1] = matrix := Option.some.inj hm
  cases hs with
  | mC1 _ =>
    simp [hpkotPointsOf] at hraw
    subst hraw
    exact ⟨_, trims_hpkot_mC_88 h hr _ _ _ _, by decide +kernel⟩
  | mC2 _ =>
    simp [hpkotPointsOf] at hraw
    subst hraw
    exact ⟨_, trims_hpkot_mC_89 h hr _ _ _ _, by decide +kernel⟩
  | mC3 _ =>
    simp [hpkotPointsOf] at hraw
    subst hraw
    exact ⟨_, trims_hpkot_mC_90 h hr _ _ _ _, by decide +kernel⟩
  | _ q => exact absurd q (by decide)

/-- All lattices but the triclinic one with the symbol aP2. -/
theorem trims_hpkot (hbl : bl ∈ bravaisLattices) (hstd : bl ≠ "aP" → StandardCell bl conv)
    (hm : (hpkotConventionalToPrimitive ℝ).get? bl = some matrix)
    (hr : getReciprocal (matrix.transpose * conv) = .ok rprim)
    (hs : HpkotSymbol bl n a b c be ra rb rg s) (hraw : hpkotPointsOf a b c be bl s = .ok raw)
    (h2 : s ≠ "aP2") :
    ∃ names, TrimTable rprim names raw ∧ (hpkotDefaultKPaths.getItem s).map (namesOn names) =
      .ok true := by
  by_cases haP : bl = "aP"
  · subst haP
    obtain rfl : !![1, 0, 0; 0, 1, 0; 0, 0, 1] = matrix := Option.some.inj hm
    cases hs with
    | aP2 _ => exact absurd rfl h2
    | aP3 _ =>
      simp [hpkotPointsOf] at hraw
      subst hraw
      exact ⟨_, trims_hpkot_aP_92 hr, by decide +kernel⟩
    | _ q => exact absurd q (by decide)
  have hstd := hstd haP
  simp only [bravaisLattices, List.mem_cons, List.not_mem_nil, or_false] at hbl
  rcases hbl with h | h | h | h | h | h | h | h | h | h | h | h | h | h | h
  exacts [trims_h_cP h hstd hm hr hs hraw, trims_h_cF h hstd hm hr hs hraw, trims_h_cI h hstd hm hr hs hraw, trims_h_tP h hstd hm hr hs hraw, trims_h_tI h hstd hm hr hs hraw, trims_h_oP h hstd hm hr hs hraw, trims_h_oF h hstd hm hr hs hraw, trims_h_oI h hstd hm hr hs hraw, trims_h_oA h hstd hm hr hs hraw, trims_h_oC h hstd hm hr hs hraw, trims_h_hP h hstd hm hr hs hraw, trims_h_hR h hstd hm hr hs hraw, trims_h_mP h hstd hm hr hs hraw, trims_h_mC h hstd hm hr hs hraw, absurd h haP]

end

section
variable {bl s short : String} {conv matrix rprim : Cell ℝ} {t u a b c al be ga kp ka kb kg : ℝ}
  {raw : PyDict String (Vec ℝ)}

theorem trims_s_cP (hbl : bl = "cP") (hcell : bl ≠ "aP" → ScCell bl conv)
    (hm : (scConventionalToPrimitive ℝ).get? bl = some matrix)
    (hr : getReciprocal (matrix.transpose * conv) = .ok rprim)
    (hs : ScVariation bl t u a b c al kp ka kb kg s)
    (hsh : scBravaisLatticeShortNames.get? bl = some short)
    (hraw : scPointsOf a b c al short (some s) = .ok raw) :
    ∃ names, TrimTable rprim names raw ∧ (scDefaultKPaths.getItem s).map (namesOn names) =
      .ok true := by
  subst hbl
  obtain rfl : "CUB" = short := Option.some.inj hsh
  have hcell := hcell (by decide)
  obtain ⟨a', h⟩ := scCell_cubic hcell (by simp)
  obtain rfl : !![1, 0, 0; 0, 1, 0; 0, 0, 1] = matrix := Option.some.inj hm
  cases hs with
  | cub _ =>
    simp [scPointsOf] at hraw
    subst hraw
    exact ⟨_, trims_sc_cP_2 h hr, by decide +kernel⟩
  | orcc q => exact absurd q (by decide)
  | _ q => exact absurd q (by decide)

theorem trims_s_cF (hbl : bl = "cF") (hcell : bl ≠ "aP" → ScCell bl conv)
    (hm : (scConventionalToPrimitive ℝ).get? bl = some matrix)
    (hr : getReciprocal (matrix.transpose * conv) = .ok rprim)
    (hs : ScVariation bl t u a b c al kp ka kb kg s)
    (hsh : scBravaisLatticeShortNames.get? bl = some short)
    (hraw : scPointsOf a b c al short (some s) = .ok raw) :
    ∃ names, TrimTable rprim names raw ∧ (scDefaultKPaths.getItem s).map (namesOn names) =
      .ok true := by
  subst hbl
  obtain rfl : "FCC" = short := Option.some.inj hsh
  have hcell := hcell (by decide)
  obtain ⟨a', h⟩ := scCell_cubic hcell (by simp)
  obtain rfl : !![0, 1 / 2, 1 / 2; 1 / 2, 0, 1 / 2; 1 / 2, 1 / 2, 0] = matrix := Option.some.inj hm
  cases hs with
  | fcc _ =>
    simp [scPointsOf] at hraw
    subst hraw
    exact ⟨_, trims_sc_cF_3 h hr, by decide +kernel⟩
  | orcc q => exact absurd q (by decide)
  | _ q => exact absurd q (by decide)

theorem trims_s_cI (hbl : bl = "cI") (hcell : bl ≠ "aP" → ScCell bl conv)
    (hm : (scConventionalToPrimitive ℝ).get? bl = some matrix)
    (hr : getReciprocal (matrix.transpose * conv) = .ok rprim)
    (hs : ScVariation bl t u a b c al kp ka kb kg s)
    (hsh : scBravaisLatticeShortNames.get? bl = some short)
    (hraw : scPointsOf a b c al short (some s) = .ok raw) :
    ∃ names, TrimTable rprim names raw ∧ (scDefaultKPaths.getItem s).map (namesOn names) =
      .ok true := by
  subst hbl
  obtain rfl : "BCC" = short := Option.some.inj hsh
  have hcell := hcell (by decide)
  obtain ⟨a', h⟩ := scCell_cubic hcell (by simp)
  obtain rfl : !![-1 / 2, 1 / 2, 1 / 2; 1 / 2, -1 / 2, 1 / 2; 1 / 2, 1 / 2, -1 / 2] = matrix := Option.some.inj hm
  cases hs with
  | bcc _ =>
    simp [scPointsOf] at hraw
    subst hraw
    exact ⟨_, trims_sc_cI_4 h hr, by decide +kernel⟩
  | orcc q => exact absurd q (by decide)
  | _ q => exact absurd q (by decide)

theorem trims_s_tP (hbl : bl = "tP") (hcell : bl ≠ "aP" → ScCell bl conv)
    (hm : (scConventionalToPrimitive ℝ).get? bl = some matrix)
    (hr : getReciprocal (matrix.transpose * conv) = .ok rprim)
    (hs : ScVariation bl t u a b c al kp ka kb kg s)
    (hsh : scBravaisLatticeShortNames.get? bl = some short)
    (hraw : scPointsOf a b c al short (some s) = .ok raw) :
    ∃ names, TrimTable rprim names raw ∧ (scDefaultKPaths.getItem s).map (namesOn names) =
      .ok true := by
  subst hbl
  obtain rfl : "TET" = short := Option.some.inj hsh
  have hcell := hcell (by decide)
  obtain ⟨a', c', h⟩ := scCell_tetragonal hcell (by simp)
  obtain rfl : !![1, 0, 0; 0, 1, 0; 0, 0, 1] = matrix := Option.some.inj hm
  cases hs with
  | tet _ =>
    simp [scPointsOf] at hraw
    subst hraw
    exact ⟨_, trims_sc_tP_5 h hr, by decide +kernel⟩
  | orcc q => exact absurd q (by decide)
  | _ q => exact absurd q (by decide)

theorem trims_s_tI (hbl : bl = "tI") (hcell : bl ≠ "aP" → ScCell bl conv)
    (hm : (scConventionalToPrimitive ℝ).get? bl = some matrix)
    (hr : getReciprocal (matrix.transpose * conv) = .ok rprim)
    (hs : ScVariation bl t u a b c al kp ka kb kg s)
    (hsh : scBravaisLatticeShortNames.get? bl = some short)
    (hraw : scPointsOf a b c al short (some s) = .ok raw) :
    ∃ names, TrimTable rprim names raw ∧ (scDefaultKPaths.getItem s).map (namesOn names) =
      .ok true := by
  subst hbl
  obtain rfl : "BCT" = short := Option.some.inj hsh
  have hcell := hcell (by decide)
  obtain ⟨a', c', h⟩ := scCell_tetragonal hcell (by simp)
  obtain rfl : !![-1 / 2, 1 / 2, 1 / 2; 1 / 2, -1 / 2, 1 / 2; 1 / 2, 1 / 2, -1 / 2] = matrix := Option.some.inj hm
  cases hs with
  | bct1 _ =>
    simp [scPointsOf] at hraw
    subst hraw
    exact ⟨_, trims_sc_tI_6 h hr _ _, by decide +kernel⟩
  | bct2 _ =>
    simp [scPointsOf] at hraw
    subst hraw
    exact ⟨_, trims_sc_tI_7 h hr _ _, by decide +kernel⟩
  | orcc q => exact absurd q (by decide)
  | _ q => exact absurd q (by decide)

theorem trims_s_oP (hbl : bl = "oP") (hcell : bl ≠ "aP" → ScCell bl conv)
    (hm : (scConventionalToPrimitive ℝ).get? bl = some matrix)
    (hr : getReciprocal (matrix.transpose * conv) = .ok rprim)
    (hs : ScVariation bl t u a b c al kp ka kb kg s)
    (hsh : scBravaisLatticeShortNames.get? bl = some short)
    (hraw : scPointsOf a b c al short (some s) = .ok raw) :
    ∃ names, TrimTable rprim names raw ∧ (scDefaultKPaths.getItem s).map (namesOn names) =
      .ok true := by
  subst hbl
  obtain rfl : "ORC" = short := Option.some.inj hsh
  have hcell := hcell (by decide)
  obtain ⟨a', b', c', h⟩ := scCell_orthorhombic hcell (by simp)
  obtain rfl : !![1, 0, 0; 0, 1, 0; 0, 0, 1] = matrix := Option.some.inj hm
  cases hs with
  | orc _ =>
    simp [scPointsOf] at hraw
    subst hraw
    exact ⟨_, trims_sc_oP_8 h hr, by decide +kernel⟩
  | orcc q => exact absurd q (by decide)
  | _ q => exact absurd q (by decide)

theorem trims_s_oF (hbl : bl = "oF") (hcell : bl ≠ "aP" → ScCell bl conv)
    (hm : (scConventionalToPrimitive ℝ).get? bl = some matrix)
    (hr : getReciprocal (matrix.transpose * conv) = .ok rprim)
    (hs : ScVariation bl t u a b c al kp ka kb kg s)
    (hsh : scBravaisLatticeShortNames.get? bl = some short)
    (hraw : scPointsOf a b c al short (some s) = .ok raw) :
    ∃ names, TrimTable rprim names raw ∧ (scDefaultKPaths.getItem s).map (namesOn names) =
      .ok true := by
  subst hbl
  obtain rfl : "ORCF" = short := Option.some.inj hsh
  have hcell := hcell (by decide)
  obtain ⟨a', b', c', h⟩ := scCell_orthorhombic hcell (by simp)
  obtain rfl : !![0, 1 / 2, 1 / 2; 1 / 2, 0, 1 / 2; 1 / 2, 1 / 2, 0] = matrix := Option.some.inj hm
  cases hs with
  | orcf1 _ =>
    simp [scPointsOf] at hraw
    subst hraw
    exact ⟨_, trims_sc_oF_9 h hr _ _ _, by decide +kernel⟩
  | orcf2 _ =>
    simp [scPointsOf] at hraw
    subst hraw
    exact ⟨_, trims_sc_oF_10 h hr _ _ _, by decide +kernel⟩
  | orcf3 _ =>
    simp [scPointsOf] at hraw
    subst hraw
    exact ⟨_, trims_sc_oF_9 h hr _ _ _, by decide +kernel⟩
  | orcc q => exact absurd q (by decide)
  | _ q => exact absurd q (by decide)

theorem trims_s_oI (hbl : bl = "oI") (hcell : bl ≠ "aP" → ScCell bl conv)
    (hm : (scConventionalToPrimitive ℝ).get? bl = some matrix)
    (hr : getReciprocal (matrix.transpose * conv) = .ok rprim)
    (hs : ScVariation bl t u a b c al kp ka kb kg s)
    (hsh : scBravaisLatticeShortNames.get? bl = some short)
    (hraw : scPointsOf a b c al short (some s) = .ok raw) :
    ∃ names, TrimTable rprim names raw ∧ (scDefaultKPaths.getItem s).map (namesOn names) =
      .ok true := by
  subst hbl
  obtain rfl : "ORCI" = short := Option.some.inj hsh
  have hcell := hcell (by decide)
  obtain ⟨a', b', c', h, -⟩ := scCell_bodyCentred hcell (by simp)
  obtain rfl : !![-1 / 2, 1 / 2, 1 / 2; 1 / 2, -1 / 2, 1 / 2; 1 / 2, 1 / 2, -1 / 2] = matrix := Option.some.inj hm
  cases hs with
  | orci _ =>
    simp [scPointsOf] at hraw
    subst hraw
    exact ⟨_, trims_sc_oI_11 h hr _ _ _, by decide +kernel⟩
  | orcc q => exact absurd q (by decide)
  | _ q => exact absurd q (by decide)

theorem trims_s_oC (hbl : bl = "oC") (hcell : bl ≠ "aP" → ScCell bl conv)
    (hm : (scConventionalToPrimitive ℝ).get? bl = some matrix)
    (hr : getReciprocal (matrix.transpose * conv) = .ok rprim)
    (hs : ScVariation bl t u a b c al kp ka kb kg s)
    (hsh : scBravaisLatticeShortNames.get? bl = some short)
    (hraw : scPointsOf a b c al short (some s) = .ok raw) :
    ∃ names, TrimTable rprim names raw ∧ (scDefaultKPaths.getItem s).map (namesOn names) =
      .ok true := by
  subst hbl
  obtain rfl : "ORCC" = short := Option.some.inj hsh
  have hcell := hcell (by decide)
  obtain ⟨a', b', c', h, -⟩ := scCell_baseCentred hcell (by simp)
  obtain rfl : !![1 / 2, 1 / 2, 0; -1 / 2, 1 / 2, 0; 0, 0, 1] = matrix := Option.some.inj hm
  cases hs with
  | orcc _ =>
    simp [scPointsOf] at hraw
    subst hraw
    exact ⟨_, trims_sc_oC_12 h hr _ _, by decide +kernel⟩
  | _ q => exact absurd q (by decide)

theorem trims_s_oA (hbl : bl = "oA") (hcell : bl ≠ "aP" → ScCell bl conv)
    (hm : (scConventionalToPrimitive ℝ).get? bl = some matrix)
    (hr : getReciprocal (matrix.transpose * conv) = .ok rprim)
    (hs : ScVariation bl t u a b c al kp ka kb kg s)
    (hsh : scBravaisLatticeShortNames.get? bl = some short)
    (hraw : scPointsOf a b c al short (some s) = .ok raw) :
    ∃ names, TrimTable rprim names raw ∧ (scDefaultKPaths.getItem s).map (namesOn names) =
      .ok true := by
  subst hbl
  obtain rfl : "ORCC" = short := Option.some.inj hsh
  have hcell := hcell (by decide)
  obtain ⟨a', b', c', h, -⟩ := scCell_baseCentred hcell (by simp)
  obtain rfl : !![1 / 2, 1 / 2, 0; -1 / 2, 1 / 2, 0; 0, 0, 1] = matrix := Option.some.inj hm
  cases hs with
  | orcc _ =>
    simp [scPointsOf] at hraw
    subst hraw
    exact ⟨_, trims_sc_oA_12 h hr _ _, by decide +kernel⟩
  | _ q => exact absurd q (by decide)

theorem trims_s_hP (hbl : bl = "hP") (hcell : bl ≠ "aP" → ScCell bl conv)
    (hm : (scConventionalToPrimitive ℝ).get? bl = some matrix)
    (hr : getReciprocal (matrix.transpose * conv) = .ok rprim)
    (hs : ScVariation bl t u a b c al kp ka kb kg s)
    (hsh : scBravaisLatticeShortNames.get? bl = some short)
    (hraw : scPointsOf a b c al short (some s) = .ok raw) :
    ∃ names, TrimTable rprim names raw ∧ (scDefaultKPaths.getItem s).map (namesOn names) =
      .ok true := by
  subst hbl
  obtain rfl : "HEX" = short := Option.some.inj hsh
  have hcell := hcell (by decide)
  obtain ⟨a', c', h⟩ := scCell_hexagonal hcell (by simp)
  obtain rfl : !![1, 0, 0; 0, 1, 0; 0, 0, 1] = matrix := Option.some.inj hm
  cases hs with
  | hex _ =>
    simp [scPointsOf] at hraw
    subst hraw
    exact ⟨_, trims_sc_hP_13 h hr, by decide +kernel⟩
  | orcc q => exact absurd q (by decide)
  | _ q => exact absurd q (by decide)

theorem trims_s_hR (hbl : bl = "hR") (hcell : bl ≠ "aP" → ScCell bl conv)
    (hm : (scConventionalToPrimitive ℝ).get? bl = some matrix)
    (hr : getReciprocal (matrix.transpose * conv) = .ok rprim)
    (hs : ScVariation bl t u a b c al kp ka kb kg s)
    (hsh : scBravaisLatticeShortNames.get? bl = some short)
    (hraw : scPointsOf a b c al short (some s) = .ok raw) :
    ∃ names, TrimTable rprim names raw ∧ (scDefaultKPaths.getItem s).map (namesOn names) =
      .ok true := by
  subst hbl
  obtain rfl : "RHL" = short := Option.some.inj hsh
  have hcell := hcell (by decide)
  obtain ⟨a', al', h⟩ := scCell_rhombohedral hcell (by simp)
  obtain rfl : !![1, 0, 0; 0, 1, 0; 0, 0, 1] = matrix := Option.some.inj hm
  cases hs with
  | rhl1 _ =>
    simp [scPointsOf] at hraw
    subst hraw
    exact ⟨_, trims_sc_hR_14 h hr _, by decide +kernel⟩
  | rhl2 _ =>
    simp [scPointsOf] at hraw
    subst hraw
    exact ⟨_, trims_sc_hR_15 h hr _, by decide +kernel⟩
  | orcc q => exact absurd q (by decide)
  | _ q => exact absurd q (by decide)

theorem trims_s_mP (hbl : bl = "mP") (hcell : bl ≠ "aP" → ScCell bl conv)
    (hm : (scConventionalToPrimitive ℝ).get? bl = some matrix)
    (hr : getReciprocal (matrix.transpose * conv) = .ok rprim)
    (hs : ScVariation bl t u a b c al kp ka kb kg s)
    (hsh : scBravaisLatticeShortNames.get? bl = some short)
    (hraw : scPointsOf a b c al short (some s) = .ok raw) :
    ∃ names, TrimTable rprim names raw ∧ (scDefaultKPaths.getItem s).map (namesOn names) =
      .ok true := by
  subst hbl
  obtain rfl : "MCL" = short := Option.some.inj hsh
  have hcell := hcell (by decide)
  obtain ⟨a', b', c', al', h, -⟩ := scCell_monoclinic hcell (by simp)
  obtain rfl : !![1, 0, 0; 0, 1, 0; 0, 0, 1] = matrix := Option.some.inj hm
  cases hs with
  | mcl _ =>
    simp [scPointsOf] at hraw
    subst hraw
    exact ⟨_, trims_sc_mP_16 h hr _ _ _, by decide +kernel⟩
  | orcc q => exact absurd q (by decide)
  | _ q => exact absurd q (by decide)

theorem trims_s_mC (hbl : bl = "mC") (hcell : bl ≠ "aP" → ScCell bl conv)
    (hm : (scConventionalToPrimitive ℝ).get? bl = some matrix)
    (hr : getReciprocal (matrix.transpose * conv) = .ok rprim)
    (hs : ScVariation bl t u a b c al kp ka kb kg s)
    (hsh : scBravaisLatticeShortNames.get? bl = some short)
    (hraw : scPointsOf a b c al short (some s) = .ok raw) :
    ∃ names, TrimTable rprim names raw ∧ (scDefaultKPaths.getItem s).map (namesOn names) =
      .ok true := by
  subst hbl
  obtain rfl : "MCLC" = short := Option.some.inj hsh
  have hcell := hcell (by decide)
  obtain ⟨a', b', c', al', h, -⟩ := scCell_monoclinicC hcell (by simp)
  obtain rfl : !![1 / 2, -1 / 2, 0; 1 / 2, 1 / 2, 0; 0, 0, 1] = matrix := Option.some.inj hm
  cases hs with
  | mclc1 _ =>
    simp [scPointsOf] at hraw
    subst hraw
    exact ⟨_, trims_sc_mC_17 h hr _ _ _ _, by decide +kernel⟩
  | mclc2 _ =>
    simp [scPointsOf] at hraw
    subst hraw
    exact ⟨_, trims_sc_mC_17 h hr _ _ _ _, by decide +kernel⟩
  | mclc3 _ =>
    simp [scPointsOf] at hraw
    subst hraw
    exact ⟨_, trims_sc_mC_18 h hr _ _ _ _, by decide +kernel⟩
  | mclc4 _ =>
    simp [scPointsOf] at hraw
    subst hraw
    exact ⟨_, trims_sc_mC_18 h hr _ _ _ _, by decide +kernel⟩
  | mclc5 _ =>
    simp [scPointsOf] at hraw
    subst hraw
    exact ⟨_, trims_sc_mC_19 h hr _ _ _ _, by decide +kernel⟩
  | orcc q => exact absurd q (by decide)
  | _ q => exact absurd q (by decide)

theorem trims_s_aP (hbl : bl = "aP") (hcell : bl ≠ "aP" → ScCell bl conv)
    (hm : (scConventionalToPrimitive ℝ).get? bl = some matrix)
    (hr : getReciprocal (matrix.transpose * conv) = .ok rprim)
    (hs : ScVariation bl t u a b c al kp ka kb kg s)
    (hsh : scBravaisLatticeShortNames.get? bl = some short)
    (hraw : scPointsOf a b c al short (some s) = .ok raw) :
    ∃ names, TrimTable rprim names raw ∧ (scDefaultKPaths.getItem s).map (namesOn names) =
      .ok true := by
  subst hbl
  obtain rfl : "TRI" = short := Option.some.inj hsh
  clear hcell
  obtain rfl : !![1, 0, 0; 0, 1, 0; 0, 0, 1] = matrix := Option.some.inj hm
  cases hs with
  | tri1a _ =>
    simp [scPointsOf] at hraw
    subst hraw
    exact ⟨_, trims_sc_aP_20 hr, by decide +kernel⟩
  | tri1b _ =>
    simp [scPointsOf] at hraw
    subst hraw
    exact ⟨_, trims_sc_aP_21 hr, by decide +kernel⟩
  | tri2a _ =>
    simp [scPointsOf] at hraw
    subst hraw
    exact ⟨_, trims_sc_aP_20 hr, by decide +kernel⟩
  | tri2b _ =>
    simp [scPointsOf] at hraw
    subst hraw
    exact ⟨_, trims_sc_aP_21 hr, by decide +kernel⟩
  | orcc q => exact absurd q (by decide)
  | _ q => exact absurd q (by decide)

theorem trims_sc (hbl : bl ∈ bravaisLattices) (hcell : bl ≠ "aP" → ScCell bl conv)
    (hm : (scConventionalToPrimitive ℝ).get? bl = some matrix)
    (hr : getReciprocal (matrix.transpose * conv) = .ok rprim)
    (hs : ScVariation bl t u a b c al kp ka kb kg s)
    (hsh : scBravaisLatticeShortNames.get? bl = some short)
    (hraw : scPointsOf a b c al short (some s) = .ok raw) :
    ∃ names, TrimTable rprim names raw ∧ (scDefaultKPaths.getItem s).map (namesOn names) =
      .ok true := by
  simp only [bravaisLattices, List.mem_cons, List.not_mem_nil, or_false] at hbl
  rcases hbl with h | h | h | h | h | h | h | h | h | h | h | h | h | h | h
  exacts [trims_s_cP h hcell hm hr hs hsh hraw, trims_s_cF h hcell hm hr hs hsh hraw, trims_s_cI h hcell hm hr hs hsh hraw, trims_s_tP h hcell hm hr hs hsh hraw, trims_s_tI h hcell hm hr hs hsh hraw, trims_s_oP h hcell hm hr hs hsh hraw, trims_s_oF h hcell hm hr hs hsh hraw, trims_s_oI h hcell hm hr hs hsh hraw, trims_s_oA h hcell hm hr hs hsh hraw, trims_s_oC h hcell hm hr hs hsh hraw, trims_s_hP h hcell hm hr hs hsh hraw, trims_s_hR h hcell hm hr hs hsh hraw, trims_s_mP h hcell hm hr hs hsh hraw, trims_s_mC h hcell hm hr hs hsh hraw, trims_s_aP h hcell hm hr hs hsh hraw]

end

theorem get?_of_mem_keys {V : Type} {d : PyDict String V} (hd : d.keys.Nodup)
    {x : String × V} (hx : x ∈ d) : d.get? x.1 = some x.2 := by
  induction d with
  | nil => simp at hx
  | cons y d ih =>
    obtain ⟨k, v⟩ := y
    have hd' := List.nodup_cons.1 hd
    rcases List.mem_cons.1 hx with rfl | hx
    · simp [PyDict.get?]
    · have hne : k ≠ x.1 := fun e => hd'.1 (List.mem_map.2 ⟨x, hx, e.symm⟩)
      simp only [PyDict.get?, if_neg hne]
      exact ih hd'.2 hx

/-- Every point of the table is returned, under its name. -/
theorem table_point {cell rprim : Cell ℝ} {kpath path : String}
    {raw pts : PyDict String (Vec ℝ)} {inv t : Bool} (hg : GoodTable kpath raw)
    (h : (do
        let points ← allCoordinates cell rprim false raw
        extendPath inv t kpath points) = Except.ok (path, pts)) {x : String × Vec ℝ}
    (hx : x ∈ raw) : pts.get? x.1 = some (x.2 ᵥ* rprim) := by
  cases he : allCoordinates cell rprim false raw with
  | error _ => simp [he, bind, Except.bind] at h
  | ok e =>
  simp only [he, bind, Except.bind] at h
  obtain ⟨k1, k2⟩ := allCoordinates_ok he
  have hxr : raw.get? x.1 = some x.2 := get?_of_mem_keys (let ⟨_, _, h, _⟩ := hg.spec; h) hx
  obtain ⟨v, hv, c1⟩ := k2 _ _ hxr
  rw [pointCoordinates_absolute c1, vecMat_row] at hv
  by_cases hi : inv = true ∨ t = true
  · rw [extend_same hi] at h
    cases h
    exact hv
  · rw [not_or, Bool.not_eq_true, Bool.not_eq_true] at hi
    rw [hi.1, hi.2] at h
    obtain ⟨p, path', e', hp, he', e1, e2, e3, e4⟩ := extend_spec hg k1
    rw [he'] at h
    cases h
    rw [e3 _ (by rw [← PyDict.get?_isSome, hv]; rfl)]
    exact hv

/-- Names on the path of the table are on the path returned. -/
theorem names_on {cell rprim : Cell ℝ} {kpath path : String}
    {raw pts : PyDict String (Vec ℝ)} {inv t : Bool} (hg : GoodTable kpath raw)
    (h : (do
        let points ← allCoordinates cell rprim false raw
        extendPath inv t kpath points) = Except.ok (path, pts)) {names : List String}
    (hn : namesOn names kpath = true) :
    ∃ p, getPathAsList path = .ok p ∧ ∀ n ∈ names, ∃ sub ∈ p, n ∈ sub := by
  cases he : allCoordinates cell rprim false raw with
  | error _ => simp [he, bind, Except.bind] at h
  | ok e =>
  simp only [he, bind, Except.bind] at h
  obtain ⟨k1, -⟩ := allCoordinates_ok he
  obtain ⟨p, path', e', hp, he', e1, -⟩ := extend_spec hg k1
  have hon : ∀ n ∈ names, ∃ sub ∈ p, n ∈ sub := by
    intro n hnn
    unfold namesOn at hn
    rw [hp] at hn
    exact List.mem_flatten.1 (of_decide_eq_true (List.all_eq_true.1 hn n hnn))
  by_cases hi : inv = true ∨ t = true
  · rw [extend_same hi] at h
    cases h
    exact ⟨p, hp, hon⟩
  · rw [not_or, Bool.not_eq_true, Bool.not_eq_true] at hi
    rw [hi.1, hi.2, he'] at h
    cases h
    exact ⟨_, e1, fun n hnn => let ⟨sub, h1, h2⟩ := hon n hnn
      ⟨sub, List.mem_append_left _ h1, h2⟩⟩

end Wulfric
