import Verif.Lemmas.ZoneSc
import Verif.Lemmas.PlacesC

/-! # The places of the points of the SC tables, for the cells of the lattices -/

namespace Wulfric

open Matrix _root_.Spec Wulfric.Spec

section
variable {conv prim rprim matrix : Cell ℝ} {a b c al be ga t u : ℝ}
  {bl s short : String} {kp ka kb kg : ℝ} {raw : PyDict String (Vec ℝ)}

theorem scat_cP (hbl : bl = "cP") (hcell : ScCell bl conv)
    (ht : 0 ≤ t) (hu : 0 ≤ u)
    (hm : (scConventionalToPrimitive ℝ).get? bl = some matrix)
    (hr : getReciprocal (matrix.transpose * conv) = .ok rprim)
    (hp : getParams conv = .ok (a, b, c, al, be, ga))
    (hs : ScVariation bl t u a b c al kp ka kb kg s)
    (hkp : bl = "mC" → ∃ x y z p q, HasParams rprim x y z p q kp)
    (hsh : scBravaisLatticeShortNames.get? bl = some short)
    (hraw : scPointsOf a b c al short (some s) = .ok raw) :
    ∃ l, (s, l) ∈ scPlaces ∧ List.Forall₂ (PlacedAt rprim) raw l := by
  subst hbl
  obtain rfl : "CUB" = short := Option.some.inj hsh
  obtain ⟨-, ea, eb, ec⟩ := getParams_ok hp
  have ha := machineEps_pos.trans ea
  have hb := machineEps_pos.trans eb
  have hc := machineEps_pos.trans ec
  clear ea eb ec
  obtain ⟨a', h⟩ := scCell_cubic hcell (by simp)
  obtain ⟨rfl, rfl, rfl, -, -, -⟩ := params_unique hp h
  have hA : 0 < 1 / a' ^ 2 := by positivity
  obtain rfl : !![1, 0, 0; 0, 1, 0; 0, 0, 1] = matrix := Option.some.inj hm
  cases hs with
  | cub q1 =>
    have hraw' : scPointsOf a' a' a' al "CUB" (some "CUB") = .ok scTable2 := by
      simp [scPointsOf]
    rw [hraw'] at hraw
    cases hraw
    exact ⟨_, by simp only [scPlaces, List.mem_cons, true_or, or_true], (form_P ha.ne' ha.ne' ha.ne' h).allPlaced hr
      (places_CUB)⟩
  | orcc q => exact absurd q (by decide)
  | _ q => exact absurd q (by decide)

theorem scat_cF (hbl : bl = "cF") (hcell : ScCell bl conv)
    (ht : 0 ≤ t) (hu : 0 ≤ u)
    (hm : (scConventionalToPrimitive ℝ).get? bl = some matrix)
    (hr : getReciprocal (matrix.transpose * conv) = .ok rprim)
    (hp : getParams conv = .ok (a, b, c, al, be, ga))
    (hs : ScVariation bl t u a b c al kp ka kb kg s)
    (hkp : bl = "mC" → ∃ x y z p q, HasParams rprim x y z p q kp)
    (hsh : scBravaisLatticeShortNames.get? bl = some short)
    (hraw : scPointsOf a b c al short (some s) = .ok raw) :
    ∃ l, (s, l) ∈ scPlaces ∧ List.Forall₂ (PlacedAt rprim) raw l := by
  subst hbl
  obtain rfl : "FCC" = short := Option.some.inj hsh
  obtain ⟨-, ea, eb, ec⟩ := getParams_ok hp
  have ha := machineEps_pos.trans ea
  have hb := machineEps_pos.trans eb
  have hc := machineEps_pos.trans ec
  clear ea eb ec
  obtain ⟨a', h⟩ := scCell_cubic hcell (by simp)
  obtain ⟨rfl, rfl, rfl, -, -, -⟩ := params_unique hp h
  have hA : 0 < 1 / a' ^ 2 := by positivity
  obtain rfl : !![0, 1 / 2, 1 / 2; 1 / 2, 0, 1 / 2; 1 / 2, 1 / 2, 0] = matrix := Option.some.inj hm
  cases hs with
  | fcc q1 =>
    have hraw' : scPointsOf a' a' a' al "FCC" (some "FCC") = .ok scTable3 := by
      simp [scPointsOf]
    rw [hraw'] at hraw
    cases hraw
    exact ⟨_, by simp only [scPlaces, List.mem_cons, true_or, or_true], (form_F ha.ne' ha.ne' ha.ne' h rfl rfl rfl).allPlaced hr
      (places_FCC)⟩
  | orcc q => exact absurd q (by decide)
  | _ q => exact absurd q (by decide)

theorem scat_cI (hbl : bl = "cI") (hcell : ScCell bl conv)
    (ht : 0 ≤ t) (hu : 0 ≤ u)
    (hm : (scConventionalToPrimitive ℝ).get? bl = some matrix)
    (hr : getReciprocal (matrix.transpose * conv) = .ok rprim)
    (hp : getParams conv = .ok (a, b, c, al, be, ga))
    (hs : ScVariation bl t u a b c al kp ka kb kg s)
    (hkp : bl = "mC" → ∃ x y z p q, HasParams rprim x y z p q kp)
    (hsh : scBravaisLatticeShortNames.get? bl = some short)
    (hraw : scPointsOf a b c al short (some s) = .ok raw) :
    ∃ l, (s, l) ∈ scPlaces ∧ List.Forall₂ (PlacedAt rprim) raw l := by
  subst hbl
  obtain rfl : "BCC" = short := Option.some.inj hsh
  obtain ⟨-, ea, eb, ec⟩ := getParams_ok hp
  have ha := machineEps_pos.trans ea
  have hb := machineEps_pos.trans eb
  have hc := machineEps_pos.trans ec
  clear ea eb ec
  obtain ⟨a', h⟩ := scCell_cubic hcell (by simp)
  obtain ⟨rfl, rfl, rfl, -, -, -⟩ := params_unique hp h
  have hA : 0 < 1 / a' ^ 2 := by positivity
  obtain rfl : !![-1 / 2, 1 / 2, 1 / 2; 1 / 2, -1 / 2, 1 / 2; 1 / 2, 1 / 2, -1 / 2] = matrix := Option.some.inj hm
  cases hs with
  | bcc q1 =>
    have hraw' : scPointsOf a' a' a' al "BCC" (some "BCC") = .ok scTable4 := by
      simp [scPointsOf]
    rw [hraw'] at hraw
    cases hraw
    exact ⟨_, by simp only [scPlaces, List.mem_cons, true_or, or_true], (form_I ha.ne' ha.ne' ha.ne' h rfl rfl rfl).allPlaced hr
      (places_BCC)⟩
  | orcc q => exact absurd q (by decide)
  | _ q => exact absurd q (by decide)

theorem scat_tP (hbl : bl = "tP") (hcell : ScCell bl conv)
    (ht : 0 ≤ t) (hu : 0 ≤ u)
    (hm : (scConventionalToPrimitive ℝ).get? bl = some matrix)
    (hr : getReciprocal (matrix.transpose * conv) = .ok rprim)
    (hp : getParams conv = .ok (a, b, c, al, be, ga))
    (hs : ScVariation bl t u a b c al kp ka kb kg s)
    (hkp : bl = "mC" → ∃ x y z p q, HasParams rprim x y z p q kp)
    (hsh : scBravaisLatticeShortNames.get? bl = some short)
    (hraw : scPointsOf a b c al short (some s) = .ok raw) :
    ∃ l, (s, l) ∈ scPlaces ∧ List.Forall₂ (PlacedAt rprim) raw l := by
  subst hbl
  obtain rfl : "TET" = short := Option.some.inj hsh
  obtain ⟨-, ea, eb, ec⟩ := getParams_ok hp
  have ha := machineEps_pos.trans ea
  have hb := machineEps_pos.trans eb
  have hc := machineEps_pos.trans ec
  clear ea eb ec
  obtain ⟨a', c', h⟩ := scCell_tetragonal hcell (by simp)
  obtain ⟨rfl, rfl, rfl, -, -, -⟩ := params_unique hp h
  have hA : 0 < 1 / a' ^ 2 := by positivity
  have hC : 0 < 1 / c' ^ 2 := by positivity
  obtain rfl : !![1, 0, 0; 0, 1, 0; 0, 0, 1] = matrix := Option.some.inj hm
  cases hs with
  | tet q1 =>
    have hraw' : scPointsOf a' a' c' al "TET" (some "TET") = .ok scTable5 := by
      simp [scPointsOf]
    rw [hraw'] at hraw
    cases hraw
    exact ⟨_, by simp only [scPlaces, List.mem_cons, true_or, or_true], (form_P ha.ne' ha.ne' hc.ne' h).allPlaced hr
      (places_TET)⟩
  | orcc q => exact absurd q (by decide)
  | _ q => exact absurd q (by decide)

theorem scat_tI (hbl : bl = "tI") (hcell : ScCell bl conv)
    (ht : 0 ≤ t) (hu : 0 ≤ u)
    (hm : (scConventionalToPrimitive ℝ).get? bl = some matrix)
    (hr : getReciprocal (matrix.transpose * conv) = .ok rprim)
    (hp : getParams conv = .ok (a, b, c, al, be, ga))
    (hs : ScVariation bl t u a b c al kp ka kb kg s)
    (hkp : bl = "mC" → ∃ x y z p q, HasParams rprim x y z p q kp)
    (hsh : scBravaisLatticeShortNames.get? bl = some short)
    (hraw : scPointsOf a b c al short (some s) = .ok raw) :
    ∃ l, (s, l) ∈ scPlaces ∧ List.Forall₂ (PlacedAt rprim) raw l := by
  subst hbl
  obtain rfl : "BCT" = short := Option.some.inj hsh
  obtain ⟨-, ea, eb, ec⟩ := getParams_ok hp
  have ha := machineEps_pos.trans ea
  have hb := machineEps_pos.trans eb
  have hc := machineEps_pos.trans ec
  clear ea eb ec
  obtain ⟨a', c', h⟩ := scCell_tetragonal hcell (by simp)
  obtain ⟨rfl, rfl, rfl, -, -, -⟩ := params_unique hp h
  have hA : 0 < 1 / a' ^ 2 := by positivity
  have hC : 0 < 1 / c' ^ 2 := by positivity
  obtain rfl : !![-1 / 2, 1 / 2, 1 / 2; 1 / 2, -1 / 2, 1 / 2; 1 / 2, 1 / 2, -1 / 2] = matrix := Option.some.inj hm
  cases hs with
  | bct1 q1 q2 =>
    have hraw' : scPointsOf a' a' c' al "BCT" (some "BCT1") = .ok (scTable6 a' c') := by
      simp [scPointsOf]
    rw [hraw'] at hraw
    cases hraw
    exact ⟨_, by simp only [scPlaces, List.mem_cons, true_or, or_true], (form_I ha.ne' ha.ne' hc.ne' h rfl rfl rfl).allPlaced hr
      (places_BCT1 ha.ne' hc.ne' rfl rfl)⟩
  | bct2 q1 q2 =>
    have hraw' : scPointsOf a' a' c' al "BCT" (some "BCT2") = .ok (scTable7 a' c') := by
      simp [scPointsOf]
    rw [hraw'] at hraw
    cases hraw
    exact ⟨_, by simp only [scPlaces, List.mem_cons, true_or, or_true], (form_I ha.ne' ha.ne' hc.ne' h rfl rfl rfl).allPlaced hr
      (places_BCT2 ha.ne' hc.ne' rfl rfl)⟩
  | orcc q => exact absurd q (by decide)
  | _ q => exact absurd q (by decide)

theorem scat_oP (hbl : bl = "oP") (hcell : ScCell bl conv)
    (ht : 0 ≤ t) (hu : 0 ≤ u)
    (hm : (scConventionalToPrimitive ℝ).get? bl = some matrix)
    (hr : getReciprocal (matrix.transpose * conv) = .ok rprim)
    (hp : getParams conv = .ok (a, b, c, al, be, ga))
    (hs : ScVariation bl t u a b c al kp ka kb kg s)
    (hkp : bl = "mC" → ∃ x y z p q, HasParams rprim x y z p q kp)
    (hsh : scBravaisLatticeShortNames.get? bl = some short)
    (hraw : scPointsOf a b c al short (some s) = .ok raw) :
    ∃ l, (s, l) ∈ scPlaces ∧ List.Forall₂ (PlacedAt rprim) raw l := by
  subst hbl
  obtain rfl : "ORC" = short := Option.some.inj hsh
  obtain ⟨-, ea, eb, ec⟩ := getParams_ok hp
  have ha := machineEps_pos.trans ea
  have hb := machineEps_pos.trans eb
  have hc := machineEps_pos.trans ec
  clear ea eb ec
  obtain ⟨a', b', c', h⟩ := scCell_orthorhombic hcell (by simp)
  obtain ⟨rfl, rfl, rfl, -, -, -⟩ := params_unique hp h
  have hA : 0 < 1 / a' ^ 2 := by positivity
  have hB : 0 < 1 / b' ^ 2 := by positivity
  have hC : 0 < 1 / c' ^ 2 := by positivity
  obtain rfl : !![1, 0, 0; 0, 1, 0; 0, 0, 1] = matrix := Option.some.inj hm
  cases hs with
  | orc q1 =>
    have hraw' : scPointsOf a' b' c' al "ORC" (some "ORC") = .ok scTable8 := by
      simp [scPointsOf]
    rw [hraw'] at hraw
    cases hraw
    exact ⟨_, by simp only [scPlaces, List.mem_cons, true_or, or_true], (form_P ha.ne' hb.ne' hc.ne' h).allPlaced hr
      (places_ORC)⟩
  | orcc q => exact absurd q (by decide)
  | _ q => exact absurd q (by decide)

theorem scat_oF (hbl : bl = "oF") (hcell : ScCell bl conv)
    (ht : 0 ≤ t) (hu : 0 ≤ u)
    (hm : (scConventionalToPrimitive ℝ).get? bl = some matrix)
    (hr : getReciprocal (matrix.transpose * conv) = .ok rprim)
    (hp : getParams conv = .ok (a, b, c, al, be, ga))
    (hs : ScVariation bl t u a b c al kp ka kb kg s)
    (hkp : bl = "mC" → ∃ x y z p q, HasParams rprim x y z p q kp)
    (hsh : scBravaisLatticeShortNames.get? bl = some short)
    (hraw : scPointsOf a b c al short (some s) = .ok raw) :
    ∃ l, (s, l) ∈ scPlaces ∧ List.Forall₂ (PlacedAt rprim) raw l := by
  subst hbl
  obtain rfl : "ORCF" = short := Option.some.inj hsh
  obtain ⟨-, ea, eb, ec⟩ := getParams_ok hp
  have ha := machineEps_pos.trans ea
  have hb := machineEps_pos.trans eb
  have hc := machineEps_pos.trans ec
  clear ea eb ec
  obtain ⟨a', b', c', h⟩ := scCell_orthorhombic hcell (by simp)
  obtain ⟨rfl, rfl, rfl, -, -, -⟩ := params_unique hp h
  have hA : 0 < 1 / a' ^ 2 := by positivity
  have hB : 0 < 1 / b' ^ 2 := by positivity
  have hC : 0 < 1 / c' ^ 2 := by positivity
  obtain rfl : !![0, 1 / 2, 1 / 2; 1 / 2, 0, 1 / 2; 1 / 2, 1 / 2, 0] = matrix := Option.some.inj hm
  cases hs with
  | orcf1 q1 q2 q3 q4 =>
    have hraw' : scPointsOf a' b' c' al "ORCF" (some "ORCF1") = .ok (scTable9 a' b' c') := by
      simp [scPointsOf]
    rw [hraw'] at hraw
    cases hraw
    exact ⟨_, by simp only [scPlaces, List.mem_cons, true_or, or_true], (form_F ha.ne' hb.ne' hc.ne' h rfl rfl rfl).allPlaced hr
      (places_ORCF1 ha.ne' hb.ne' hc.ne' rfl rfl rfl)⟩
  | orcf2 q1 q2 q3 q4 =>
    have hraw' : scPointsOf a' b' c' al "ORCF" (some "ORCF2") = .ok (scTable10 a' b' c') := by
      simp [scPointsOf]
    rw [hraw'] at hraw
    cases hraw
    have l1 := inv_sq_le ha (show a' ≤ b' by linarith)
    have l2 := inv_sq_le hb (show b' ≤ c' by linarith)
    exact ⟨_, by simp only [scPlaces, List.mem_cons, true_or, or_true], (form_F ha.ne' hb.ne' hc.ne' h rfl rfl rfl).allPlaced hr
      (places_ORCF2 ha.ne' hb.ne' hc.ne' rfl rfl rfl)⟩
  | orcf3 q1 q2 q3 q4 =>
    have hraw' : scPointsOf a' b' c' al "ORCF" (some "ORCF3") = .ok (scTable9 a' b' c') := by
      simp [scPointsOf]
    rw [hraw'] at hraw
    cases hraw
    have hdet := recip_det hr
    obtain ⟨al', be', ga', hpr⟩ := exists_params (c := rprim) (recip_rows hr)
    exact ⟨_, by simp only [scPlaces, List.mem_cons, true_or, or_true], (form_F ha.ne' hb.ne' hc.ne' h rfl rfl rfl).allPlaced hr
      (places_ORCF1 ha.ne' hb.ne' hc.ne' rfl rfl rfl)⟩
  | orcc q => exact absurd q (by decide)
  | _ q => exact absurd q (by decide)

theorem scat_oI (hbl : bl = "oI") (hcell : ScCell bl conv)
    (ht : 0 ≤ t) (hu : 0 ≤ u)
    (hm : (scConventionalToPrimitive ℝ).get? bl = some matrix)
    (hr : getReciprocal (matrix.transpose * conv) = .ok rprim)
    (hp : getParams conv = .ok (a, b, c, al, be, ga))
    (hs : ScVariation bl t u a b c al kp ka kb kg s)
    (hkp : bl = "mC" → ∃ x y z p q, HasParams rprim x y z p q kp)
    (hsh : scBravaisLatticeShortNames.get? bl = some short)
    (hraw : scPointsOf a b c al short (some s) = .ok raw) :
    ∃ l, (s, l) ∈ scPlaces ∧ List.Forall₂ (PlacedAt rprim) raw l := by
  subst hbl
  obtain rfl : "ORCI" = short := Option.some.inj hsh
  obtain ⟨-, ea, eb, ec⟩ := getParams_ok hp
  have ha := machineEps_pos.trans ea
  have hb := machineEps_pos.trans eb
  have hc := machineEps_pos.trans ec
  clear ea eb ec
  obtain ⟨a', b', c', h, h1, h2⟩ := scCell_bodyCentred hcell (by simp)
  obtain ⟨rfl, rfl, rfl, -, -, -⟩ := params_unique hp h
  have hA : 0 < 1 / a' ^ 2 := by positivity
  have hB : 0 < 1 / b' ^ 2 := by positivity
  have hC : 0 < 1 / c' ^ 2 := by positivity
  obtain rfl : !![-1 / 2, 1 / 2, 1 / 2; 1 / 2, -1 / 2, 1 / 2; 1 / 2, 1 / 2, -1 / 2] = matrix := Option.some.inj hm
  cases hs with
  | orci q1 =>
    have hraw' : scPointsOf a' b' c' al "ORCI" (some "ORCI") = .ok (scTable11 a' b' c') := by
      simp [scPointsOf]
    rw [hraw'] at hraw
    cases hraw
    exact ⟨_, by simp only [scPlaces, List.mem_cons, true_or, or_true], (form_I ha.ne' hb.ne' hc.ne' h rfl rfl rfl).allPlaced hr
      (places_ORCI ha.ne' hb.ne' hc.ne' rfl rfl rfl)⟩
  | orcc q => exact absurd q (by decide)
  | _ q => exact absurd q (by decide)

theorem scat_oC (hbl : bl = "oC") (hcell : ScCell bl conv)
    (ht : 0 ≤ t) (hu : 0 ≤ u)
    (hm : (scConventionalToPrimitive ℝ).get? bl = some matrix)
    (hr : getReciprocal (matrix.transpose * conv) = .ok rprim)
    (hp : getParams conv = .ok (a, b, c, al, be, ga))
    (hs : ScVariation bl t u a b c al kp ka kb kg s)
    (hkp : bl = "mC" → ∃ x y z p q, HasParams rprim x y z p q kp)
    (hsh : scBravaisLatticeShortNames.get? bl = some short)
    (hraw : scPointsOf a b c al short (some s) = .ok raw) :
    ∃ l, (s, l) ∈ scPlaces ∧ List.Forall₂ (PlacedAt rprim) raw l := by
  subst hbl
  obtain rfl : "ORCC" = short := Option.some.inj hsh
  obtain ⟨-, ea, eb, ec⟩ := getParams_ok hp
  have ha := machineEps_pos.trans ea
  have hb := machineEps_pos.trans eb
  have hc := machineEps_pos.trans ec
  clear ea eb ec
  obtain ⟨a', b', c', h, h1⟩ := scCell_baseCentred hcell (by simp)
  obtain ⟨rfl, rfl, rfl, -, -, -⟩ := params_unique hp h
  have hA : 0 < 1 / a' ^ 2 := by positivity
  have hB : 0 < 1 / b' ^ 2 := by positivity
  have hC : 0 < 1 / c' ^ 2 := by positivity
  obtain rfl : !![1 / 2, 1 / 2, 0; -1 / 2, 1 / 2, 0; 0, 0, 1] = matrix := Option.some.inj hm
  cases hs with
  | orcc q1 =>
    have hraw' : scPointsOf a' b' c' al "ORCC" (some "ORCC") = .ok (scTable12 a' b') := by
      simp [scPointsOf]
    rw [hraw'] at hraw
    cases hraw
    exact ⟨_, by simp only [scPlaces, List.mem_cons, true_or, or_true], (form_C ha.ne' hb.ne' hc.ne' h rfl rfl rfl).allPlaced hr
      (places_ORCC ha.ne' hb.ne' rfl rfl)⟩
  | _ q => exact absurd q (by decide)

theorem scat_oA (hbl : bl = "oA") (hcell : ScCell bl conv)
    (ht : 0 ≤ t) (hu : 0 ≤ u)
    (hm : (scConventionalToPrimitive ℝ).get? bl = some matrix)
    (hr : getReciprocal (matrix.transpose * conv) = .ok rprim)
    (hp : getParams conv = .ok (a, b, c, al, be, ga))
    (hs : ScVariation bl t u a b c al kp ka kb kg s)
    (hkp : bl = "mC" → ∃ x y z p q, HasParams rprim x y z p q kp)
    (hsh : scBravaisLatticeShortNames.get? bl = some short)
    (hraw : scPointsOf a b c al short (some s) = .ok raw) :
    ∃ l, (s, l) ∈ scPlaces ∧ List.Forall₂ (PlacedAt rprim) raw l := by
  subst hbl
  obtain rfl : "ORCC" = short := Option.some.inj hsh
  obtain ⟨-, ea, eb, ec⟩ := getParams_ok hp
  have ha := machineEps_pos.trans ea
  have hb := machineEps_pos.trans eb
  have hc := machineEps_pos.trans ec
  clear ea eb ec
  obtain ⟨a', b', c', h, h1⟩ := scCell_baseCentred hcell (by simp)
  obtain ⟨rfl, rfl, rfl, -, -, -⟩ := params_unique hp h
  have hA : 0 < 1 / a' ^ 2 := by positivity
  have hB : 0 < 1 / b' ^ 2 := by positivity
  have hC : 0 < 1 / c' ^ 2 := by positivity
  obtain rfl : !![1 / 2, 1 / 2, 0; -1 / 2, 1 / 2, 0; 0, 0, 1] = matrix := Option.some.inj hm
  cases hs with
  | orcc q1 =>
    have hraw' : scPointsOf a' b' c' al "ORCC" (some "ORCC") = .ok (scTable12 a' b') := by
      simp [scPointsOf]
    rw [hraw'] at hraw
    cases hraw
    exact ⟨_, by simp only [scPlaces, List.mem_cons, true_or, or_true], (form_C ha.ne' hb.ne' hc.ne' h rfl rfl rfl).allPlaced hr
      (places_ORCC ha.ne' hb.ne' rfl rfl)⟩
  | _ q => exact absurd q (by decide)

theorem scat_hP (hbl : bl = "hP") (hcell : ScCell bl conv)
    (ht : 0 ≤ t) (hu : 0 ≤ u)
    (hm : (scConventionalToPrimitive ℝ).get? bl = some matrix)
    (hr : getReciprocal (matrix.transpose * conv) = .ok rprim)
    (hp : getParams conv = .ok (a, b, c, al, be, ga))
    (hs : ScVariation bl t u a b c al kp ka kb kg s)
    (hkp : bl = "mC" → ∃ x y z p q, HasParams rprim x y z p q kp)
    (hsh : scBravaisLatticeShortNames.get? bl = some short)
    (hraw : scPointsOf a b c al short (some s) = .ok raw) :
    ∃ l, (s, l) ∈ scPlaces ∧ List.Forall₂ (PlacedAt rprim) raw l := by
  subst hbl
  obtain rfl : "HEX" = short := Option.some.inj hsh
  obtain ⟨-, ea, eb, ec⟩ := getParams_ok hp
  have ha := machineEps_pos.trans ea
  have hb := machineEps_pos.trans eb
  have hc := machineEps_pos.trans ec
  clear ea eb ec
  obtain ⟨a', c', h⟩ := scCell_hexagonal hcell (by simp)
  obtain ⟨rfl, rfl, rfl, -, -, -⟩ := params_unique hp h
  have hA : 0 < 2 / (3 * a' ^ 2) := by positivity
  have hC : 0 < 1 / c' ^ 2 := by positivity
  obtain rfl : !![1, 0, 0; 0, 1, 0; 0, 0, 1] = matrix := Option.some.inj hm
  cases hs with
  | hex q1 =>
    have hraw' : scPointsOf a' a' c' al "HEX" (some "HEX") = .ok scTable13 := by
      simp [scPointsOf]
    rw [hraw'] at hraw
    cases hraw
    exact ⟨_, by simp only [scPlaces, List.mem_cons, true_or, or_true], (form_hP ha.ne' hc.ne' h).allPlaced hr
      (places_HEX)⟩
  | orcc q => exact absurd q (by decide)
  | _ q => exact absurd q (by decide)

theorem scat_hR (hbl : bl = "hR") (hcell : ScCell bl conv)
    (ht : 0 ≤ t) (hu : 0 ≤ u)
    (hm : (scConventionalToPrimitive ℝ).get? bl = some matrix)
    (hr : getReciprocal (matrix.transpose * conv) = .ok rprim)
    (hp : getParams conv = .ok (a, b, c, al, be, ga))
    (hs : ScVariation bl t u a b c al kp ka kb kg s)
    (hkp : bl = "mC" → ∃ x y z p q, HasParams rprim x y z p q kp)
    (hsh : scBravaisLatticeShortNames.get? bl = some short)
    (hraw : scPointsOf a b c al short (some s) = .ok raw) :
    ∃ l, (s, l) ∈ scPlaces ∧ List.Forall₂ (PlacedAt rprim) raw l := by
  subst hbl
  obtain rfl : "RHL" = short := Option.some.inj hsh
  obtain ⟨-, ea, eb, ec⟩ := getParams_ok hp
  have ha := machineEps_pos.trans ea
  have hb := machineEps_pos.trans eb
  have hc := machineEps_pos.trans ec
  clear ea eb ec
  obtain ⟨a', al', h⟩ := scCell_rhombohedral hcell (by simp)
  obtain ⟨rfl, rfl, rfl, rfl, -, -⟩ := params_unique hp h
  have hdet : conv.det ≠ 0 := by
    have := (recip_ok hr).1
    rw [det_mul] at this
    exact right_ne_zero_of_mul this
  obtain ⟨-, hst⟩ := HasParams.strict hdet h
  have h120 : al' < 120 := by linarith [hst.sum]
  obtain ⟨ca, hcos⟩ : ∃ ca, Real.cos (al' * (Real.pi / 180)) = ca := ⟨_, rfl⟩
  have hca1 : ca < 1 := by
    rw [← hcos, ← Real.cos_zero]
    exact Real.cos_lt_cos_of_nonneg_of_le_pi le_rfl (by nlinarith [Real.pi_pos, hst.hal.2])
      (mul_pos hst.hal.1 (by positivity))
  have hca2 : -(1 / 2) < ca := by
    rw [← hcos, ← cos_120]
    exact Real.cos_lt_cos_of_nonneg_of_le_pi (mul_nonneg hst.hal.1.le (by positivity))
      (by nlinarith [Real.pi_pos]) (by nlinarith [Real.pi_pos])
  obtain rfl : !![1, 0, 0; 0, 1, 0; 0, 0, 1] = matrix := Option.some.inj hm
  cases hs with
  | rhl1 q1 q2 =>
    have hraw' : scPointsOf a' a' a' al' "RHL" (some "RHL1") = .ok (scTable14 al') := by
      simp [scPointsOf]
    rw [hraw'] at hraw
    cases hraw
    have hca0 := cos_deg_nonneg hst.hal.1.le (by linarith : al' ≤ 90)
    rw [hcos] at hca0
    exact ⟨_, by simp only [scPlaces, List.mem_cons, true_or, or_true], (form_RHL ha.ne' hcos (by linarith) (by linarith) h).allPlaced hr
      (places_RHL1 hcos (by linarith))⟩
  | rhl2 q1 q2 =>
    have hraw' : scPointsOf a' a' a' al' "RHL" (some "RHL2") = .ok (scTable15 al') := by
      simp [scPointsOf]
    rw [hraw'] at hraw
    cases hraw
    have hca0 := cos_deg_nonpos (by linarith : 90 ≤ al') hst.hal.2.le
    rw [hcos] at hca0
    have htan : Real.tan (al' * toRadians / 2) ^ 2 = (1 - ca) / (1 + ca) := by
      have e : Real.cos (al' * toRadians / 2) ^ 2 = (1 + ca) / 2 := by
        rw [Real.cos_sq, mul_div_cancel₀ _ (two_ne_zero), toRadians, hcos]
        ring
      rw [Real.tan_eq_sin_div_cos, div_pow, Real.sin_sq, e]
      have : 1 + ca ≠ 0 := by linarith
      field_simp
      ring
    exact ⟨_, by simp only [scPlaces, List.mem_cons, true_or, or_true], (form_RHL ha.ne' hcos (by linarith) (by linarith) h).allPlaced hr
      (places_RHL2 htan (by linarith))⟩
  | orcc q => exact absurd q (by decide)
  | _ q => exact absurd q (by decide)

theorem scat_mP (hbl : bl = "mP") (hcell : ScCell bl conv)
    (ht : 0 ≤ t) (hu : 0 ≤ u)
    (hm : (scConventionalToPrimitive ℝ).get? bl = some matrix)
    (hr : getReciprocal (matrix.transpose * conv) = .ok rprim)
    (hp : getParams conv = .ok (a, b, c, al, be, ga))
    (hs : ScVariation bl t u a b c al kp ka kb kg s)
    (hkp : bl = "mC" → ∃ x y z p q, HasParams rprim x y z p q kp)
    (hsh : scBravaisLatticeShortNames.get? bl = some short)
    (hraw : scPointsOf a b c al short (some s) = .ok raw) :
    ∃ l, (s, l) ∈ scPlaces ∧ List.Forall₂ (PlacedAt rprim) raw l := by
  subst hbl
  obtain rfl : "MCL" = short := Option.some.inj hsh
  obtain ⟨-, ea, eb, ec⟩ := getParams_ok hp
  have ha := machineEps_pos.trans ea
  have hb := machineEps_pos.trans eb
  have hc := machineEps_pos.trans ec
  clear ea eb ec
  obtain ⟨a', b', c', al', h, h90, k1, k2⟩ := scCell_monoclinic hcell (by simp)
  obtain ⟨rfl, rfl, rfl, rfl, -, -⟩ := params_unique hp h
  have hdet : conv.det ≠ 0 := by
    have := (recip_ok hr).1
    rw [det_mul] at this
    exact right_ne_zero_of_mul this
  obtain ⟨-, hst⟩ := HasParams.strict hdet h
  have hs0 := cos_deg_strict hst.hal.1 hst.hal.2
  have hca := cos_deg_nonneg hst.hal.1.le h90
  obtain ⟨ca, hcos⟩ : ∃ ca, Real.cos (al' * (Real.pi / 180)) = ca := ⟨_, rfl⟩
  have hs2 : Real.sin (al' * toRadians) ^ 2 = 1 - ca ^ 2 := by
    rw [sin_sq_deg, toRadians, hcos]
  have hcos' : Real.cos (al' * toRadians) = ca := hcos
  have hs2' : Real.sin (al' * (Real.pi / 180)) ^ 2 = 1 - ca ^ 2 := hs2
  rw [hcos] at hs0 hca k1 k2
  obtain ⟨w1, w2, w3, w4⟩ := mono_sizes hb hc hca
  have hX : 0 < (1 - ca ^ 2) / a' ^ 2 := by positivity
  have hY : 0 < 1 / b' ^ 2 := by positivity
  obtain rfl : !![1, 0, 0; 0, 1, 0; 0, 0, 1] = matrix := Option.some.inj hm
  cases hs with
  | mcl q1 =>
    have hraw' : scPointsOf a' b' c' al' "MCL" (some "MCL") = .ok (scTable16 b' c' al') := by
      simp [scPointsOf]
    rw [hraw'] at hraw
    cases hraw
    exact ⟨_, by simp only [scPlaces, List.mem_cons, true_or, or_true], (form_MCL ha.ne' hb.ne' hc.ne' hcos hs0 h).allPlaced hr
      (places_MCL hb.ne' hc.ne' hs0.ne' hcos' hs2 rfl rfl rfl)⟩
  | orcc q => exact absurd q (by decide)
  | _ q => exact absurd q (by decide)

theorem scat_mC (hbl : bl = "mC") (hcell : ScCell bl conv)
    (ht : 0 ≤ t) (hu : 0 ≤ u)
    (hm : (scConventionalToPrimitive ℝ).get? bl = some matrix)
    (hr : getReciprocal (matrix.transpose * conv) = .ok rprim)
    (hp : getParams conv = .ok (a, b, c, al, be, ga))
    (hs : ScVariation bl t u a b c al kp ka kb kg s)
    (hkp : bl = "mC" → ∃ x y z p q, HasParams rprim x y z p q kp)
    (hsh : scBravaisLatticeShortNames.get? bl = some short)
    (hraw : scPointsOf a b c al short (some s) = .ok raw) :
    ∃ l, (s, l) ∈ scPlaces ∧ List.Forall₂ (PlacedAt rprim) raw l := by
  subst hbl
  obtain rfl : "MCLC" = short := Option.some.inj hsh
  obtain ⟨-, ea, eb, ec⟩ := getParams_ok hp
  have ha := machineEps_pos.trans ea
  have hb := machineEps_pos.trans eb
  have hc := machineEps_pos.trans ec
  clear ea eb ec
  obtain ⟨a', b', c', al', h, h90, k1, k2⟩ := scCell_monoclinicC hcell (by simp)
  obtain ⟨rfl, rfl, rfl, rfl, -, -⟩ := params_unique hp h
  have hdet : conv.det ≠ 0 := by
    have := (recip_ok hr).1
    rw [det_mul] at this
    exact right_ne_zero_of_mul this
  obtain ⟨-, hst⟩ := HasParams.strict hdet h
  have hs0 := cos_deg_strict hst.hal.1 hst.hal.2
  have hca := cos_deg_nonneg hst.hal.1.le h90
  obtain ⟨ca, hcos⟩ : ∃ ca, Real.cos (al' * (Real.pi / 180)) = ca := ⟨_, rfl⟩
  have hs2 : Real.sin (al' * toRadians) ^ 2 = 1 - ca ^ 2 := by
    rw [sin_sq_deg, toRadians, hcos]
  have hcos' : Real.cos (al' * toRadians) = ca := hcos
  have hs2' : Real.sin (al' * (Real.pi / 180)) ^ 2 = 1 - ca ^ 2 := hs2
  rw [hcos] at hs0 hca k1 k2
  obtain ⟨w1, w2, w3, w4⟩ := mono_sizes hb hc hca
  have hX : 0 < (1 - ca ^ 2) / a' ^ 2 := by positivity
  have hY : 0 < 1 / b' ^ 2 := by positivity
  obtain rfl : !![1 / 2, -1 / 2, 0; 1 / 2, 1 / 2, 0; 0, 0, 1] = matrix := Option.some.inj hm
  have hform := form_MCLC ha.ne' hb.ne' hc.ne' hcos hs0 h rfl rfl rfl rfl
  obtain ⟨x, y, z, p, q, hkp⟩ := hkp rfl
  obtain ⟨⟨p1, p2, p3⟩, -⟩ := HasParams.strict (recip_det hr) hkp
  have a0 : 0 < dot (rprim 0) (rprim 0) := by rw [hkp.aa]; positivity
  have a1 : 0 < dot (rprim 1) (rprim 1) := by rw [hkp.bb]; positivity
  obtain ⟨sc, hsc, -, -, -, h12, -, -⟩ := hform.dots hr
  -- the angle of the primitive reciprocal cell and the two sizes
  have sgn1 : 90 ≤ kp → 1 / b' ^ 2 ≤ (1 - ca ^ 2) / a' ^ 2 := by
    intro hk
    have h0 : dot (rprim 0) (rprim 1) ≤ 0 :=
      not_lt.1 (mt (hkp.gamma.lt_iff a0 a1).2 (not_lt.2 hk))
    rw [h12] at h0
    have := nonpos_of_mul_nonpos_right h0 hsc
    linarith
  have sgn2 : kp < 90 → (1 - ca ^ 2) / a' ^ 2 ≤ 1 / b' ^ 2 := by
    intro hk
    have h0 := ((hkp.gamma.lt_iff a0 a1).1 hk).le
    rw [h12] at h0
    have := nonneg_of_mul_nonneg_right h0 hsc
    linarith
  have hWX : ca / (b' * c') + (1 - ca ^ 2) / a' ^ 2 =
      (b' * ca / c' + b' ^ 2 * (1 - ca ^ 2) / a' ^ 2) * (1 / b' ^ 2) := by
    field_simp
  cases hs with
  | mclc1 q1 q2 =>
    have hraw' : scPointsOf a' b' c' al' "MCLC" (some "MCLC1") = .ok (scTable17 a' b' c' al') := by
      simp [scPointsOf]
    rw [hraw'] at hraw
    cases hraw
    exact ⟨_, by simp only [scPlaces, List.mem_cons, true_or, or_true], hform.allPlaced hr
      (places_MCLC1 hb.ne' hc.ne' hs0.ne' hcos' hs2 rfl rfl rfl ha.ne' rfl)⟩
  | mclc2 q1 q2 =>
    have hraw' : scPointsOf a' b' c' al' "MCLC" (some "MCLC2") = .ok (scTable17 a' b' c' al') := by
      simp [scPointsOf]
    rw [hraw'] at hraw
    cases hraw
    exact ⟨_, by simp only [scPlaces, List.mem_cons, true_or, or_true], hform.allPlaced hr
      (places_MCLC1 hb.ne' hc.ne' hs0.ne' hcos' hs2 rfl rfl rfl ha.ne' rfl)⟩
  | mclc3 q1 q2 q3 =>
    have hraw' : scPointsOf a' b' c' al' "MCLC" (some "MCLC3") = .ok (scTable18 a' b' c' al') := by
      simp [scPointsOf]
    rw [hraw'] at hraw
    cases hraw
    exact ⟨_, by simp only [scPlaces, List.mem_cons, true_or, or_true], hform.allPlaced hr
      (places_MCLC3 hb.ne' hc.ne' hs0.ne' hcos' hs2 rfl rfl rfl ha.ne' rfl)⟩
  | mclc4 q1 q2 q3 =>
    have hraw' : scPointsOf a' b' c' al' "MCLC" (some "MCLC4") = .ok (scTable18 a' b' c' al') := by
      simp [scPointsOf]
    rw [hraw'] at hraw
    cases hraw
    exact ⟨_, by simp only [scPlaces, List.mem_cons, true_or, or_true], hform.allPlaced hr
      (places_MCLC3 hb.ne' hc.ne' hs0.ne' hcos' hs2 rfl rfl rfl ha.ne' rfl)⟩
  | mclc5 q1 q2 q3 =>
    have hraw' : scPointsOf a' b' c' al' "MCLC" (some "MCLC5") = .ok (scTable19 a' b' c' al') := by
      simp [scPointsOf]
    rw [hraw'] at hraw
    cases hraw
    rw [hcos, hs2'] at q3
    have hlt : 1 / b' ^ 2 < ca / (b' * c') + (1 - ca ^ 2) / a' ^ 2 := by
      rw [hWX]
      nlinarith
    have hXY := sgn2 (by linarith)
    have hca0 : ca ≠ 0 := by
      rintro rfl
      rw [zero_div, zero_add] at hlt
      linarith
    exact ⟨_, by simp only [scPlaces, List.mem_cons, true_or, or_true], hform.allPlaced hr
      (places_MCLC5 hb.ne' hc.ne' hs0.ne' hcos' hs2 rfl rfl rfl ha.ne' rfl hca0)⟩
  | orcc q => exact absurd q (by decide)
  | _ q => exact absurd q (by decide)

/-- All lattices but the triclinic one. -/
theorem sc_at (hbl : bl ∈ bravaisLattices) (haP : bl ≠ "aP") (hcell : ScCell bl conv)
    (ht : 0 ≤ t) (hu : 0 ≤ u)
    (hm : (scConventionalToPrimitive ℝ).get? bl = some matrix)
    (hr : getReciprocal (matrix.transpose * conv) = .ok rprim)
    (hp : getParams conv = .ok (a, b, c, al, be, ga))
    (hs : ScVariation bl t u a b c al kp ka kb kg s)
    (hkp : bl = "mC" → ∃ x y z p q, HasParams rprim x y z p q kp)
    (hsh : scBravaisLatticeShortNames.get? bl = some short)
    (hraw : scPointsOf a b c al short (some s) = .ok raw) :
    ∃ l, (s, l) ∈ scPlaces ∧ List.Forall₂ (PlacedAt rprim) raw l := by
  simp only [bravaisLattices, List.mem_cons, List.not_mem_nil, or_false] at hbl
  rcases hbl with h | h | h | h | h | h | h | h | h | h | h | h | h | h | h
  · exact scat_cP h hcell ht hu hm hr hp hs hkp hsh hraw
  · exact scat_cF h hcell ht hu hm hr hp hs hkp hsh hraw
  · exact scat_cI h hcell ht hu hm hr hp hs hkp hsh hraw
  · exact scat_tP h hcell ht hu hm hr hp hs hkp hsh hraw
  · exact scat_tI h hcell ht hu hm hr hp hs hkp hsh hraw
  · exact scat_oP h hcell ht hu hm hr hp hs hkp hsh hraw
  · exact scat_oF h hcell ht hu hm hr hp hs hkp hsh hraw
  · exact scat_oI h hcell ht hu hm hr hp hs hkp hsh hraw
  · exact scat_oA h hcell ht hu hm hr hp hs hkp hsh hraw
  · exact scat_oC h hcell ht hu hm hr hp hs hkp hsh hraw
  · exact scat_hP h hcell ht hu hm hr hp hs hkp hsh hraw
  · exact scat_hR h hcell ht hu hm hr hp hs hkp hsh hraw
  · exact scat_mP h hcell ht hu hm hr hp hs hkp hsh hraw
  · exact scat_mC h hcell ht hu hm hr hp hs hkp hsh hraw
  · exact absurd h haP

end

end Wulfric
