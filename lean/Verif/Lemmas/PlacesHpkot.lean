import Verif.Lemmas.ZoneHpkot
import Verif.Lemmas.PlacesA
import Verif.Lemmas.PlacesB

/-! # The places of the points of the HPKOT tables, for the cells of the lattices -/

namespace Wulfric

open Matrix _root_.Spec Wulfric.Spec

section
variable {conv prim rprim matrix : Cell ℝ} {a b c al be ga : ℝ}
  {bl s : String} {n : ℤ} {ra rb rg : ℝ} {raw : PyDict String (Vec ℝ)}

theorem at_cP (hbl : bl = "cP") (hstd : StandardCell bl conv)
    (hm : (hpkotConventionalToPrimitive ℝ).get? bl = some matrix)
    (hr : getReciprocal (matrix.transpose * conv) = .ok rprim)
    (hp : getParams conv = .ok (a, b, c, al, be, ga))
    (hs : HpkotSymbol bl n a b c be ra rb rg s) (hraw : hpkotPointsOf a b c be bl s = .ok raw) :
    ∃ l, (s, l) ∈ hpkotPlaces ∧ List.Forall₂ (PlacedAt rprim) raw l := by
  subst hbl
  obtain ⟨-, ea, eb, ec⟩ := getParams_ok hp
  have ha := machineEps_pos.trans ea
  have hb := machineEps_pos.trans eb
  have hc := machineEps_pos.trans ec
  clear ea eb ec
  obtain ⟨a', h⟩ := std_cubic hstd (by simp)
  obtain ⟨rfl, rfl, rfl, -, -, -⟩ := params_unique hp h
  have hA : 0 < 1 / a' ^ 2 := by positivity
  obtain rfl : !![1, 0, 0; 0, 1, 0; 0, 0, 1] = matrix := Option.some.inj hm
  cases hs with
  | cP1 q1 q2 q3 =>
    have hraw' : hpkotPointsOf a' a' a' be "cP" "cP1" = .ok hpkotTable69 := by simp [hpkotPointsOf]
    rw [hraw'] at hraw
    cases hraw
    exact ⟨_, by simp only [hpkotPlaces, List.mem_cons, true_or, or_true], (form_P ha.ne' ha.ne' ha.ne' h).allPlaced hr
      (places_cP)⟩
  | cP2 q1 q2 q3 =>
    have hraw' : hpkotPointsOf a' a' a' be "cP" "cP2" = .ok hpkotTable69 := by simp [hpkotPointsOf]
    rw [hraw'] at hraw
    cases hraw
    exact ⟨_, by simp only [hpkotPlaces, List.mem_cons, true_or, or_true], (form_P ha.ne' ha.ne' ha.ne' h).allPlaced hr
      (places_cP)⟩
  | _ q => exact absurd q (by decide)

theorem at_cF (hbl : bl = "cF") (hstd : StandardCell bl conv)
    (hm : (hpkotConventionalToPrimitive ℝ).get? bl = some matrix)
    (hr : getReciprocal (matrix.transpose * conv) = .ok rprim)
    (hp : getParams conv = .ok (a, b, c, al, be, ga))
    (hs : HpkotSymbol bl n a b c be ra rb rg s) (hraw : hpkotPointsOf a b c be bl s = .ok raw) :
    ∃ l, (s, l) ∈ hpkotPlaces ∧ List.Forall₂ (PlacedAt rprim) raw l := by
  subst hbl
  obtain ⟨-, ea, eb, ec⟩ := getParams_ok hp
  have ha := machineEps_pos.trans ea
  have hb := machineEps_pos.trans eb
  have hc := machineEps_pos.trans ec
  clear ea eb ec
  obtain ⟨a', h⟩ := std_cubic hstd (by simp)
  obtain ⟨rfl, rfl, rfl, -, -, -⟩ := params_unique hp h
  have hA : 0 < 1 / a' ^ 2 := by positivity
  obtain rfl : !![0, 1 / 2, 1 / 2; 1 / 2, 0, 1 / 2; 1 / 2, 1 / 2, 0] = matrix := Option.some.inj hm
  cases hs with
  | cF1 q1 q2 q3 =>
    have hraw' : hpkotPointsOf a' a' a' be "cF" "cF1" = .ok hpkotTable70 := by simp [hpkotPointsOf]
    rw [hraw'] at hraw
    cases hraw
    exact ⟨_, by simp only [hpkotPlaces, List.mem_cons, true_or, or_true], (form_F ha.ne' ha.ne' ha.ne' h rfl rfl rfl).allPlaced hr
      (places_cF)⟩
  | cF2 q1 q2 q3 =>
    have hraw' : hpkotPointsOf a' a' a' be "cF" "cF2" = .ok hpkotTable70 := by simp [hpkotPointsOf]
    rw [hraw'] at hraw
    cases hraw
    exact ⟨_, by simp only [hpkotPlaces, List.mem_cons, true_or, or_true], (form_F ha.ne' ha.ne' ha.ne' h rfl rfl rfl).allPlaced hr
      (places_cF)⟩
  | _ q => exact absurd q (by decide)

theorem at_cI (hbl : bl = "cI") (hstd : StandardCell bl conv)
    (hm : (hpkotConventionalToPrimitive ℝ).get? bl = some matrix)
    (hr : getReciprocal (matrix.transpose * conv) = .ok rprim)
    (hp : getParams conv = .ok (a, b, c, al, be, ga))
    (hs : HpkotSymbol bl n a b c be ra rb rg s) (hraw : hpkotPointsOf a b c be bl s = .ok raw) :
    ∃ l, (s, l) ∈ hpkotPlaces ∧ List.Forall₂ (PlacedAt rprim) raw l := by
  subst hbl
  obtain ⟨-, ea, eb, ec⟩ := getParams_ok hp
  have ha := machineEps_pos.trans ea
  have hb := machineEps_pos.trans eb
  have hc := machineEps_pos.trans ec
  clear ea eb ec
  obtain ⟨a', h⟩ := std_cubic hstd (by simp)
  obtain ⟨rfl, rfl, rfl, -, -, -⟩ := params_unique hp h
  have hA : 0 < 1 / a' ^ 2 := by positivity
  obtain rfl : !![-1 / 2, 1 / 2, 1 / 2; 1 / 2, -1 / 2, 1 / 2; 1 / 2, 1 / 2, -1 / 2] = matrix := Option.some.inj hm
  cases hs with
  | cI1 q1 =>
    have hraw' : hpkotPointsOf a' a' a' be "cI" "cI1" = .ok hpkotTable71 := by simp [hpkotPointsOf]
    rw [hraw'] at hraw
    cases hraw
    exact ⟨_, by simp only [hpkotPlaces, List.mem_cons, true_or, or_true], (form_I ha.ne' ha.ne' ha.ne' h rfl rfl rfl).allPlaced hr
      (places_cI)⟩
  | _ q => exact absurd q (by decide)

theorem at_tP (hbl : bl = "tP") (hstd : StandardCell bl conv)
    (hm : (hpkotConventionalToPrimitive ℝ).get? bl = some matrix)
    (hr : getReciprocal (matrix.transpose * conv) = .ok rprim)
    (hp : getParams conv = .ok (a, b, c, al, be, ga))
    (hs : HpkotSymbol bl n a b c be ra rb rg s) (hraw : hpkotPointsOf a b c be bl s = .ok raw) :
    ∃ l, (s, l) ∈ hpkotPlaces ∧ List.Forall₂ (PlacedAt rprim) raw l := by
  subst hbl
  obtain ⟨-, ea, eb, ec⟩ := getParams_ok hp
  have ha := machineEps_pos.trans ea
  have hb := machineEps_pos.trans eb
  have hc := machineEps_pos.trans ec
  clear ea eb ec
  obtain ⟨a', c', h⟩ := std_tetragonal hstd (by simp)
  obtain ⟨rfl, rfl, rfl, -, -, -⟩ := params_unique hp h
  have hA : 0 < 1 / a' ^ 2 := by positivity
  have hC : 0 < 1 / c' ^ 2 := by positivity
  obtain rfl : !![1, 0, 0; 0, 1, 0; 0, 0, 1] = matrix := Option.some.inj hm
  cases hs with
  | tP1 q1 =>
    have hraw' : hpkotPointsOf a' a' c' be "tP" "tP1" = .ok hpkotTable72 := by simp [hpkotPointsOf]
    rw [hraw'] at hraw
    cases hraw
    exact ⟨_, by simp only [hpkotPlaces, List.mem_cons, true_or, or_true], (form_P ha.ne' ha.ne' hc.ne' h).allPlaced hr
      (places_tP)⟩
  | _ q => exact absurd q (by decide)

theorem at_tI (hbl : bl = "tI") (hstd : StandardCell bl conv)
    (hm : (hpkotConventionalToPrimitive ℝ).get? bl = some matrix)
    (hr : getReciprocal (matrix.transpose * conv) = .ok rprim)
    (hp : getParams conv = .ok (a, b, c, al, be, ga))
    (hs : HpkotSymbol bl n a b c be ra rb rg s) (hraw : hpkotPointsOf a b c be bl s = .ok raw) :
    ∃ l, (s, l) ∈ hpkotPlaces ∧ List.Forall₂ (PlacedAt rprim) raw l := by
  subst hbl
  obtain ⟨-, ea, eb, ec⟩ := getParams_ok hp
  have ha := machineEps_pos.trans ea
  have hb := machineEps_pos.trans eb
  have hc := machineEps_pos.trans ec
  clear ea eb ec
  obtain ⟨a', c', h⟩ := std_tetragonal hstd (by simp)
  obtain ⟨rfl, rfl, rfl, -, -, -⟩ := params_unique hp h
  have hA : 0 < 1 / a' ^ 2 := by positivity
  have hC : 0 < 1 / c' ^ 2 := by positivity
  obtain rfl : !![-1 / 2, 1 / 2, 1 / 2; 1 / 2, -1 / 2, 1 / 2; 1 / 2, 1 / 2, -1 / 2] = matrix := Option.some.inj hm
  cases hs with
  | tI1 q1 q2 =>
    have hraw' : hpkotPointsOf a' a' c' be "tI" "tI1" = .ok (hpkotTable73 a' c') := by simp [hpkotPointsOf]
    rw [hraw'] at hraw
    cases hraw
    exact ⟨_, by simp only [hpkotPlaces, List.mem_cons, true_or, or_true], (form_I ha.ne' ha.ne' hc.ne' h rfl rfl rfl).allPlaced hr
      (places_tI1 ha.ne' hc.ne' rfl rfl)⟩
  | tI2 q1 q2 =>
    have hraw' : hpkotPointsOf a' a' c' be "tI" "tI2" = .ok (hpkotTable74 a' c') := by simp [hpkotPointsOf]
    rw [hraw'] at hraw
    cases hraw
    exact ⟨_, by simp only [hpkotPlaces, List.mem_cons, true_or, or_true], (form_I ha.ne' ha.ne' hc.ne' h rfl rfl rfl).allPlaced hr
      (places_tI2 ha.ne' hc.ne' rfl rfl)⟩
  | _ q => exact absurd q (by decide)

theorem at_oP (hbl : bl = "oP") (hstd : StandardCell bl conv)
    (hm : (hpkotConventionalToPrimitive ℝ).get? bl = some matrix)
    (hr : getReciprocal (matrix.transpose * conv) = .ok rprim)
    (hp : getParams conv = .ok (a, b, c, al, be, ga))
    (hs : HpkotSymbol bl n a b c be ra rb rg s) (hraw : hpkotPointsOf a b c be bl s = .ok raw) :
    ∃ l, (s, l) ∈ hpkotPlaces ∧ List.Forall₂ (PlacedAt rprim) raw l := by
  subst hbl
  obtain ⟨-, ea, eb, ec⟩ := getParams_ok hp
  have ha := machineEps_pos.trans ea
  have hb := machineEps_pos.trans eb
  have hc := machineEps_pos.trans ec
  clear ea eb ec
  obtain ⟨a', b', c', h⟩ := std_orthorhombic hstd (by simp)
  obtain ⟨rfl, rfl, rfl, -, -, -⟩ := params_unique hp h
  have hA : 0 < 1 / a' ^ 2 := by positivity
  have hB : 0 < 1 / b' ^ 2 := by positivity
  have hC : 0 < 1 / c' ^ 2 := by positivity
  obtain rfl : !![1, 0, 0; 0, 1, 0; 0, 0, 1] = matrix := Option.some.inj hm
  cases hs with
  | oP1 q1 =>
    have hraw' : hpkotPointsOf a' b' c' be "oP" "oP1" = .ok hpkotTable75 := by simp [hpkotPointsOf]
    rw [hraw'] at hraw
    cases hraw
    exact ⟨_, by simp only [hpkotPlaces, List.mem_cons, true_or, or_true], (form_P ha.ne' hb.ne' hc.ne' h).allPlaced hr
      (places_oP)⟩
  | _ q => exact absurd q (by decide)

theorem at_oI (hbl : bl = "oI") (hstd : StandardCell bl conv)
    (hm : (hpkotConventionalToPrimitive ℝ).get? bl = some matrix)
    (hr : getReciprocal (matrix.transpose * conv) = .ok rprim)
    (hp : getParams conv = .ok (a, b, c, al, be, ga))
    (hs : HpkotSymbol bl n a b c be ra rb rg s) (hraw : hpkotPointsOf a b c be bl s = .ok raw) :
    ∃ l, (s, l) ∈ hpkotPlaces ∧ List.Forall₂ (PlacedAt rprim) raw l := by
  subst hbl
  obtain ⟨-, ea, eb, ec⟩ := getParams_ok hp
  have ha := machineEps_pos.trans ea
  have hb := machineEps_pos.trans eb
  have hc := machineEps_pos.trans ec
  clear ea eb ec
  obtain ⟨a', b', c', h⟩ := std_orthorhombic hstd (by simp)
  obtain ⟨rfl, rfl, rfl, -, -, -⟩ := params_unique hp h
  have hA : 0 < 1 / a' ^ 2 := by positivity
  have hB : 0 < 1 / b' ^ 2 := by positivity
  have hC : 0 < 1 / c' ^ 2 := by positivity
  obtain rfl : !![-1 / 2, 1 / 2, 1 / 2; 1 / 2, -1 / 2, 1 / 2; 1 / 2, 1 / 2, -1 / 2] = matrix := Option.some.inj hm
  cases hs with
  | oI1 q1 q2 q3 =>
    have hraw' : hpkotPointsOf a' b' c' be "oI" "oI1" = .ok (hpkotTable79 a' b' c') := by simp [hpkotPointsOf]
    rw [hraw'] at hraw
    cases hraw
    exact ⟨_, by simp only [hpkotPlaces, List.mem_cons, true_or, or_true], (form_I ha.ne' hb.ne' hc.ne' h rfl rfl rfl).allPlaced hr
      (places_oI1 ha.ne' hb.ne' hc.ne' rfl rfl rfl)⟩
  | oI2 q1 q2 q3 =>
    have hraw' : hpkotPointsOf a' b' c' be "oI" "oI2" = .ok (hpkotTable80 a' b' c') := by simp [hpkotPointsOf]
    rw [hraw'] at hraw
    cases hraw
    exact ⟨_, by simp only [hpkotPlaces, List.mem_cons, true_or, or_true], (form_I ha.ne' hb.ne' hc.ne' h rfl rfl rfl).allPlaced hr
      (places_oI2 ha.ne' hb.ne' hc.ne' rfl rfl rfl)⟩
  | oI3 q1 q2 q3 =>
    have hraw' : hpkotPointsOf a' b' c' be "oI" "oI3" = .ok (hpkotTable81 a' b' c') := by simp [hpkotPointsOf]
    rw [hraw'] at hraw
    cases hraw
    exact ⟨_, by simp only [hpkotPlaces, List.mem_cons, true_or, or_true], (form_I ha.ne' hb.ne' hc.ne' h rfl rfl rfl).allPlaced hr
      (places_oI3 ha.ne' hb.ne' hc.ne' rfl rfl rfl)⟩
  | _ q => exact absurd q (by decide)

theorem at_oC (hbl : bl = "oC") (hstd : StandardCell bl conv)
    (hm : (hpkotConventionalToPrimitive ℝ).get? bl = some matrix)
    (hr : getReciprocal (matrix.transpose * conv) = .ok rprim)
    (hp : getParams conv = .ok (a, b, c, al, be, ga))
    (hs : HpkotSymbol bl n a b c be ra rb rg s) (hraw : hpkotPointsOf a b c be bl s = .ok raw) :
    ∃ l, (s, l) ∈ hpkotPlaces ∧ List.Forall₂ (PlacedAt rprim) raw l := by
  subst hbl
  obtain ⟨-, ea, eb, ec⟩ := getParams_ok hp
  have ha := machineEps_pos.trans ea
  have hb := machineEps_pos.trans eb
  have hc := machineEps_pos.trans ec
  clear ea eb ec
  obtain ⟨a', b', c', h⟩ := std_orthorhombic hstd (by simp)
  obtain ⟨rfl, rfl, rfl, -, -, -⟩ := params_unique hp h
  have hA : 0 < 1 / a' ^ 2 := by positivity
  have hB : 0 < 1 / b' ^ 2 := by positivity
  have hC : 0 < 1 / c' ^ 2 := by positivity
  obtain rfl : !![1 / 2, 1 / 2, 0; -1 / 2, 1 / 2, 0; 0, 0, 1] = matrix := Option.some.inj hm
  cases hs with
  | oC1 q1 q2 =>
    have hraw' : hpkotPointsOf a' b' c' be "oC" "oC1" = .ok (hpkotTable82 ((1 + (a' / b') ^ 2) / 4)) := by simp [hpkotPointsOf, hpkotZeta82, Except.map]
    rw [hraw'] at hraw
    cases hraw
    exact ⟨_, by simp only [hpkotPlaces, List.mem_cons, true_or, or_true], (form_C ha.ne' hb.ne' hc.ne' h rfl rfl rfl).allPlaced hr
      (places_oC1 ha.ne' hb.ne' rfl rfl rfl)⟩
  | oC2 q1 q2 =>
    have hraw' : hpkotPointsOf a' b' c' be "oC" "oC2" = .ok (hpkotTable83 ((1 + (b' / a') ^ 2) / 4)) := by simp [hpkotPointsOf, hpkotZeta83, Except.map]
    rw [hraw'] at hraw
    cases hraw
    exact ⟨_, by simp only [hpkotPlaces, List.mem_cons, true_or, or_true], (form_C ha.ne' hb.ne' hc.ne' h rfl rfl rfl).allPlaced hr
      (places_oC2 ha.ne' hb.ne' rfl rfl rfl)⟩
  | _ q => exact absurd q (by decide)

theorem at_oA (hbl : bl = "oA") (hstd : StandardCell bl conv)
    (hm : (hpkotConventionalToPrimitive ℝ).get? bl = some matrix)
    (hr : getReciprocal (matrix.transpose * conv) = .ok rprim)
    (hp : getParams conv = .ok (a, b, c, al, be, ga))
    (hs : HpkotSymbol bl n a b c be ra rb rg s) (hraw : hpkotPointsOf a b c be bl s = .ok raw) :
    ∃ l, (s, l) ∈ hpkotPlaces ∧ List.Forall₂ (PlacedAt rprim) raw l := by
  subst hbl
  obtain ⟨-, ea, eb, ec⟩ := getParams_ok hp
  have ha := machineEps_pos.trans ea
  have hb := machineEps_pos.trans eb
  have hc := machineEps_pos.trans ec
  clear ea eb ec
  obtain ⟨a', b', c', h⟩ := std_orthorhombic hstd (by simp)
  obtain ⟨rfl, rfl, rfl, -, -, -⟩ := params_unique hp h
  have hA : 0 < 1 / a' ^ 2 := by positivity
  have hB : 0 < 1 / b' ^ 2 := by positivity
  have hC : 0 < 1 / c' ^ 2 := by positivity
  obtain rfl : !![0, 0, 1; 1 / 2, 1 / 2, 0; -1 / 2, 1 / 2, 0] = matrix := Option.some.inj hm
  cases hs with
  | oA1 q1 q2 =>
    have hraw' : hpkotPointsOf a' b' c' be "oA" "oA1" = .ok (hpkotTable82 ((1 + (b' / c') ^ 2) / 4)) := by simp [hpkotPointsOf, hpkotZeta82, Except.map]
    rw [hraw'] at hraw
    cases hraw
    exact ⟨_, by simp only [hpkotPlaces, List.mem_cons, true_or, or_true], (form_A ha.ne' hb.ne' hc.ne' h rfl rfl rfl).allPlaced hr
      (places_oA1 hb.ne' hc.ne' rfl rfl rfl)⟩
  | oA2 q1 q2 =>
    have hraw' : hpkotPointsOf a' b' c' be "oA" "oA2" = .ok (hpkotTable83 ((1 + (c' / b') ^ 2) / 4)) := by simp [hpkotPointsOf, hpkotZeta83, Except.map]
    rw [hraw'] at hraw
    cases hraw
    exact ⟨_, by simp only [hpkotPlaces, List.mem_cons, true_or, or_true], (form_A ha.ne' hb.ne' hc.ne' h rfl rfl rfl).allPlaced hr
      (places_oA2 hb.ne' hc.ne' rfl rfl rfl)⟩
  | _ q => exact absurd q (by decide)

theorem at_oF (hbl : bl = "oF") (hstd : StandardCell bl conv)
    (hm : (hpkotConventionalToPrimitive ℝ).get? bl = some matrix)
    (hr : getReciprocal (matrix.transpose * conv) = .ok rprim)
    (hp : getParams conv = .ok (a, b, c, al, be, ga))
    (hs : HpkotSymbol bl n a b c be ra rb rg s) (hraw : hpkotPointsOf a b c be bl s = .ok raw) :
    ∃ l, (s, l) ∈ hpkotPlaces ∧ List.Forall₂ (PlacedAt rprim) raw l := by
  subst hbl
  obtain ⟨-, ea, eb, ec⟩ := getParams_ok hp
  have ha := machineEps_pos.trans ea
  have hb := machineEps_pos.trans eb
  have hc := machineEps_pos.trans ec
  clear ea eb ec
  obtain ⟨a', b', c', h, hor⟩ := std_oF hstd rfl
  obtain ⟨rfl, rfl, rfl, -, -, -⟩ := params_unique hp h
  have hA : 0 < 1 / a' ^ 2 := by positivity
  have hB : 0 < 1 / b' ^ 2 := by positivity
  have hC : 0 < 1 / c' ^ 2 := by positivity
  obtain rfl : !![0, 1 / 2, 1 / 2; 1 / 2, 0, 1 / 2; 1 / 2, 1 / 2, 0] = matrix := Option.some.inj hm
  cases hs with
  | oF1 q1 q2 =>
    have hraw' : hpkotPointsOf a' b' c' be "oF" "oF1" = .ok (hpkotTable76 a' b' c') := by simp [hpkotPointsOf]
    rw [hraw'] at hraw
    cases hraw
    exact ⟨_, by simp only [hpkotPlaces, List.mem_cons, true_or, or_true], (form_F ha.ne' hb.ne' hc.ne' h rfl rfl rfl).allPlaced hr
      (places_oF1 ha.ne' hb.ne' hc.ne' rfl rfl rfl)⟩
  | oF2 q1 q2 =>
    have hraw' : hpkotPointsOf a' b' c' be "oF" "oF2" = .ok (hpkotTable77 a' b' c') := by simp [hpkotPointsOf]
    rw [hraw'] at hraw
    cases hraw
    exact ⟨_, by simp only [hpkotPlaces, List.mem_cons, true_or, or_true], (form_F ha.ne' hb.ne' hc.ne' h rfl rfl rfl).allPlaced hr
      (places_oF2 ha.ne' hb.ne' hc.ne' rfl rfl rfl)⟩
  | oF3 q1 q2 q3 =>
    have hraw' : hpkotPointsOf a' b' c' be "oF" "oF3" = .ok (hpkotTable78 a' b' c') := by simp [hpkotPointsOf]
    rw [hraw'] at hraw
    cases hraw
    exact ⟨_, by simp only [hpkotPlaces, List.mem_cons, true_or, or_true], (form_F ha.ne' hb.ne' hc.ne' h rfl rfl rfl).allPlaced hr
      (places_oF3 ha.ne' hb.ne' hc.ne' rfl rfl rfl)⟩
  | _ q => exact absurd q (by decide)

theorem at_hP (hbl : bl = "hP") (hstd : StandardCell bl conv)
    (hm : (hpkotConventionalToPrimitive ℝ).get? bl = some matrix)
    (hr : getReciprocal (matrix.transpose * conv) = .ok rprim)
    (hp : getParams conv = .ok (a, b, c, al, be, ga))
    (hs : HpkotSymbol bl n a b c be ra rb rg s) (hraw : hpkotPointsOf a b c be bl s = .ok raw) :
    ∃ l, (s, l) ∈ hpkotPlaces ∧ List.Forall₂ (PlacedAt rprim) raw l := by
  subst hbl
  obtain ⟨-, ea, eb, ec⟩ := getParams_ok hp
  have ha := machineEps_pos.trans ea
  have hb := machineEps_pos.trans eb
  have hc := machineEps_pos.trans ec
  clear ea eb ec
  obtain ⟨a', c', h⟩ := std_hexagonal hstd (by simp)
  obtain ⟨rfl, rfl, rfl, -, -, -⟩ := params_unique hp h
  have hA : 0 < 2 / (3 * a' ^ 2) := by positivity
  have hC : 0 < 1 / c' ^ 2 := by positivity
  obtain rfl : !![1, 0, 0; 0, 1, 0; 0, 0, 1] = matrix := Option.some.inj hm
  cases hs with
  | hP1 q1 q2 =>
    have hraw' : hpkotPointsOf a' a' c' be "hP" "hP1" = .ok hpkotTable84 := by simp [hpkotPointsOf]
    rw [hraw'] at hraw
    cases hraw
    exact ⟨_, by simp only [hpkotPlaces, List.mem_cons, true_or, or_true], (form_hP ha.ne' hc.ne' h).allPlaced hr
      (places_hP)⟩
  | hP2 q1 q2 =>
    have hraw' : hpkotPointsOf a' a' c' be "hP" "hP2" = .ok hpkotTable84 := by simp [hpkotPointsOf]
    rw [hraw'] at hraw
    cases hraw
    exact ⟨_, by simp only [hpkotPlaces, List.mem_cons, true_or, or_true], (form_hP ha.ne' hc.ne' h).allPlaced hr
      (places_hP)⟩
  | _ q => exact absurd q (by decide)

theorem at_hR (hbl : bl = "hR") (hstd : StandardCell bl conv)
    (hm : (hpkotConventionalToPrimitive ℝ).get? bl = some matrix)
    (hr : getReciprocal (matrix.transpose * conv) = .ok rprim)
    (hp : getParams conv = .ok (a, b, c, al, be, ga))
    (hs : HpkotSymbol bl n a b c be ra rb rg s) (hraw : hpkotPointsOf a b c be bl s = .ok raw) :
    ∃ l, (s, l) ∈ hpkotPlaces ∧ List.Forall₂ (PlacedAt rprim) raw l := by
  subst hbl
  obtain ⟨-, ea, eb, ec⟩ := getParams_ok hp
  have ha := machineEps_pos.trans ea
  have hb := machineEps_pos.trans eb
  have hc := machineEps_pos.trans ec
  clear ea eb ec
  obtain ⟨a', c', h⟩ := std_hexagonal hstd (by simp)
  obtain ⟨rfl, rfl, rfl, -, -, -⟩ := params_unique hp h
  have hA : 0 < 2 / (3 * a' ^ 2) := by positivity
  have hC : 0 < 1 / c' ^ 2 := by positivity
  obtain rfl : !![1, -1 / 2, -1 / 2; 1 / 2, 1 / 2, -1; 1 / 2, 1 / 2, 1 / 2] = matrix := Option.some.inj hm
  cases hs with
  | hR1 q1 q2 =>
    have hraw' : hpkotPointsOf a' a' c' be "hR" "hR1" = .ok (hpkotTable85 a' c') := by simp [hpkotPointsOf]
    rw [hraw'] at hraw
    cases hraw
    have hac : 1 / c' ^ 2 ≤ 2 / (3 * a' ^ 2) := by
      rw [div_le_div_iff₀ (by positivity) (by positivity)]
      linarith
    exact ⟨_, by simp only [hpkotPlaces, List.mem_cons, true_or, or_true], (form_hR ha.ne' hc.ne' h rfl rfl).allPlaced hr
      (places_hR1 ha.ne' hc.ne' rfl rfl)⟩
  | hR2 q1 q2 =>
    have hraw' : hpkotPointsOf a' a' c' be "hR" "hR2" = .ok (hpkotTable86 a' c') := by simp [hpkotPointsOf]
    rw [hraw'] at hraw
    cases hraw
    have hac : 2 / (3 * a' ^ 2) ≤ 1 / c' ^ 2 := by
      rw [div_le_div_iff₀ (by positivity) (by positivity)]
      linarith
    exact ⟨_, by simp only [hpkotPlaces, List.mem_cons, true_or, or_true], (form_hR ha.ne' hc.ne' h rfl rfl).allPlaced hr
      (places_hR2 ha.ne' hc.ne' rfl rfl)⟩
  | _ q => exact absurd q (by decide)

theorem at_mP (hbl : bl = "mP") (hstd : StandardCell bl conv)
    (hm : (hpkotConventionalToPrimitive ℝ).get? bl = some matrix)
    (hr : getReciprocal (matrix.transpose * conv) = .ok rprim)
    (hp : getParams conv = .ok (a, b, c, al, be, ga))
    (hs : HpkotSymbol bl n a b c be ra rb rg s) (hraw : hpkotPointsOf a b c be bl s = .ok raw) :
    ∃ l, (s, l) ∈ hpkotPlaces ∧ List.Forall₂ (PlacedAt rprim) raw l := by
  subst hbl
  obtain ⟨-, ea, eb, ec⟩ := getParams_ok hp
  have ha := machineEps_pos.trans ea
  have hb := machineEps_pos.trans eb
  have hc := machineEps_pos.trans ec
  clear ea eb ec
  obtain ⟨a', b', c', be', h, h90, k1, k2⟩ := std_mP hstd rfl
  obtain ⟨rfl, rfl, rfl, -, rfl, -⟩ := params_unique hp h
  have hdet : conv.det ≠ 0 := by
    have := (recip_ok hr).1
    rw [det_mul] at this
    exact right_ne_zero_of_mul this
  obtain ⟨-, hst⟩ := HasParams.strict hdet h
  have hs0 := cos_deg_strict hst.hbe.1 hst.hbe.2
  have hcb := cos_deg_nonpos h90 hst.hbe.2.le
  obtain ⟨cb, hcos⟩ : ∃ cb, Real.cos (be' * (Real.pi / 180)) = cb := ⟨_, rfl⟩
  have hs2 : Real.sin (be' * toRadians) ^ 2 = 1 - cb ^ 2 := by
    rw [sin_sq_deg, toRadians, hcos]
  have hcos' : Real.cos (be' * toRadians) = cb := hcos
  rw [hcos] at hs0 hcb k1 k2
  obtain ⟨w1, w2, w3, w4⟩ := mono_sizes ha hc (neg_nonneg.2 hcb)
  have hX : 0 < 1 / a' ^ 2 := by positivity
  have hY : 0 < (1 - cb ^ 2) / b' ^ 2 := by positivity
  obtain rfl : !![1, 0, 0; 0, 1, 0; 0, 0, 1] = matrix := Option.some.inj hm
  cases hs with
  | mP1 q1 =>
    have hraw' : hpkotPointsOf a' b' c' be' "mP" "mP1" = .ok (hpkotTable87 a' c' be') := by simp [hpkotPointsOf]
    rw [hraw'] at hraw
    cases hraw
    exact ⟨_, by simp only [hpkotPlaces, List.mem_cons, true_or, or_true], (form_mP ha.ne' hb.ne' hc.ne' hcos hs0 h).allPlaced hr
      (places_mP ha.ne' hc.ne' hs0.ne' hcos' hs2 rfl rfl rfl)⟩
  | _ q => exact absurd q (by decide)

theorem at_mC (hbl : bl = "mC") (hstd : StandardCell bl conv)
    (hm : (hpkotConventionalToPrimitive ℝ).get? bl = some matrix)
    (hr : getReciprocal (matrix.transpose * conv) = .ok rprim)
    (hp : getParams conv = .ok (a, b, c, al, be, ga))
    (hs : HpkotSymbol bl n a b c be ra rb rg s) (hraw : hpkotPointsOf a b c be bl s = .ok raw) :
    ∃ l, (s, l) ∈ hpkotPlaces ∧ List.Forall₂ (PlacedAt rprim) raw l := by
  subst hbl
  obtain ⟨-, ea, eb, ec⟩ := getParams_ok hp
  have ha := machineEps_pos.trans ea
  have hb := machineEps_pos.trans eb
  have hc := machineEps_pos.trans ec
  clear ea eb ec
  obtain ⟨a', b', c', be', h, h90, k1, k2⟩ := std_mC hstd rfl
  obtain ⟨rfl, rfl, rfl, -, rfl, -⟩ := params_unique hp h
  have hdet : conv.det ≠ 0 := by
    have := (recip_ok hr).1
    rw [det_mul] at this
    exact right_ne_zero_of_mul this
  obtain ⟨-, hst⟩ := HasParams.strict hdet h
  have hs0 := cos_deg_strict hst.hbe.1 hst.hbe.2
  have hcb := cos_deg_nonpos h90 hst.hbe.2.le
  obtain ⟨cb, hcos⟩ : ∃ cb, Real.cos (be' * (Real.pi / 180)) = cb := ⟨_, rfl⟩
  have hs2 : Real.sin (be' * toRadians) ^ 2 = 1 - cb ^ 2 := by
    rw [sin_sq_deg, toRadians, hcos]
  have hcos' : Real.cos (be' * toRadians) = cb := hcos
  rw [hcos] at hs0 hcb k1 k2
  obtain ⟨w1, w2, w3, w4⟩ := mono_sizes ha hc (neg_nonneg.2 hcb)
  have hX : 0 < 1 / a' ^ 2 := by positivity
  have hY : 0 < (1 - cb ^ 2) / b' ^ 2 := by positivity
  have hsin : 0 < Real.sin (be' * (Real.pi / 180)) :=
    Real.sin_pos_of_pos_of_lt_pi (mul_pos hst.hbe.1 (by positivity))
      (by nlinarith [Real.pi_pos, hst.hbe.2])
  have hs2' : Real.sin (be' * (Real.pi / 180)) ^ 2 = 1 - cb ^ 2 := hs2
  obtain rfl : !![1 / 2, -1 / 2, 0; 1 / 2, 1 / 2, 0; 0, 0, 1] = matrix := Option.some.inj hm
  cases hs with
  | mC1 q1 q2 =>
    have hraw' : hpkotPointsOf a' b' c' be' "mC" "mC1" = .ok (hpkotTable88 a' b' c' be') := by simp [hpkotPointsOf]
    rw [hraw'] at hraw
    cases hraw
    have hXY : 1 / a' ^ 2 ≤ (1 - cb ^ 2) / b' ^ 2 := by
      rw [div_le_div_iff₀ (by positivity) (by positivity), ← hs2']
      nlinarith
    exact ⟨_, by simp only [hpkotPlaces, List.mem_cons, true_or, or_true], (form_mC ha.ne' hb.ne' hc.ne' hcos hs0 h rfl rfl rfl rfl).allPlaced hr
      (places_mC1 ha.ne' hc.ne' hs0.ne' hcos' hs2 rfl rfl rfl hb.ne' rfl)⟩
  | mC2 q1 q2 q3 =>
    have hraw' : hpkotPointsOf a' b' c' be' "mC" "mC2" = .ok (hpkotTable89 a' b' c' be') := by simp [hpkotPointsOf]
    rw [hraw'] at hraw
    cases hraw
    have hYX : (1 - cb ^ 2) / b' ^ 2 ≤ 1 / a' ^ 2 := by
      rw [div_le_div_iff₀ (by positivity) (by positivity), ← hs2']
      nlinarith [mul_pos ha hsin]
    rw [hs2', hcos] at q3
    have hWY : (-cb / (a' * c') + (1 - cb ^ 2) / b' ^ 2) =
        (-a' * cb / c' + a' ^ 2 * (1 - cb ^ 2) / b' ^ 2) * (1 / a' ^ 2) := by
      field_simp
    have hWYX : -cb / (a' * c') + (1 - cb ^ 2) / b' ^ 2 ≤ 1 / a' ^ 2 := by
      rw [hWY]
      nlinarith
    exact ⟨_, by simp only [hpkotPlaces, List.mem_cons, true_or, or_true], (form_mC ha.ne' hb.ne' hc.ne' hcos hs0 h rfl rfl rfl rfl).allPlaced hr
      (places_mC2 ha.ne' hc.ne' hs0.ne' hcos' hs2 rfl rfl rfl hb.ne' rfl)⟩
  | mC3 q1 q2 q3 =>
    have hraw' : hpkotPointsOf a' b' c' be' "mC" "mC3" = .ok (hpkotTable90 a' b' c' be') := by simp [hpkotPointsOf]
    rw [hraw'] at hraw
    cases hraw
    have hYX : (1 - cb ^ 2) / b' ^ 2 ≤ 1 / a' ^ 2 := by
      rw [div_le_div_iff₀ (by positivity) (by positivity), ← hs2']
      nlinarith [mul_pos ha hsin]
    rw [hs2', hcos] at q3
    have hWY : (-cb / (a' * c') + (1 - cb ^ 2) / b' ^ 2) =
        (-a' * cb / c' + a' ^ 2 * (1 - cb ^ 2) / b' ^ 2) * (1 / a' ^ 2) := by
      field_simp
    have hXWY : 1 / a' ^ 2 < -cb / (a' * c') + (1 - cb ^ 2) / b' ^ 2 := by
      rw [hWY]
      nlinarith
    have hcb0 : cb ≠ 0 := by
      rintro rfl
      rw [neg_zero, zero_div, zero_add] at hXWY
      linarith
    exact ⟨_, by simp only [hpkotPlaces, List.mem_cons, true_or, or_true], (form_mC ha.ne' hb.ne' hc.ne' hcos hs0 h rfl rfl rfl rfl).allPlaced hr
      (places_mC3 ha.ne' hc.ne' hs0.ne' hcos' hs2 rfl rfl rfl hb.ne' rfl hcb0)⟩
  | _ q => exact absurd q (by decide)

/-- All lattices but the triclinic one. -/
theorem hpkot_at (hbl : bl ∈ bravaisLattices) (haP : bl ≠ "aP") (hstd : StandardCell bl conv)
    (hm : (hpkotConventionalToPrimitive ℝ).get? bl = some matrix)
    (hprim : prim = matrix.transpose * conv) (hr : getReciprocal prim = .ok rprim)
    (hp : getParams conv = .ok (a, b, c, al, be, ga))
    (hs : HpkotSymbol bl n a b c be ra rb rg s) (hraw : hpkotPointsOf a b c be bl s = .ok raw) :
    ∃ l, (s, l) ∈ hpkotPlaces ∧ List.Forall₂ (PlacedAt rprim) raw l := by
  subst hprim
  simp only [bravaisLattices, List.mem_cons, List.not_mem_nil, or_false] at hbl
  rcases hbl with h | h | h | h | h | h | h | h | h | h | h | h | h | h | h
  exacts [at_cP h hstd hm hr hp hs hraw, at_cF h hstd hm hr hp hs hraw,
    at_cI h hstd hm hr hp hs hraw, at_tP h hstd hm hr hp hs hraw,
    at_tI h hstd hm hr hp hs hraw, at_oP h hstd hm hr hp hs hraw,
    at_oF h hstd hm hr hp hs hraw, at_oI h hstd hm hr hp hs hraw,
    at_oA h hstd hm hr hp hs hraw, at_oC h hstd hm hr hp hs hraw,
    at_hP h hstd hm hr hp hs hraw, at_hR h hstd hm hr hp hs hraw,
    at_mP h hstd hm hr hp hs hraw, at_mC h hstd hm hr hp hs hraw, absurd h haP]

end

end Wulfric
