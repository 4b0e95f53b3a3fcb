import Verif.Lemmas.ZoneTri
import Verif.Lemmas.ZoneS
import Verif.Lemmas.ZoneN

/-! # The points of the SC convention lie in the Brillouin zone -/

namespace Wulfric

open Matrix _root_.Spec Wulfric.Spec

theorem scCell_cubic {bl : String} {cell : Cell ℝ} (h : ScCell bl cell)
    (hb : bl ∈ ["cP", "cF", "cI"]) : ∃ a, HasParams cell a a a 90 90 90 := by
  simp only [List.mem_cons, List.not_mem_nil, or_false] at hb
  cases h with
  | cubic k1 k2 => exact ⟨_, k2⟩
  | tetragonal k1 k2 =>
    simp only [List.mem_cons, List.not_mem_nil, or_false] at k1
    rcases k1 with rfl | rfl <;> simp at hb
  | orthorhombic k1 k2 =>
    simp only [List.mem_cons, List.not_mem_nil, or_false] at k1
    rcases k1 with rfl | rfl <;> simp at hb
  | baseCentred k1 k2 k3 =>
    simp only [List.mem_cons, List.not_mem_nil, or_false] at k1
    rcases k1 with rfl | rfl <;> simp at hb
  | _ => simp at hb

theorem scCell_tetragonal {bl : String} {cell : Cell ℝ} (h : ScCell bl cell)
    (hb : bl ∈ ["tP", "tI"]) : ∃ a c, HasParams cell a a c 90 90 90 := by
  simp only [List.mem_cons, List.not_mem_nil, or_false] at hb
  cases h with
  | tetragonal k1 k2 => exact ⟨_, _, k2⟩
  | cubic k1 k2 =>
    simp only [List.mem_cons, List.not_mem_nil, or_false] at k1
    rcases k1 with rfl | rfl | rfl <;> simp at hb
  | orthorhombic k1 k2 =>
    simp only [List.mem_cons, List.not_mem_nil, or_false] at k1
    rcases k1 with rfl | rfl <;> simp at hb
  | baseCentred k1 k2 k3 =>
    simp only [List.mem_cons, List.not_mem_nil, or_false] at k1
    rcases k1 with rfl | rfl <;> simp at hb
  | _ => simp at hb

theorem scCell_orthorhombic {bl : String} {cell : Cell ℝ} (h : ScCell bl cell)
    (hb : bl ∈ ["oP", "oF"]) : ∃ a b c, HasParams cell a b c 90 90 90 := by
  simp only [List.mem_cons, List.not_mem_nil, or_false] at hb
  cases h with
  | orthorhombic k1 k2 => exact ⟨_, _, _, k2⟩
  | cubic k1 k2 =>
    simp only [List.mem_cons, List.not_mem_nil, or_false] at k1
    rcases k1 with rfl | rfl | rfl <;> simp at hb
  | tetragonal k1 k2 =>
    simp only [List.mem_cons, List.not_mem_nil, or_false] at k1
    rcases k1 with rfl | rfl <;> simp at hb
  | baseCentred k1 k2 k3 =>
    simp only [List.mem_cons, List.not_mem_nil, or_false] at k1
    rcases k1 with rfl | rfl <;> simp at hb
  | _ => simp at hb

theorem scCell_bodyCentred {bl : String} {cell : Cell ℝ} (h : ScCell bl cell)
    (hb : bl ∈ ["oI"]) : ∃ a b c, HasParams cell a b c 90 90 90 ∧ a ≤ c ∧ b ≤ c := by
  simp only [List.mem_cons, List.not_mem_nil, or_false] at hb
  cases h with
  | bodyCentred k1 k2 k3 => exact ⟨_, _, _, k1, k2, k3⟩
  | cubic k1 k2 =>
    simp only [List.mem_cons, List.not_mem_nil, or_false] at k1
    rcases k1 with rfl | rfl | rfl <;> simp at hb
  | tetragonal k1 k2 =>
    simp only [List.mem_cons, List.not_mem_nil, or_false] at k1
    rcases k1 with rfl | rfl <;> simp at hb
  | orthorhombic k1 k2 =>
    simp only [List.mem_cons, List.not_mem_nil, or_false] at k1
    rcases k1 with rfl | rfl <;> simp at hb
  | baseCentred k1 k2 k3 =>
    simp only [List.mem_cons, List.not_mem_nil, or_false] at k1
    rcases k1 with rfl | rfl <;> simp at hb
  | _ => simp at hb

theorem scCell_baseCentred {bl : String} {cell : Cell ℝ} (h : ScCell bl cell)
    (hb : bl ∈ ["oC", "oA"]) : ∃ a b c, HasParams cell a b c 90 90 90 ∧ a ≤ b := by
  simp only [List.mem_cons, List.not_mem_nil, or_false] at hb
  cases h with
  | baseCentred k1 k2 k3 => exact ⟨_, _, _, k2, k3⟩
  | cubic k1 k2 =>
    simp only [List.mem_cons, List.not_mem_nil, or_false] at k1
    rcases k1 with rfl | rfl | rfl <;> simp at hb
  | tetragonal k1 k2 =>
    simp only [List.mem_cons, List.not_mem_nil, or_false] at k1
    rcases k1 with rfl | rfl <;> simp at hb
  | orthorhombic k1 k2 =>
    simp only [List.mem_cons, List.not_mem_nil, or_false] at k1
    rcases k1 with rfl | rfl <;> simp at hb
  | _ => simp at hb

theorem scCell_hexagonal {bl : String} {cell : Cell ℝ} (h : ScCell bl cell)
    (hb : bl ∈ ["hP"]) : ∃ a c, HasParams cell a a c 90 90 120 := by
  simp only [List.mem_cons, List.not_mem_nil, or_false] at hb
  cases h with
  | hexagonal k1 => exact ⟨_, _, k1⟩
  | cubic k1 k2 =>
    simp only [List.mem_cons, List.not_mem_nil, or_false] at k1
    rcases k1 with rfl | rfl | rfl <;> simp at hb
  | tetragonal k1 k2 =>
    simp only [List.mem_cons, List.not_mem_nil, or_false] at k1
    rcases k1 with rfl | rfl <;> simp at hb
  | orthorhombic k1 k2 =>
    simp only [List.mem_cons, List.not_mem_nil, or_false] at k1
    rcases k1 with rfl | rfl <;> simp at hb
  | baseCentred k1 k2 k3 =>
    simp only [List.mem_cons, List.not_mem_nil, or_false] at k1
    rcases k1 with rfl | rfl <;> simp at hb
  | _ => simp at hb

theorem scCell_rhombohedral {bl : String} {cell : Cell ℝ} (h : ScCell bl cell)
    (hb : bl ∈ ["hR"]) : ∃ a al, HasParams cell a a a al al al := by
  simp only [List.mem_cons, List.not_mem_nil, or_false] at hb
  cases h with
  | rhombohedral k1 => exact ⟨_, _, k1⟩
  | cubic k1 k2 =>
    simp only [List.mem_cons, List.not_mem_nil, or_false] at k1
    rcases k1 with rfl | rfl | rfl <;> simp at hb
  | tetragonal k1 k2 =>
    simp only [List.mem_cons, List.not_mem_nil, or_false] at k1
    rcases k1 with rfl | rfl <;> simp at hb
  | orthorhombic k1 k2 =>
    simp only [List.mem_cons, List.not_mem_nil, or_false] at k1
    rcases k1 with rfl | rfl <;> simp at hb
  | baseCentred k1 k2 k3 =>
    simp only [List.mem_cons, List.not_mem_nil, or_false] at k1
    rcases k1 with rfl | rfl <;> simp at hb
  | _ => simp at hb

theorem scCell_monoclinic {bl : String} {cell : Cell ℝ} (h : ScCell bl cell)
    (hb : bl ∈ ["mP"]) : ∃ a b c al, HasParams cell a b c al 90 90 ∧ al ≤ 90 ∧
      b * Real.cos (al * (Real.pi / 180)) ≤ c ∧ c * Real.cos (al * (Real.pi / 180)) ≤ b := by
  simp only [List.mem_cons, List.not_mem_nil, or_false] at hb
  cases h with
  | monoclinic k1 k2 k3 k4 => exact ⟨_, _, _, _, k1, k2, k3, k4⟩
  | cubic k1 k2 =>
    simp only [List.mem_cons, List.not_mem_nil, or_false] at k1
    rcases k1 with rfl | rfl | rfl <;> simp at hb
  | tetragonal k1 k2 =>
    simp only [List.mem_cons, List.not_mem_nil, or_false] at k1
    rcases k1 with rfl | rfl <;> simp at hb
  | orthorhombic k1 k2 =>
    simp only [List.mem_cons, List.not_mem_nil, or_false] at k1
    rcases k1 with rfl | rfl <;> simp at hb
  | baseCentred k1 k2 k3 =>
    simp only [List.mem_cons, List.not_mem_nil, or_false] at k1
    rcases k1 with rfl | rfl <;> simp at hb
  | _ => simp at hb

theorem scCell_monoclinicC {bl : String} {cell : Cell ℝ} (h : ScCell bl cell)
    (hb : bl ∈ ["mC"]) : ∃ a b c al, HasParams cell a b c al 90 90 ∧ al ≤ 90 ∧
      b * Real.cos (al * (Real.pi / 180)) ≤ c ∧ 2 * c * Real.cos (al * (Real.pi / 180)) ≤ b := by
  simp only [List.mem_cons, List.not_mem_nil, or_false] at hb
  cases h with
  | monoclinicC k1 k2 k3 k4 => exact ⟨_, _, _, _, k1, k2, k3, k4⟩
  | cubic k1 k2 =>
    simp only [List.mem_cons, List.not_mem_nil, or_false] at k1
    rcases k1 with rfl | rfl | rfl <;> simp at hb
  | tetragonal k1 k2 =>
    simp only [List.mem_cons, List.not_mem_nil, or_false] at k1
    rcases k1 with rfl | rfl <;> simp at hb
  | orthorhombic k1 k2 =>
    simp only [List.mem_cons, List.not_mem_nil, or_false] at k1
    rcases k1 with rfl | rfl <;> simp at hb
  | baseCentred k1 k2 k3 =>
    simp only [List.mem_cons, List.not_mem_nil, or_false] at k1
    rcases k1 with rfl | rfl <;> simp at hb
  | _ => simp at hb

theorem recip_rows {p r : Cell ℝ} (hr : getReciprocal p = .ok r) (i : Fin 3) :
    npNorm (r i) ≠ 0 := by
  intro h
  apply recip_det hr
  rw [npNorm_eq, Real.sqrt_eq_zero'] at h
  have hz : ∀ j, r i j = 0 := by
    simp only [dot] at h
    intro j
    have := mul_self_nonneg (r i 0)
    have := mul_self_nonneg (r i 1)
    have := mul_self_nonneg (r i 2)
    fin_cases j <;> exact mul_self_eq_zero.1 (by simp only [Fin.zero_eta, Fin.mk_one, Fin.reduceFinMk]; linarith)
  exact Matrix.det_eq_zero_of_row_eq_zero i hz

section
variable {conv prim rprim matrix : Cell ℝ} {a b c al be ga t u : ℝ}
  {bl s short : String} {kp ka kb kg : ℝ} {raw : PyDict String (Vec ℝ)}

theorem scplace_cP (hbl : bl = "cP") (hcell : ScCell bl conv)
    (ht : 0 ≤ t) (hu : 0 ≤ u)
    (hm : (scConventionalToPrimitive ℝ).get? bl = some matrix)
    (hr : getReciprocal (matrix.transpose * conv) = .ok rprim)
    (hp : getParams conv = .ok (a, b, c, al, be, ga))
    (hs : ScVariation bl t u a b c al kp ka kb kg s) (htie : TieMet s conv rprim)
    (hkp : bl = "mC" → ∃ x y z p q, HasParams rprim x y z p q kp)
    (hsh : scBravaisLatticeShortNames.get? bl = some short)
    (hraw : scPointsOf a b c al short (some s) = .ok raw) :
    ∀ x ∈ raw, PointPlace rprim x := by
  subst hbl
  obtain rfl : "CUB" = short := Option.some.inj hsh
  obtain ⟨-, ea, eb, ec⟩ := getParams_ok hp
  have ha := machineEps_pos.trans ea
  have hb := machineEps_pos.trans eb
  have hc := machineEps_pos.trans ec
  clear ea eb ec
  obtain ⟨a', h⟩ := scCell_cubic hcell (by simp)
  obtain ⟨rfl, rfl, rfl, -, -, -⟩ := params_unique hp h
  have hA : 0 < 1 / a' ^ 2 := by positivity
  obtain rfl : !![1, 0, 0; 0, 1, 0; 0, 0, 1] = matrix := Option.some.inj hm
  cases hs with
  | cub q1 =>
    have hraw' : scPointsOf a' a' a' al "CUB" (some "CUB") = .ok scTable2 := by
      simp [scPointsOf]
    rw [hraw'] at hraw
    cases hraw
    exact fun x hx => (form_P ha.ne' ha.ne' ha.ne' h).place hr (zone_CUB hA x hx)
  | orcc q => exact absurd q (by decide)
  | _ q => exact absurd q (by decide)

theorem scplace_cF (hbl : bl = "cF") (hcell : ScCell bl conv)
    (ht : 0 ≤ t) (hu : 0 ≤ u)
    (hm : (scConventionalToPrimitive ℝ).get? bl = some matrix)
    (hr : getReciprocal (matrix.transpose * conv) = .ok rprim)
    (hp : getParams conv = .ok (a, b, c, al, be, ga))
    (hs : ScVariation bl t u a b c al kp ka kb kg s) (htie : TieMet s conv rprim)
    (hkp : bl = "mC" → ∃ x y z p q, HasParams rprim x y z p q kp)
    (hsh : scBravaisLatticeShortNames.get? bl = some short)
    (hraw : scPointsOf a b c al short (some s) = .ok raw) :
    ∀ x ∈ raw, PointPlace rprim x := by
  subst hbl
  obtain rfl : "FCC" = short := Option.some.inj hsh
  obtain ⟨-, ea, eb, ec⟩ := getParams_ok hp
  have ha := machineEps_pos.trans ea
  have hb := machineEps_pos.trans eb
  have hc := machineEps_pos.trans ec
  clear ea eb ec
  obtain ⟨a', h⟩ := scCell_cubic hcell (by simp)
  obtain ⟨rfl, rfl, rfl, -, -, -⟩ := params_unique hp h
  have hA : 0 < 1 / a' ^ 2 := by positivity
  obtain rfl : !![0, 1 / 2, 1 / 2; 1 / 2, 0, 1 / 2; 1 / 2, 1 / 2, 0] = matrix := Option.some.inj hm
  cases hs with
  | fcc q1 =>
    have hraw' : scPointsOf a' a' a' al "FCC" (some "FCC") = .ok scTable3 := by
      simp [scPointsOf]
    rw [hraw'] at hraw
    cases hraw
    intro x hx
    refine (form_F ha.ne' ha.ne' ha.ne' h rfl rfl rfl).place hr ?_
    convert zone_FCC hA x hx using 1 <;> ring
  | orcc q => exact absurd q (by decide)
  | _ q => exact absurd q (by decide)

theorem scplace_cI (hbl : bl = "cI") (hcell : ScCell bl conv)
    (ht : 0 ≤ t) (hu : 0 ≤ u)
    (hm : (scConventionalToPrimitive ℝ).get? bl = some matrix)
    (hr : getReciprocal (matrix.transpose * conv) = .ok rprim)
    (hp : getParams conv = .ok (a, b, c, al, be, ga))
    (hs : ScVariation bl t u a b c al kp ka kb kg s) (htie : TieMet s conv rprim)
    (hkp : bl = "mC" → ∃ x y z p q, HasParams rprim x y z p q kp)
    (hsh : scBravaisLatticeShortNames.get? bl = some short)
    (hraw : scPointsOf a b c al short (some s) = .ok raw) :
    ∀ x ∈ raw, PointPlace rprim x := by
  subst hbl
  obtain rfl : "BCC" = short := Option.some.inj hsh
  obtain ⟨-, ea, eb, ec⟩ := getParams_ok hp
  have ha := machineEps_pos.trans ea
  have hb := machineEps_pos.trans eb
  have hc := machineEps_pos.trans ec
  clear ea eb ec
  obtain ⟨a', h⟩ := scCell_cubic hcell (by simp)
  obtain ⟨rfl, rfl, rfl, -, -, -⟩ := params_unique hp h
  have hA : 0 < 1 / a' ^ 2 := by positivity
  obtain rfl : !![-1 / 2, 1 / 2, 1 / 2; 1 / 2, -1 / 2, 1 / 2; 1 / 2, 1 / 2, -1 / 2] = matrix := Option.some.inj hm
  cases hs with
  | bcc q1 =>
    have hraw' : scPointsOf a' a' a' al "BCC" (some "BCC") = .ok scTable4 := by
      simp [scPointsOf]
    rw [hraw'] at hraw
    cases hraw
    intro x hx
    refine (form_I ha.ne' ha.ne' ha.ne' h rfl rfl rfl).place hr ?_
    convert zone_BCC hA x hx using 1 <;> ring
  | orcc q => exact absurd q (by decide)
  | _ q => exact absurd q (by decide)

theorem scplace_tP (hbl : bl = "tP") (hcell : ScCell bl conv)
    (ht : 0 ≤ t) (hu : 0 ≤ u)
    (hm : (scConventionalToPrimitive ℝ).get? bl = some matrix)
    (hr : getReciprocal (matrix.transpose * conv) = .ok rprim)
    (hp : getParams conv = .ok (a, b, c, al, be, ga))
    (hs : ScVariation bl t u a b c al kp ka kb kg s) (htie : TieMet s conv rprim)
    (hkp : bl = "mC" → ∃ x y z p q, HasParams rprim x y z p q kp)
    (hsh : scBravaisLatticeShortNames.get? bl = some short)
    (hraw : scPointsOf a b c al short (some s) = .ok raw) :
    ∀ x ∈ raw, PointPlace rprim x := by
  subst hbl
  obtain rfl : "TET" = short := Option.some.inj hsh
  obtain ⟨-, ea, eb, ec⟩ := getParams_ok hp
  have ha := machineEps_pos.trans ea
  have hb := machineEps_pos.trans eb
  have hc := machineEps_pos.trans ec
  clear ea eb ec
  obtain ⟨a', c', h⟩ := scCell_tetragonal hcell (by simp)
  obtain ⟨rfl, rfl, rfl, -, -, -⟩ := params_unique hp h
  have hA : 0 < 1 / a' ^ 2 := by positivity
  have hC : 0 < 1 / c' ^ 2 := by positivity
  obtain rfl : !![1, 0, 0; 0, 1, 0; 0, 0, 1] = matrix := Option.some.inj hm
  cases hs with
  | tet q1 =>
    have hraw' : scPointsOf a' a' c' al "TET" (some "TET") = .ok scTable5 := by
      simp [scPointsOf]
    rw [hraw'] at hraw
    cases hraw
    exact fun x hx => (form_P ha.ne' ha.ne' hc.ne' h).place hr (zone_TET hA hC x hx)
  | orcc q => exact absurd q (by decide)
  | _ q => exact absurd q (by decide)

theorem scplace_tI (hbl : bl = "tI") (hcell : ScCell bl conv)
    (ht : 0 ≤ t) (hu : 0 ≤ u)
    (hm : (scConventionalToPrimitive ℝ).get? bl = some matrix)
    (hr : getReciprocal (matrix.transpose * conv) = .ok rprim)
    (hp : getParams conv = .ok (a, b, c, al, be, ga))
    (hs : ScVariation bl t u a b c al kp ka kb kg s) (htie : TieMet s conv rprim)
    (hkp : bl = "mC" → ∃ x y z p q, HasParams rprim x y z p q kp)
    (hsh : scBravaisLatticeShortNames.get? bl = some short)
    (hraw : scPointsOf a b c al short (some s) = .ok raw) :
    ∀ x ∈ raw, PointPlace rprim x := by
  subst hbl
  obtain rfl : "BCT" = short := Option.some.inj hsh
  obtain ⟨-, ea, eb, ec⟩ := getParams_ok hp
  have ha := machineEps_pos.trans ea
  have hb := machineEps_pos.trans eb
  have hc := machineEps_pos.trans ec
  clear ea eb ec
  obtain ⟨a', c', h⟩ := scCell_tetragonal hcell (by simp)
  obtain ⟨rfl, rfl, rfl, -, -, -⟩ := params_unique hp h
  have hA : 0 < 1 / a' ^ 2 := by positivity
  have hC : 0 < 1 / c' ^ 2 := by positivity
  obtain rfl : !![-1 / 2, 1 / 2, 1 / 2; 1 / 2, -1 / 2, 1 / 2; 1 / 2, 1 / 2, -1 / 2] = matrix := Option.some.inj hm
  cases hs with
  | bct1 q1 q2 =>
    have hraw' : scPointsOf a' a' c' al "BCT" (some "BCT1") = .ok (scTable6 a' c') := by
      simp [scPointsOf]
    rw [hraw'] at hraw
    cases hraw
    intro x hx
    refine (form_I ha.ne' ha.ne' hc.ne' h rfl rfl rfl).place hr ?_
    convert zone_BCT1 ha.ne' hc.ne' rfl rfl hA (inv_sq_le hc q2.le) x hx using 1
    ring
  | bct2 q1 q2 =>
    have hraw' : scPointsOf a' a' c' al "BCT" (some "BCT2") = .ok (scTable7 a' c') := by
      simp [scPointsOf]
    rw [hraw'] at hraw
    cases hraw
    intro x hx
    refine (form_I ha.ne' ha.ne' hc.ne' h rfl rfl rfl).place hr ?_
    convert zone_BCT2 ha.ne' hc.ne' rfl rfl hC (inv_sq_le ha q2.le) x hx using 1
    ring
  | orcc q => exact absurd q (by decide)
  | _ q => exact absurd q (by decide)

theorem scplace_oP (hbl : bl = "oP") (hcell : ScCell bl conv)
    (ht : 0 ≤ t) (hu : 0 ≤ u)
    (hm : (scConventionalToPrimitive ℝ).get? bl = some matrix)
    (hr : getReciprocal (matrix.transpose * conv) = .ok rprim)
    (hp : getParams conv = .ok (a, b, c, al, be, ga))
    (hs : ScVariation bl t u a b c al kp ka kb kg s) (htie : TieMet s conv rprim)
    (hkp : bl = "mC" → ∃ x y z p q, HasParams rprim x y z p q kp)
    (hsh : scBravaisLatticeShortNames.get? bl = some short)
    (hraw : scPointsOf a b c al short (some s) = .ok raw) :
    ∀ x ∈ raw, PointPlace rprim x := by
  subst hbl
  obtain rfl : "ORC" = short := Option.some.inj hsh
  obtain ⟨-, ea, eb, ec⟩ := getParams_ok hp
  have ha := machineEps_pos.trans ea
  have hb := machineEps_pos.trans eb
  have hc := machineEps_pos.trans ec
  clear ea eb ec
  obtain ⟨a', b', c', h⟩ := scCell_orthorhombic hcell (by simp)
  obtain ⟨rfl, rfl, rfl, -, -, -⟩ := params_unique hp h
  have hA : 0 < 1 / a' ^ 2 := by positivity
  have hB : 0 < 1 / b' ^ 2 := by positivity
  have hC : 0 < 1 / c' ^ 2 := by positivity
  obtain rfl : !![1, 0, 0; 0, 1, 0; 0, 0, 1] = matrix := Option.some.inj hm
  cases hs with
  | orc q1 =>
    have hraw' : scPointsOf a' b' c' al "ORC" (some "ORC") = .ok scTable8 := by
      simp [scPointsOf]
    rw [hraw'] at hraw
    cases hraw
    exact fun x hx => (form_P ha.ne' hb.ne' hc.ne' h).place hr (zone_ORC hA hB hC x hx)
  | orcc q => exact absurd q (by decide)
  | _ q => exact absurd q (by decide)

theorem scplace_oF (hbl : bl = "oF") (hcell : ScCell bl conv)
    (ht : 0 ≤ t) (hu : 0 ≤ u)
    (hm : (scConventionalToPrimitive ℝ).get? bl = some matrix)
    (hr : getReciprocal (matrix.transpose * conv) = .ok rprim)
    (hp : getParams conv = .ok (a, b, c, al, be, ga))
    (hs : ScVariation bl t u a b c al kp ka kb kg s) (htie : TieMet s conv rprim)
    (hkp : bl = "mC" → ∃ x y z p q, HasParams rprim x y z p q kp)
    (hsh : scBravaisLatticeShortNames.get? bl = some short)
    (hraw : scPointsOf a b c al short (some s) = .ok raw) :
    ∀ x ∈ raw, PointPlace rprim x := by
  subst hbl
  obtain rfl : "ORCF" = short := Option.some.inj hsh
  obtain ⟨-, ea, eb, ec⟩ := getParams_ok hp
  have ha := machineEps_pos.trans ea
  have hb := machineEps_pos.trans eb
  have hc := machineEps_pos.trans ec
  clear ea eb ec
  obtain ⟨a', b', c', h⟩ := scCell_orthorhombic hcell (by simp)
  obtain ⟨rfl, rfl, rfl, -, -, -⟩ := params_unique hp h
  have hA : 0 < 1 / a' ^ 2 := by positivity
  have hB : 0 < 1 / b' ^ 2 := by positivity
  have hC : 0 < 1 / c' ^ 2 := by positivity
  obtain rfl : !![0, 1 / 2, 1 / 2; 1 / 2, 0, 1 / 2; 1 / 2, 1 / 2, 0] = matrix := Option.some.inj hm
  cases hs with
  | orcf1 q1 q2 q3 q4 =>
    have hraw' : scPointsOf a' b' c' al "ORCF" (some "ORCF1") = .ok (scTable9 a' b' c') := by
      simp [scPointsOf]
    rw [hraw'] at hraw
    cases hraw
    exact fun x hx => (form_F ha.ne' hb.ne' hc.ne' h rfl rfl rfl).place hr
      (zone_ORCF1 ha.ne' hb.ne' hc.ne' rfl rfl rfl hB hC (by linarith) x hx)
  | orcf2 q1 q2 q3 q4 =>
    have hraw' : scPointsOf a' b' c' al "ORCF" (some "ORCF2") = .ok (scTable10 a' b' c') := by
      simp [scPointsOf]
    rw [hraw'] at hraw
    cases hraw
    have l1 := inv_sq_le ha (show a' ≤ b' by linarith)
    have l2 := inv_sq_le hb (show b' ≤ c' by linarith)
    exact fun x hx => (form_F ha.ne' hb.ne' hc.ne' h rfl rfl rfl).place hr
      (zone_ORCF2 ha.ne' hb.ne' hc.ne' rfl rfl rfl (by linarith) (by linarith) (by linarith) x hx)
  | orcf3 q1 q2 q3 q4 =>
    have hraw' : scPointsOf a' b' c' al "ORCF" (some "ORCF3") = .ok (scTable9 a' b' c') := by
      simp [scPointsOf]
    rw [hraw'] at hraw
    cases hraw
    have hdet := recip_det hr
    obtain ⟨al', be', ga', hpr⟩ := exists_params (c := rprim) (recip_rows hr)
    have htie := (htie _ _ _ _ _ _ _ _ _ _ _ _ h hpr).1 rfl
    exact fun x hx => (form_F ha.ne' hb.ne' hc.ne' h rfl rfl rfl).place hr
      (zone_ORCF1 ha.ne' hb.ne' hc.ne' rfl rfl rfl hB hC htie x hx)
  | orcc q => exact absurd q (by decide)
  | _ q => exact absurd q (by decide)

theorem scplace_oI (hbl : bl = "oI") (hcell : ScCell bl conv)
    (ht : 0 ≤ t) (hu : 0 ≤ u)
    (hm : (scConventionalToPrimitive ℝ).get? bl = some matrix)
    (hr : getReciprocal (matrix.transpose * conv) = .ok rprim)
    (hp : getParams conv = .ok (a, b, c, al, be, ga))
    (hs : ScVariation bl t u a b c al kp ka kb kg s) (htie : TieMet s conv rprim)
    (hkp : bl = "mC" → ∃ x y z p q, HasParams rprim x y z p q kp)
    (hsh : scBravaisLatticeShortNames.get? bl = some short)
    (hraw : scPointsOf a b c al short (some s) = .ok raw) :
    ∀ x ∈ raw, PointPlace rprim x := by
  subst hbl
  obtain rfl : "ORCI" = short := Option.some.inj hsh
  obtain ⟨-, ea, eb, ec⟩ := getParams_ok hp
  have ha := machineEps_pos.trans ea
  have hb := machineEps_pos.trans eb
  have hc := machineEps_pos.trans ec
  clear ea eb ec
  obtain ⟨a', b', c', h, h1, h2⟩ := scCell_bodyCentred hcell (by simp)
  obtain ⟨rfl, rfl, rfl, -, -, -⟩ := params_unique hp h
  have hA : 0 < 1 / a' ^ 2 := by positivity
  have hB : 0 < 1 / b' ^ 2 := by positivity
  have hC : 0 < 1 / c' ^ 2 := by positivity
  obtain rfl : !![-1 / 2, 1 / 2, 1 / 2; 1 / 2, -1 / 2, 1 / 2; 1 / 2, 1 / 2, -1 / 2] = matrix := Option.some.inj hm
  cases hs with
  | orci q1 =>
    have hraw' : scPointsOf a' b' c' al "ORCI" (some "ORCI") = .ok (scTable11 a' b' c') := by
      simp [scPointsOf]
    rw [hraw'] at hraw
    cases hraw
    exact fun x hx => (form_I ha.ne' hb.ne' hc.ne' h rfl rfl rfl).place hr
      (zone_ORCI ha.ne' hb.ne' hc.ne' rfl rfl rfl hC (inv_sq_le ha h1) (inv_sq_le hb h2) x hx)
  | orcc q => exact absurd q (by decide)
  | _ q => exact absurd q (by decide)

theorem scplace_oC (hbl : bl = "oC") (hcell : ScCell bl conv)
    (ht : 0 ≤ t) (hu : 0 ≤ u)
    (hm : (scConventionalToPrimitive ℝ).get? bl = some matrix)
    (hr : getReciprocal (matrix.transpose * conv) = .ok rprim)
    (hp : getParams conv = .ok (a, b, c, al, be, ga))
    (hs : ScVariation bl t u a b c al kp ka kb kg s) (htie : TieMet s conv rprim)
    (hkp : bl = "mC" → ∃ x y z p q, HasParams rprim x y z p q kp)
    (hsh : scBravaisLatticeShortNames.get? bl = some short)
    (hraw : scPointsOf a b c al short (some s) = .ok raw) :
    ∀ x ∈ raw, PointPlace rprim x := by
  subst hbl
  obtain rfl : "ORCC" = short := Option.some.inj hsh
  obtain ⟨-, ea, eb, ec⟩ := getParams_ok hp
  have ha := machineEps_pos.trans ea
  have hb := machineEps_pos.trans eb
  have hc := machineEps_pos.trans ec
  clear ea eb ec
  obtain ⟨a', b', c', h, h1⟩ := scCell_baseCentred hcell (by simp)
  obtain ⟨rfl, rfl, rfl, -, -, -⟩ := params_unique hp h
  have hA : 0 < 1 / a' ^ 2 := by positivity
  have hB : 0 < 1 / b' ^ 2 := by positivity
  have hC : 0 < 1 / c' ^ 2 := by positivity
  obtain rfl : !![1 / 2, 1 / 2, 0; -1 / 2, 1 / 2, 0; 0, 0, 1] = matrix := Option.some.inj hm
  cases hs with
  | orcc q1 =>
    have hraw' : scPointsOf a' b' c' al "ORCC" (some "ORCC") = .ok (scTable12 a' b') := by
      simp [scPointsOf]
    rw [hraw'] at hraw
    cases hraw
    exact fun x hx => (form_C ha.ne' hb.ne' hc.ne' h rfl rfl rfl).place hr
      (zone_ORCC ha.ne' hb.ne' rfl rfl hB hC (inv_sq_le ha h1) x hx)
  | _ q => exact absurd q (by decide)

theorem scplace_oA (hbl : bl = "oA") (hcell : ScCell bl conv)
    (ht : 0 ≤ t) (hu : 0 ≤ u)
    (hm : (scConventionalToPrimitive ℝ).get? bl = some matrix)
    (hr : getReciprocal (matrix.transpose * conv) = .ok rprim)
    (hp : getParams conv = .ok (a, b, c, al, be, ga))
    (hs : ScVariation bl t u a b c al kp ka kb kg s) (htie : TieMet s conv rprim)
    (hkp : bl = "mC" → ∃ x y z p q, HasParams rprim x y z p q kp)
    (hsh : scBravaisLatticeShortNames.get? bl = some short)
    (hraw : scPointsOf a b c al short (some s) = .ok raw) :
    ∀ x ∈ raw, PointPlace rprim x := by
  subst hbl
  obtain rfl : "ORCC" = short := Option.some.inj hsh
  obtain ⟨-, ea, eb, ec⟩ := getParams_ok hp
  have ha := machineEps_pos.trans ea
  have hb := machineEps_pos.trans eb
  have hc := machineEps_pos.trans ec
  clear ea eb ec
  obtain ⟨a', b', c', h, h1⟩ := scCell_baseCentred hcell (by simp)
  obtain ⟨rfl, rfl, rfl, -, -, -⟩ := params_unique hp h
  have hA : 0 < 1 / a' ^ 2 := by positivity
  have hB : 0 < 1 / b' ^ 2 := by positivity
  have hC : 0 < 1 / c' ^ 2 := by positivity
  obtain rfl : !![1 / 2, 1 / 2, 0; -1 / 2, 1 / 2, 0; 0, 0, 1] = matrix := Option.some.inj hm
  cases hs with
  | orcc q1 =>
    have hraw' : scPointsOf a' b' c' al "ORCC" (some "ORCC") = .ok (scTable12 a' b') := by
      simp [scPointsOf]
    rw [hraw'] at hraw
    cases hraw
    exact fun x hx => (form_C ha.ne' hb.ne' hc.ne' h rfl rfl rfl).place hr
      (zone_ORCC ha.ne' hb.ne' rfl rfl hB hC (inv_sq_le ha h1) x hx)
  | _ q => exact absurd q (by decide)

theorem scplace_hP (hbl : bl = "hP") (hcell : ScCell bl conv)
    (ht : 0 ≤ t) (hu : 0 ≤ u)
    (hm : (scConventionalToPrimitive ℝ).get? bl = some matrix)
    (hr : getReciprocal (matrix.transpose * conv) = .ok rprim)
    (hp : getParams conv = .ok (a, b, c, al, be, ga))
    (hs : ScVariation bl t u a b c al kp ka kb kg s) (htie : TieMet s conv rprim)
    (hkp : bl = "mC" → ∃ x y z p q, HasParams rprim x y z p q kp)
    (hsh : scBravaisLatticeShortNames.get? bl = some short)
    (hraw : scPointsOf a b c al short (some s) = .ok raw) :
    ∀ x ∈ raw, PointPlace rprim x := by
  subst hbl
  obtain rfl : "HEX" = short := Option.some.inj hsh
  obtain ⟨-, ea, eb, ec⟩ := getParams_ok hp
  have ha := machineEps_pos.trans ea
  have hb := machineEps_pos.trans eb
  have hc := machineEps_pos.trans ec
  clear ea eb ec
  obtain ⟨a', c', h⟩ := scCell_hexagonal hcell (by simp)
  obtain ⟨rfl, rfl, rfl, -, -, -⟩ := params_unique hp h
  have hA : 0 < 2 / (3 * a' ^ 2) := by positivity
  have hC : 0 < 1 / c' ^ 2 := by positivity
  obtain rfl : !![1, 0, 0; 0, 1, 0; 0, 0, 1] = matrix := Option.some.inj hm
  cases hs with
  | hex q1 =>
    have hraw' : scPointsOf a' a' c' al "HEX" (some "HEX") = .ok scTable13 := by
      simp [scPointsOf]
    rw [hraw'] at hraw
    cases hraw
    exact fun x hx => (form_hP ha.ne' hc.ne' h).place hr (zone_HEX hA hC x hx)
  | orcc q => exact absurd q (by decide)
  | _ q => exact absurd q (by decide)

theorem scplace_hR (hbl : bl = "hR") (hcell : ScCell bl conv)
    (ht : 0 ≤ t) (hu : 0 ≤ u)
    (hm : (scConventionalToPrimitive ℝ).get? bl = some matrix)
    (hr : getReciprocal (matrix.transpose * conv) = .ok rprim)
    (hp : getParams conv = .ok (a, b, c, al, be, ga))
    (hs : ScVariation bl t u a b c al kp ka kb kg s) (htie : TieMet s conv rprim)
    (hkp : bl = "mC" → ∃ x y z p q, HasParams rprim x y z p q kp)
    (hsh : scBravaisLatticeShortNames.get? bl = some short)
    (hraw : scPointsOf a b c al short (some s) = .ok raw) :
    ∀ x ∈ raw, PointPlace rprim x := by
  subst hbl
  obtain rfl : "RHL" = short := Option.some.inj hsh
  obtain ⟨-, ea, eb, ec⟩ := getParams_ok hp
  have ha := machineEps_pos.trans ea
  have hb := machineEps_pos.trans eb
  have hc := machineEps_pos.trans ec
  clear ea eb ec
  obtain ⟨a', al', h⟩ := scCell_rhombohedral hcell (by simp)
  obtain ⟨rfl, rfl, rfl, rfl, -, -⟩ := params_unique hp h
  have hdet : conv.det ≠ 0 := by
    have := (recip_ok hr).1
    rw [det_mul] at this
    exact right_ne_zero_of_mul this
  obtain ⟨-, hst⟩ := HasParams.strict hdet h
  have h120 : al' < 120 := by linarith [hst.sum]
  obtain ⟨ca, hcos⟩ : ∃ ca, Real.cos (al' * (Real.pi / 180)) = ca := ⟨_, rfl⟩
  have hca1 : ca < 1 := by
    rw [← hcos, ← Real.cos_zero]
    exact Real.cos_lt_cos_of_nonneg_of_le_pi le_rfl (by nlinarith [Real.pi_pos, hst.hal.2])
      (mul_pos hst.hal.1 (by positivity))
  have hca2 : -(1 / 2) < ca := by
    rw [← hcos, ← cos_120]
    exact Real.cos_lt_cos_of_nonneg_of_le_pi (mul_nonneg hst.hal.1.le (by positivity))
      (by nlinarith [Real.pi_pos]) (by nlinarith [Real.pi_pos])
  obtain rfl : !![1, 0, 0; 0, 1, 0; 0, 0, 1] = matrix := Option.some.inj hm
  cases hs with
  | rhl1 q1 q2 =>
    have hraw' : scPointsOf a' a' a' al' "RHL" (some "RHL1") = .ok (scTable14 al') := by
      simp [scPointsOf]
    rw [hraw'] at hraw
    cases hraw
    have hca0 := cos_deg_nonneg hst.hal.1.le (by linarith : al' ≤ 90)
    rw [hcos] at hca0
    exact fun x hx => (form_RHL ha.ne' hcos (by linarith) (by linarith) h).place hr
      (zone_RHL1 hcos (by linarith) hca0 hca1.le x hx)
  | rhl2 q1 q2 =>
    have hraw' : scPointsOf a' a' a' al' "RHL" (some "RHL2") = .ok (scTable15 al') := by
      simp [scPointsOf]
    rw [hraw'] at hraw
    cases hraw
    have hca0 := cos_deg_nonpos (by linarith : 90 ≤ al') hst.hal.2.le
    rw [hcos] at hca0
    have htan : Real.tan (al' * toRadians / 2) ^ 2 = (1 - ca) / (1 + ca) := by
      have e : Real.cos (al' * toRadians / 2) ^ 2 = (1 + ca) / 2 := by
        rw [Real.cos_sq, mul_div_cancel₀ _ (two_ne_zero), toRadians, hcos]
        ring
      rw [Real.tan_eq_sin_div_cos, div_pow, Real.sin_sq, e]
      have : 1 + ca ≠ 0 := by linarith
      field_simp
      ring
    exact fun x hx => (form_RHL ha.ne' hcos (by linarith) (by linarith) h).place hr
      (zone_RHL2 htan (by linarith) (by linarith) hca0 (by linarith) x hx)
  | orcc q => exact absurd q (by decide)
  | _ q => exact absurd q (by decide)

theorem scplace_mP (hbl : bl = "mP") (hcell : ScCell bl conv)
    (ht : 0 ≤ t) (hu : 0 ≤ u)
    (hm : (scConventionalToPrimitive ℝ).get? bl = some matrix)
    (hr : getReciprocal (matrix.transpose * conv) = .ok rprim)
    (hp : getParams conv = .ok (a, b, c, al, be, ga))
    (hs : ScVariation bl t u a b c al kp ka kb kg s) (htie : TieMet s conv rprim)
    (hkp : bl = "mC" → ∃ x y z p q, HasParams rprim x y z p q kp)
    (hsh : scBravaisLatticeShortNames.get? bl = some short)
    (hraw : scPointsOf a b c al short (some s) = .ok raw) :
    ∀ x ∈ raw, PointPlace rprim x := by
  subst hbl
  obtain rfl : "MCL" = short := Option.some.inj hsh
  obtain ⟨-, ea, eb, ec⟩ := getParams_ok hp
  have ha := machineEps_pos.trans ea
  have hb := machineEps_pos.trans eb
  have hc := machineEps_pos.trans ec
  clear ea eb ec
  obtain ⟨a', b', c', al', h, h90, k1, k2⟩ := scCell_monoclinic hcell (by simp)
  obtain ⟨rfl, rfl, rfl, rfl, -, -⟩ := params_unique hp h
  have hdet : conv.det ≠ 0 := by
    have := (recip_ok hr).1
    rw [det_mul] at this
    exact right_ne_zero_of_mul this
  obtain ⟨-, hst⟩ := HasParams.strict hdet h
  have hs0 := cos_deg_strict hst.hal.1 hst.hal.2
  have hca := cos_deg_nonneg hst.hal.1.le h90
  obtain ⟨ca, hcos⟩ : ∃ ca, Real.cos (al' * (Real.pi / 180)) = ca := ⟨_, rfl⟩
  have hs2 : Real.sin (al' * toRadians) ^ 2 = 1 - ca ^ 2 := by
    rw [sin_sq_deg, toRadians, hcos]
  have hcos' : Real.cos (al' * toRadians) = ca := hcos
  have hs2' : Real.sin (al' * (Real.pi / 180)) ^ 2 = 1 - ca ^ 2 := hs2
  rw [hcos] at hs0 hca k1 k2
  obtain ⟨w1, w2, w3, w4⟩ := mono_sizes hb hc hca
  have hX : 0 < (1 - ca ^ 2) / a' ^ 2 := by positivity
  have hY : 0 < 1 / b' ^ 2 := by positivity
  obtain rfl : !![1, 0, 0; 0, 1, 0; 0, 0, 1] = matrix := Option.some.inj hm
  cases hs with
  | mcl q1 =>
    have hraw' : scPointsOf a' b' c' al' "MCL" (some "MCL") = .ok (scTable16 b' c' al') := by
      simp [scPointsOf]
    rw [hraw'] at hraw
    cases hraw
    exact fun x hx => (form_MCL ha.ne' hb.ne' hc.ne' hcos hs0 h).place hr
      (zone_MCL hb.ne' hc.ne' hs0.ne' hcos' hs2 rfl rfl rfl hX w1 (w2 k1) (w3 k2) x hx)
  | orcc q => exact absurd q (by decide)
  | _ q => exact absurd q (by decide)

theorem scplace_mC (hbl : bl = "mC") (hcell : ScCell bl conv)
    (ht : 0 ≤ t) (hu : 0 ≤ u)
    (hm : (scConventionalToPrimitive ℝ).get? bl = some matrix)
    (hr : getReciprocal (matrix.transpose * conv) = .ok rprim)
    (hp : getParams conv = .ok (a, b, c, al, be, ga))
    (hs : ScVariation bl t u a b c al kp ka kb kg s) (htie : TieMet s conv rprim)
    (hkp : bl = "mC" → ∃ x y z p q, HasParams rprim x y z p q kp)
    (hsh : scBravaisLatticeShortNames.get? bl = some short)
    (hraw : scPointsOf a b c al short (some s) = .ok raw) :
    ∀ x ∈ raw, x.1 = "F3" ∨ PointPlace rprim x := by
  subst hbl
  obtain rfl : "MCLC" = short := Option.some.inj hsh
  obtain ⟨-, ea, eb, ec⟩ := getParams_ok hp
  have ha := machineEps_pos.trans ea
  have hb := machineEps_pos.trans eb
  have hc := machineEps_pos.trans ec
  clear ea eb ec
  obtain ⟨a', b', c', al', h, h90, k1, k2⟩ := scCell_monoclinicC hcell (by simp)
  obtain ⟨rfl, rfl, rfl, rfl, -, -⟩ := params_unique hp h
  have hdet : conv.det ≠ 0 := by
    have := (recip_ok hr).1
    rw [det_mul] at this
    exact right_ne_zero_of_mul this
  obtain ⟨-, hst⟩ := HasParams.strict hdet h
  have hs0 := cos_deg_strict hst.hal.1 hst.hal.2
  have hca := cos_deg_nonneg hst.hal.1.le h90
  obtain ⟨ca, hcos⟩ : ∃ ca, Real.cos (al' * (Real.pi / 180)) = ca := ⟨_, rfl⟩
  have hs2 : Real.sin (al' * toRadians) ^ 2 = 1 - ca ^ 2 := by
    rw [sin_sq_deg, toRadians, hcos]
  have hcos' : Real.cos (al' * toRadians) = ca := hcos
  have hs2' : Real.sin (al' * (Real.pi / 180)) ^ 2 = 1 - ca ^ 2 := hs2
  rw [hcos] at hs0 hca k1 k2
  obtain ⟨w1, w2, w3, w4⟩ := mono_sizes hb hc hca
  have hX : 0 < (1 - ca ^ 2) / a' ^ 2 := by positivity
  have hY : 0 < 1 / b' ^ 2 := by positivity
  obtain rfl : !![1 / 2, -1 / 2, 0; 1 / 2, 1 / 2, 0; 0, 0, 1] = matrix := Option.some.inj hm
  have hform := form_MCLC ha.ne' hb.ne' hc.ne' hcos hs0 h rfl rfl rfl rfl
  obtain ⟨x, y, z, p, q, hkp⟩ := hkp rfl
  obtain ⟨⟨p1, p2, p3⟩, -⟩ := HasParams.strict (recip_det hr) hkp
  have a0 : 0 < dot (rprim 0) (rprim 0) := by rw [hkp.aa]; positivity
  have a1 : 0 < dot (rprim 1) (rprim 1) := by rw [hkp.bb]; positivity
  obtain ⟨sc, hsc, -, -, -, h12, -, -⟩ := hform.dots hr
  -- the angle of the primitive reciprocal cell and the two sizes
  have sgn1 : 90 ≤ kp → 1 / b' ^ 2 ≤ (1 - ca ^ 2) / a' ^ 2 := by
    intro hk
    have h0 : dot (rprim 0) (rprim 1) ≤ 0 :=
      not_lt.1 (mt (hkp.gamma.lt_iff a0 a1).2 (not_lt.2 hk))
    rw [h12] at h0
    have := nonpos_of_mul_nonpos_right h0 hsc
    linarith
  have sgn2 : kp < 90 → (1 - ca ^ 2) / a' ^ 2 ≤ 1 / b' ^ 2 := by
    intro hk
    have h0 := ((hkp.gamma.lt_iff a0 a1).1 hk).le
    rw [h12] at h0
    have := nonneg_of_mul_nonneg_right h0 hsc
    linarith
  have hWX : ca / (b' * c') + (1 - ca ^ 2) / a' ^ 2 =
      (b' * ca / c' + b' ^ 2 * (1 - ca ^ 2) / a' ^ 2) * (1 / b' ^ 2) := by
    field_simp
  have htie := htie _ _ _ _ _ _ _ _ _ _ _ _ h hkp
  cases hs with
  | mclc1 q1 q2 =>
    have hraw' : scPointsOf a' b' c' al' "MCLC" (some "MCLC1") = .ok (scTable17 a' b' c' al') := by
      simp [scPointsOf]
    rw [hraw'] at hraw
    cases hraw
    have h3 := sgn1 (by linarith)
    intro x hx
    rcases zone_MCLC1 hb.ne' hc.ne' hs0.ne' hcos' hs2 rfl rfl rfl ha.ne' rfl w1 (w2 k1) (w4 k2) h3 x hx with h | h
    · exact .inl h
    · exact .inr (hform.place hr h)
  | mclc2 q1 q2 =>
    have hraw' : scPointsOf a' b' c' al' "MCLC" (some "MCLC2") = .ok (scTable17 a' b' c' al') := by
      simp [scPointsOf]
    rw [hraw'] at hraw
    cases hraw
    have h3 := sgn1 (htie.2.2.1 (.inl rfl))
    intro x hx
    rcases zone_MCLC1 hb.ne' hc.ne' hs0.ne' hcos' hs2 rfl rfl rfl ha.ne' rfl w1 (w2 k1) (w4 k2) h3 x hx with h | h
    · exact .inl h
    · exact .inr (hform.place hr h)
  | mclc3 q1 q2 q3 =>
    have hraw' : scPointsOf a' b' c' al' "MCLC" (some "MCLC3") = .ok (scTable18 a' b' c' al') := by
      simp [scPointsOf]
    rw [hraw'] at hraw
    cases hraw
    rw [hcos, hs2'] at q3
    have hle : ca / (b' * c') + (1 - ca ^ 2) / a' ^ 2 ≤ 1 / b' ^ 2 := by
      rw [hWX]
      nlinarith
    exact fun x hx => .inr (hform.place hr (zone_MCLC3 hb.ne' hc.ne' hs0.ne' hcos' hs2 rfl rfl rfl ha.ne' rfl hX w1
      (by linarith [w4 k2]) hle x hx))
  | mclc4 q1 q2 q3 =>
    have hraw' : scPointsOf a' b' c' al' "MCLC" (some "MCLC4") = .ok (scTable18 a' b' c' al') := by
      simp [scPointsOf]
    rw [hraw'] at hraw
    cases hraw
    have q4 := htie.2.1 rfl
    rw [hcos, hs2'] at q4
    have hle : ca / (b' * c') + (1 - ca ^ 2) / a' ^ 2 ≤ 1 / b' ^ 2 := by
      rw [hWX]
      nlinarith
    exact fun x hx => .inr (hform.place hr (zone_MCLC3 hb.ne' hc.ne' hs0.ne' hcos' hs2 rfl rfl rfl ha.ne' rfl hX w1
      (by linarith [w4 k2]) hle x hx))
  | mclc5 q1 q2 q3 =>
    have hraw' : scPointsOf a' b' c' al' "MCLC" (some "MCLC5") = .ok (scTable19 a' b' c' al') := by
      simp [scPointsOf]
    rw [hraw'] at hraw
    cases hraw
    rw [hcos, hs2'] at q3
    have hlt : 1 / b' ^ 2 < ca / (b' * c') + (1 - ca ^ 2) / a' ^ 2 := by
      rw [hWX]
      nlinarith
    have hXY := sgn2 (by linarith)
    have hca0 : ca ≠ 0 := by
      rintro rfl
      rw [zero_div, zero_add] at hlt
      linarith
    exact fun x hx => .inr (hform.place hr (zone_MCLC5 hb.ne' hc.ne' hs0.ne' hcos' hs2 rfl rfl rfl ha.ne' rfl hca0 hX w1
      (w2 k1) (w4 k2) hlt.le hXY x hx))
  | orcc q => exact absurd q (by decide)
  | _ q => exact absurd q (by decide)

theorem scplace_aP (hbl : bl = "aP") (hu : 0 ≤ u)
    (hr : getReciprocal conv = .ok rprim) (red : PairReduced rprim) {x y z : ℝ}
    (hp : HasParams rprim x y z ka kb kg)
    (hs : ScVariation bl t u a b c al kp ka kb kg s) (htie : TieMet s conv rprim)
    (hconv : HasParams conv a b c al be ga)
    (hraw : scPointsOf a b c al "TRI" (some s) = .ok raw) :
    ∀ x ∈ raw, (x.1 = "N" ∧ (dot (rprim 0) (rprim 2) < dot (rprim 0) (rprim 1) ∨
      dot (rprim 1) (rprim 2) < dot (rprim 0) (rprim 1))) ∨ PointPlace rprim x := by
  subst hbl
  obtain ⟨s1, s2, s3⟩ := params_signs (recip_det hr) hp
  obtain ⟨t1, t2, t3, t4⟩ := PairReduced.two red (i := 0) (j := 1) (by decide)
  obtain ⟨u1, u2, u3, u4⟩ := PairReduced.two red (i := 0) (j := 2) (by decide)
  obtain ⟨v1, v2, v3, v4⟩ := PairReduced.two red (i := 1) (j := 2) (by decide)
  have htie := htie _ _ _ _ _ _ _ _ _ _ _ _ hconv hp
  have g3 : kg ≤ 90 → 0 ≤ dot (rprim 0) (rprim 1) := by
    intro hk
    obtain ⟨⟨p1, p2, p3⟩, -⟩ := HasParams.strict (recip_det hr) hp
    have a0 : 0 < dot (rprim 0) (rprim 0) := by rw [hp.aa]; positivity
    have a1 : 0 < dot (rprim 1) (rprim 1) := by rw [hp.bb]; positivity
    exact not_lt.1 (mt (hp.gamma.gt_iff a0 a1).2 (not_lt.2 hk))
  have caseA : 90 ≤ ka → 90 ≤ kb → 90 ≤ kg → ∀ x ∈ scTable20, PointPlace rprim x := by
    intro q1 q2 q3 p hp
    have k1 := not_lt.1 (mt s1.2 (not_lt.2 q1))
    have k2 := not_lt.1 (mt s2.2 (not_lt.2 q2))
    have k3 := not_lt.1 (mt s3.2 (not_lt.2 q3))
    exact (form_tri hr).place hr (zone_TRIa (A := dot (rprim 0) (rprim 0))
      (B := dot (rprim 1) (rprim 1)) (C := dot (rprim 2) (rprim 2)) k1 k2 k3 (by linarith)
      (by linarith) (by linarith) p hp)
  have caseB : ka < 90 → kb < 90 → kg ≤ 90 → ∀ x ∈ scTable21, (x.1 = "N" ∧
      (dot (rprim 0) (rprim 2) < dot (rprim 0) (rprim 1) ∨
      dot (rprim 1) (rprim 2) < dot (rprim 0) (rprim 1))) ∨ PointPlace rprim x := by
    intro q1 q2 q3 p hp
    have k1 := (s1.1 q1).le
    have k2 := (s2.1 q2).le
    have k3 := g3 q3
    by_cases hz : dot (rprim 0) (rprim 2) < dot (rprim 0) (rprim 1) ∨
      dot (rprim 1) (rprim 2) < dot (rprim 0) (rprim 1)
    · rcases le_total (dot (rprim 0) (rprim 2)) (dot (rprim 1) (rprim 2)) with hyx | hxy
      · have hyz : dot (rprim 0) (rprim 2) ≤ dot (rprim 0) (rprim 1) := by
          rcases hz with h | h <;> linarith
        rcases zone_TRIbY k1 k2 k3 t1 t3 u1 u3 v1 v3 hyx hyz p hp with h | h
        · exact .inl ⟨h, hz⟩
        · exact .inr ((form_tri hr).place hr h)
      · have hxz : dot (rprim 1) (rprim 2) ≤ dot (rprim 0) (rprim 1) := by
          rcases hz with h | h <;> linarith
        rcases zone_TRIbX k1 k2 k3 t1 t3 u1 u3 v1 v3 hxy hxz p hp with h | h
        · exact .inl ⟨h, hz⟩
        · exact .inr ((form_tri hr).place hr h)
    · push Not at hz
      exact .inr ((form_tri hr).place hr (zone_TRIbZ k1 k2 k3 t1 t3 u1 u3 v1 v3 hz.2 hz.1 p hp))
  cases hs with
  | tri1a q0 q1 q2 q3 q4 q5 =>
    have hraw' : scPointsOf a b c al "TRI" (some "TRI1a") = .ok scTable20 := by simp [scPointsOf]
    rw [hraw'] at hraw
    cases hraw
    exact fun x hx => .inr (caseA (by linarith) (by linarith) (by linarith) x hx)
  | tri1b q0 q1 q2 q3 q4 q5 =>
    have hraw' : scPointsOf a b c al "TRI" (some "TRI1b") = .ok scTable21 := by simp [scPointsOf]
    rw [hraw'] at hraw
    cases hraw
    exact caseB (by linarith) (by linarith) (by linarith)
  | tri2a q0 q1 q2 q3 =>
    have hraw' : scPointsOf a b c al "TRI" (some "TRI2a") = .ok scTable20 := by simp [scPointsOf]
    rw [hraw'] at hraw
    cases hraw
    exact fun x hx => .inr (caseA (by linarith) (by linarith) (htie.2.2.1 (.inr rfl)) x hx)
  | tri2b q0 q1 q2 q3 =>
    have hraw' : scPointsOf a b c al "TRI" (some "TRI2b") = .ok scTable21 := by simp [scPointsOf]
    rw [hraw'] at hraw
    cases hraw
    exact caseB (by linarith) (by linarith) (htie.2.2.2 rfl)
  | orcc q => exact absurd q (by decide)
  | _ q => exact absurd q (by decide)

/-- All lattices but the triclinic one. -/
theorem sc_place (hbl : bl ∈ bravaisLattices) (haP : bl ≠ "aP") (hcell : ScCell bl conv)
    (ht : 0 ≤ t) (hu : 0 ≤ u)
    (hm : (scConventionalToPrimitive ℝ).get? bl = some matrix)
    (hr : getReciprocal (matrix.transpose * conv) = .ok rprim)
    (hp : getParams conv = .ok (a, b, c, al, be, ga))
    (hs : ScVariation bl t u a b c al kp ka kb kg s) (htie : TieMet s conv rprim)
    (hkp : bl = "mC" → ∃ x y z p q, HasParams rprim x y z p q kp)
    (hsh : scBravaisLatticeShortNames.get? bl = some short)
    (hraw : scPointsOf a b c al short (some s) = .ok raw) :
    ∀ x ∈ raw, (bl = "mC" ∧ x.1 = "F3") ∨ PointPlace rprim x := by
  simp only [bravaisLattices, List.mem_cons, List.not_mem_nil, or_false] at hbl
  rcases hbl with h | h | h | h | h | h | h | h | h | h | h | h | h | h | h
  · exact fun x hx => .inr (scplace_cP h hcell ht hu hm hr hp hs htie hkp hsh hraw x hx)
  · exact fun x hx => .inr (scplace_cF h hcell ht hu hm hr hp hs htie hkp hsh hraw x hx)
  · exact fun x hx => .inr (scplace_cI h hcell ht hu hm hr hp hs htie hkp hsh hraw x hx)
  · exact fun x hx => .inr (scplace_tP h hcell ht hu hm hr hp hs htie hkp hsh hraw x hx)
  · exact fun x hx => .inr (scplace_tI h hcell ht hu hm hr hp hs htie hkp hsh hraw x hx)
  · exact fun x hx => .inr (scplace_oP h hcell ht hu hm hr hp hs htie hkp hsh hraw x hx)
  · exact fun x hx => .inr (scplace_oF h hcell ht hu hm hr hp hs htie hkp hsh hraw x hx)
  · exact fun x hx => .inr (scplace_oI h hcell ht hu hm hr hp hs htie hkp hsh hraw x hx)
  · exact fun x hx => .inr (scplace_oA h hcell ht hu hm hr hp hs htie hkp hsh hraw x hx)
  · exact fun x hx => .inr (scplace_oC h hcell ht hu hm hr hp hs htie hkp hsh hraw x hx)
  · exact fun x hx => .inr (scplace_hP h hcell ht hu hm hr hp hs htie hkp hsh hraw x hx)
  · exact fun x hx => .inr (scplace_hR h hcell ht hu hm hr hp hs htie hkp hsh hraw x hx)
  · exact fun x hx => .inr (scplace_mP h hcell ht hu hm hr hp hs htie hkp hsh hraw x hx)
  · exact fun x hx => (scplace_mC h hcell ht hu hm hr hp hs htie hkp hsh hraw x hx).imp (⟨h, ·⟩) id
  · exact absurd h haP

end

end Wulfric
