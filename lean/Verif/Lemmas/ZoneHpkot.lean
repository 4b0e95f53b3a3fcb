import Verif.Spec.StandardCell
import Verif.Lemmas.ZonePath
import Verif.Lemmas.ZoneA
import Verif.Lemmas.ZoneB
import Verif.Lemmas.ZoneM
import Verif.Lemmas.ZoneT

/-! # The points of the HPKOT convention lie in the Brillouin zone -/

namespace Wulfric

open Matrix _root_.Spec Wulfric.Spec

theorem inv_sq_le {a c : ℝ} (ha : 0 < a) (h : a ≤ c) : 1 / c ^ 2 ≤ 1 / a ^ 2 :=
  one_div_le_one_div_of_le (by positivity) (by gcongr)

/-- The sizes that occur for a monoclinic cell with the angle `t` between `x` and `y`, whose
cosine (up to the sign) is `w`. -/
theorem mono_sizes {x y w : ℝ} (hx : 0 < x) (hy : 0 < y) (hw : 0 ≤ w) :
    0 ≤ w / (x * y) ∧ (x * w ≤ y → w / (x * y) ≤ 1 / x ^ 2) ∧
      (y * w ≤ x → w / (x * y) ≤ 1 / y ^ 2) ∧ (2 * y * w ≤ x → 2 * (w / (x * y)) ≤ 1 / y ^ 2) := by
  refine ⟨by positivity, fun h => ?_, fun h => ?_, fun h => ?_⟩
  · rw [div_le_div_iff₀ (by positivity) (by positivity)]
    nlinarith [mul_le_mul_of_nonneg_left h hx.le]
  · rw [div_le_div_iff₀ (by positivity) (by positivity)]
    nlinarith [mul_le_mul_of_nonneg_left h hy.le]
  · rw [← mul_div_assoc, div_le_div_iff₀ (by positivity) (by positivity)]
    nlinarith [mul_le_mul_of_nonneg_left h hy.le]

theorem sin_sq_deg (t : ℝ) : Real.sin (t * toRadians) ^ 2 = 1 - Real.cos (t * toRadians) ^ 2 := by
  rw [Real.sin_sq]

/-- A cosine of a cell with two right angles. -/
theorem cos_deg_strict {t : ℝ} (h0 : 0 < t) (h1 : t < 180) :
    0 < 1 - Real.cos (t * (Real.pi / 180)) ^ 2 := by
  rw [← Real.sin_sq]
  have := Real.sin_pos_of_pos_of_lt_pi (x := t * (Real.pi / 180)) (by positivity)
    (by nlinarith [Real.pi_pos])
  positivity

theorem cos_deg_nonpos {t : ℝ} (h0 : 90 ≤ t) (h1 : t ≤ 180) :
    Real.cos (t * (Real.pi / 180)) ≤ 0 :=
  Real.cos_nonpos_of_pi_div_two_le_of_le (by nlinarith [Real.pi_pos]) (by nlinarith [Real.pi_pos])

theorem cos_deg_nonneg {t : ℝ} (h0 : 0 ≤ t) (h1 : t ≤ 90) :
    0 ≤ Real.cos (t * (Real.pi / 180)) :=
  Real.cos_nonneg_of_mem_Icc ⟨by nlinarith [Real.pi_pos], by nlinarith [Real.pi_pos]⟩

theorem std_cubic {bl : String} {cell : Cell ℝ} (h : StandardCell bl cell)
    (hb : bl ∈ ["cP", "cF", "cI"]) : ∃ a, HasParams cell a a a 90 90 90 := by
  cases h with
  | cubic _ h => exact ⟨_, h⟩
  | tetragonal q _ => simp only [List.mem_cons, List.not_mem_nil, or_false] at q hb; rcases q with rfl | rfl <;> simp at hb
  | orthorhombic q _ =>
    simp only [List.mem_cons, List.not_mem_nil, or_false] at q hb
    rcases q with rfl | rfl | rfl | rfl <;> simp at hb
  | hexagonal q _ => simp only [List.mem_cons, List.not_mem_nil, or_false] at q hb; rcases q with rfl | rfl <;> simp at hb
  | _ => simp at hb

theorem std_tetragonal {bl : String} {cell : Cell ℝ} (h : StandardCell bl cell)
    (hb : bl ∈ ["tP", "tI"]) : ∃ a c, HasParams cell a a c 90 90 90 := by
  cases h with
  | tetragonal _ h => exact ⟨_, _, h⟩
  | cubic q _ => simp only [List.mem_cons, List.not_mem_nil, or_false] at q hb; rcases q with rfl | rfl | rfl <;> simp at hb
  | orthorhombic q _ =>
    simp only [List.mem_cons, List.not_mem_nil, or_false] at q hb
    rcases q with rfl | rfl | rfl | rfl <;> simp at hb
  | hexagonal q _ => simp only [List.mem_cons, List.not_mem_nil, or_false] at q hb; rcases q with rfl | rfl <;> simp at hb
  | _ => simp at hb

theorem std_orthorhombic {bl : String} {cell : Cell ℝ} (h : StandardCell bl cell)
    (hb : bl ∈ ["oP", "oI", "oC", "oA"]) : ∃ a b c, HasParams cell a b c 90 90 90 := by
  cases h with
  | orthorhombic _ h => exact ⟨_, _, _, h⟩
  | cubic q _ => simp only [List.mem_cons, List.not_mem_nil, or_false] at q hb; rcases q with rfl | rfl | rfl <;> simp at hb
  | tetragonal q _ => simp only [List.mem_cons, List.not_mem_nil, or_false] at q hb; rcases q with rfl | rfl <;> simp at hb
  | hexagonal q _ => simp only [List.mem_cons, List.not_mem_nil, or_false] at q hb; rcases q with rfl | rfl <;> simp at hb
  | _ => simp at hb

theorem std_hexagonal {bl : String} {cell : Cell ℝ} (h : StandardCell bl cell)
    (hb : bl ∈ ["hP", "hR"]) : ∃ a c, HasParams cell a a c 90 90 120 := by
  cases h with
  | hexagonal _ h => exact ⟨_, _, h⟩
  | cubic q _ => simp only [List.mem_cons, List.not_mem_nil, or_false] at q hb; rcases q with rfl | rfl | rfl <;> simp at hb
  | tetragonal q _ => simp only [List.mem_cons, List.not_mem_nil, or_false] at q hb; rcases q with rfl | rfl <;> simp at hb
  | orthorhombic q _ =>
    simp only [List.mem_cons, List.not_mem_nil, or_false] at q hb
    rcases q with rfl | rfl | rfl | rfl <;> simp at hb
  | _ => simp at hb

theorem std_oF {bl : String} {cell : Cell ℝ} (h : StandardCell bl cell) (hb : bl = "oF") :
    ∃ a b c, HasParams cell a b c 90 90 90 ∧ 1 / b ^ 2 ≤ 1 / a ^ 2 + 1 / c ^ 2 := by
  cases h with
  | faceCentred h q => exact ⟨_, _, _, h, q⟩
  | cubic q _ => subst hb; simp at q
  | tetragonal q _ => subst hb; simp at q
  | orthorhombic q _ => subst hb; simp at q
  | hexagonal q _ => subst hb; simp at q
  | _ => simp at hb

theorem std_mP {bl : String} {cell : Cell ℝ} (h : StandardCell bl cell) (hb : bl = "mP") :
    ∃ a b c be, HasParams cell a b c 90 be 90 ∧ 90 ≤ be ∧
      -(a * Real.cos (be * (Real.pi / 180))) ≤ c ∧ -(c * Real.cos (be * (Real.pi / 180))) ≤ a := by
  cases h with
  | monoclinic h q1 q2 q3 => exact ⟨_, _, _, _, h, q1, q2, q3⟩
  | cubic q _ => subst hb; simp at q
  | tetragonal q _ => subst hb; simp at q
  | orthorhombic q _ => subst hb; simp at q
  | hexagonal q _ => subst hb; simp at q
  | _ => simp at hb

theorem std_mC {bl : String} {cell : Cell ℝ} (h : StandardCell bl cell) (hb : bl = "mC") :
    ∃ a b c be, HasParams cell a b c 90 be 90 ∧ 90 ≤ be ∧
      -(a * Real.cos (be * (Real.pi / 180))) ≤ c ∧
      -(2 * c * Real.cos (be * (Real.pi / 180))) ≤ a := by
  cases h with
  | monoclinicC h q1 q2 q3 => exact ⟨_, _, _, _, h, q1, q2, q3⟩
  | cubic q _ => subst hb; simp at q
  | tetragonal q _ => subst hb; simp at q
  | orthorhombic q _ => subst hb; simp at q
  | hexagonal q _ => subst hb; simp at q
  | _ => simp at hb

section
variable {conv prim rprim matrix : Cell ℝ} {a b c al be ga : ℝ}
  {bl s : String} {n : ℤ} {ra rb rg : ℝ} {raw : PyDict String (Vec ℝ)}

theorem place_cP (hbl : bl = "cP") (hstd : StandardCell bl conv)
    (hm : (hpkotConventionalToPrimitive ℝ).get? bl = some matrix)
    (hr : getReciprocal (matrix.transpose * conv) = .ok rprim)
    (hp : getParams conv = .ok (a, b, c, al, be, ga))
    (hs : HpkotSymbol bl n a b c be ra rb rg s) (hraw : hpkotPointsOf a b c be bl s = .ok raw) :
    ∀ x ∈ raw, PointPlace rprim x := by
  subst hbl
  obtain ⟨-, ea, eb, ec⟩ := getParams_ok hp
  have ha := machineEps_pos.trans ea
  have hb := machineEps_pos.trans eb
  have hc := machineEps_pos.trans ec
  clear ea eb ec
  obtain ⟨a', h⟩ := std_cubic hstd (by simp)
  obtain ⟨rfl, rfl, rfl, -, -, -⟩ := params_unique hp h
  have hA : 0 < 1 / a' ^ 2 := by positivity
  obtain rfl : !![1, 0, 0; 0, 1, 0; 0, 0, 1] = matrix := Option.some.inj hm
  cases hs with
  | cP1 q1 q2 q3 =>
    have hraw' : hpkotPointsOf a' a' a' be "cP" "cP1" = .ok hpkotTable69 := by simp [hpkotPointsOf]
    rw [hraw'] at hraw
    cases hraw
    exact fun x hx => (form_P ha.ne' ha.ne' ha.ne' h).place hr (zone_cP hA x hx)
  | cP2 q1 q2 q3 =>
    have hraw' : hpkotPointsOf a' a' a' be "cP" "cP2" = .ok hpkotTable69 := by simp [hpkotPointsOf]
    rw [hraw'] at hraw
    cases hraw
    exact fun x hx => (form_P ha.ne' ha.ne' ha.ne' h).place hr (zone_cP hA x hx)
  | _ q => exact absurd q (by decide)

theorem place_cF (hbl : bl = "cF") (hstd : StandardCell bl conv)
    (hm : (hpkotConventionalToPrimitive ℝ).get? bl = some matrix)
    (hr : getReciprocal (matrix.transpose * conv) = .ok rprim)
    (hp : getParams conv = .ok (a, b, c, al, be, ga))
    (hs : HpkotSymbol bl n a b c be ra rb rg s) (hraw : hpkotPointsOf a b c be bl s = .ok raw) :
    ∀ x ∈ raw, PointPlace rprim x := by
  subst hbl
  obtain ⟨-, ea, eb, ec⟩ := getParams_ok hp
  have ha := machineEps_pos.trans ea
  have hb := machineEps_pos.trans eb
  have hc := machineEps_pos.trans ec
  clear ea eb ec
  obtain ⟨a', h⟩ := std_cubic hstd (by simp)
  obtain ⟨rfl, rfl, rfl, -, -, -⟩ := params_unique hp h
  have hA : 0 < 1 / a' ^ 2 := by positivity
  obtain rfl : !![0, 1 / 2, 1 / 2; 1 / 2, 0, 1 / 2; 1 / 2, 1 / 2, 0] = matrix := Option.some.inj hm
  cases hs with
  | cF1 q1 q2 q3 =>
    have hraw' : hpkotPointsOf a' a' a' be "cF" "cF1" = .ok hpkotTable70 := by simp [hpkotPointsOf]
    rw [hraw'] at hraw
    cases hraw
    intro x hx
    refine (form_F ha.ne' ha.ne' ha.ne' h rfl rfl rfl).place hr ?_
    convert zone_cF hA x hx using 1 <;> ring
  | cF2 q1 q2 q3 =>
    have hraw' : hpkotPointsOf a' a' a' be "cF" "cF2" = .ok hpkotTable70 := by simp [hpkotPointsOf]
    rw [hraw'] at hraw
    cases hraw
    intro x hx
    refine (form_F ha.ne' ha.ne' ha.ne' h rfl rfl rfl).place hr ?_
    convert zone_cF hA x hx using 1 <;> ring
  | _ q => exact absurd q (by decide)

theorem place_cI (hbl : bl = "cI") (hstd : StandardCell bl conv)
    (hm : (hpkotConventionalToPrimitive ℝ).get? bl = some matrix)
    (hr : getReciprocal (matrix.transpose * conv) = .ok rprim)
    (hp : getParams conv = .ok (a, b, c, al, be, ga))
    (hs : HpkotSymbol bl n a b c be ra rb rg s) (hraw : hpkotPointsOf a b c be bl s = .ok raw) :
    ∀ x ∈ raw, PointPlace rprim x := by
  subst hbl
  obtain ⟨-, ea, eb, ec⟩ := getParams_ok hp
  have ha := machineEps_pos.trans ea
  have hb := machineEps_pos.trans eb
  have hc := machineEps_pos.trans ec
  clear ea eb ec
  obtain ⟨a', h⟩ := std_cubic hstd (by simp)
  obtain ⟨rfl, rfl, rfl, -, -, -⟩ := params_unique hp h
  have hA : 0 < 1 / a' ^ 2 := by positivity
  obtain rfl : !![-1 / 2, 1 / 2, 1 / 2; 1 / 2, -1 / 2, 1 / 2; 1 / 2, 1 / 2, -1 / 2] = matrix := Option.some.inj hm
  cases hs with
  | cI1 q1 =>
    have hraw' : hpkotPointsOf a' a' a' be "cI" "cI1" = .ok hpkotTable71 := by simp [hpkotPointsOf]
    rw [hraw'] at hraw
    cases hraw
    intro x hx
    refine (form_I ha.ne' ha.ne' ha.ne' h rfl rfl rfl).place hr ?_
    convert zone_cI hA x hx using 1 <;> ring
  | _ q => exact absurd q (by decide)

theorem place_tP (hbl : bl = "tP") (hstd : StandardCell bl conv)
    (hm : (hpkotConventionalToPrimitive ℝ).get? bl = some matrix)
    (hr : getReciprocal (matrix.transpose * conv) = .ok rprim)
    (hp : getParams conv = .ok (a, b, c, al, be, ga))
    (hs : HpkotSymbol bl n a b c be ra rb rg s) (hraw : hpkotPointsOf a b c be bl s = .ok raw) :
    ∀ x ∈ raw, PointPlace rprim x := by
  subst hbl
  obtain ⟨-, ea, eb, ec⟩ := getParams_ok hp
  have ha := machineEps_pos.trans ea
  have hb := machineEps_pos.trans eb
  have hc := machineEps_pos.trans ec
  clear ea eb ec
  obtain ⟨a', c', h⟩ := std_tetragonal hstd (by simp)
  obtain ⟨rfl, rfl, rfl, -, -, -⟩ := params_unique hp h
  have hA : 0 < 1 / a' ^ 2 := by positivity
  have hC : 0 < 1 / c' ^ 2 := by positivity
  obtain rfl : !![1, 0, 0; 0, 1, 0; 0, 0, 1] = matrix := Option.some.inj hm
  cases hs with
  | tP1 q1 =>
    have hraw' : hpkotPointsOf a' a' c' be "tP" "tP1" = .ok hpkotTable72 := by simp [hpkotPointsOf]
    rw [hraw'] at hraw
    cases hraw
    exact fun x hx => (form_P ha.ne' ha.ne' hc.ne' h).place hr (zone_tP hA hC x hx)
  | _ q => exact absurd q (by decide)

theorem place_tI (hbl : bl = "tI") (hstd : StandardCell bl conv)
    (hm : (hpkotConventionalToPrimitive ℝ).get? bl = some matrix)
    (hr : getReciprocal (matrix.transpose * conv) = .ok rprim)
    (hp : getParams conv = .ok (a, b, c, al, be, ga))
    (hs : HpkotSymbol bl n a b c be ra rb rg s) (hraw : hpkotPointsOf a b c be bl s = .ok raw) :
    ∀ x ∈ raw, PointPlace rprim x := by
  subst hbl
  obtain ⟨-, ea, eb, ec⟩ := getParams_ok hp
  have ha := machineEps_pos.trans ea
  have hb := machineEps_pos.trans eb
  have hc := machineEps_pos.trans ec
  clear ea eb ec
  obtain ⟨a', c', h⟩ := std_tetragonal hstd (by simp)
  obtain ⟨rfl, rfl, rfl, -, -, -⟩ := params_unique hp h
  have hA : 0 < 1 / a' ^ 2 := by positivity
  have hC : 0 < 1 / c' ^ 2 := by positivity
  obtain rfl : !![-1 / 2, 1 / 2, 1 / 2; 1 / 2, -1 / 2, 1 / 2; 1 / 2, 1 / 2, -1 / 2] = matrix := Option.some.inj hm
  cases hs with
  | tI1 q1 q2 =>
    have hraw' : hpkotPointsOf a' a' c' be "tI" "tI1" = .ok (hpkotTable73 a' c') := by simp [hpkotPointsOf]
    rw [hraw'] at hraw
    cases hraw
    intro x hx
    refine (form_I ha.ne' ha.ne' hc.ne' h rfl rfl rfl).place hr ?_
    convert zone_tI1 ha.ne' hc.ne' rfl rfl hA (inv_sq_le hc q2) x hx using 1
    ring
  | tI2 q1 q2 =>
    have hraw' : hpkotPointsOf a' a' c' be "tI" "tI2" = .ok (hpkotTable74 a' c') := by simp [hpkotPointsOf]
    rw [hraw'] at hraw
    cases hraw
    intro x hx
    refine (form_I ha.ne' ha.ne' hc.ne' h rfl rfl rfl).place hr ?_
    convert zone_tI2 ha.ne' hc.ne' rfl rfl hC (inv_sq_le ha q2.le) x hx using 1
    ring
  | _ q => exact absurd q (by decide)

theorem place_oP (hbl : bl = "oP") (hstd : StandardCell bl conv)
    (hm : (hpkotConventionalToPrimitive ℝ).get? bl = some matrix)
    (hr : getReciprocal (matrix.transpose * conv) = .ok rprim)
    (hp : getParams conv = .ok (a, b, c, al, be, ga))
    (hs : HpkotSymbol bl n a b c be ra rb rg s) (hraw : hpkotPointsOf a b c be bl s = .ok raw) :
    ∀ x ∈ raw, PointPlace rprim x := by
  subst hbl
  obtain ⟨-, ea, eb, ec⟩ := getParams_ok hp
  have ha := machineEps_pos.trans ea
  have hb := machineEps_pos.trans eb
  have hc := machineEps_pos.trans ec
  clear ea eb ec
  obtain ⟨a', b', c', h⟩ := std_orthorhombic hstd (by simp)
  obtain ⟨rfl, rfl, rfl, -, -, -⟩ := params_unique hp h
  have hA : 0 < 1 / a' ^ 2 := by positivity
  have hB : 0 < 1 / b' ^ 2 := by positivity
  have hC : 0 < 1 / c' ^ 2 := by positivity
  obtain rfl : !![1, 0, 0; 0, 1, 0; 0, 0, 1] = matrix := Option.some.inj hm
  cases hs with
  | oP1 q1 =>
    have hraw' : hpkotPointsOf a' b' c' be "oP" "oP1" = .ok hpkotTable75 := by simp [hpkotPointsOf]
    rw [hraw'] at hraw
    cases hraw
    exact fun x hx => (form_P ha.ne' hb.ne' hc.ne' h).place hr (zone_oP hA hB hC x hx)
  | _ q => exact absurd q (by decide)

theorem place_oI (hbl : bl = "oI") (hstd : StandardCell bl conv)
    (hm : (hpkotConventionalToPrimitive ℝ).get? bl = some matrix)
    (hr : getReciprocal (matrix.transpose * conv) = .ok rprim)
    (hp : getParams conv = .ok (a, b, c, al, be, ga))
    (hs : HpkotSymbol bl n a b c be ra rb rg s) (hraw : hpkotPointsOf a b c be bl s = .ok raw) :
    ∀ x ∈ raw, PointPlace rprim x := by
  subst hbl
  obtain ⟨-, ea, eb, ec⟩ := getParams_ok hp
  have ha := machineEps_pos.trans ea
  have hb := machineEps_pos.trans eb
  have hc := machineEps_pos.trans ec
  clear ea eb ec
  obtain ⟨a', b', c', h⟩ := std_orthorhombic hstd (by simp)
  obtain ⟨rfl, rfl, rfl, -, -, -⟩ := params_unique hp h
  have hA : 0 < 1 / a' ^ 2 := by positivity
  have hB : 0 < 1 / b' ^ 2 := by positivity
  have hC : 0 < 1 / c' ^ 2 := by positivity
  obtain rfl : !![-1 / 2, 1 / 2, 1 / 2; 1 / 2, -1 / 2, 1 / 2; 1 / 2, 1 / 2, -1 / 2] = matrix := Option.some.inj hm
  cases hs with
  | oI1 q1 q2 q3 =>
    have hraw' : hpkotPointsOf a' b' c' be "oI" "oI1" = .ok (hpkotTable79 a' b' c') := by simp [hpkotPointsOf]
    rw [hraw'] at hraw
    cases hraw
    exact fun x hx => (form_I ha.ne' hb.ne' hc.ne' h rfl rfl rfl).place hr
      (zone_oI1 ha.ne' hb.ne' hc.ne' rfl rfl rfl hC (inv_sq_le ha q2) (inv_sq_le hb q3) x hx)
  | oI2 q1 q2 q3 =>
    have hraw' : hpkotPointsOf a' b' c' be "oI" "oI2" = .ok (hpkotTable80 a' b' c') := by simp [hpkotPointsOf]
    rw [hraw'] at hraw
    cases hraw
    exact fun x hx => (form_I ha.ne' hb.ne' hc.ne' h rfl rfl rfl).place hr
      (zone_oI2 ha.ne' hb.ne' hc.ne' rfl rfl rfl hA (inv_sq_le hb q2) (inv_sq_le hc q3.le) x hx)
  | oI3 q1 q2 q3 =>
    have hraw' : hpkotPointsOf a' b' c' be "oI" "oI3" = .ok (hpkotTable81 a' b' c') := by simp [hpkotPointsOf]
    rw [hraw'] at hraw
    cases hraw
    exact fun x hx => (form_I ha.ne' hb.ne' hc.ne' h rfl rfl rfl).place hr
      (zone_oI3 ha.ne' hb.ne' hc.ne' rfl rfl rfl hB (inv_sq_le ha q2.le) (inv_sq_le hc q3.le) x hx)
  | _ q => exact absurd q (by decide)

theorem place_oC (hbl : bl = "oC") (hstd : StandardCell bl conv)
    (hm : (hpkotConventionalToPrimitive ℝ).get? bl = some matrix)
    (hr : getReciprocal (matrix.transpose * conv) = .ok rprim)
    (hp : getParams conv = .ok (a, b, c, al, be, ga))
    (hs : HpkotSymbol bl n a b c be ra rb rg s) (hraw : hpkotPointsOf a b c be bl s = .ok raw) :
    ∀ x ∈ raw, PointPlace rprim x := by
  subst hbl
  obtain ⟨-, ea, eb, ec⟩ := getParams_ok hp
  have ha := machineEps_pos.trans ea
  have hb := machineEps_pos.trans eb
  have hc := machineEps_pos.trans ec
  clear ea eb ec
  obtain ⟨a', b', c', h⟩ := std_orthorhombic hstd (by simp)
  obtain ⟨rfl, rfl, rfl, -, -, -⟩ := params_unique hp h
  have hA : 0 < 1 / a' ^ 2 := by positivity
  have hB : 0 < 1 / b' ^ 2 := by positivity
  have hC : 0 < 1 / c' ^ 2 := by positivity
  obtain rfl : !![1 / 2, 1 / 2, 0; -1 / 2, 1 / 2, 0; 0, 0, 1] = matrix := Option.some.inj hm
  cases hs with
  | oC1 q1 q2 =>
    have hraw' : hpkotPointsOf a' b' c' be "oC" "oC1" = .ok (hpkotTable82 ((1 + (a' / b') ^ 2) / 4)) := by simp [hpkotPointsOf, hpkotZeta82, Except.map]
    rw [hraw'] at hraw
    cases hraw
    exact fun x hx => (form_C ha.ne' hb.ne' hc.ne' h rfl rfl rfl).place hr
      (zone_oC1 ha.ne' hb.ne' rfl rfl rfl hB hC (inv_sq_le ha q2) x hx)
  | oC2 q1 q2 =>
    have hraw' : hpkotPointsOf a' b' c' be "oC" "oC2" = .ok (hpkotTable83 ((1 + (b' / a') ^ 2) / 4)) := by simp [hpkotPointsOf, hpkotZeta83, Except.map]
    rw [hraw'] at hraw
    cases hraw
    exact fun x hx => (form_C ha.ne' hb.ne' hc.ne' h rfl rfl rfl).place hr
      (zone_oC2 ha.ne' hb.ne' rfl rfl rfl hA hC (inv_sq_le hb q2.le) x hx)
  | _ q => exact absurd q (by decide)

theorem place_oA (hbl : bl = "oA") (hstd : StandardCell bl conv)
    (hm : (hpkotConventionalToPrimitive ℝ).get? bl = some matrix)
    (hr : getReciprocal (matrix.transpose * conv) = .ok rprim)
    (hp : getParams conv = .ok (a, b, c, al, be, ga))
    (hs : HpkotSymbol bl n a b c be ra rb rg s) (hraw : hpkotPointsOf a b c be bl s = .ok raw) :
    ∀ x ∈ raw, PointPlace rprim x := by
  subst hbl
  obtain ⟨-, ea, eb, ec⟩ := getParams_ok hp
  have ha := machineEps_pos.trans ea
  have hb := machineEps_pos.trans eb
  have hc := machineEps_pos.trans ec
  clear ea eb ec
  obtain ⟨a', b', c', h⟩ := std_orthorhombic hstd (by simp)
  obtain ⟨rfl, rfl, rfl, -, -, -⟩ := params_unique hp h
  have hA : 0 < 1 / a' ^ 2 := by positivity
  have hB : 0 < 1 / b' ^ 2 := by positivity
  have hC : 0 < 1 / c' ^ 2 := by positivity
  obtain rfl : !![0, 0, 1; 1 / 2, 1 / 2, 0; -1 / 2, 1 / 2, 0] = matrix := Option.some.inj hm
  cases hs with
  | oA1 q1 q2 =>
    have hraw' : hpkotPointsOf a' b' c' be "oA" "oA1" = .ok (hpkotTable82 ((1 + (b' / c') ^ 2) / 4)) := by simp [hpkotPointsOf, hpkotZeta82, Except.map]
    rw [hraw'] at hraw
    cases hraw
    exact fun x hx => (form_A ha.ne' hb.ne' hc.ne' h rfl rfl rfl).place hr
      (zone_oA1 hb.ne' hc.ne' rfl rfl rfl hA hC (inv_sq_le hb q2) x hx)
  | oA2 q1 q2 =>
    have hraw' : hpkotPointsOf a' b' c' be "oA" "oA2" = .ok (hpkotTable83 ((1 + (c' / b') ^ 2) / 4)) := by simp [hpkotPointsOf, hpkotZeta83, Except.map]
    rw [hraw'] at hraw
    cases hraw
    exact fun x hx => (form_A ha.ne' hb.ne' hc.ne' h rfl rfl rfl).place hr
      (zone_oA2 hb.ne' hc.ne' rfl rfl rfl hA hB (inv_sq_le hc q2.le) x hx)
  | _ q => exact absurd q (by decide)

theorem place_oF (hbl : bl = "oF") (hstd : StandardCell bl conv)
    (hm : (hpkotConventionalToPrimitive ℝ).get? bl = some matrix)
    (hr : getReciprocal (matrix.transpose * conv) = .ok rprim)
    (hp : getParams conv = .ok (a, b, c, al, be, ga))
    (hs : HpkotSymbol bl n a b c be ra rb rg s) (hraw : hpkotPointsOf a b c be bl s = .ok raw) :
    ∀ x ∈ raw, PointPlace rprim x := by
  subst hbl
  obtain ⟨-, ea, eb, ec⟩ := getParams_ok hp
  have ha := machineEps_pos.trans ea
  have hb := machineEps_pos.trans eb
  have hc := machineEps_pos.trans ec
  clear ea eb ec
  obtain ⟨a', b', c', h, hor⟩ := std_oF hstd rfl
  obtain ⟨rfl, rfl, rfl, -, -, -⟩ := params_unique hp h
  have hA : 0 < 1 / a' ^ 2 := by positivity
  have hB : 0 < 1 / b' ^ 2 := by positivity
  have hC : 0 < 1 / c' ^ 2 := by positivity
  obtain rfl : !![0, 1 / 2, 1 / 2; 1 / 2, 0, 1 / 2; 1 / 2, 1 / 2, 0] = matrix := Option.some.inj hm
  cases hs with
  | oF1 q1 q2 =>
    have hraw' : hpkotPointsOf a' b' c' be "oF" "oF1" = .ok (hpkotTable76 a' b' c') := by simp [hpkotPointsOf]
    rw [hraw'] at hraw
    cases hraw
    exact fun x hx => (form_F ha.ne' hb.ne' hc.ne' h rfl rfl rfl).place hr
      (zone_oF1 ha.ne' hb.ne' hc.ne' rfl rfl rfl hB hC q2.le x hx)
  | oF2 q1 q2 =>
    have hraw' : hpkotPointsOf a' b' c' be "oF" "oF2" = .ok (hpkotTable77 a' b' c') := by simp [hpkotPointsOf]
    rw [hraw'] at hraw
    cases hraw
    exact fun x hx => (form_F ha.ne' hb.ne' hc.ne' h rfl rfl rfl).place hr
      (zone_oF2 ha.ne' hb.ne' hc.ne' rfl rfl rfl hA hB q2.le x hx)
  | oF3 q1 q2 q3 =>
    have hraw' : hpkotPointsOf a' b' c' be "oF" "oF3" = .ok (hpkotTable78 a' b' c') := by simp [hpkotPointsOf]
    rw [hraw'] at hraw
    cases hraw
    exact fun x hx => (form_F ha.ne' hb.ne' hc.ne' h rfl rfl rfl).place hr
      (zone_oF3 ha.ne' hb.ne' hc.ne' rfl rfl rfl q2 hor q3 x hx)
  | _ q => exact absurd q (by decide)

theorem place_hP (hbl : bl = "hP") (hstd : StandardCell bl conv)
    (hm : (hpkotConventionalToPrimitive ℝ).get? bl = some matrix)
    (hr : getReciprocal (matrix.transpose * conv) = .ok rprim)
    (hp : getParams conv = .ok (a, b, c, al, be, ga))
    (hs : HpkotSymbol bl n a b c be ra rb rg s) (hraw : hpkotPointsOf a b c be bl s = .ok raw) :
    ∀ x ∈ raw, PointPlace rprim x := by
  subst hbl
  obtain ⟨-, ea, eb, ec⟩ := getParams_ok hp
  have ha := machineEps_pos.trans ea
  have hb := machineEps_pos.trans eb
  have hc := machineEps_pos.trans ec
  clear ea eb ec
  obtain ⟨a', c', h⟩ := std_hexagonal hstd (by simp)
  obtain ⟨rfl, rfl, rfl, -, -, -⟩ := params_unique hp h
  have hA : 0 < 2 / (3 * a' ^ 2) := by positivity
  have hC : 0 < 1 / c' ^ 2 := by positivity
  obtain rfl : !![1, 0, 0; 0, 1, 0; 0, 0, 1] = matrix := Option.some.inj hm
  cases hs with
  | hP1 q1 q2 =>
    have hraw' : hpkotPointsOf a' a' c' be "hP" "hP1" = .ok hpkotTable84 := by simp [hpkotPointsOf]
    rw [hraw'] at hraw
    cases hraw
    exact fun x hx => (form_hP ha.ne' hc.ne' h).place hr (zone_hP hA hC x hx)
  | hP2 q1 q2 =>
    have hraw' : hpkotPointsOf a' a' c' be "hP" "hP2" = .ok hpkotTable84 := by simp [hpkotPointsOf]
    rw [hraw'] at hraw
    cases hraw
    exact fun x hx => (form_hP ha.ne' hc.ne' h).place hr (zone_hP hA hC x hx)
  | _ q => exact absurd q (by decide)

theorem place_hR (hbl : bl = "hR") (hstd : StandardCell bl conv)
    (hm : (hpkotConventionalToPrimitive ℝ).get? bl = some matrix)
    (hr : getReciprocal (matrix.transpose * conv) = .ok rprim)
    (hp : getParams conv = .ok (a, b, c, al, be, ga))
    (hs : HpkotSymbol bl n a b c be ra rb rg s) (hraw : hpkotPointsOf a b c be bl s = .ok raw) :
    ∀ x ∈ raw, PointPlace rprim x := by
  subst hbl
  obtain ⟨-, ea, eb, ec⟩ := getParams_ok hp
  have ha := machineEps_pos.trans ea
  have hb := machineEps_pos.trans eb
  have hc := machineEps_pos.trans ec
  clear ea eb ec
  obtain ⟨a', c', h⟩ := std_hexagonal hstd (by simp)
  obtain ⟨rfl, rfl, rfl, -, -, -⟩ := params_unique hp h
  have hA : 0 < 2 / (3 * a' ^ 2) := by positivity
  have hC : 0 < 1 / c' ^ 2 := by positivity
  obtain rfl : !![1, -1 / 2, -1 / 2; 1 / 2, 1 / 2, -1; 1 / 2, 1 / 2, 1 / 2] = matrix := Option.some.inj hm
  cases hs with
  | hR1 q1 q2 =>
    have hraw' : hpkotPointsOf a' a' c' be "hR" "hR1" = .ok (hpkotTable85 a' c') := by simp [hpkotPointsOf]
    rw [hraw'] at hraw
    cases hraw
    have hac : 1 / c' ^ 2 ≤ 2 / (3 * a' ^ 2) := by
      rw [div_le_div_iff₀ (by positivity) (by positivity)]
      linarith
    exact fun x hx => (form_hR ha.ne' hc.ne' h rfl rfl).place hr
      (zone_hR1 ha.ne' hc.ne' rfl rfl hC hac x hx)
  | hR2 q1 q2 =>
    have hraw' : hpkotPointsOf a' a' c' be "hR" "hR2" = .ok (hpkotTable86 a' c') := by simp [hpkotPointsOf]
    rw [hraw'] at hraw
    cases hraw
    have hac : 2 / (3 * a' ^ 2) ≤ 1 / c' ^ 2 := by
      rw [div_le_div_iff₀ (by positivity) (by positivity)]
      linarith
    exact fun x hx => (form_hR ha.ne' hc.ne' h rfl rfl).place hr
      (zone_hR2 ha.ne' hc.ne' rfl rfl hA hac x hx)
  | _ q => exact absurd q (by decide)

theorem place_mP (hbl : bl = "mP") (hstd : StandardCell bl conv)
    (hm : (hpkotConventionalToPrimitive ℝ).get? bl = some matrix)
    (hr : getReciprocal (matrix.transpose * conv) = .ok rprim)
    (hp : getParams conv = .ok (a, b, c, al, be, ga))
    (hs : HpkotSymbol bl n a b c be ra rb rg s) (hraw : hpkotPointsOf a b c be bl s = .ok raw) :
    ∀ x ∈ raw, PointPlace rprim x := by
  subst hbl
  obtain ⟨-, ea, eb, ec⟩ := getParams_ok hp
  have ha := machineEps_pos.trans ea
  have hb := machineEps_pos.trans eb
  have hc := machineEps_pos.trans ec
  clear ea eb ec
  obtain ⟨a', b', c', be', h, h90, k1, k2⟩ := std_mP hstd rfl
  obtain ⟨rfl, rfl, rfl, -, rfl, -⟩ := params_unique hp h
  have hdet : conv.det ≠ 0 := by
    have := (recip_ok hr).1
    rw [det_mul] at this
    exact right_ne_zero_of_mul this
  obtain ⟨-, hst⟩ := HasParams.strict hdet h
  have hs0 := cos_deg_strict hst.hbe.1 hst.hbe.2
  have hcb := cos_deg_nonpos h90 hst.hbe.2.le
  obtain ⟨cb, hcos⟩ : ∃ cb, Real.cos (be' * (Real.pi / 180)) = cb := ⟨_, rfl⟩
  have hs2 : Real.sin (be' * toRadians) ^ 2 = 1 - cb ^ 2 := by
    rw [sin_sq_deg, toRadians, hcos]
  have hcos' : Real.cos (be' * toRadians) = cb := hcos
  rw [hcos] at hs0 hcb k1 k2
  obtain ⟨w1, w2, w3, w4⟩ := mono_sizes ha hc (neg_nonneg.2 hcb)
  have hX : 0 < 1 / a' ^ 2 := by positivity
  have hY : 0 < (1 - cb ^ 2) / b' ^ 2 := by positivity
  obtain rfl : !![1, 0, 0; 0, 1, 0; 0, 0, 1] = matrix := Option.some.inj hm
  cases hs with
  | mP1 q1 =>
    have hraw' : hpkotPointsOf a' b' c' be' "mP" "mP1" = .ok (hpkotTable87 a' c' be') := by simp [hpkotPointsOf]
    rw [hraw'] at hraw
    cases hraw
    exact fun x hx => (form_mP ha.ne' hb.ne' hc.ne' hcos hs0 h).place hr
      (zone_mP ha.ne' hc.ne' hs0.ne' hcos' hs2 rfl rfl rfl hY w1 (w2 (by linarith))
        (w3 (by linarith)) x hx)
  | _ q => exact absurd q (by decide)

theorem place_mC (hbl : bl = "mC") (hstd : StandardCell bl conv)
    (hm : (hpkotConventionalToPrimitive ℝ).get? bl = some matrix)
    (hr : getReciprocal (matrix.transpose * conv) = .ok rprim)
    (hp : getParams conv = .ok (a, b, c, al, be, ga))
    (hs : HpkotSymbol bl n a b c be ra rb rg s) (hraw : hpkotPointsOf a b c be bl s = .ok raw) :
    ∀ x ∈ raw, PointPlace rprim x := by
  subst hbl
  obtain ⟨-, ea, eb, ec⟩ := getParams_ok hp
  have ha := machineEps_pos.trans ea
  have hb := machineEps_pos.trans eb
  have hc := machineEps_pos.trans ec
  clear ea eb ec
  obtain ⟨a', b', c', be', h, h90, k1, k2⟩ := std_mC hstd rfl
  obtain ⟨rfl, rfl, rfl, -, rfl, -⟩ := params_unique hp h
  have hdet : conv.det ≠ 0 := by
    have := (recip_ok hr).1
    rw [det_mul] at this
    exact right_ne_zero_of_mul this
  obtain ⟨-, hst⟩ := HasParams.strict hdet h
  have hs0 := cos_deg_strict hst.hbe.1 hst.hbe.2
  have hcb := cos_deg_nonpos h90 hst.hbe.2.le
  obtain ⟨cb, hcos⟩ : ∃ cb, Real.cos (be' * (Real.pi / 180)) = cb := ⟨_, rfl⟩
  have hs2 : Real.sin (be' * toRadians) ^ 2 = 1 - cb ^ 2 := by
    rw [sin_sq_deg, toRadians, hcos]
  have hcos' : Real.cos (be' * toRadians) = cb := hcos
  rw [hcos] at hs0 hcb k1 k2
  obtain ⟨w1, w2, w3, w4⟩ := mono_sizes ha hc (neg_nonneg.2 hcb)
  have hX : 0 < 1 / a' ^ 2 := by positivity
  have hY : 0 < (1 - cb ^ 2) / b' ^ 2 := by positivity
  have hsin : 0 < Real.sin (be' * (Real.pi / 180)) :=
    Real.sin_pos_of_pos_of_lt_pi (mul_pos hst.hbe.1 (by positivity))
      (by nlinarith [Real.pi_pos, hst.hbe.2])
  have hs2' : Real.sin (be' * (Real.pi / 180)) ^ 2 = 1 - cb ^ 2 := hs2
  obtain rfl : !![1 / 2, -1 / 2, 0; 1 / 2, 1 / 2, 0; 0, 0, 1] = matrix := Option.some.inj hm
  cases hs with
  | mC1 q1 q2 =>
    have hraw' : hpkotPointsOf a' b' c' be' "mC" "mC1" = .ok (hpkotTable88 a' b' c' be') := by simp [hpkotPointsOf]
    rw [hraw'] at hraw
    cases hraw
    have hXY : 1 / a' ^ 2 ≤ (1 - cb ^ 2) / b' ^ 2 := by
      rw [div_le_div_iff₀ (by positivity) (by positivity), ← hs2']
      nlinarith
    exact fun x hx => (form_mC ha.ne' hb.ne' hc.ne' hcos hs0 h rfl rfl rfl rfl).place hr
      (zone_mC1 ha.ne' hc.ne' hs0.ne' hcos' hs2 rfl rfl rfl hb.ne' rfl w1 (w2 (by linarith)) (w4 (by linarith)) hXY x hx)
  | mC2 q1 q2 q3 =>
    have hraw' : hpkotPointsOf a' b' c' be' "mC" "mC2" = .ok (hpkotTable89 a' b' c' be') := by simp [hpkotPointsOf]
    rw [hraw'] at hraw
    cases hraw
    have hYX : (1 - cb ^ 2) / b' ^ 2 ≤ 1 / a' ^ 2 := by
      rw [div_le_div_iff₀ (by positivity) (by positivity), ← hs2']
      nlinarith [mul_pos ha hsin]
    rw [hs2', hcos] at q3
    have hWY : (-cb / (a' * c') + (1 - cb ^ 2) / b' ^ 2) =
        (-a' * cb / c' + a' ^ 2 * (1 - cb ^ 2) / b' ^ 2) * (1 / a' ^ 2) := by
      field_simp
    have hWYX : -cb / (a' * c') + (1 - cb ^ 2) / b' ^ 2 ≤ 1 / a' ^ 2 := by
      rw [hWY]
      nlinarith
    exact fun x hx => (form_mC ha.ne' hb.ne' hc.ne' hcos hs0 h rfl rfl rfl rfl).place hr
      (zone_mC2 ha.ne' hc.ne' hs0.ne' hcos' hs2 rfl rfl rfl hb.ne' rfl hY w1 (by linarith [w4 (by linarith)]) hWYX x hx)
  | mC3 q1 q2 q3 =>
    have hraw' : hpkotPointsOf a' b' c' be' "mC" "mC3" = .ok (hpkotTable90 a' b' c' be') := by simp [hpkotPointsOf]
    rw [hraw'] at hraw
    cases hraw
    have hYX : (1 - cb ^ 2) / b' ^ 2 ≤ 1 / a' ^ 2 := by
      rw [div_le_div_iff₀ (by positivity) (by positivity), ← hs2']
      nlinarith [mul_pos ha hsin]
    rw [hs2', hcos] at q3
    have hWY : (-cb / (a' * c') + (1 - cb ^ 2) / b' ^ 2) =
        (-a' * cb / c' + a' ^ 2 * (1 - cb ^ 2) / b' ^ 2) * (1 / a' ^ 2) := by
      field_simp
    have hXWY : 1 / a' ^ 2 < -cb / (a' * c') + (1 - cb ^ 2) / b' ^ 2 := by
      rw [hWY]
      nlinarith
    have hcb0 : cb ≠ 0 := by
      rintro rfl
      rw [neg_zero, zero_div, zero_add] at hXWY
      linarith
    exact fun x hx => (form_mC ha.ne' hb.ne' hc.ne' hcos hs0 h rfl rfl rfl rfl).place hr
      (zone_mC3 ha.ne' hc.ne' hs0.ne' hcos' hs2 rfl rfl rfl hb.ne' rfl hcb0 hY w1 (w2 (by linarith)) (w4 (by linarith)) hXWY.le hYX x hx)
  | _ q => exact absurd q (by decide)

/-- All lattices but the triclinic one. -/
theorem hpkot_place (hbl : bl ∈ bravaisLattices) (haP : bl ≠ "aP") (hstd : StandardCell bl conv)
    (hm : (hpkotConventionalToPrimitive ℝ).get? bl = some matrix)
    (hprim : prim = matrix.transpose * conv) (hr : getReciprocal prim = .ok rprim)
    (hp : getParams conv = .ok (a, b, c, al, be, ga))
    (hs : HpkotSymbol bl n a b c be ra rb rg s) (hraw : hpkotPointsOf a b c be bl s = .ok raw) :
    ∀ x ∈ raw, PointPlace rprim x := by
  subst hprim
  simp only [bravaisLattices, List.mem_cons, List.not_mem_nil, or_false] at hbl
  rcases hbl with h | h | h | h | h | h | h | h | h | h | h | h | h | h | h
  exacts [place_cP h hstd hm hr hp hs hraw, place_cF h hstd hm hr hp hs hraw,
    place_cI h hstd hm hr hp hs hraw, place_tP h hstd hm hr hp hs hraw,
    place_tI h hstd hm hr hp hs hraw, place_oP h hstd hm hr hp hs hraw,
    place_oF h hstd hm hr hp hs hraw, place_oI h hstd hm hr hp hs hraw,
    place_oA h hstd hm hr hp hs hraw, place_oC h hstd hm hr hp hs hraw,
    place_hP h hstd hm hr hp hs hraw, place_hR h hstd hm hr hp hs hraw,
    place_mP h hstd hm hr hp hs hraw, place_mC h hstd hm hr hp hs hraw, absurd h haP]

end

end Wulfric
