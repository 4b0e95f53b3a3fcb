import Verif.Lemmas.ZeroSteps
import Verif.Lemmas.ZoneHpkot

/-! # Neighbours on the default paths of HPKOT that coincide -/

namespace Wulfric
open Matrix _root_.Spec Wulfric.Spec

/-- Some step of the path has the same coordinates at both ends. -/
def SameEnds (path : String) (d : PyDict String (Vec ℝ)) : Prop :=
  ∃ s ∈ stepsOf path, d.get? s.1 = d.get? s.2

theorem ratio_pos {a c : ℝ} (ha : 0 < a) (hc : 0 < c) : 0 < (c / a) ^ 2 := by positivity

theorem ratio_one {a c : ℝ} (ha : 0 < a) (hc : 0 < c) : (c / a) ^ 2 = 1 ↔ a = c := by
  rw [div_pow, div_eq_one_iff_eq (by positivity), sq_eq_sq₀ hc.le ha.le, eq_comm]

theorem ratio_le {a c : ℝ} (ha : 0 < a) (hc : 0 < c) : (c / a) ^ 2 ≤ 1 ↔ c ≤ a := by
  rw [div_pow, div_le_one (by positivity), sq_le_sq₀ hc.le ha.le]

theorem ratio_lt {a c : ℝ} (ha : 0 < a) (hc : 0 < c) : (c / a) ^ 2 < 1 ↔ c < a := by
  rw [div_pow, div_lt_one (by positivity), sq_lt_sq₀ hc.le ha.le]

theorem zero_cP1 : ¬ SameEnds "GAMMA-X-M-GAMMA-R-X|R-M-X1"
    hpkotTable69 := by
  unfold SameEnds
  rw [steps_cP1]
  simp [hpkotTable69, PyDict.get?]

theorem zero_cP2 : ¬ SameEnds "GAMMA-X-M-GAMMA-R-X|R-M"
    hpkotTable69 := by
  unfold SameEnds
  rw [steps_cP2]
  simp [hpkotTable69, PyDict.get?]

theorem zero_cF1 : ¬ SameEnds "GAMMA-X-U|K-GAMMA-L-W-X-W2"
    hpkotTable70 := by
  unfold SameEnds
  rw [steps_cF1]
  simp [hpkotTable70, PyDict.get?]

theorem zero_cF2 : ¬ SameEnds "GAMMA-X-U|K-GAMMA-L-W-X"
    hpkotTable70 := by
  unfold SameEnds
  rw [steps_cF2]
  simp [hpkotTable70, PyDict.get?]

theorem zero_cI1 : ¬ SameEnds "GAMMA-H-N-GAMMA-P-H|P-N"
    hpkotTable71 := by
  unfold SameEnds
  rw [steps_cI1]
  simp [hpkotTable71, PyDict.get?]

theorem zero_tP1 : ¬ SameEnds "GAMMA-X-M-GAMMA-Z-R-A-Z|X-R|M-A"
    hpkotTable72 := by
  unfold SameEnds
  rw [steps_tP1]
  simp [hpkotTable72, PyDict.get?]

theorem zero_oP1 : ¬ SameEnds "GAMMA-X-S-Y-GAMMA-Z-U-R-T-Z|X-U|Y-T|S-R"
    hpkotTable75 := by
  unfold SameEnds
  rw [steps_oP1]
  simp [hpkotTable75, PyDict.get?]

theorem zero_hP1 : ¬ SameEnds "GAMMA-M-K-GAMMA-A-L-H-A|L-M|H-K-H2"
    hpkotTable84 := by
  unfold SameEnds
  rw [steps_hP1]
  simp [hpkotTable84, PyDict.get?]
  norm_num

theorem zero_hP2 : ¬ SameEnds "GAMMA-M-K-GAMMA-A-L-H-A|L-M|H-K"
    hpkotTable84 := by
  unfold SameEnds
  rw [steps_hP2]
  simp [hpkotTable84, PyDict.get?]

theorem zero_aP3 : ¬ SameEnds "GAMMA-X|Y-GAMMA-Z|R2-GAMMA-T2|U2-GAMMA-V2"
    hpkotTable92 := by
  unfold SameEnds
  rw [steps_aP3]
  simp [hpkotTable92, PyDict.get?]

theorem zero_aP2 : SameEnds "GAMMA-X|Y-GAMMA-Z|R-GAMMA-T|U-GAMMA-V" hpkotTable91 := by
  unfold SameEnds
  rw [steps_aP2]
  simp [hpkotTable91, PyDict.get?]

theorem zero_tI1 (a c : ℝ) (ha : 0 < a) (hc : 0 < c) :
    SameEnds "GAMMA-X-M-GAMMA-Z|Z0-M|X-P-N-GAMMA"
      (hpkotTable73 a c) ↔ a = c := by
  unfold SameEnds
  rw [steps_tI1]
  simp only [hpkotTable73]
  rw [← ratio_one ha hc]
  have h0 := ratio_pos ha hc
  generalize (c / a) ^ 2 = x at h0 ⊢
  simp [PyDict.get?]
  constructor
  · rintro (⟨h, -⟩ | ⟨h, -⟩) <;> linarith
  · rintro rfl
    right
    norm_num

theorem zero_tI2 (a c : ℝ) (ha : 0 < a) (hc : 0 < c) (hac : a < c) :
    ¬ SameEnds "GAMMA-X-P-N-GAMMA-M-S|S0-GAMMA|X-R|G-M"
      (hpkotTable74 a c) := by
  unfold SameEnds
  rw [steps_tI2]
  simp only [hpkotTable74]
  rw [← ratio_lt hc ha] at hac
  have h0 := ratio_pos hc ha
  generalize (a / c) ^ 2 = x at h0 hac ⊢
  simp [PyDict.get?]
  refine ⟨fun h => ?_, ?_, fun h => ?_, fun h => ?_⟩ <;> intros <;> linarith

theorem zero_oI1 (a b c : ℝ) (ha : 0 < a) (hb : 0 < b) (hc : 0 < c) :
    SameEnds "GAMMA-X-F2|SIGMA0-GAMMA-Y0|U0-X|GAMMA-R-W-S-GAMMA-T-W"
      (hpkotTable79 a b c) ↔ a = c ∨ b = c := by
  unfold SameEnds
  rw [steps_oI1]
  simp only [hpkotTable79]
  rw [eq_comm (a := a), eq_comm (a := b), ← ratio_one hc ha, ← ratio_one hc hb]
  have h0 := ratio_pos hc ha
  have h1 := ratio_pos hc hb
  simp only [add_div, sub_div]
  generalize (a / c) ^ 2 = x at h0 ⊢
  generalize (b / c) ^ 2 = y at h1 ⊢
  simp [PyDict.get?]
  constructor
  · rintro (⟨h, h', h''⟩ | h | ⟨h, -⟩ | ⟨h, h', h''⟩)
    · left; linarith
    · linarith
    · linarith
    · right; linarith
  · rintro (rfl | rfl)
    · left; norm_num
    · right; right; right; norm_num

theorem zero_oI2 (a b c : ℝ) (ha : 0 < a) (hb : 0 < b) (hc : 0 < c) :
    SameEnds "GAMMA-X-U2|Y0-GAMMA-LAMBDA0|G2-X|GAMMA-R-W-S-GAMMA-T-W"
      (hpkotTable80 a b c) ↔ b = a ∨ c = a := by
  unfold SameEnds
  rw [steps_oI2]
  simp only [hpkotTable80]
  rw [eq_comm (a := b), eq_comm (a := c), ← ratio_one ha hb, ← ratio_one ha hc]
  have h0 := ratio_pos ha hb
  have h1 := ratio_pos ha hc
  simp only [add_div, sub_div]
  generalize (b / a) ^ 2 = x at h0 ⊢
  generalize (c / a) ^ 2 = y at h1 ⊢
  simp [PyDict.get?]
  constructor
  · rintro (⟨h, h', h''⟩ | h | ⟨h, -⟩ | ⟨h, h', h''⟩)
    · left; linarith
    · linarith
    · linarith
    · right; linarith
  · rintro (rfl | rfl)
    · left; norm_num
    · right; right; right; norm_num

theorem zero_oI3 (a b c : ℝ) (ha : 0 < a) (hb : 0 < b) (hc : 0 < c) :
    SameEnds "GAMMA-X-F0|SIGMA0-GAMMA-LAMBDA0|G0-X|GAMMA-R-W-S-GAMMA-T-W"
      (hpkotTable81 a b c) ↔ a = b ∨ c = b := by
  unfold SameEnds
  rw [steps_oI3]
  simp only [hpkotTable81]
  rw [eq_comm (a := a), eq_comm (a := c), ← ratio_one hb ha, ← ratio_one hb hc]
  have h0 := ratio_pos hb ha
  have h1 := ratio_pos hb hc
  simp only [add_div, sub_div]
  generalize (a / b) ^ 2 = x at h0 ⊢
  generalize (c / b) ^ 2 = y at h1 ⊢
  simp [PyDict.get?]
  constructor
  · rintro (⟨h, h', h''⟩ | h | ⟨h, -⟩ | ⟨h, h', h''⟩)
    · left; linarith
    · linarith
    · linarith
    · right; linarith
  · rintro (rfl | rfl)
    · left; norm_num
    · right; right; right; norm_num

/-- The two quotients when one reciprocal length exceeds the others together. -/
theorem face_one {a b c : ℝ} (ha : 0 < a) (hb : 0 < b) (hc : 0 < c)
    (h : 1 / b ^ 2 + 1 / c ^ 2 < 1 / a ^ 2) :
    0 < (a / b) ^ 2 ∧ 0 < (a / c) ^ 2 ∧ (a / b) ^ 2 + (a / c) ^ 2 < 1 := by
  refine ⟨by positivity, by positivity, ?_⟩
  have := mul_lt_mul_of_pos_left h (show 0 < a ^ 2 by positivity)
  have e : a ^ 2 * (1 / a ^ 2) = 1 := by field_simp
  rw [e] at this
  have e2 : a ^ 2 * (1 / b ^ 2 + 1 / c ^ 2) = (a / b) ^ 2 + (a / c) ^ 2 := by field_simp
  linarith

theorem face_sum {a b c : ℝ} (ha : 0 < a) (hb : 0 < b) (hc : 0 < c) :
    ((a / b) ^ 2 - (a / c) ^ 2 = 1 ↔ 1 / b ^ 2 = 1 / a ^ 2 + 1 / c ^ 2) ∧
    ((a / b) ^ 2 - (a / c) ^ 2 = -1 ↔ 1 / c ^ 2 = 1 / a ^ 2 + 1 / b ^ 2) := by
  have e : (a / b) ^ 2 - (a / c) ^ 2 = a ^ 2 * (1 / b ^ 2 - 1 / c ^ 2) := by field_simp
  have k : a ^ 2 * (1 / a ^ 2) = 1 := by field_simp
  have hp : a ^ 2 ≠ 0 := by positivity
  rw [e]
  constructor
  · rw [show (1 : ℝ) = a ^ 2 * (1 / a ^ 2) from k.symm, mul_right_inj' hp, k]
    constructor <;> intro h <;> linarith
  · rw [show (-1 : ℝ) = a ^ 2 * (-(1 / a ^ 2)) by linarith, mul_right_inj' hp]
    constructor <;> intro h <;> linarith

theorem zero_oF1 (a b c : ℝ) (ha : 0 < a) (hb : 0 < b) (hc : 0 < c)
    (h : 1 / b ^ 2 + 1 / c ^ 2 < 1 / a ^ 2) :
    ¬ SameEnds "GAMMA-Y-T-Z-GAMMA-SIGMA0|U0-T|Y-C0|A0-Z|GAMMA-L"
      (hpkotTable76 a b c) := by
  unfold SameEnds
  rw [steps_oF1]
  simp only [hpkotTable76]
  obtain ⟨x0, y0, xy⟩ := face_one ha hb hc h
  generalize (a / b) ^ 2 = x at *
  generalize (a / c) ^ 2 = y at *
  simp [PyDict.get?]
  refine ⟨fun h => ?_, fun h => ?_, fun h => ?_, fun h => ?_⟩ <;> intros <;> linarith

theorem zero_oF2 (a b c : ℝ) (ha : 0 < a) (hb : 0 < b) (hc : 0 < c)
    (h : 1 / a ^ 2 + 1 / b ^ 2 < 1 / c ^ 2) :
    ¬ SameEnds "GAMMA-T-Z-Y-GAMMA-LAMBDA0|Q0-Z|T-G0|H0-Y|GAMMA-L"
      (hpkotTable77 a b c) := by
  unfold SameEnds
  rw [steps_oF2]
  simp only [hpkotTable77]
  obtain ⟨x0, y0, xy⟩ := face_one hc ha hb h
  generalize (c / a) ^ 2 = x at *
  generalize (c / b) ^ 2 = y at *
  simp [PyDict.get?]
  refine ⟨fun h => ?_, fun h => ?_, fun h => ?_, fun h => ?_⟩ <;> intros <;> linarith

theorem zero_oF3 (a b c : ℝ) (ha : 0 < a) (hb : 0 < b) (hc : 0 < c) :
    SameEnds "GAMMA-Y-C0|A0-Z-B0|D0-T-G0|H0-Y|T-GAMMA-Z|GAMMA-L"
      (hpkotTable78 a b c) ↔
      1 / a ^ 2 = 1 / b ^ 2 + 1 / c ^ 2 ∨ 1 / c ^ 2 = 1 / a ^ 2 + 1 / b ^ 2 ∨
      1 / b ^ 2 = 1 / a ^ 2 + 1 / c ^ 2 := by
  unfold SameEnds
  rw [steps_oF3]
  simp only [hpkotTable78]
  obtain ⟨e1, e2⟩ := face_sum ha hb hc
  obtain ⟨e3, e4⟩ := face_sum hb ha hc
  obtain ⟨e5, e6⟩ := face_sum hc hb ha
  generalize (a / b) ^ 2 = x1 at *
  generalize (a / c) ^ 2 = x2 at *
  generalize (b / a) ^ 2 = y1 at *
  generalize (b / c) ^ 2 = y2 at *
  generalize (c / a) ^ 2 = z1 at *
  generalize (c / b) ^ 2 = z2 at *
  simp [PyDict.get?]
  simp only [one_div] at e1 e2 e3 e4 e5 e6
  constructor
  · rintro (⟨h, -⟩ | h | ⟨h, -⟩ | ⟨h, -⟩ | ⟨h, -⟩ | ⟨h, -⟩)
    · exact .inr (.inr (e1.1 (by linarith)))
    · exact .inr (.inl (e2.1 (by linarith)))
    · exact .inr (.inl (by rw [e4.1 (by linarith), add_comm]))
    · exact .inl (e3.1 (by linarith))
    · exact .inl (by rw [e6.1 (by linarith), add_comm])
    · exact .inr (.inr (by rw [e5.1 (by linarith), add_comm]))
  · rintro (h | h | h)
    · have := e3.2 h
      right; right; right; left
      constructor <;> linarith
    · have := e2.2 h
      right; left
      linarith
    · have := e1.2 h
      left
      constructor <;> linarith

theorem zero_oC1 (z : ℝ) (h0 : z ≠ 0) :
    SameEnds "GAMMA-Y-C0|SIGMA0-GAMMA-Z-A0|E0-T-Y|GAMMA-S-R-Z-T"
      (hpkotTable82 z) ↔ z = 1 / 2 := by
  unfold SameEnds
  rw [steps_oC1]
  simp only [hpkotTable82]
  simp [PyDict.get?, h0, h0.symm]
  constructor
  · rintro (⟨h, -⟩ | ⟨h, -⟩) <;> linarith
  · rintro rfl
    norm_num

theorem zero_oA1 (z : ℝ) (h0 : z ≠ 0) :
    SameEnds "GAMMA-Y-C0|SIGMA0-GAMMA-Z-A0|E0-T-Y|GAMMA-S-R-Z-T"
      (hpkotTable82 z) ↔ z = 1 / 2 := by
  unfold SameEnds
  rw [steps_oA1]
  simp only [hpkotTable82]
  simp [PyDict.get?, h0, h0.symm]
  constructor
  · rintro (⟨h, -⟩ | ⟨h, -⟩) <;> linarith
  · rintro rfl
    norm_num

theorem zero_oC2 (z : ℝ) (h0 : z ≠ 0) :
    SameEnds "GAMMA-Y-F0|DELTA0-GAMMA-Z-B0|G0-T-Y|GAMMA-S-R-Z-T"
      (hpkotTable83 z) ↔ z = 1 / 2 := by
  unfold SameEnds
  rw [steps_oC2]
  simp only [hpkotTable83]
  simp [PyDict.get?, h0, h0.symm]
  constructor
  · rintro (⟨h, -⟩ | ⟨h, -⟩) <;> linarith
  · rintro rfl
    norm_num

theorem zero_oA2 (z : ℝ) (h0 : z ≠ 0) :
    SameEnds "GAMMA-Y-F0|DELTA0-GAMMA-Z-B0|G0-T-Y|GAMMA-S-R-Z-T"
      (hpkotTable83 z) ↔ z = 1 / 2 := by
  unfold SameEnds
  rw [steps_oA2]
  simp only [hpkotTable83]
  simp [PyDict.get?, h0, h0.symm]
  constructor
  · rintro (⟨h, -⟩ | ⟨h, -⟩) <;> linarith
  · rintro rfl
    norm_num

theorem zero_hR1 (a c : ℝ) (ha : 0 < a) (hc : 0 < c) (h : 3 * a ^ 2 ≤ 2 * c ^ 2) :
    SameEnds "GAMMA-T-H2|H0-L-GAMMA-S0|S2-F-GAMMA"
      (hpkotTable85 a c) ↔ 3 * a ^ 2 = 2 * c ^ 2 := by
  unfold SameEnds
  rw [steps_hR1]
  simp only [hpkotTable85]
  have h0 := ratio_pos hc ha
  have e : (a / c) ^ 2 = 2 / 3 ↔ 3 * a ^ 2 = 2 * c ^ 2 := by
    rw [div_pow, div_eq_div_iff (by positivity) (by norm_num)]
    constructor <;> intro h <;> linarith
  rw [← e]
  generalize (a / c) ^ 2 = x at h0 ⊢
  simp [PyDict.get?]
  constructor
  · rintro (⟨h, -⟩ | ⟨h, -⟩ | ⟨h, -⟩ | ⟨h, -⟩) <;> linarith
  · rintro rfl
    norm_num

theorem zero_hR2 (a c : ℝ) (ha : 0 < a) (hc : 0 < c) (h : 2 * c ^ 2 < 3 * a ^ 2) :
    ¬ SameEnds "GAMMA-L-T-P0|P2-GAMMA-F"
      (hpkotTable86 a c) := by
  unfold SameEnds
  rw [steps_hR2]
  simp only [hpkotTable86]
  have h0 := ratio_pos ha hc
  have e : (c / a) ^ 2 < 3 / 2 := by
    rw [div_pow, div_lt_div_iff₀ (by positivity) (by norm_num)]
    linarith
  generalize (c / a) ^ 2 = x at h0 e ⊢
  simp [PyDict.get?]
  constructor
  · intros; linarith
  · intro h; linarith

theorem zero_mP1 (a c be : ℝ)  :
    ¬ SameEnds "GAMMA-Z-D-B-GAMMA-A-E-Z-C2-Y2-GAMMA"
      (hpkotTable87 a c be) := by
  unfold SameEnds
  rw [steps_mP1]
  simp only [hpkotTable87]
  simp [PyDict.get?]
  norm_num

theorem zero_mC2 (a b c be : ℝ)  :
    ¬ SameEnds "GAMMA-Y-M-A-GAMMA|L2-GAMMA-V2"
      (hpkotTable89 a b c be) := by
  unfold SameEnds
  rw [steps_mC2]
  simp only [hpkotTable89]
  simp [PyDict.get?]

theorem zero_mC1 (a b c be : ℝ) (ha : 0 < a) (hb : 0 < b) (hc : 0 < c)
    (hb0 : 0 < be) (hb1 : be < 180) (h90 : 90 ≤ be)
    (hs : b ≤ a * Real.sin (be * toRadians)) (hac : -(a * Real.cos (be * toRadians)) ≤ c) :
    SameEnds "GAMMA-C|C2-Y2-GAMMA-M2-D|D2-A-GAMMA|L2-GAMMA-V2"
      (hpkotTable88 a b c be) ↔ b = a * Real.sin (be * toRadians) := by
  unfold SameEnds
  rw [steps_mC1]
  simp only [hpkotTable88]
  have hs0 : 0 < Real.sin (be * toRadians) := sin_deg_pos ⟨hb0, hb1⟩
  have hq0 := cos_deg_nonpos h90 hb1.le
  have e : b ^ 2 / 4 / a ^ 2 / Real.sin (be * toRadians) ^ 2 = 1 / 4 ↔
      b = a * Real.sin (be * toRadians) := by
    rw [← sq_eq_sq₀ hb.le (by positivity)]
    field_simp
  have le : b ^ 2 / 4 / a ^ 2 / Real.sin (be * toRadians) ^ 2 ≤ 1 / 4 := by
    have : b ^ 2 ≤ (a * Real.sin (be * toRadians)) ^ 2 := pow_le_pow_left₀ hb.le hs 2
    rw [div_div, div_div, div_le_div_iff₀ (by positivity) (by norm_num)]
    linarith
  have p0 : 0 < b ^ 2 / 4 / a ^ 2 / Real.sin (be * toRadians) ^ 2 := by positivity
  rw [← e]
  generalize b ^ 2 / 4 / a ^ 2 / Real.sin (be * toRadians) ^ 2 = p at *
  have q0 : a * Real.cos (be * toRadians) / c ≤ 0 :=
    div_nonpos_of_nonpos_of_nonneg (mul_nonpos_of_nonneg_of_nonpos ha.le hq0) hc.le
  have q1 : -1 ≤ a * Real.cos (be * toRadians) / c := by
    rw [le_div_iff₀ hc]
    linarith
  simp only [mul_div_assoc, mul_assoc] at q0 q1 ⊢
  generalize a * (Real.cos (be * toRadians) / c) = q at *
  simp [PyDict.get?]
  constructor
  · rintro (h | ⟨h, -⟩ | ⟨h, -⟩ | h)
    · linarith
    · linarith
    · nlinarith
    · nlinarith
  · rintro rfl
    right; left
    norm_num

theorem zero_mC3 (a b c be : ℝ) (ha : 0 < a) (hb : 0 < b) (hc : 0 < c)
    (hb0 : 0 < be) (hb1 : be < 180) (h90 : 90 ≤ be)
    (hac : -(a * Real.cos (be * toRadians)) ≤ c)
    (h : 1 < -a * Real.cos (be * toRadians) / c + a ^ 2 * Real.sin (be * toRadians) ^ 2 / b ^ 2) :
    ¬ SameEnds "GAMMA-A-I2|I-M2-GAMMA-Y|L2-GAMMA-V2"
      (hpkotTable90 a b c be) := by
  unfold SameEnds
  rw [steps_mC3]
  simp only [hpkotTable90]
  have hs0 : 0 < Real.sin (be * toRadians) := sin_deg_pos ⟨hb0, hb1⟩
  have hq0 := cos_deg_nonpos h90 hb1.le
  have x0 : (a / b) ^ 2 * (b / a) ^ 2 = 1 := by field_simp
  have hx : 0 < (a / b) ^ 2 := by positivity
  have hy : 0 < (b / a) ^ 2 := by positivity
  have w0 : 0 ≤ (1 + a / c * Real.cos (be * toRadians)) / Real.sin (be * toRadians) ^ 2 := by
    refine div_nonneg ?_ (by positivity)
    have : a / c * Real.cos (be * toRadians) = a * Real.cos (be * toRadians) / c := by ring
    rw [this]
    have : -1 ≤ a * Real.cos (be * toRadians) / c := by
      rw [le_div_iff₀ hc]
      linarith
    linarith
  have w1 : (1 + a / c * Real.cos (be * toRadians)) / Real.sin (be * toRadians) ^ 2 <
      (a / b) ^ 2 := by
    rw [div_lt_iff₀ (by positivity)]
    have e1 : a / c * Real.cos (be * toRadians) = -(-a * Real.cos (be * toRadians) / c) := by ring
    have e2 : (a / b) ^ 2 * Real.sin (be * toRadians) ^ 2 =
      a ^ 2 * Real.sin (be * toRadians) ^ 2 / b ^ 2 := by ring
    rw [e1, e2]
    linarith
  generalize (1 + a / c * Real.cos (be * toRadians)) / Real.sin (be * toRadians) ^ 2 = w at *
  have hwx : w * (b / a) ^ 2 < 1 := by nlinarith
  have key : (((a / b) ^ 2 + w) / 4) * (b / a) ^ 2 = (1 + w * (b / a) ^ 2) / 4 := by
    rw [← x0]; ring
  rw [key]
  have hw2 : 0 ≤ w * (b / a) ^ 2 := by positivity
  generalize w * (b / a) ^ 2 = v at *
  simp [PyDict.get?]
  constructor
  · intro h
    linarith
  · intro h h'
    linarith

end Wulfric
