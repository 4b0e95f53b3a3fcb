import Verif.Lemmas.ZeroSc

/-! # Neighbours that coincide: all variations of SC -/

namespace Wulfric
open Matrix _root_.Spec Wulfric.Spec

/-- The angle of the primitive reciprocal cell of a C-centred monoclinic lattice. -/
theorem mono_sign {conv rprim matrix : Cell ℝ} {a b c al kp : ℝ}
    (h : HasParams conv a b c al 90 90)
    (hm : (scConventionalToPrimitive ℝ).get? "mC" = some matrix)
    (hr : getReciprocal (matrix.transpose * conv) = .ok rprim)
    (hkp : ∃ x y z p q, HasParams rprim x y z p q kp) :
    (90 < kp → 1 < b ^ 2 * Real.sin (al * toRadians) ^ 2 / a ^ 2) ∧
    (kp < 90 → b ^ 2 * Real.sin (al * toRadians) ^ 2 / a ^ 2 < 1) := by
  have hdet : conv.det ≠ 0 := by
    have := (recip_ok hr).1
    rw [det_mul] at this
    exact right_ne_zero_of_mul this
  obtain ⟨⟨ha, hb, hc⟩, hst⟩ := HasParams.strict hdet h
  have hs0 := cos_deg_strict hst.hal.1 hst.hal.2
  obtain ⟨ca, hcos⟩ : ∃ ca, Real.cos (al * (Real.pi / 180)) = ca := ⟨_, rfl⟩
  have hs2 : Real.sin (al * toRadians) ^ 2 = 1 - ca ^ 2 := by
    rw [sin_sq_deg, toRadians, hcos]
  rw [hcos] at hs0
  obtain rfl : !![1 / 2, -1 / 2, 0; 1 / 2, 1 / 2, 0; 0, 0, 1] = matrix := Option.some.inj hm
  have hform := form_MCLC ha.ne' hb.ne' hc.ne' hcos hs0 h rfl rfl rfl rfl
  obtain ⟨x, y, z, p, q, hkp⟩ := hkp
  obtain ⟨⟨p1, p2, p3⟩, -⟩ := HasParams.strict (recip_det hr) hkp
  have a0 : 0 < dot (rprim 0) (rprim 0) := by rw [hkp.aa]; positivity
  have a1 : 0 < dot (rprim 1) (rprim 1) := by rw [hkp.bb]; positivity
  obtain ⟨sc, hsc, -, -, -, h12, -, -⟩ := hform.dots hr
  have e : b ^ 2 * (1 - ca ^ 2) / a ^ 2 = (1 - ca ^ 2) / a ^ 2 / (1 / b ^ 2) := by
    field_simp
  rw [hs2, e]
  constructor
  · intro hk
    have h0 := (hkp.gamma.gt_iff a0 a1).1 hk
    rw [h12] at h0
    rw [one_lt_div (by positivity)]
    have := neg_of_mul_neg_right h0 hsc.le
    linarith
  · intro hk
    have h0 := (hkp.gamma.lt_iff a0 a1).1 hk
    rw [h12] at h0
    rw [div_lt_one (by positivity)]
    have := (mul_pos_iff_of_pos_left hsc).1 h0
    linarith

theorem sc_zero {conv rprim matrix : Cell ℝ} {a b c al be ga t u : ℝ}
    {bl s short kpath : String} {kp ka kb kg : ℝ} {raw : PyDict String (Vec ℝ)}
    (hcell : bl = "mP" ∨ bl = "mC" → ScCell bl conv)
    (ht : 0 ≤ t) (hu : 0 ≤ u)
    (hm : (scConventionalToPrimitive ℝ).get? bl = some matrix)
    (hr : getReciprocal (matrix.transpose * conv) = .ok rprim)
    (hp : getParams conv = .ok (a, b, c, al, be, ga))
    (hs : ScVariation bl t u a b c al kp ka kb kg s)
    (hkp : bl = "mC" → ∃ x y z p q, HasParams rprim x y z p q kp)
    (hsh : scBravaisLatticeShortNames.get? bl = some short)
    (hraw : scPointsOf a b c al short (some s) = .ok raw)
    (hk : scDefaultKPaths.getItem s = .ok kpath) :
    SameEnds kpath raw ↔ ScBorder a b c al bl s := by
  obtain ⟨hpar, ea, eb, ec⟩ := getParams_ok hp
  have ha := machineEps_pos.trans ea
  have hb := machineEps_pos.trans eb
  have hc := machineEps_pos.trans ec
  clear ea eb ec
  have hdet : conv.det ≠ 0 := by
    have := (recip_ok hr).1
    rw [det_mul] at this
    exact right_ne_zero_of_mul this
  obtain ⟨-, hst⟩ := HasParams.strict hdet hpar
  have never : ∀ {path d}, ¬ SameEnds path d → (ScBorder a b c al bl s → False) →
      (SameEnds path d ↔ ScBorder a b c al bl s) :=
    fun h1 h2 => ⟨fun h => absurd h h1, fun h => (h2 h).elim⟩
  cases hs with
  | cub q1 =>
    subst q1
    obtain rfl : "CUB" = short := Option.some.inj hsh
    rw [show scPointsOf a b c al "CUB" (some "CUB") = .ok scTable2 by simp [scPointsOf]] at hraw
    cases hraw; cases hk
    exact never zero_CUB (by simp [ScBorder])
  | fcc q1 =>
    subst q1
    obtain rfl : "FCC" = short := Option.some.inj hsh
    rw [show scPointsOf a b c al "FCC" (some "FCC") = .ok scTable3 by simp [scPointsOf]] at hraw
    cases hraw; cases hk
    exact never zero_FCC (by simp [ScBorder])
  | bcc q1 =>
    subst q1
    obtain rfl : "BCC" = short := Option.some.inj hsh
    rw [show scPointsOf a b c al "BCC" (some "BCC") = .ok scTable4 by simp [scPointsOf]] at hraw
    cases hraw; cases hk
    exact never zero_BCC (by simp [ScBorder])
  | tet q1 =>
    subst q1
    obtain rfl : "TET" = short := Option.some.inj hsh
    rw [show scPointsOf a b c al "TET" (some "TET") = .ok scTable5 by simp [scPointsOf]] at hraw
    cases hraw; cases hk
    exact never zero_TET (by simp [ScBorder])
  | orc q1 =>
    subst q1
    obtain rfl : "ORC" = short := Option.some.inj hsh
    rw [show scPointsOf a b c al "ORC" (some "ORC") = .ok scTable8 by simp [scPointsOf]] at hraw
    cases hraw; cases hk
    exact never zero_ORC (by simp [ScBorder])
  | hex q1 =>
    subst q1
    obtain rfl : "HEX" = short := Option.some.inj hsh
    rw [show scPointsOf a b c al "HEX" (some "HEX") = .ok scTable13 by simp [scPointsOf]] at hraw
    cases hraw; cases hk
    exact never zero_HEX (by simp [ScBorder])
  | tri1a q1 q2 q3 q4 q5 q6 =>
    subst q1
    obtain rfl : "TRI" = short := Option.some.inj hsh
    rw [show scPointsOf a b c al "TRI" (some "TRI1a") = .ok scTable20 by simp [scPointsOf]] at hraw
    cases hraw; cases hk
    exact never zero_TRI1a (by simp [ScBorder])
  | tri1b q1 q2 q3 q4 q5 q6 =>
    subst q1
    obtain rfl : "TRI" = short := Option.some.inj hsh
    rw [show scPointsOf a b c al "TRI" (some "TRI1b") = .ok scTable21 by simp [scPointsOf]] at hraw
    cases hraw; cases hk
    exact never zero_TRI1b (by simp [ScBorder])
  | tri2a q1 q2 q3 q4 =>
    subst q1
    obtain rfl : "TRI" = short := Option.some.inj hsh
    rw [show scPointsOf a b c al "TRI" (some "TRI2a") = .ok scTable20 by simp [scPointsOf]] at hraw
    cases hraw; cases hk
    exact never zero_TRI2a (by simp [ScBorder])
  | tri2b q1 q2 q3 q4 =>
    subst q1
    obtain rfl : "TRI" = short := Option.some.inj hsh
    rw [show scPointsOf a b c al "TRI" (some "TRI2b") = .ok scTable21 by simp [scPointsOf]] at hraw
    cases hraw; cases hk
    exact never zero_TRI2b (by simp [ScBorder])
  | bct1 q1 q2 =>
    subst q1
    obtain rfl : "BCT" = short := Option.some.inj hsh
    rw [show scPointsOf a b c al "BCT" (some "BCT1") = .ok (scTable6 a c) by simp [scPointsOf]] at hraw
    cases hraw; cases hk
    exact never (zero_BCT1 ha hc q2) (by simp [ScBorder])
  | bct2 q1 q2 =>
    subst q1
    obtain rfl : "BCT" = short := Option.some.inj hsh
    rw [show scPointsOf a b c al "BCT" (some "BCT2") = .ok (scTable7 a c) by simp [scPointsOf]] at hraw
    cases hraw; cases hk
    exact never (zero_BCT2 ha hc q2) (by simp [ScBorder])
  | orcf1 q1 q2 q3 q4 =>
    subst q1
    obtain rfl : "ORCF" = short := Option.some.inj hsh
    rw [show scPointsOf a b c al "ORCF" (some "ORCF1") = .ok (scTable9 a b c) by simp [scPointsOf]] at hraw
    cases hraw; cases hk
    exact never (zero_ORCF1 ha hb hc (by linarith) (by linarith) (by linarith)) (by simp [ScBorder])
  | orcf2 q1 q2 q3 q4 =>
    subst q1
    obtain rfl : "ORCF" = short := Option.some.inj hsh
    rw [show scPointsOf a b c al "ORCF" (some "ORCF2") = .ok (scTable10 a b c) by simp [scPointsOf]] at hraw
    cases hraw; cases hk
    exact never (zero_ORCF2 ha hb hc (by linarith) (by linarith) (by linarith)) (by simp [ScBorder])
  | orcf3 q1 q2 q3 q4 =>
    subst q1
    obtain rfl : "ORCF" = short := Option.some.inj hsh
    rw [show scPointsOf a b c al "ORCF" (some "ORCF3") = .ok (scTable9 a b c) by simp [scPointsOf]] at hraw
    cases hraw; cases hk
    exact never (zero_ORCF3 ha hb hc (by linarith) (by linarith)) (by simp [ScBorder])
  | rhl1 q1 q2 =>
    subst q1
    obtain rfl : "RHL" = short := Option.some.inj hsh
    rw [show scPointsOf a b c al "RHL" (some "RHL1") = .ok (scTable14 al) by simp [scPointsOf]] at hraw
    cases hraw; cases hk
    exact never (zero_RHL1 hst.hal.1 (by linarith)) (by simp [ScBorder])
  | rhl2 q1 q2 =>
    subst q1
    obtain rfl : "RHL" = short := Option.some.inj hsh
    rw [show scPointsOf a b c al "RHL" (some "RHL2") = .ok (scTable15 al) by simp [scPointsOf]] at hraw
    cases hraw; cases hk
    exact never (zero_RHL2 (by linarith) hst.hal.2) (by simp [ScBorder])
  | orci q1 =>
    subst q1
    obtain rfl : "ORCI" = short := Option.some.inj hsh
    rw [show scPointsOf a b c al "ORCI" (some "ORCI") = .ok (scTable11 a b c) by simp [scPointsOf]] at hraw
    cases hraw; cases hk
    rw [zero_ORCI ha hb hc]
    simp [ScBorder]
  | orcc q1 =>
    rcases q1 with rfl | rfl
    · obtain rfl : "ORCC" = short := Option.some.inj hsh
      rw [show scPointsOf a b c al "ORCC" (some "ORCC") = .ok (scTable12 a b) by simp [scPointsOf]] at hraw
      cases hraw; cases hk
      rw [zero_ORCC ha hb]
      simp [ScBorder]
    · obtain rfl : "ORCC" = short := Option.some.inj hsh
      rw [show scPointsOf a b c al "ORCC" (some "ORCC") = .ok (scTable12 a b) by simp [scPointsOf]] at hraw
      cases hraw; cases hk
      rw [zero_ORCC ha hb]
      simp [ScBorder]
  | mcl q1 =>
    subst q1
    obtain rfl : "MCL" = short := Option.some.inj hsh
    rw [show scPointsOf a b c al "MCL" (some "MCL") = .ok (scTable16 b c al) by simp [scPointsOf]] at hraw
    cases hraw; cases hk
    obtain ⟨a', b', c', al', h, h90, k1, k2⟩ := scCell_monoclinic (hcell (.inl rfl)) (by simp)
    obtain ⟨rfl, rfl, rfl, rfl, -, -⟩ := params_unique hp h
    rw [zero_MCL hb hc hst.hal.1 h90 k1 k2]
    simp [ScBorder, toRadians]
  | mclc1 q1 q2 =>
    subst q1
    obtain rfl : "MCLC" = short := Option.some.inj hsh
    rw [show scPointsOf a b c al "MCLC" (some "MCLC1") = .ok (scTable17 a b c al) by simp [scPointsOf]] at hraw
    cases hraw; cases hk
    obtain ⟨a', b', c', al', h, h90, k1, k2⟩ := scCell_monoclinicC (hcell (.inr rfl)) (by simp)
    obtain ⟨rfl, rfl, rfl, rfl, -, -⟩ := params_unique hp h
    obtain ⟨sgn1, sgn2⟩ := mono_sign h hm hr (hkp rfl)
    rw [zero_MCLC1 ha hb hc hst.hal.1 h90 k1 k2 (sgn1 (by linarith))]
    simp [ScBorder, toRadians]
  | mclc2 q1 q2 =>
    subst q1
    obtain rfl : "MCLC" = short := Option.some.inj hsh
    rw [show scPointsOf a b c al "MCLC" (some "MCLC2") = .ok (scTable17 a b c al) by simp [scPointsOf]] at hraw
    cases hraw; cases hk
    obtain ⟨a', b', c', al', h, h90, k1, k2⟩ := scCell_monoclinicC (hcell (.inr rfl)) (by simp)
    obtain ⟨rfl, rfl, rfl, rfl, -, -⟩ := params_unique hp h
    obtain ⟨sgn1, sgn2⟩ := mono_sign h hm hr (hkp rfl)
    rw [zero_MCLC2 ha hb hc hst.hal.1 h90 k1 k2]
    simp [ScBorder, toRadians]
  | mclc3 q1 q2 q3 =>
    subst q1
    obtain rfl : "MCLC" = short := Option.some.inj hsh
    rw [show scPointsOf a b c al "MCLC" (some "MCLC3") = .ok (scTable18 a b c al) by simp [scPointsOf]] at hraw
    cases hraw; cases hk
    obtain ⟨a', b', c', al', h, h90, k1, k2⟩ := scCell_monoclinicC (hcell (.inr rfl)) (by simp)
    obtain ⟨rfl, rfl, rfl, rfl, -, -⟩ := params_unique hp h
    obtain ⟨sgn1, sgn2⟩ := mono_sign h hm hr (hkp rfl)
    rw [zero_MCLC3 ha hb hc hst.hal.1 h90 k1 k2 (sgn2 (by linarith)) (show _ < (1 : ℝ) from lt_of_lt_of_le q3 (by linarith))]
    simp [ScBorder, toRadians]
  | mclc4 q1 q2 q3 =>
    subst q1
    obtain rfl : "MCLC" = short := Option.some.inj hsh
    rw [show scPointsOf a b c al "MCLC" (some "MCLC4") = .ok (scTable18 a b c al) by simp [scPointsOf]] at hraw
    cases hraw; cases hk
    obtain ⟨a', b', c', al', h, h90, k1, k2⟩ := scCell_monoclinicC (hcell (.inr rfl)) (by simp)
    obtain ⟨rfl, rfl, rfl, rfl, -, -⟩ := params_unique hp h
    obtain ⟨sgn1, sgn2⟩ := mono_sign h hm hr (hkp rfl)
    rw [zero_MCLC4 ha hb hc hst.hal.1 h90 k1 k2 (sgn2 (by linarith))]
    simp [ScBorder, toRadians]
  | mclc5 q1 q2 q3 =>
    subst q1
    obtain rfl : "MCLC" = short := Option.some.inj hsh
    rw [show scPointsOf a b c al "MCLC" (some "MCLC5") = .ok (scTable19 a b c al) by simp [scPointsOf]] at hraw
    cases hraw; cases hk
    obtain ⟨a', b', c', al', h, h90, k1, k2⟩ := scCell_monoclinicC (hcell (.inr rfl)) (by simp)
    obtain ⟨rfl, rfl, rfl, rfl, -, -⟩ := params_unique hp h
    obtain ⟨sgn1, sgn2⟩ := mono_sign h hm hr (hkp rfl)
    have h5 := sgn2 (by linarith)
    have h6 : 1 < b' * Real.cos (al' * toRadians) / c' +
        b' ^ 2 * Real.sin (al' * toRadians) ^ 2 / a' ^ 2 := lt_of_le_of_lt (by linarith) q3
    refine never (zero_MCLC5 ha hb hc hst.hal.1 h90 k1 k2 h5 h6) fun h => ?_
    simp [ScBorder] at h
    subst h
    have e : Real.cos (90 * toRadians) = 0 := cos_90
    rw [e, mul_zero, zero_div, zero_add] at h6
    linarith

end Wulfric
