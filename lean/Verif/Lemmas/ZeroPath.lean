import Verif.Lemmas.ZeroHpkot

/-! # Neighbours that coincide: all symbols of HPKOT -/

namespace Wulfric
open Matrix _root_.Spec Wulfric.Spec

theorem table_eq {α β : Type} {x : α} {y z : β} {f : α → Except Err β} (h : f x = .ok y)
    (h' : f x = .ok z) : z = y := by
  rw [h] at h'
  cases h'
  rfl

theorem border_oI {a b c be : ℝ} {s : String} (hs : s ≠ "aP2") : HpkotBorder a b c be "oI" s ↔
    (a = c ∧ b ≤ c) ∨ (b = c ∧ a ≤ c) ∨ (a = b ∧ c ≤ b) := by simp [HpkotBorder, hs]

theorem border_oC {a b c be : ℝ} {s : String} (hs : s ≠ "aP2") : HpkotBorder a b c be "oC" s ↔
    a = b := by simp [HpkotBorder, hs]

theorem border_oA {a b c be : ℝ} {s : String} (hs : s ≠ "aP2") : HpkotBorder a b c be "oA" s ↔
    b = c := by simp [HpkotBorder, hs]

theorem border_oF {a b c be : ℝ} {s : String} (hs : s ≠ "aP2") : HpkotBorder a b c be "oF" s ↔
    1 / a ^ 2 = 1 / b ^ 2 + 1 / c ^ 2 ∨ 1 / c ^ 2 = 1 / a ^ 2 + 1 / b ^ 2 ∨
    1 / b ^ 2 = 1 / a ^ 2 + 1 / c ^ 2 := by simp [HpkotBorder, hs]

theorem hpkot_zero {conv : Cell ℝ} {a b c al be ga : ℝ} {bl s : String} {n : ℤ} {ra rb rg : ℝ}
    {raw : PyDict String (Vec ℝ)} {kpath : String} (hdet : conv.det ≠ 0)
    (hstd : bl = "mC" → StandardCell bl conv) (hp : getParams conv = .ok (a, b, c, al, be, ga))
    (hs : HpkotSymbol bl n a b c be ra rb rg s) (hraw : hpkotPointsOf a b c be bl s = .ok raw)
    (hk : hpkotDefaultKPaths.getItem s = .ok kpath) :
    SameEnds kpath raw ↔ HpkotBorder a b c be bl s := by
  obtain ⟨-, ea, eb, ec⟩ := getParams_ok hp
  have ha := machineEps_pos.trans ea
  have hb := machineEps_pos.trans eb
  have hc := machineEps_pos.trans ec
  clear ea eb ec
  have never : ∀ {path d}, ¬ SameEnds path d → (HpkotBorder a b c be bl s → False) →
      (SameEnds path d ↔ HpkotBorder a b c be bl s) :=
    fun h1 h2 => ⟨fun h => absurd h h1, fun h => (h2 h).elim⟩
  cases hs with
  | cP1 q1 q2 q3 =>
    subst q1
    rw [show hpkotPointsOf a b c be "cP" "cP1" = .ok hpkotTable69 by simp [hpkotPointsOf]] at hraw
    cases hraw; cases hk
    exact never zero_cP1 (by simp [HpkotBorder])
  | cP2 q1 q2 q3 =>
    subst q1
    rw [show hpkotPointsOf a b c be "cP" "cP2" = .ok hpkotTable69 by simp [hpkotPointsOf]] at hraw
    cases hraw; cases hk
    exact never zero_cP2 (by simp [HpkotBorder])
  | cF1 q1 q2 q3 =>
    subst q1
    rw [show hpkotPointsOf a b c be "cF" "cF1" = .ok hpkotTable70 by simp [hpkotPointsOf]] at hraw
    cases hraw; cases hk
    exact never zero_cF1 (by simp [HpkotBorder])
  | cF2 q1 q2 q3 =>
    subst q1
    rw [show hpkotPointsOf a b c be "cF" "cF2" = .ok hpkotTable70 by simp [hpkotPointsOf]] at hraw
    cases hraw; cases hk
    exact never zero_cF2 (by simp [HpkotBorder])
  | cI1 q1 =>
    subst q1
    rw [show hpkotPointsOf a b c be "cI" "cI1" = .ok hpkotTable71 by simp [hpkotPointsOf]] at hraw
    cases hraw; cases hk
    exact never zero_cI1 (by simp [HpkotBorder])
  | tP1 q1 =>
    subst q1
    rw [show hpkotPointsOf a b c be "tP" "tP1" = .ok hpkotTable72 by simp [hpkotPointsOf]] at hraw
    cases hraw; cases hk
    exact never zero_tP1 (by simp [HpkotBorder])
  | tI1 q1 q2 =>
    subst q1
    rw [show hpkotPointsOf a b c be "tI" "tI1" = .ok (hpkotTable73 a c) by
      simp [hpkotPointsOf]] at hraw
    cases hraw; cases hk
    rw [zero_tI1 a c ha hc]
    simp [HpkotBorder]
  | tI2 q1 q2 =>
    subst q1
    rw [show hpkotPointsOf a b c be "tI" "tI2" = .ok (hpkotTable74 a c) by
      simp [hpkotPointsOf]] at hraw
    cases hraw; cases hk
    exact never (zero_tI2 a c ha hc q2) (fun h => by simp [HpkotBorder] at h; linarith)
  | oP1 q1 =>
    subst q1
    rw [show hpkotPointsOf a b c be "oP" "oP1" = .ok hpkotTable75 by simp [hpkotPointsOf]] at hraw
    cases hraw; cases hk
    exact never zero_oP1 (by simp [HpkotBorder])
  | oF1 q1 q2 =>
    subst q1
    rw [show hpkotPointsOf a b c be "oF" "oF1" = .ok (hpkotTable76 a b c) by
      simp [hpkotPointsOf]] at hraw
    cases hraw; cases hk
    have h1 : 0 < 1 / a ^ 2 := by positivity
    have h2 : 0 < 1 / b ^ 2 := by positivity
    have h3 : 0 < 1 / c ^ 2 := by positivity
    exact never (zero_oF1 a b c ha hb hc q2) (fun h => by
      rw [border_oF (by decide)] at h
      rcases h with h | h | h <;> linarith)
  | oF2 q1 q2 =>
    subst q1
    rw [show hpkotPointsOf a b c be "oF" "oF2" = .ok (hpkotTable77 a b c) by
      simp [hpkotPointsOf]] at hraw
    cases hraw; cases hk
    have h1 : 0 < 1 / a ^ 2 := by positivity
    have h2 : 0 < 1 / b ^ 2 := by positivity
    have h3 : 0 < 1 / c ^ 2 := by positivity
    exact never (zero_oF2 a b c ha hb hc q2) (fun h => by
      rw [border_oF (by decide)] at h
      rcases h with h | h | h <;> linarith)
  | oF3 q1 q2 q3 =>
    subst q1
    rw [show hpkotPointsOf a b c be "oF" "oF3" = .ok (hpkotTable78 a b c) by
      simp [hpkotPointsOf]] at hraw
    cases hraw; cases hk
    rw [zero_oF3 a b c ha hb hc]
    simp [HpkotBorder]
  | oI1 q1 q2 q3 =>
    subst q1
    rw [show hpkotPointsOf a b c be "oI" "oI1" = .ok (hpkotTable79 a b c) by
      simp [hpkotPointsOf]] at hraw
    cases hraw; cases hk
    rw [zero_oI1 a b c ha hb hc]
    rw [border_oI (by decide)]
    constructor
    · rintro (h | h)
      · exact (.inl ⟨h, q3⟩)
      · exact (.inr (.inl ⟨h, q2⟩))
    · intro h
      rcases h with h | h | h
      · exact .inl h.1
      · exact .inr h.1
      · exact .inl (by linarith [h.1, h.2])
  | oI2 q1 q2 q3 =>
    subst q1
    rw [show hpkotPointsOf a b c be "oI" "oI2" = .ok (hpkotTable80 a b c) by
      simp [hpkotPointsOf]] at hraw
    cases hraw; cases hk
    rw [zero_oI2 a b c ha hb hc]
    rw [border_oI (by decide)]
    constructor
    · rintro (h | h)
      · exact (.inr (.inr ⟨h.symm, by linarith⟩))
      · linarith
    · intro h
      rcases h with h | h | h
      · linarith [h.1]
      · linarith [h.2]
      · exact .inl h.1.symm
  | oI3 q1 q2 q3 =>
    subst q1
    rw [show hpkotPointsOf a b c be "oI" "oI3" = .ok (hpkotTable81 a b c) by
      simp [hpkotPointsOf]] at hraw
    cases hraw; cases hk
    rw [zero_oI3 a b c ha hb hc]
    rw [border_oI (by decide)]
    constructor
    · rintro (h | h) <;> linarith
    · intro h
      rcases h with h | h | h
      · linarith [h.2]
      · linarith [h.1]
      · linarith [h.1]
  | oC1 q1 q2 =>
    subst q1
    rw [show hpkotPointsOf a b c be "oC" "oC1" = .ok (hpkotTable82 ((1 + (a / b) ^ 2) / 4)) by
      simp [hpkotPointsOf, hpkotZeta82, Except.map]] at hraw
    cases hraw; cases hk
    rw [zero_oC1 _ (by positivity)]
    have e := ratio_one hb ha
    constructor
    · intro h
      exact (border_oC (by decide)).2 (e.1 (by linarith)).symm
    · intro h
      rw [border_oC (by decide)] at h
      rw [e.2 h.symm]
      norm_num
  | oC2 q1 q2 =>
    subst q1
    rw [show hpkotPointsOf a b c be "oC" "oC2" = .ok (hpkotTable83 ((1 + (b / a) ^ 2) / 4)) by
      simp [hpkotPointsOf, hpkotZeta83, Except.map]] at hraw
    cases hraw; cases hk
    rw [zero_oC2 _ (by positivity)]
    have e := (ratio_lt ha hb).2 q2
    constructor
    · intro h
      linarith
    · intro h
      simp [HpkotBorder] at h
      linarith
  | oA1 q1 q2 =>
    subst q1
    rw [show hpkotPointsOf a b c be "oA" "oA1" = .ok (hpkotTable82 ((1 + (b / c) ^ 2) / 4)) by
      simp [hpkotPointsOf, hpkotZeta82, Except.map]] at hraw
    cases hraw; cases hk
    rw [zero_oA1 _ (by positivity)]
    have e := ratio_one hc hb
    constructor
    · intro h
      exact (border_oA (by decide)).2 (e.1 (by linarith)).symm
    · intro h
      rw [border_oA (by decide)] at h
      rw [e.2 h.symm]
      norm_num
  | oA2 q1 q2 =>
    subst q1
    rw [show hpkotPointsOf a b c be "oA" "oA2" = .ok (hpkotTable83 ((1 + (c / b) ^ 2) / 4)) by
      simp [hpkotPointsOf, hpkotZeta83, Except.map]] at hraw
    cases hraw; cases hk
    rw [zero_oA2 _ (by positivity)]
    have e := (ratio_lt hb hc).2 q2
    constructor
    · intro h
      linarith
    · intro h
      simp [HpkotBorder] at h
      linarith
  | hP1 q1 q2 =>
    subst q1
    rw [show hpkotPointsOf a b c be "hP" "hP1" = .ok hpkotTable84 by simp [hpkotPointsOf]] at hraw
    cases hraw; cases hk
    exact never zero_hP1 (by simp [HpkotBorder])
  | hP2 q1 q2 =>
    subst q1
    rw [show hpkotPointsOf a b c be "hP" "hP2" = .ok hpkotTable84 by simp [hpkotPointsOf]] at hraw
    cases hraw; cases hk
    exact never zero_hP2 (by simp [HpkotBorder])
  | hR1 q1 q2 =>
    subst q1
    rw [show hpkotPointsOf a b c be "hR" "hR1" = .ok (hpkotTable85 a c) by
      simp [hpkotPointsOf]] at hraw
    cases hraw; cases hk
    rw [zero_hR1 a c ha hc q2]
    simp [HpkotBorder]
  | hR2 q1 q2 =>
    subst q1
    rw [show hpkotPointsOf a b c be "hR" "hR2" = .ok (hpkotTable86 a c) by
      simp [hpkotPointsOf]] at hraw
    cases hraw; cases hk
    exact never (zero_hR2 a c ha hc q2) (fun h => by simp [HpkotBorder] at h; linarith)
  | mP1 q1 =>
    subst q1
    rw [show hpkotPointsOf a b c be "mP" "mP1" = .ok (hpkotTable87 a c be) by
      simp [hpkotPointsOf]] at hraw
    cases hraw; cases hk
    exact never (zero_mP1 a c be) (by simp [HpkotBorder])
  | mC1 q1 q2 =>
    subst q1
    rw [show hpkotPointsOf a b c be "mC" "mC1" = .ok (hpkotTable88 a b c be) by
      simp [hpkotPointsOf]] at hraw
    cases hraw; cases hk
    obtain ⟨a', b', c', be', h, h90, k1, k2⟩ := std_mC (hstd rfl) rfl
    obtain ⟨rfl, rfl, rfl, -, rfl, -⟩ := params_unique hp h
    obtain ⟨-, hst⟩ := HasParams.strict hdet h
    rw [zero_mC1 _ _ _ _ ha hb hc hst.hbe.1 hst.hbe.2 h90 q2 k1]
    simp [HpkotBorder, toRadians]
  | mC2 q1 q2 q3 =>
    subst q1
    rw [show hpkotPointsOf a b c be "mC" "mC2" = .ok (hpkotTable89 a b c be) by
      simp [hpkotPointsOf]] at hraw
    cases hraw; cases hk
    exact never (zero_mC2 a b c be) (fun h => by simp [HpkotBorder] at h; linarith)
  | mC3 q1 q2 q3 =>
    subst q1
    rw [show hpkotPointsOf a b c be "mC" "mC3" = .ok (hpkotTable90 a b c be) by
      simp [hpkotPointsOf]] at hraw
    cases hraw; cases hk
    obtain ⟨a', b', c', be', h, h90, k1, k2⟩ := std_mC (hstd rfl) rfl
    obtain ⟨rfl, rfl, rfl, -, rfl, -⟩ := params_unique hp h
    obtain ⟨-, hst⟩ := HasParams.strict hdet h
    exact never (zero_mC3 _ _ _ _ ha hb hc hst.hbe.1 hst.hbe.2 h90 k1 q3)
      (fun h => by simp [HpkotBorder] at h; linarith)
  | aP2 q1 q2 q3 q4 =>
    subst q1
    rw [show hpkotPointsOf a b c be "aP" "aP2" = .ok hpkotTable91 by simp [hpkotPointsOf]] at hraw
    cases hraw; cases hk
    exact ⟨fun _ => by simp [HpkotBorder], fun _ => zero_aP2⟩
  | aP3 q1 q2 q3 q4 =>
    subst q1
    rw [show hpkotPointsOf a b c be "aP" "aP3" = .ok hpkotTable92 by simp [hpkotPointsOf]] at hraw
    cases hraw; cases hk
    exact never zero_aP3 (by simp [HpkotBorder])

end Wulfric
