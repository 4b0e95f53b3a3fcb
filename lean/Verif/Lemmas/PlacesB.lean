import Verif.Lemmas.Places

/-!
# The points of the tables, one by one

Each point is checked against the lattice vectors listed for it.
-/

namespace Wulfric

open Matrix _root_.Spec

theorem places_oC1 {a b zeta A B C : ℝ}
    (ha : a ≠ 0) (hb : b ≠ 0) (hA : A = 1 / a ^ 2) (hB : B = 1 / b ^ 2)
    (hz : zeta = (1 + (a / b) ^ 2) / 4) :
    List.Forall₂ (GoodWhere (A + B) (A + B) C (A - B) 0 0)
      (hpkotTable82 zeta) atOC1 := by
  simp only [hpkotTable82]
  unfold atOC1
  refine .cons ⟨rfl, _, _, _, rfl, origin_at⟩ ?_
  refine .cons ⟨rfl, _, _, _, rfl, half_at (by norm_num) (by norm_num) (by norm_num)⟩ ?_
  refine .cons ⟨rfl, _, _, _, rfl, half_at (by norm_num) (by norm_num) (by norm_num)⟩ ?_
  refine .cons ⟨rfl, _, _, _, rfl, half_at (by norm_num) (by norm_num) (by norm_num)⟩ ?_
  refine .cons ⟨rfl, _, _, _, rfl, half_at (by norm_num) (by norm_num) (by norm_num)⟩ ?_
  refine .cons ⟨rfl, _, _, _, rfl, half_at (by norm_num) (by norm_num) (by norm_num)⟩ ?_
  refine .cons ⟨rfl, _, _, _, rfl, edge_at (by wz) (by wz) (by wz)⟩ ?_
  refine .cons ⟨rfl, _, _, _, rfl, edge_at (by wz) (by wz) (by wz)⟩ ?_
  refine .cons ⟨rfl, _, _, _, rfl, vertex_at (by wz) (by wz) (by wz)⟩ ?_
  refine .cons ⟨rfl, _, _, _, rfl, vertex_at (by wz) (by wz) (by wz)⟩ ?_
  exact .nil

theorem places_oC2 {a b zeta A B C : ℝ}
    (ha : a ≠ 0) (hb : b ≠ 0) (hA : A = 1 / a ^ 2) (hB : B = 1 / b ^ 2)
    (hz : zeta = (1 + (b / a) ^ 2) / 4) :
    List.Forall₂ (GoodWhere (A + B) (A + B) C (A - B) 0 0)
      (hpkotTable83 zeta) atOC2 := by
  simp only [hpkotTable83]
  unfold atOC2
  refine .cons ⟨rfl, _, _, _, rfl, origin_at⟩ ?_
  refine .cons ⟨rfl, _, _, _, rfl, half_at (by norm_num) (by norm_num) (by norm_num)⟩ ?_
  refine .cons ⟨rfl, _, _, _, rfl, half_at (by norm_num) (by norm_num) (by norm_num)⟩ ?_
  refine .cons ⟨rfl, _, _, _, rfl, half_at (by norm_num) (by norm_num) (by norm_num)⟩ ?_
  refine .cons ⟨rfl, _, _, _, rfl, half_at (by norm_num) (by norm_num) (by norm_num)⟩ ?_
  refine .cons ⟨rfl, _, _, _, rfl, half_at (by norm_num) (by norm_num) (by norm_num)⟩ ?_
  refine .cons ⟨rfl, _, _, _, rfl, half_at (by norm_num) (by norm_num) (by norm_num)⟩ ?_
  refine .cons ⟨rfl, _, _, _, rfl, half_at (by norm_num) (by norm_num) (by norm_num)⟩ ?_
  refine .cons ⟨rfl, _, _, _, rfl, half_at (by norm_num) (by norm_num) (by norm_num)⟩ ?_
  refine .cons ⟨rfl, _, _, _, rfl, edge_at (by wz) (by wz) (by wz)⟩ ?_
  refine .cons ⟨rfl, _, _, _, rfl, edge_at (by wz) (by wz) (by wz)⟩ ?_
  refine .cons ⟨rfl, _, _, _, rfl, vertex_at (by wz) (by wz) (by wz)⟩ ?_
  refine .cons ⟨rfl, _, _, _, rfl, vertex_at (by wz) (by wz) (by wz)⟩ ?_
  refine .cons ⟨rfl, _, _, _, rfl, vertex_at (by wz) (by wz) (by wz)⟩ ?_
  refine .cons ⟨rfl, _, _, _, rfl, vertex_at (by wz) (by wz) (by wz)⟩ ?_
  exact .nil

theorem places_oA1 {b c zeta A B C : ℝ}
    (hb : b ≠ 0) (hc : c ≠ 0) (hB : B = 1 / b ^ 2) (hC : C = 1 / c ^ 2)
    (hz : zeta = (1 + (b / c) ^ 2) / 4) :
    List.Forall₂ (GoodWhere (B + C) (B + C) A (B - C) 0 0)
      (hpkotTable82 zeta) atOA1 := by
  simp only [hpkotTable82]
  unfold atOA1
  refine .cons ⟨rfl, _, _, _, rfl, origin_at⟩ ?_
  refine .cons ⟨rfl, _, _, _, rfl, half_at (by norm_num) (by norm_num) (by norm_num)⟩ ?_
  refine .cons ⟨rfl, _, _, _, rfl, half_at (by norm_num) (by norm_num) (by norm_num)⟩ ?_
  refine .cons ⟨rfl, _, _, _, rfl, half_at (by norm_num) (by norm_num) (by norm_num)⟩ ?_
  refine .cons ⟨rfl, _, _, _, rfl, half_at (by norm_num) (by norm_num) (by norm_num)⟩ ?_
  refine .cons ⟨rfl, _, _, _, rfl, half_at (by norm_num) (by norm_num) (by norm_num)⟩ ?_
  refine .cons ⟨rfl, _, _, _, rfl, edge_at (by wz) (by wz) (by wz)⟩ ?_
  refine .cons ⟨rfl, _, _, _, rfl, edge_at (by wz) (by wz) (by wz)⟩ ?_
  refine .cons ⟨rfl, _, _, _, rfl, vertex_at (by wz) (by wz) (by wz)⟩ ?_
  refine .cons ⟨rfl, _, _, _, rfl, vertex_at (by wz) (by wz) (by wz)⟩ ?_
  exact .nil

theorem places_oA2 {b c zeta A B C : ℝ}
    (hb : b ≠ 0) (hc : c ≠ 0) (hB : B = 1 / b ^ 2) (hC : C = 1 / c ^ 2)
    (hz : zeta = (1 + (c / b) ^ 2) / 4) :
    List.Forall₂ (GoodWhere (B + C) (B + C) A (B - C) 0 0)
      (hpkotTable83 zeta) atOA2 := by
  simp only [hpkotTable83]
  unfold atOA2
  refine .cons ⟨rfl, _, _, _, rfl, origin_at⟩ ?_
  refine .cons ⟨rfl, _, _, _, rfl, half_at (by norm_num) (by norm_num) (by norm_num)⟩ ?_
  refine .cons ⟨rfl, _, _, _, rfl, half_at (by norm_num) (by norm_num) (by norm_num)⟩ ?_
  refine .cons ⟨rfl, _, _, _, rfl, half_at (by norm_num) (by norm_num) (by norm_num)⟩ ?_
  refine .cons ⟨rfl, _, _, _, rfl, half_at (by norm_num) (by norm_num) (by norm_num)⟩ ?_
  refine .cons ⟨rfl, _, _, _, rfl, half_at (by norm_num) (by norm_num) (by norm_num)⟩ ?_
  refine .cons ⟨rfl, _, _, _, rfl, half_at (by norm_num) (by norm_num) (by norm_num)⟩ ?_
  refine .cons ⟨rfl, _, _, _, rfl, half_at (by norm_num) (by norm_num) (by norm_num)⟩ ?_
  refine .cons ⟨rfl, _, _, _, rfl, half_at (by norm_num) (by norm_num) (by norm_num)⟩ ?_
  refine .cons ⟨rfl, _, _, _, rfl, edge_at (by wz) (by wz) (by wz)⟩ ?_
  refine .cons ⟨rfl, _, _, _, rfl, edge_at (by wz) (by wz) (by wz)⟩ ?_
  refine .cons ⟨rfl, _, _, _, rfl, vertex_at (by wz) (by wz) (by wz)⟩ ?_
  refine .cons ⟨rfl, _, _, _, rfl, vertex_at (by wz) (by wz) (by wz)⟩ ?_
  refine .cons ⟨rfl, _, _, _, rfl, vertex_at (by wz) (by wz) (by wz)⟩ ?_
  refine .cons ⟨rfl, _, _, _, rfl, vertex_at (by wz) (by wz) (by wz)⟩ ?_
  exact .nil

theorem places_hP {A C : ℝ} :
    List.Forall₂ (GoodWhere (2 * A) (2 * A) C A 0 0)
      hpkotTable84 atHP := by
  simp only [hpkotTable84]
  unfold atHP
  refine .cons ⟨rfl, _, _, _, rfl, origin_at⟩ ?_
  refine .cons ⟨rfl, _, _, _, rfl, half_at (by norm_num) (by norm_num) (by norm_num)⟩ ?_
  refine .cons ⟨rfl, _, _, _, rfl, edge_at (by wz) (by wz) (by wz)⟩ ?_
  refine .cons ⟨rfl, _, _, _, rfl, vertex_at (by wz) (by wz) (by wz)⟩ ?_
  refine .cons ⟨rfl, _, _, _, rfl, vertex_at (by wz) (by wz) (by wz)⟩ ?_
  refine .cons ⟨rfl, _, _, _, rfl, half_at (by norm_num) (by norm_num) (by norm_num)⟩ ?_
  refine .cons ⟨rfl, _, _, _, rfl, half_at (by norm_num) (by norm_num) (by norm_num)⟩ ?_
  exact .nil

theorem places_hR1 {a c A C : ℝ}
    (ha : a ≠ 0) (hc : c ≠ 0) (hA : A = 2 / (3 * a ^ 2)) (hC : C = 1 / c ^ 2) :
    List.Forall₂ (GoodWhere (2 * A + C) (2 * A + C) (2 * A + C) (-A + C) (-A + C) (-A + C))
      (hpkotTable85 a c) atHR1 := by
  simp only [hpkotTable85]
  unfold atHR1
  refine .cons ⟨rfl, _, _, _, rfl, origin_at⟩ ?_
  refine .cons ⟨rfl, _, _, _, rfl, half_at (by norm_num) (by norm_num) (by norm_num)⟩ ?_
  refine .cons ⟨rfl, _, _, _, rfl, half_at (by norm_num) (by norm_num) (by norm_num)⟩ ?_
  refine .cons ⟨rfl, _, _, _, rfl, half_at (by norm_num) (by norm_num) (by norm_num)⟩ ?_
  refine .cons ⟨rfl, _, _, _, rfl, half_at (by norm_num) (by norm_num) (by norm_num)⟩ ?_
  refine .cons ⟨rfl, _, _, _, rfl, half_at (by norm_num) (by norm_num) (by norm_num)⟩ ?_
  refine .cons ⟨rfl, _, _, _, rfl, half_at (by norm_num) (by norm_num) (by norm_num)⟩ ?_
  refine .cons ⟨rfl, _, _, _, rfl, edge_at (by wz) (by wz) (by wz)⟩ ?_
  refine .cons ⟨rfl, _, _, _, rfl, edge_at (by wz) (by wz) (by wz)⟩ ?_
  refine .cons ⟨rfl, _, _, _, rfl, edge_at (by wz) (by wz) (by wz)⟩ ?_
  refine .cons ⟨rfl, _, _, _, rfl, edge_at (by wz) (by wz) (by wz)⟩ ?_
  refine .cons ⟨rfl, _, _, _, rfl, vertex_at (by wz) (by wz) (by wz)⟩ ?_
  refine .cons ⟨rfl, _, _, _, rfl, vertex_at (by wz) (by wz) (by wz)⟩ ?_
  refine .cons ⟨rfl, _, _, _, rfl, vertex_at (by wz) (by wz) (by wz)⟩ ?_
  refine .cons ⟨rfl, _, _, _, rfl, vertex_at (by wz) (by wz) (by wz)⟩ ?_
  refine .cons ⟨rfl, _, _, _, rfl, edge_at (by wz) (by wz) (by wz)⟩ ?_
  refine .cons ⟨rfl, _, _, _, rfl, edge_at (by wz) (by wz) (by wz)⟩ ?_
  refine .cons ⟨rfl, _, _, _, rfl, edge_at (by wz) (by wz) (by wz)⟩ ?_
  refine .cons ⟨rfl, _, _, _, rfl, edge_at (by wz) (by wz) (by wz)⟩ ?_
  refine .cons ⟨rfl, _, _, _, rfl, edge_at (by wz) (by wz) (by wz)⟩ ?_
  exact .nil

theorem places_hR2 {a c A C : ℝ}
    (ha : a ≠ 0) (hc : c ≠ 0) (hA : A = 2 / (3 * a ^ 2)) (hC : C = 1 / c ^ 2) :
    List.Forall₂ (GoodWhere (2 * A + C) (2 * A + C) (2 * A + C) (-A + C) (-A + C) (-A + C))
      (hpkotTable86 a c) atHR2 := by
  simp only [hpkotTable86]
  unfold atHR2
  refine .cons ⟨rfl, _, _, _, rfl, origin_at⟩ ?_
  refine .cons ⟨rfl, _, _, _, rfl, half_at (by norm_num) (by norm_num) (by norm_num)⟩ ?_
  refine .cons ⟨rfl, _, _, _, rfl, vertex_at (by wz) (by wz) (by wz)⟩ ?_
  refine .cons ⟨rfl, _, _, _, rfl, vertex_at (by wz) (by wz) (by wz)⟩ ?_
  refine .cons ⟨rfl, _, _, _, rfl, vertex_at (by wz) (by wz) (by wz)⟩ ?_
  refine .cons ⟨rfl, _, _, _, rfl, between_at ((1 / 2 - 2 * (1 / 6 - (c / a) ^ 2 / 9)))
      (-1 + (1 / 2 - 2 * (1 / 6 - (c / a) ^ 2 / 9)))
      ((1 / 2 - 2 * (1 / 6 - (c / a) ^ 2 / 9)))
      (1 / 2)
      (-1 / 2)
      (1 / 2)
    (by wz) (by wz) (by wz) (by wz) (by wz) (by wz) (by wz) (by wz) (by wz)⟩ ?_
  refine .cons ⟨rfl, _, _, _, rfl, between_at (1 / 2)
      (-1 / 2)
      (1 / 2 + (-1))
      (-((1 / 2 - 2 * (1 / 6 - (c / a) ^ 2 / 9))) + 1)
      (-(-1 + (1 / 2 - 2 * (1 / 6 - (c / a) ^ 2 / 9))) + (-1))
      (-((1 / 2 - 2 * (1 / 6 - (c / a) ^ 2 / 9))))
    (by wz) (by wz) (by wz) (by wz) (by wz) (by wz) (by wz) (by wz) (by wz)⟩ ?_
  refine .cons ⟨rfl, _, _, _, rfl, half_at (by norm_num) (by norm_num) (by norm_num)⟩ ?_
  refine .cons ⟨rfl, _, _, _, rfl, half_at (by norm_num) (by norm_num) (by norm_num)⟩ ?_
  exact .nil

theorem places_mP {a c beta cb X Y Z W : ℝ}
    (ha : a ≠ 0) (hc : c ≠ 0) (hs0 : 1 - cb ^ 2 ≠ 0) (hcb : Real.cos (beta * toRadians) = cb)
    (hs : Real.sin (beta * toRadians) ^ 2 = 1 - cb ^ 2) (hX : X = 1 / a ^ 2)
    (hZ : Z = 1 / c ^ 2) (hW : W = -cb / (a * c)) :
    List.Forall₂ (GoodWhere X Y Z 0 W 0)
      (hpkotTable87 a c beta) atMP := by
  simp only [hpkotTable87, hcb, hs]
  clear hcb hs
  unfold atMP
  refine .cons ⟨rfl, _, _, _, rfl, origin_at⟩ ?_
  refine .cons ⟨rfl, _, _, _, rfl, half_at (by norm_num) (by norm_num) (by norm_num)⟩ ?_
  refine .cons ⟨rfl, _, _, _, rfl, half_at (by norm_num) (by norm_num) (by norm_num)⟩ ?_
  refine .cons ⟨rfl, _, _, _, rfl, half_at (by norm_num) (by norm_num) (by norm_num)⟩ ?_
  refine .cons ⟨rfl, _, _, _, rfl, half_at (by norm_num) (by norm_num) (by norm_num)⟩ ?_
  refine .cons ⟨rfl, _, _, _, rfl, half_at (by norm_num) (by norm_num) (by norm_num)⟩ ?_
  refine .cons ⟨rfl, _, _, _, rfl, half_at (by norm_num) (by norm_num) (by norm_num)⟩ ?_
  refine .cons ⟨rfl, _, _, _, rfl, half_at (by norm_num) (by norm_num) (by norm_num)⟩ ?_
  refine .cons ⟨rfl, _, _, _, rfl, half_at (by norm_num) (by norm_num) (by norm_num)⟩ ?_
  refine .cons ⟨rfl, _, _, _, rfl, half_at (by norm_num) (by norm_num) (by norm_num)⟩ ?_
  refine .cons ⟨rfl, _, _, _, rfl, half_at (by norm_num) (by norm_num) (by norm_num)⟩ ?_
  refine .cons ⟨rfl, _, _, _, rfl, half_at (by norm_num) (by norm_num) (by norm_num)⟩ ?_
  refine .cons ⟨rfl, _, _, _, rfl, edge_at (by wz) (by wz) (by wz)⟩ ?_
  refine .cons ⟨rfl, _, _, _, rfl, edge_at (by wz) (by wz) (by wz)⟩ ?_
  refine .cons ⟨rfl, _, _, _, rfl, edge_at (by wz) (by wz) (by wz)⟩ ?_
  refine .cons ⟨rfl, _, _, _, rfl, vertex_at (by wz) (by wz) (by wz)⟩ ?_
  refine .cons ⟨rfl, _, _, _, rfl, vertex_at (by wz) (by wz) (by wz)⟩ ?_
  refine .cons ⟨rfl, _, _, _, rfl, vertex_at (by wz) (by wz) (by wz)⟩ ?_
  exact .nil

theorem places_mC1 {a b c beta cb X Y Z W : ℝ}
    (ha : a ≠ 0) (hc : c ≠ 0) (hs0 : 1 - cb ^ 2 ≠ 0) (hcb : Real.cos (beta * toRadians) = cb)
    (hs : Real.sin (beta * toRadians) ^ 2 = 1 - cb ^ 2) (hX : X = 1 / a ^ 2)
    (hZ : Z = 1 / c ^ 2) (hW : W = -cb / (a * c)) (hb : b ≠ 0) (hY : Y = (1 - cb ^ 2) / b ^ 2) :
    List.Forall₂ (GoodWhere (X + Y) (X + Y) Z (-X + Y) W (-W))
      (hpkotTable88 a b c beta) atMC1 := by
  simp only [hpkotTable88, hcb, hs]
  clear hcb hs
  unfold atMC1
  refine .cons ⟨rfl, _, _, _, rfl, origin_at⟩ ?_
  refine .cons ⟨rfl, _, _, _, rfl, half_at (by norm_num) (by norm_num) (by norm_num)⟩ ?_
  refine .cons ⟨rfl, _, _, _, rfl, half_at (by norm_num) (by norm_num) (by norm_num)⟩ ?_
  refine .cons ⟨rfl, _, _, _, rfl, half_at (by norm_num) (by norm_num) (by norm_num)⟩ ?_
  refine .cons ⟨rfl, _, _, _, rfl, half_at (by norm_num) (by norm_num) (by norm_num)⟩ ?_
  refine .cons ⟨rfl, _, _, _, rfl, half_at (by norm_num) (by norm_num) (by norm_num)⟩ ?_
  refine .cons ⟨rfl, _, _, _, rfl, half_at (by norm_num) (by norm_num) (by norm_num)⟩ ?_
  refine .cons ⟨rfl, _, _, _, rfl, half_at (by norm_num) (by norm_num) (by norm_num)⟩ ?_
  refine .cons ⟨rfl, _, _, _, rfl, edge_at (by wz) (by wz) (by wz)⟩ ?_
  refine .cons ⟨rfl, _, _, _, rfl, edge_at (by wz) (by wz) (by wz)⟩ ?_
  refine .cons ⟨rfl, _, _, _, rfl, edge_at (by wz) (by wz) (by wz)⟩ ?_
  refine .cons ⟨rfl, _, _, _, rfl, vertex_at (by wz) (by wz) (by wz)⟩ ?_
  refine .cons ⟨rfl, _, _, _, rfl, vertex_at (by wz) (by wz) (by wz)⟩ ?_
  refine .cons ⟨rfl, _, _, _, rfl, edge_at (by wz) (by wz) (by wz)⟩ ?_
  refine .cons ⟨rfl, _, _, _, rfl, edge_at (by wz) (by wz) (by wz)⟩ ?_
  refine .cons ⟨rfl, _, _, _, rfl, edge_at (by wz) (by wz) (by wz)⟩ ?_
  exact .nil

theorem places_mC2 {a b c beta cb X Y Z W : ℝ}
    (ha : a ≠ 0) (hc : c ≠ 0) (hs0 : 1 - cb ^ 2 ≠ 0) (hcb : Real.cos (beta * toRadians) = cb)
    (hs : Real.sin (beta * toRadians) ^ 2 = 1 - cb ^ 2) (hX : X = 1 / a ^ 2)
    (hZ : Z = 1 / c ^ 2) (hW : W = -cb / (a * c)) (hb : b ≠ 0) (hY : Y = (1 - cb ^ 2) / b ^ 2) :
    List.Forall₂ (GoodWhere (X + Y) (X + Y) Z (-X + Y) W (-W))
      (hpkotTable89 a b c beta) atMC2 := by
  simp only [hpkotTable89, hcb, hs]
  clear hcb hs
  unfold atMC2
  refine .cons ⟨rfl, _, _, _, rfl, origin_at⟩ ?_
  refine .cons ⟨rfl, _, _, _, rfl, half_at (by norm_num) (by norm_num) (by norm_num)⟩ ?_
  refine .cons ⟨rfl, _, _, _, rfl, half_at (by norm_num) (by norm_num) (by norm_num)⟩ ?_
  refine .cons ⟨rfl, _, _, _, rfl, half_at (by norm_num) (by norm_num) (by norm_num)⟩ ?_
  refine .cons ⟨rfl, _, _, _, rfl, half_at (by norm_num) (by norm_num) (by norm_num)⟩ ?_
  refine .cons ⟨rfl, _, _, _, rfl, half_at (by norm_num) (by norm_num) (by norm_num)⟩ ?_
  refine .cons ⟨rfl, _, _, _, rfl, vertex_at (by wz) (by wz) (by wz)⟩ ?_
  refine .cons ⟨rfl, _, _, _, rfl, vertex_at (by wz) (by wz) (by wz)⟩ ?_
  refine .cons ⟨rfl, _, _, _, rfl, vertex_at (by wz) (by wz) (by wz)⟩ ?_
  refine .cons ⟨rfl, _, _, _, rfl, vertex_at (by wz) (by wz) (by wz)⟩ ?_
  refine .cons ⟨rfl, _, _, _, rfl, vertex_at (by wz) (by wz) (by wz)⟩ ?_
  refine .cons ⟨rfl, _, _, _, rfl, vertex_at (by wz) (by wz) (by wz)⟩ ?_
  refine .cons ⟨rfl, _, _, _, rfl, between_at (-1 + (1 + (((a / b) ^ 2 + (1 + a / c * cb) / (1 - cb ^ 2)) / 4) - 2 * ((1 + (a / b) ^ 2) / 4)))
      (1 - (1 + (((a / b) ^ 2 + (1 + a / c * cb) / (1 - cb ^ 2)) / 4) - 2 * ((1 + (a / b) ^ 2) / 4)))
      (1 - ((1 / 2 - 2 * (((a / b) ^ 2 + (1 + a / c * cb) / (1 - cb ^ 2)) / 4) * c * cb / a) - 2 * (-a * c * cb / 2 / b ^ 2)))
      (-(((a / b) ^ 2 + (1 + a / c * cb) / (1 - cb ^ 2)) / 4))
      ((((a / b) ^ 2 + (1 + a / c * cb) / (1 - cb ^ 2)) / 4))
      ((1 / 2 - 2 * (((a / b) ^ 2 + (1 + a / c * cb) / (1 - cb ^ 2)) / 4) * c * cb / a) + (-1))
    (by wz) (by wz) (by wz) (by wz) (by wz) (by wz) (by wz) (by wz) (by wz)⟩ ?_
  refine .cons ⟨rfl, _, _, _, rfl, between_at (-(-1 + (1 + (((a / b) ^ 2 + (1 + a / c * cb) / (1 - cb ^ 2)) / 4) - 2 * ((1 + (a / b) ^ 2) / 4))))
      (-(1 - (1 + (((a / b) ^ 2 + (1 + a / c * cb) / (1 - cb ^ 2)) / 4) - 2 * ((1 + (a / b) ^ 2) / 4))) + 1)
      (-(1 - ((1 / 2 - 2 * (((a / b) ^ 2 + (1 + a / c * cb) / (1 - cb ^ 2)) / 4) * c * cb / a) - 2 * (-a * c * cb / 2 / b ^ 2))))
      (-(-(((a / b) ^ 2 + (1 + a / c * cb) / (1 - cb ^ 2)) / 4)))
      (-((((a / b) ^ 2 + (1 + a / c * cb) / (1 - cb ^ 2)) / 4)) + 1)
      (-((1 / 2 - 2 * (((a / b) ^ 2 + (1 + a / c * cb) / (1 - cb ^ 2)) / 4) * c * cb / a)) + 1)
    (by wz) (by wz) (by wz) (by wz) (by wz) (by wz) (by wz) (by wz) (by wz)⟩ ?_
  refine .cons ⟨rfl, _, _, _, rfl, between_at (-(-1 + (1 + (((a / b) ^ 2 + (1 + a / c * cb) / (1 - cb ^ 2)) / 4) - 2 * ((1 + (a / b) ^ 2) / 4))))
      (-(1 - (1 + (((a / b) ^ 2 + (1 + a / c * cb) / (1 - cb ^ 2)) / 4) - 2 * ((1 + (a / b) ^ 2) / 4))))
      (-(1 - ((1 / 2 - 2 * (((a / b) ^ 2 + (1 + a / c * cb) / (1 - cb ^ 2)) / 4) * c * cb / a) - 2 * (-a * c * cb / 2 / b ^ 2))))
      (-(-(((a / b) ^ 2 + (1 + a / c * cb) / (1 - cb ^ 2)) / 4)))
      (-((((a / b) ^ 2 + (1 + a / c * cb) / (1 - cb ^ 2)) / 4)))
      (-((1 / 2 - 2 * (((a / b) ^ 2 + (1 + a / c * cb) / (1 - cb ^ 2)) / 4) * c * cb / a)) + 1)
    (by wz) (by wz) (by wz) (by wz) (by wz) (by wz) (by wz) (by wz) (by wz)⟩ ?_
  refine .cons ⟨rfl, _, _, _, rfl, between_at (-1 + (1 + (((a / b) ^ 2 + (1 + a / c * cb) / (1 - cb ^ 2)) / 4) - 2 * ((1 + (a / b) ^ 2) / 4)) + 1)
      (1 - (1 + (((a / b) ^ 2 + (1 + a / c * cb) / (1 - cb ^ 2)) / 4) - 2 * ((1 + (a / b) ^ 2) / 4)))
      (1 - ((1 / 2 - 2 * (((a / b) ^ 2 + (1 + a / c * cb) / (1 - cb ^ 2)) / 4) * c * cb / a) - 2 * (-a * c * cb / 2 / b ^ 2)))
      (-(((a / b) ^ 2 + (1 + a / c * cb) / (1 - cb ^ 2)) / 4) + 1)
      ((((a / b) ^ 2 + (1 + a / c * cb) / (1 - cb ^ 2)) / 4))
      ((1 / 2 - 2 * (((a / b) ^ 2 + (1 + a / c * cb) / (1 - cb ^ 2)) / 4) * c * cb / a) + (-1))
    (by wz) (by wz) (by wz) (by wz) (by wz) (by wz) (by wz) (by wz) (by wz)⟩ ?_
  exact .nil

set_option maxHeartbeats 800000 in
theorem places_mC3 {a b c beta cb X Y Z W : ℝ}
    (ha : a ≠ 0) (hc : c ≠ 0) (hs0 : 1 - cb ^ 2 ≠ 0) (hcb : Real.cos (beta * toRadians) = cb)
    (hs : Real.sin (beta * toRadians) ^ 2 = 1 - cb ^ 2) (hX : X = 1 / a ^ 2)
    (hZ : Z = 1 / c ^ 2) (hW : W = -cb / (a * c)) (hb : b ≠ 0) (hY : Y = (1 - cb ^ 2) / b ^ 2)
    (hcb0 : cb ≠ 0) :
    List.Forall₂ (GoodWhere (X + Y) (X + Y) Z (-X + Y) W (-W))
      (hpkotTable90 a b c beta) atMC3 := by
  simp only [hpkotTable90, hcb, hs]
  clear hcb hs
  unfold atMC3
  refine .cons ⟨rfl, _, _, _, rfl, origin_at⟩ ?_
  refine .cons ⟨rfl, _, _, _, rfl, half_at (by norm_num) (by norm_num) (by norm_num)⟩ ?_
  refine .cons ⟨rfl, _, _, _, rfl, half_at (by norm_num) (by norm_num) (by norm_num)⟩ ?_
  refine .cons ⟨rfl, _, _, _, rfl, half_at (by norm_num) (by norm_num) (by norm_num)⟩ ?_
  refine .cons ⟨rfl, _, _, _, rfl, half_at (by norm_num) (by norm_num) (by norm_num)⟩ ?_
  refine .cons ⟨rfl, _, _, _, rfl, half_at (by norm_num) (by norm_num) (by norm_num)⟩ ?_
  refine .cons ⟨rfl, _, _, _, rfl, half_at (by norm_num) (by norm_num) (by norm_num)⟩ ?_
  refine .cons ⟨rfl, _, _, _, rfl, vertex_at (by wz) (by wz) (by wz)⟩ ?_
  refine .cons ⟨rfl, _, _, _, rfl, vertex_at (by wz) (by wz) (by wz)⟩ ?_
  refine .cons ⟨rfl, _, _, _, rfl, vertex_at (by wz) (by wz) (by wz)⟩ ?_
  refine .cons ⟨rfl, _, _, _, rfl, vertex_at (by wz) (by wz) (by wz)⟩ ?_
  refine .cons ⟨rfl, _, _, _, rfl, vertex_at (by wz) (by wz) (by wz)⟩ ?_
  refine .cons ⟨rfl, _, _, _, rfl, vertex_at (by wz) (by wz) (by wz)⟩ ?_
  refine .cons ⟨rfl, _, _, _, rfl, vertex_at (by wz) (by wz) (by wz)⟩ ?_
  refine .cons ⟨rfl, _, _, _, rfl, vertex_at (by wz) (by wz) (by wz)⟩ ?_
  refine .cons ⟨rfl, _, _, _, rfl, between_at (-(2 * ((1 / 2 - 2 * (((a / b) ^ 2 + (1 + a / c * cb) / (1 - cb ^ 2)) / 4) * c * cb / a) / 2 + (a / b) ^ 2 / 4 + a * c * cb / 2 / b ^ 2) - (((a / b) ^ 2 + (1 + a / c * cb) / (1 - cb ^ 2)) / 4)))
      ((2 * ((1 / 2 - 2 * (((a / b) ^ 2 + (1 + a / c * cb) / (1 - cb ^ 2)) / 4) * c * cb / a) / 2 + (a / b) ^ 2 / 4 + a * c * cb / 2 / b ^ 2) - (((a / b) ^ 2 + (1 + a / c * cb) / (1 - cb ^ 2)) / 4)))
      ((c * (1 - 4 * (2 * ((1 / 2 - 2 * (((a / b) ^ 2 + (1 + a / c * cb) / (1 - cb ^ 2)) / 4) * c * cb / a) / 2 + (a / b) ^ 2 / 4 + a * c * cb / 2 / b ^ 2) - (((a / b) ^ 2 + (1 + a / c * cb) / (1 - cb ^ 2)) / 4)) + (a / b) ^ 2 * (1 - cb ^ 2)) / 2 / a / cb))
      (-(((a / b) ^ 2 + (1 + a / c * cb) / (1 - cb ^ 2)) / 4))
      ((((a / b) ^ 2 + (1 + a / c * cb) / (1 - cb ^ 2)) / 4))
      ((1 / 2 - 2 * (((a / b) ^ 2 + (1 + a / c * cb) / (1 - cb ^ 2)) / 4) * c * cb / a) + (-1))
    (by wz) (by wz) (by wz) (by wz) (by wz) (by wz) (by wz) (by wz) (by wz)⟩ ?_
  refine .cons ⟨rfl, _, _, _, rfl, between_at (-(-(((a / b) ^ 2 + (1 + a / c * cb) / (1 - cb ^ 2)) / 4)))
      (-((((a / b) ^ 2 + (1 + a / c * cb) / (1 - cb ^ 2)) / 4)) + 1)
      (-((1 / 2 - 2 * (((a / b) ^ 2 + (1 + a / c * cb) / (1 - cb ^ 2)) / 4) * c * cb / a)) + 1)
      (-(-(2 * ((1 / 2 - 2 * (((a / b) ^ 2 + (1 + a / c * cb) / (1 - cb ^ 2)) / 4) * c * cb / a) / 2 + (a / b) ^ 2 / 4 + a * c * cb / 2 / b ^ 2) - (((a / b) ^ 2 + (1 + a / c * cb) / (1 - cb ^ 2)) / 4))))
      (-((2 * ((1 / 2 - 2 * (((a / b) ^ 2 + (1 + a / c * cb) / (1 - cb ^ 2)) / 4) * c * cb / a) / 2 + (a / b) ^ 2 / 4 + a * c * cb / 2 / b ^ 2) - (((a / b) ^ 2 + (1 + a / c * cb) / (1 - cb ^ 2)) / 4))) + 1)
      (-((c * (1 - 4 * (2 * ((1 / 2 - 2 * (((a / b) ^ 2 + (1 + a / c * cb) / (1 - cb ^ 2)) / 4) * c * cb / a) / 2 + (a / b) ^ 2 / 4 + a * c * cb / 2 / b ^ 2) - (((a / b) ^ 2 + (1 + a / c * cb) / (1 - cb ^ 2)) / 4)) + (a / b) ^ 2 * (1 - cb ^ 2)) / 2 / a / cb)))
    (by wz) (by wz) (by wz) (by wz) (by wz) (by wz) (by wz) (by wz) (by wz)⟩ ?_
  refine .cons ⟨rfl, _, _, _, rfl, between_at (-(-(((a / b) ^ 2 + (1 + a / c * cb) / (1 - cb ^ 2)) / 4)))
      (-((((a / b) ^ 2 + (1 + a / c * cb) / (1 - cb ^ 2)) / 4)))
      (-((1 / 2 - 2 * (((a / b) ^ 2 + (1 + a / c * cb) / (1 - cb ^ 2)) / 4) * c * cb / a)) + 1)
      (-(-(2 * ((1 / 2 - 2 * (((a / b) ^ 2 + (1 + a / c * cb) / (1 - cb ^ 2)) / 4) * c * cb / a) / 2 + (a / b) ^ 2 / 4 + a * c * cb / 2 / b ^ 2) - (((a / b) ^ 2 + (1 + a / c * cb) / (1 - cb ^ 2)) / 4))))
      (-((2 * ((1 / 2 - 2 * (((a / b) ^ 2 + (1 + a / c * cb) / (1 - cb ^ 2)) / 4) * c * cb / a) / 2 + (a / b) ^ 2 / 4 + a * c * cb / 2 / b ^ 2) - (((a / b) ^ 2 + (1 + a / c * cb) / (1 - cb ^ 2)) / 4))))
      (-((c * (1 - 4 * (2 * ((1 / 2 - 2 * (((a / b) ^ 2 + (1 + a / c * cb) / (1 - cb ^ 2)) / 4) * c * cb / a) / 2 + (a / b) ^ 2 / 4 + a * c * cb / 2 / b ^ 2) - (((a / b) ^ 2 + (1 + a / c * cb) / (1 - cb ^ 2)) / 4)) + (a / b) ^ 2 * (1 - cb ^ 2)) / 2 / a / cb)))
    (by wz) (by wz) (by wz) (by wz) (by wz) (by wz) (by wz) (by wz) (by wz)⟩ ?_
  refine .cons ⟨rfl, _, _, _, rfl, between_at (-(2 * ((1 / 2 - 2 * (((a / b) ^ 2 + (1 + a / c * cb) / (1 - cb ^ 2)) / 4) * c * cb / a) / 2 + (a / b) ^ 2 / 4 + a * c * cb / 2 / b ^ 2) - (((a / b) ^ 2 + (1 + a / c * cb) / (1 - cb ^ 2)) / 4)) + 1)
      ((2 * ((1 / 2 - 2 * (((a / b) ^ 2 + (1 + a / c * cb) / (1 - cb ^ 2)) / 4) * c * cb / a) / 2 + (a / b) ^ 2 / 4 + a * c * cb / 2 / b ^ 2) - (((a / b) ^ 2 + (1 + a / c * cb) / (1 - cb ^ 2)) / 4)))
      ((c * (1 - 4 * (2 * ((1 / 2 - 2 * (((a / b) ^ 2 + (1 + a / c * cb) / (1 - cb ^ 2)) / 4) * c * cb / a) / 2 + (a / b) ^ 2 / 4 + a * c * cb / 2 / b ^ 2) - (((a / b) ^ 2 + (1 + a / c * cb) / (1 - cb ^ 2)) / 4)) + (a / b) ^ 2 * (1 - cb ^ 2)) / 2 / a / cb))
      (-(((a / b) ^ 2 + (1 + a / c * cb) / (1 - cb ^ 2)) / 4) + 1)
      ((((a / b) ^ 2 + (1 + a / c * cb) / (1 - cb ^ 2)) / 4))
      ((1 / 2 - 2 * (((a / b) ^ 2 + (1 + a / c * cb) / (1 - cb ^ 2)) / 4) * c * cb / a) + (-1))
    (by wz) (by wz) (by wz) (by wz) (by wz) (by wz) (by wz) (by wz) (by wz)⟩ ?_
  exact .nil

theorem places_aP2 {A B C X Y Z : ℝ} :
    List.Forall₂ (GoodWhere A B C Z Y X)
      hpkotTable91 atAP2 := by
  simp only [hpkotTable91]
  unfold atAP2
  refine .cons ⟨rfl, _, _, _, rfl, origin_at⟩ ?_
  refine .cons ⟨rfl, _, _, _, rfl, none_at⟩ ?_
  refine .cons ⟨rfl, _, _, _, rfl, half_at (by norm_num) (by norm_num) (by norm_num)⟩ ?_
  refine .cons ⟨rfl, _, _, _, rfl, half_at (by norm_num) (by norm_num) (by norm_num)⟩ ?_
  refine .cons ⟨rfl, _, _, _, rfl, half_at (by norm_num) (by norm_num) (by norm_num)⟩ ?_
  refine .cons ⟨rfl, _, _, _, rfl, half_at (by norm_num) (by norm_num) (by norm_num)⟩ ?_
  refine .cons ⟨rfl, _, _, _, rfl, half_at (by norm_num) (by norm_num) (by norm_num)⟩ ?_
  refine .cons ⟨rfl, _, _, _, rfl, half_at (by norm_num) (by norm_num) (by norm_num)⟩ ?_
  exact .nil

theorem places_aP3 {A B C X Y Z : ℝ} :
    List.Forall₂ (GoodWhere A B C Z Y X)
      hpkotTable92 atAP3 := by
  simp only [hpkotTable92]
  unfold atAP3
  refine .cons ⟨rfl, _, _, _, rfl, origin_at⟩ ?_
  refine .cons ⟨rfl, _, _, _, rfl, half_at (by norm_num) (by norm_num) (by norm_num)⟩ ?_
  refine .cons ⟨rfl, _, _, _, rfl, half_at (by norm_num) (by norm_num) (by norm_num)⟩ ?_
  refine .cons ⟨rfl, _, _, _, rfl, half_at (by norm_num) (by norm_num) (by norm_num)⟩ ?_
  refine .cons ⟨rfl, _, _, _, rfl, half_at (by norm_num) (by norm_num) (by norm_num)⟩ ?_
  refine .cons ⟨rfl, _, _, _, rfl, half_at (by norm_num) (by norm_num) (by norm_num)⟩ ?_
  refine .cons ⟨rfl, _, _, _, rfl, half_at (by norm_num) (by norm_num) (by norm_num)⟩ ?_
  refine .cons ⟨rfl, _, _, _, rfl, half_at (by norm_num) (by norm_num) (by norm_num)⟩ ?_
  refine .cons ⟨rfl, _, _, _, rfl, half_at (by norm_num) (by norm_num) (by norm_num)⟩ ?_
  exact .nil

end Wulfric
