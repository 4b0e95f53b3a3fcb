import Verif.Lemmas.Places

/-!
# The points of the tables, one by one

Each point is checked against the lattice vectors listed for it.
-/

namespace Wulfric

open Matrix _root_.Spec

theorem places_CUB {A : ℝ} :
    List.Forall₂ (GoodWhere A A A 0 0 0)
      scTable2 atCUB := by
  simp only [scTable2]
  unfold atCUB
  refine .cons ⟨rfl, _, _, _, rfl, origin_at⟩ ?_
  refine .cons ⟨rfl, _, _, _, rfl, half_at (by norm_num) (by norm_num) (by norm_num)⟩ ?_
  refine .cons ⟨rfl, _, _, _, rfl, half_at (by norm_num) (by norm_num) (by norm_num)⟩ ?_
  refine .cons ⟨rfl, _, _, _, rfl, half_at (by norm_num) (by norm_num) (by norm_num)⟩ ?_
  exact .nil

theorem places_FCC {A : ℝ} :
    List.Forall₂ (GoodWhere (A + A + A) (A + A + A) (A + A + A) (-A - A + A) (-A + A - A) (A - A - A))
      scTable3 atFCC := by
  simp only [scTable3]
  unfold atFCC
  refine .cons ⟨rfl, _, _, _, rfl, origin_at⟩ ?_
  refine .cons ⟨rfl, _, _, _, rfl, edge_at (by wz) (by wz) (by wz)⟩ ?_
  refine .cons ⟨rfl, _, _, _, rfl, half_at (by norm_num) (by norm_num) (by norm_num)⟩ ?_
  refine .cons ⟨rfl, _, _, _, rfl, edge_at (by wz) (by wz) (by wz)⟩ ?_
  refine .cons ⟨rfl, _, _, _, rfl, vertex_at (by wz) (by wz) (by wz)⟩ ?_
  refine .cons ⟨rfl, _, _, _, rfl, half_at (by norm_num) (by norm_num) (by norm_num)⟩ ?_
  exact .nil

theorem places_BCC {A : ℝ} :
    List.Forall₂ (GoodWhere (A + A) (A + A) (A + A) A A A)
      scTable4 atBCC := by
  simp only [scTable4]
  unfold atBCC
  refine .cons ⟨rfl, _, _, _, rfl, origin_at⟩ ?_
  refine .cons ⟨rfl, _, _, _, rfl, half_at (by norm_num) (by norm_num) (by norm_num)⟩ ?_
  refine .cons ⟨rfl, _, _, _, rfl, vertex_at (by wz) (by wz) (by wz)⟩ ?_
  refine .cons ⟨rfl, _, _, _, rfl, half_at (by norm_num) (by norm_num) (by norm_num)⟩ ?_
  exact .nil

theorem places_TET {A C : ℝ} :
    List.Forall₂ (GoodWhere A A C 0 0 0)
      scTable5 atTET := by
  simp only [scTable5]
  unfold atTET
  refine .cons ⟨rfl, _, _, _, rfl, origin_at⟩ ?_
  refine .cons ⟨rfl, _, _, _, rfl, half_at (by norm_num) (by norm_num) (by norm_num)⟩ ?_
  refine .cons ⟨rfl, _, _, _, rfl, half_at (by norm_num) (by norm_num) (by norm_num)⟩ ?_
  refine .cons ⟨rfl, _, _, _, rfl, half_at (by norm_num) (by norm_num) (by norm_num)⟩ ?_
  refine .cons ⟨rfl, _, _, _, rfl, half_at (by norm_num) (by norm_num) (by norm_num)⟩ ?_
  refine .cons ⟨rfl, _, _, _, rfl, half_at (by norm_num) (by norm_num) (by norm_num)⟩ ?_
  exact .nil

theorem places_BCT1 {a c A C : ℝ}
    (ha : a ≠ 0) (hc : c ≠ 0) (hA : A = 1 / a ^ 2) (hC : C = 1 / c ^ 2) :
    List.Forall₂ (GoodWhere (A + C) (A + C) (A + A) C A A)
      (scTable6 a c) atBCT1 := by
  simp only [scTable6]
  unfold atBCT1
  refine .cons ⟨rfl, _, _, _, rfl, origin_at⟩ ?_
  refine .cons ⟨rfl, _, _, _, rfl, half_at (by norm_num) (by norm_num) (by norm_num)⟩ ?_
  refine .cons ⟨rfl, _, _, _, rfl, half_at (by norm_num) (by norm_num) (by norm_num)⟩ ?_
  refine .cons ⟨rfl, _, _, _, rfl, vertex_at (by wz) (by wz) (by wz)⟩ ?_
  refine .cons ⟨rfl, _, _, _, rfl, half_at (by norm_num) (by norm_num) (by norm_num)⟩ ?_
  refine .cons ⟨rfl, _, _, _, rfl, edge_at (by wz) (by wz) (by wz)⟩ ?_
  refine .cons ⟨rfl, _, _, _, rfl, edge_at (by wz) (by wz) (by wz)⟩ ?_
  exact .nil

theorem places_BCT2 {a c A C : ℝ}
    (ha : a ≠ 0) (hc : c ≠ 0) (hA : A = 1 / a ^ 2) (hC : C = 1 / c ^ 2) :
    List.Forall₂ (GoodWhere (A + C) (A + C) (A + A) C A A)
      (scTable7 a c) atBCT2 := by
  simp only [scTable7]
  unfold atBCT2
  refine .cons ⟨rfl, _, _, _, rfl, origin_at⟩ ?_
  refine .cons ⟨rfl, _, _, _, rfl, half_at (by norm_num) (by norm_num) (by norm_num)⟩ ?_
  refine .cons ⟨rfl, _, _, _, rfl, vertex_at (by wz) (by wz) (by wz)⟩ ?_
  refine .cons ⟨rfl, _, _, _, rfl, edge_at (by wz) (by wz) (by wz)⟩ ?_
  refine .cons ⟨rfl, _, _, _, rfl, edge_at (by wz) (by wz) (by wz)⟩ ?_
  refine .cons ⟨rfl, _, _, _, rfl, half_at (by norm_num) (by norm_num) (by norm_num)⟩ ?_
  refine .cons ⟨rfl, _, _, _, rfl, vertex_at (by wz) (by wz) (by wz)⟩ ?_
  refine .cons ⟨rfl, _, _, _, rfl, vertex_at (by wz) (by wz) (by wz)⟩ ?_
  refine .cons ⟨rfl, _, _, _, rfl, half_at (by norm_num) (by norm_num) (by norm_num)⟩ ?_
  exact .nil

theorem places_ORC {A B C : ℝ} :
    List.Forall₂ (GoodWhere A B C 0 0 0)
      scTable8 atORC := by
  simp only [scTable8]
  unfold atORC
  refine .cons ⟨rfl, _, _, _, rfl, origin_at⟩ ?_
  refine .cons ⟨rfl, _, _, _, rfl, half_at (by norm_num) (by norm_num) (by norm_num)⟩ ?_
  refine .cons ⟨rfl, _, _, _, rfl, half_at (by norm_num) (by norm_num) (by norm_num)⟩ ?_
  refine .cons ⟨rfl, _, _, _, rfl, half_at (by norm_num) (by norm_num) (by norm_num)⟩ ?_
  refine .cons ⟨rfl, _, _, _, rfl, half_at (by norm_num) (by norm_num) (by norm_num)⟩ ?_
  refine .cons ⟨rfl, _, _, _, rfl, half_at (by norm_num) (by norm_num) (by norm_num)⟩ ?_
  refine .cons ⟨rfl, _, _, _, rfl, half_at (by norm_num) (by norm_num) (by norm_num)⟩ ?_
  refine .cons ⟨rfl, _, _, _, rfl, half_at (by norm_num) (by norm_num) (by norm_num)⟩ ?_
  exact .nil

theorem places_ORCF1 {a b c A B C : ℝ}
    (ha : a ≠ 0) (hb : b ≠ 0) (hc : c ≠ 0) (hA : A = 1 / a ^ 2) (hB : B = 1 / b ^ 2)
    (hC : C = 1 / c ^ 2) :
    List.Forall₂ (GoodWhere (A + B + C) (A + B + C) (A + B + C) (-A - B + C) (-A + B - C) (A - B - C))
      (scTable9 a b c) atORCF1 := by
  simp only [scTable9]
  unfold atORCF1
  refine .cons ⟨rfl, _, _, _, rfl, origin_at⟩ ?_
  refine .cons ⟨rfl, _, _, _, rfl, vertex_at (by wz) (by wz) (by wz)⟩ ?_
  refine .cons ⟨rfl, _, _, _, rfl, vertex_at (by wz) (by wz) (by wz)⟩ ?_
  refine .cons ⟨rfl, _, _, _, rfl, half_at (by norm_num) (by norm_num) (by norm_num)⟩ ?_
  refine .cons ⟨rfl, _, _, _, rfl, half_at (by norm_num) (by norm_num) (by norm_num)⟩ ?_
  refine .cons ⟨rfl, _, _, _, rfl, edge_at (by wz) (by wz) (by wz)⟩ ?_
  refine .cons ⟨rfl, _, _, _, rfl, edge_at (by wz) (by wz) (by wz)⟩ ?_
  refine .cons ⟨rfl, _, _, _, rfl, half_at (by norm_num) (by norm_num) (by norm_num)⟩ ?_
  refine .cons ⟨rfl, _, _, _, rfl, half_at (by norm_num) (by norm_num) (by norm_num)⟩ ?_
  exact .nil

theorem places_ORCF2 {a b c A B C : ℝ}
    (ha : a ≠ 0) (hb : b ≠ 0) (hc : c ≠ 0) (hA : A = 1 / a ^ 2) (hB : B = 1 / b ^ 2)
    (hC : C = 1 / c ^ 2) :
    List.Forall₂ (GoodWhere (A + B + C) (A + B + C) (A + B + C) (-A - B + C) (-A + B - C) (A - B - C))
      (scTable10 a b c) atORCF2 := by
  simp only [scTable10]
  unfold atORCF2
  refine .cons ⟨rfl, _, _, _, rfl, origin_at⟩ ?_
  refine .cons ⟨rfl, _, _, _, rfl, vertex_at (by wz) (by wz) (by wz)⟩ ?_
  refine .cons ⟨rfl, _, _, _, rfl, vertex_at (by wz) (by wz) (by wz)⟩ ?_
  refine .cons ⟨rfl, _, _, _, rfl, vertex_at (by wz) (by wz) (by wz)⟩ ?_
  refine .cons ⟨rfl, _, _, _, rfl, vertex_at (by wz) (by wz) (by wz)⟩ ?_
  refine .cons ⟨rfl, _, _, _, rfl, half_at (by norm_num) (by norm_num) (by norm_num)⟩ ?_
  refine .cons ⟨rfl, _, _, _, rfl, vertex_at (by wz) (by wz) (by wz)⟩ ?_
  refine .cons ⟨rfl, _, _, _, rfl, vertex_at (by wz) (by wz) (by wz)⟩ ?_
  refine .cons ⟨rfl, _, _, _, rfl, half_at (by norm_num) (by norm_num) (by norm_num)⟩ ?_
  refine .cons ⟨rfl, _, _, _, rfl, half_at (by norm_num) (by norm_num) (by norm_num)⟩ ?_
  refine .cons ⟨rfl, _, _, _, rfl, half_at (by norm_num) (by norm_num) (by norm_num)⟩ ?_
  exact .nil

theorem places_ORCI {a b c A B C : ℝ}
    (ha : a ≠ 0) (hb : b ≠ 0) (hc : c ≠ 0) (hA : A = 1 / a ^ 2) (hB : B = 1 / b ^ 2)
    (hC : C = 1 / c ^ 2) :
    List.Forall₂ (GoodWhere (B + C) (A + C) (A + B) C B A)
      (scTable11 a b c) atORCI := by
  simp only [scTable11]
  unfold atORCI
  refine .cons ⟨rfl, _, _, _, rfl, origin_at⟩ ?_
  refine .cons ⟨rfl, _, _, _, rfl, vertex_at (by wz) (by wz) (by wz)⟩ ?_
  refine .cons ⟨rfl, _, _, _, rfl, vertex_at (by wz) (by wz) (by wz)⟩ ?_
  refine .cons ⟨rfl, _, _, _, rfl, vertex_at (by wz) (by wz) (by wz)⟩ ?_
  refine .cons ⟨rfl, _, _, _, rfl, half_at (by norm_num) (by norm_num) (by norm_num)⟩ ?_
  refine .cons ⟨rfl, _, _, _, rfl, half_at (by norm_num) (by norm_num) (by norm_num)⟩ ?_
  refine .cons ⟨rfl, _, _, _, rfl, half_at (by norm_num) (by norm_num) (by norm_num)⟩ ?_
  refine .cons ⟨rfl, _, _, _, rfl, vertex_at (by wz) (by wz) (by wz)⟩ ?_
  refine .cons ⟨rfl, _, _, _, rfl, edge_at (by wz) (by wz) (by wz)⟩ ?_
  refine .cons ⟨rfl, _, _, _, rfl, edge_at (by wz) (by wz) (by wz)⟩ ?_
  refine .cons ⟨rfl, _, _, _, rfl, edge_at (by wz) (by wz) (by wz)⟩ ?_
  refine .cons ⟨rfl, _, _, _, rfl, edge_at (by wz) (by wz) (by wz)⟩ ?_
  refine .cons ⟨rfl, _, _, _, rfl, half_at (by norm_num) (by norm_num) (by norm_num)⟩ ?_
  exact .nil

theorem places_ORCC {a b A B C : ℝ}
    (ha : a ≠ 0) (hb : b ≠ 0) (hA : A = 1 / a ^ 2) (hB : B = 1 / b ^ 2) :
    List.Forall₂ (GoodWhere (A + B) (A + B) C (A - B) 0 0)
      (scTable12 a b) atORCC := by
  simp only [scTable12]
  unfold atORCC
  refine .cons ⟨rfl, _, _, _, rfl, origin_at⟩ ?_
  refine .cons ⟨rfl, _, _, _, rfl, vertex_at (by wz) (by wz) (by wz)⟩ ?_
  refine .cons ⟨rfl, _, _, _, rfl, vertex_at (by wz) (by wz) (by wz)⟩ ?_
  refine .cons ⟨rfl, _, _, _, rfl, half_at (by norm_num) (by norm_num) (by norm_num)⟩ ?_
  refine .cons ⟨rfl, _, _, _, rfl, half_at (by norm_num) (by norm_num) (by norm_num)⟩ ?_
  refine .cons ⟨rfl, _, _, _, rfl, half_at (by norm_num) (by norm_num) (by norm_num)⟩ ?_
  refine .cons ⟨rfl, _, _, _, rfl, edge_at (by wz) (by wz) (by wz)⟩ ?_
  refine .cons ⟨rfl, _, _, _, rfl, edge_at (by wz) (by wz) (by wz)⟩ ?_
  refine .cons ⟨rfl, _, _, _, rfl, half_at (by norm_num) (by norm_num) (by norm_num)⟩ ?_
  refine .cons ⟨rfl, _, _, _, rfl, half_at (by norm_num) (by norm_num) (by norm_num)⟩ ?_
  exact .nil

theorem places_HEX {A C : ℝ} :
    List.Forall₂ (GoodWhere (2 * A) (2 * A) C A 0 0)
      scTable13 atHEX := by
  simp only [scTable13]
  unfold atHEX
  refine .cons ⟨rfl, _, _, _, rfl, origin_at⟩ ?_
  refine .cons ⟨rfl, _, _, _, rfl, half_at (by norm_num) (by norm_num) (by norm_num)⟩ ?_
  refine .cons ⟨rfl, _, _, _, rfl, vertex_at (by wz) (by wz) (by wz)⟩ ?_
  refine .cons ⟨rfl, _, _, _, rfl, edge_at (by wz) (by wz) (by wz)⟩ ?_
  refine .cons ⟨rfl, _, _, _, rfl, half_at (by norm_num) (by norm_num) (by norm_num)⟩ ?_
  refine .cons ⟨rfl, _, _, _, rfl, half_at (by norm_num) (by norm_num) (by norm_num)⟩ ?_
  exact .nil

theorem places_RHL1 {alpha ca : ℝ}
    (hca : Real.cos (alpha * toRadians) = ca) (h2 : 2 + 4 * ca ≠ 0) :
    List.Forall₂ (GoodWhere (1 + ca) (1 + ca) (1 + ca) (-ca) (-ca) (-ca))
      (scTable14 alpha) atRHL1 := by
  simp only [scTable14, hca]
  clear hca
  have h3 : 2 + ca * 4 ≠ 0 := by rwa [mul_comm ca]
  unfold atRHL1
  refine .cons ⟨rfl, _, _, _, rfl, origin_at⟩ ?_
  refine .cons ⟨rfl, _, _, _, rfl, vertex_at (by wz) (by wz) (by wz)⟩ ?_
  refine .cons ⟨rfl, _, _, _, rfl, vertex_at (by wz) (by wz) (by wz)⟩ ?_
  refine .cons ⟨rfl, _, _, _, rfl, half_at (by norm_num) (by norm_num) (by norm_num)⟩ ?_
  refine .cons ⟨rfl, _, _, _, rfl, half_at (by norm_num) (by norm_num) (by norm_num)⟩ ?_
  refine .cons ⟨rfl, _, _, _, rfl, half_at (by norm_num) (by norm_num) (by norm_num)⟩ ?_
  refine .cons ⟨rfl, _, _, _, rfl, edge_at (by wz) (by wz) (by wz)⟩ ?_
  refine .cons ⟨rfl, _, _, _, rfl, edge_at (by wz) (by wz) (by wz)⟩ ?_
  refine .cons ⟨rfl, _, _, _, rfl, edge_at (by wz) (by wz) (by wz)⟩ ?_
  refine .cons ⟨rfl, _, _, _, rfl, edge_at (by wz) (by wz) (by wz)⟩ ?_
  refine .cons ⟨rfl, _, _, _, rfl, edge_at (by wz) (by wz) (by wz)⟩ ?_
  refine .cons ⟨rfl, _, _, _, rfl, half_at (by norm_num) (by norm_num) (by norm_num)⟩ ?_
  exact .nil

theorem places_RHL2 {alpha ca : ℝ}
    (hta : Real.tan (alpha * toRadians / 2) ^ 2 = (1 - ca) / (1 + ca)) (h2 : 1 - ca ≠ 0) :
    List.Forall₂ (GoodWhere (1 + ca) (1 + ca) (1 + ca) (-ca) (-ca) (-ca))
      (scTable15 alpha) atRHL2 := by
  simp only [scTable15, hta]
  clear hta
  unfold atRHL2
  refine .cons ⟨rfl, _, _, _, rfl, origin_at⟩ ?_
  refine .cons ⟨rfl, _, _, _, rfl, half_at (by norm_num) (by norm_num) (by norm_num)⟩ ?_
  refine .cons ⟨rfl, _, _, _, rfl, half_at (by norm_num) (by norm_num) (by norm_num)⟩ ?_
  refine .cons ⟨rfl, _, _, _, rfl, between_at ((1 / (2 * ((1 - ca) / (1 + ca)))))
      ((1 / (2 * ((1 - ca) / (1 + ca)))) + (-1))
      ((1 / (2 * ((1 - ca) / (1 + ca)))))
      (1 / 2)
      (-1 / 2)
      (1 / 2)
    (by wz) (by wz) (by wz) (by wz) (by wz) (by wz) (by wz) (by wz) (by wz)⟩ ?_
  refine .cons ⟨rfl, _, _, _, rfl, between_at (1 / 2)
      (-1 / 2)
      (1 / 2 + (-1))
      (-((1 / (2 * ((1 - ca) / (1 + ca))))) + 1)
      (-((1 / (2 * ((1 - ca) / (1 + ca))))))
      (-((1 / (2 * ((1 - ca) / (1 + ca))))))
    (by wz) (by wz) (by wz) (by wz) (by wz) (by wz) (by wz) (by wz) (by wz)⟩ ?_
  refine .cons ⟨rfl, _, _, _, rfl, vertex_at (by wz) (by wz) (by wz)⟩ ?_
  refine .cons ⟨rfl, _, _, _, rfl, vertex_at (by wz) (by wz) (by wz)⟩ ?_
  refine .cons ⟨rfl, _, _, _, rfl, half_at (by norm_num) (by norm_num) (by norm_num)⟩ ?_
  exact .nil

theorem places_MCL {b c alpha ca X Y Z W : ℝ}
    (hb : b ≠ 0) (hc : c ≠ 0) (hs0 : 1 - ca ^ 2 ≠ 0) (hca : Real.cos (alpha * toRadians) = ca)
    (hs : Real.sin (alpha * toRadians) ^ 2 = 1 - ca ^ 2) (hY : Y = 1 / b ^ 2)
    (hZ : Z = 1 / c ^ 2) (hW : W = ca / (b * c)) :
    List.Forall₂ (GoodWhere X Y Z 0 0 (-W))
      (scTable16 b c alpha) atMCL := by
  simp only [scTable16, hca, hs]
  clear hca hs
  unfold atMCL
  refine .cons ⟨rfl, _, _, _, rfl, origin_at⟩ ?_
  refine .cons ⟨rfl, _, _, _, rfl, half_at (by norm_num) (by norm_num) (by norm_num)⟩ ?_
  refine .cons ⟨rfl, _, _, _, rfl, half_at (by norm_num) (by norm_num) (by norm_num)⟩ ?_
  refine .cons ⟨rfl, _, _, _, rfl, half_at (by norm_num) (by norm_num) (by norm_num)⟩ ?_
  refine .cons ⟨rfl, _, _, _, rfl, half_at (by norm_num) (by norm_num) (by norm_num)⟩ ?_
  refine .cons ⟨rfl, _, _, _, rfl, half_at (by norm_num) (by norm_num) (by norm_num)⟩ ?_
  refine .cons ⟨rfl, _, _, _, rfl, edge_at (by wz) (by wz) (by wz)⟩ ?_
  refine .cons ⟨rfl, _, _, _, rfl, edge_at (by wz) (by wz) (by wz)⟩ ?_
  refine .cons ⟨rfl, _, _, _, rfl, edge_at (by wz) (by wz) (by wz)⟩ ?_
  refine .cons ⟨rfl, _, _, _, rfl, vertex_at (by wz) (by wz) (by wz)⟩ ?_
  refine .cons ⟨rfl, _, _, _, rfl, vertex_at (by wz) (by wz) (by wz)⟩ ?_
  refine .cons ⟨rfl, _, _, _, rfl, vertex_at (by wz) (by wz) (by wz)⟩ ?_
  refine .cons ⟨rfl, _, _, _, rfl, half_at (by norm_num) (by norm_num) (by norm_num)⟩ ?_
  refine .cons ⟨rfl, _, _, _, rfl, half_at (by norm_num) (by norm_num) (by norm_num)⟩ ?_
  refine .cons ⟨rfl, _, _, _, rfl, half_at (by norm_num) (by norm_num) (by norm_num)⟩ ?_
  refine .cons ⟨rfl, _, _, _, rfl, half_at (by norm_num) (by norm_num) (by norm_num)⟩ ?_
  exact .nil

theorem places_MCLC1 {a b c alpha ca X Y Z W : ℝ}
    (hb : b ≠ 0) (hc : c ≠ 0) (hs0 : 1 - ca ^ 2 ≠ 0) (hca : Real.cos (alpha * toRadians) = ca)
    (hs : Real.sin (alpha * toRadians) ^ 2 = 1 - ca ^ 2) (hY : Y = 1 / b ^ 2)
    (hZ : Z = 1 / c ^ 2) (hW : W = ca / (b * c)) (ha : a ≠ 0) (hX : X = (1 - ca ^ 2) / a ^ 2) :
    List.Forall₂ (GoodWhere (X + Y) (X + Y) Z (-X + Y) (-W) (-W))
      (scTable17 a b c alpha) atMCLC1 := by
  simp only [scTable17, hca, hs]
  clear hca hs
  unfold atMCLC1
  refine .cons ⟨rfl, _, _, _, rfl, origin_at⟩ ?_
  refine .cons ⟨rfl, _, _, _, rfl, half_at (by norm_num) (by norm_num) (by norm_num)⟩ ?_
  refine .cons ⟨rfl, _, _, _, rfl, half_at (by norm_num) (by norm_num) (by norm_num)⟩ ?_
  refine .cons ⟨rfl, _, _, _, rfl, edge_at (by wz) (by wz) (by wz)⟩ ?_
  refine .cons ⟨rfl, _, _, _, rfl, edge_at (by wz) (by wz) (by wz)⟩ ?_
  refine .cons ⟨rfl, _, _, _, rfl, edge_at (by wz) (by wz) (by wz)⟩ ?_
  refine .cons ⟨rfl, _, _, _, rfl, none_at⟩ ?_
  refine .cons ⟨rfl, _, _, _, rfl, vertex_at (by wz) (by wz) (by wz)⟩ ?_
  refine .cons ⟨rfl, _, _, _, rfl, vertex_at (by wz) (by wz) (by wz)⟩ ?_
  refine .cons ⟨rfl, _, _, _, rfl, half_at (by norm_num) (by norm_num) (by norm_num)⟩ ?_
  refine .cons ⟨rfl, _, _, _, rfl, half_at (by norm_num) (by norm_num) (by norm_num)⟩ ?_
  refine .cons ⟨rfl, _, _, _, rfl, edge_at (by wz) (by wz) (by wz)⟩ ?_
  refine .cons ⟨rfl, _, _, _, rfl, edge_at (by wz) (by wz) (by wz)⟩ ?_
  refine .cons ⟨rfl, _, _, _, rfl, edge_at (by wz) (by wz) (by wz)⟩ ?_
  refine .cons ⟨rfl, _, _, _, rfl, half_at (by norm_num) (by norm_num) (by norm_num)⟩ ?_
  refine .cons ⟨rfl, _, _, _, rfl, half_at (by norm_num) (by norm_num) (by norm_num)⟩ ?_
  refine .cons ⟨rfl, _, _, _, rfl, half_at (by norm_num) (by norm_num) (by norm_num)⟩ ?_
  exact .nil

theorem places_MCLC3 {a b c alpha ca X Y Z W : ℝ}
    (hb : b ≠ 0) (hc : c ≠ 0) (hs0 : 1 - ca ^ 2 ≠ 0) (hca : Real.cos (alpha * toRadians) = ca)
    (hs : Real.sin (alpha * toRadians) ^ 2 = 1 - ca ^ 2) (hY : Y = 1 / b ^ 2)
    (hZ : Z = 1 / c ^ 2) (hW : W = ca / (b * c)) (ha : a ≠ 0) (hX : X = (1 - ca ^ 2) / a ^ 2) :
    List.Forall₂ (GoodWhere (X + Y) (X + Y) Z (-X + Y) (-W) (-W))
      (scTable18 a b c alpha) atMCLC3 := by
  simp only [scTable18, hca, hs]
  clear hca hs
  unfold atMCLC3
  refine .cons ⟨rfl, _, _, _, rfl, origin_at⟩ ?_
  refine .cons ⟨rfl, _, _, _, rfl, vertex_at (by wz) (by wz) (by wz)⟩ ?_
  refine .cons ⟨rfl, _, _, _, rfl, vertex_at (by wz) (by wz) (by wz)⟩ ?_
  refine .cons ⟨rfl, _, _, _, rfl, vertex_at (by wz) (by wz) (by wz)⟩ ?_
  refine .cons ⟨rfl, _, _, _, rfl, vertex_at (by wz) (by wz) (by wz)⟩ ?_
  refine .cons ⟨rfl, _, _, _, rfl, vertex_at (by wz) (by wz) (by wz)⟩ ?_
  refine .cons ⟨rfl, _, _, _, rfl, vertex_at (by wz) (by wz) (by wz)⟩ ?_
  refine .cons ⟨rfl, _, _, _, rfl, half_at (by norm_num) (by norm_num) (by norm_num)⟩ ?_
  refine .cons ⟨rfl, _, _, _, rfl, half_at (by norm_num) (by norm_num) (by norm_num)⟩ ?_
  refine .cons ⟨rfl, _, _, _, rfl, half_at (by norm_num) (by norm_num) (by norm_num)⟩ ?_
  refine .cons ⟨rfl, _, _, _, rfl, half_at (by norm_num) (by norm_num) (by norm_num)⟩ ?_
  refine .cons ⟨rfl, _, _, _, rfl, half_at (by norm_num) (by norm_num) (by norm_num)⟩ ?_
  refine .cons ⟨rfl, _, _, _, rfl, between_at ((((1 + b ^ 2 / a ^ 2) / 4) - 1 / 4 + (1 - b * ca / c) / (4 * (1 - ca ^ 2))))
      ((((1 + b ^ 2 / a ^ 2) / 4) - 1 / 4 + (1 - b * ca / c) / (4 * (1 - ca ^ 2))))
      ((1 / 2 + 2 * (((1 + b ^ 2 / a ^ 2) / 4) - 1 / 4 + (1 - b * ca / c) / (4 * (1 - ca ^ 2))) * c * ca / b) + (-1))
      (1 - (1 + (((1 + b ^ 2 / a ^ 2) / 4) - 1 / 4 + (1 - b * ca / c) / (4 * (1 - ca ^ 2))) - 2 * ((1 + b ^ 2 / a ^ 2) / 4)))
      (1 - (1 + (((1 + b ^ 2 / a ^ 2) / 4) - 1 / 4 + (1 - b * ca / c) / (4 * (1 - ca ^ 2))) - 2 * ((1 + b ^ 2 / a ^ 2) / 4)))
      (1 - ((1 / 2 + 2 * (((1 + b ^ 2 / a ^ 2) / 4) - 1 / 4 + (1 - b * ca / c) / (4 * (1 - ca ^ 2))) * c * ca / b) - 2 * (b * c * ca / (2 * a ^ 2))))
    (by wz) (by wz) (by wz) (by wz) (by wz) (by wz) (by wz) (by wz) (by wz)⟩ ?_
  refine .cons ⟨rfl, _, _, _, rfl, between_at (-(1 - (1 + (((1 + b ^ 2 / a ^ 2) / 4) - 1 / 4 + (1 - b * ca / c) / (4 * (1 - ca ^ 2))) - 2 * ((1 + b ^ 2 / a ^ 2) / 4))) + 1)
      (-(1 - (1 + (((1 + b ^ 2 / a ^ 2) / 4) - 1 / 4 + (1 - b * ca / c) / (4 * (1 - ca ^ 2))) - 2 * ((1 + b ^ 2 / a ^ 2) / 4))))
      (-(1 - ((1 / 2 + 2 * (((1 + b ^ 2 / a ^ 2) / 4) - 1 / 4 + (1 - b * ca / c) / (4 * (1 - ca ^ 2))) * c * ca / b) - 2 * (b * c * ca / (2 * a ^ 2)))))
      (-((((1 + b ^ 2 / a ^ 2) / 4) - 1 / 4 + (1 - b * ca / c) / (4 * (1 - ca ^ 2)))) + 1)
      (-((((1 + b ^ 2 / a ^ 2) / 4) - 1 / 4 + (1 - b * ca / c) / (4 * (1 - ca ^ 2)))))
      (-((1 / 2 + 2 * (((1 + b ^ 2 / a ^ 2) / 4) - 1 / 4 + (1 - b * ca / c) / (4 * (1 - ca ^ 2))) * c * ca / b)) + 1)
    (by wz) (by wz) (by wz) (by wz) (by wz) (by wz) (by wz) (by wz) (by wz)⟩ ?_
  refine .cons ⟨rfl, _, _, _, rfl, between_at (-(1 - (1 + (((1 + b ^ 2 / a ^ 2) / 4) - 1 / 4 + (1 - b * ca / c) / (4 * (1 - ca ^ 2))) - 2 * ((1 + b ^ 2 / a ^ 2) / 4))))
      (-(1 - (1 + (((1 + b ^ 2 / a ^ 2) / 4) - 1 / 4 + (1 - b * ca / c) / (4 * (1 - ca ^ 2))) - 2 * ((1 + b ^ 2 / a ^ 2) / 4))))
      (-(1 - ((1 / 2 + 2 * (((1 + b ^ 2 / a ^ 2) / 4) - 1 / 4 + (1 - b * ca / c) / (4 * (1 - ca ^ 2))) * c * ca / b) - 2 * (b * c * ca / (2 * a ^ 2)))))
      (-((((1 + b ^ 2 / a ^ 2) / 4) - 1 / 4 + (1 - b * ca / c) / (4 * (1 - ca ^ 2)))))
      (-((((1 + b ^ 2 / a ^ 2) / 4) - 1 / 4 + (1 - b * ca / c) / (4 * (1 - ca ^ 2)))))
      (-((1 / 2 + 2 * (((1 + b ^ 2 / a ^ 2) / 4) - 1 / 4 + (1 - b * ca / c) / (4 * (1 - ca ^ 2))) * c * ca / b)) + 1)
    (by wz) (by wz) (by wz) (by wz) (by wz) (by wz) (by wz) (by wz) (by wz)⟩ ?_
  refine .cons ⟨rfl, _, _, _, rfl, between_at ((((1 + b ^ 2 / a ^ 2) / 4) - 1 / 4 + (1 - b * ca / c) / (4 * (1 - ca ^ 2))))
      ((((1 + b ^ 2 / a ^ 2) / 4) - 1 / 4 + (1 - b * ca / c) / (4 * (1 - ca ^ 2))) + (-1))
      ((1 / 2 + 2 * (((1 + b ^ 2 / a ^ 2) / 4) - 1 / 4 + (1 - b * ca / c) / (4 * (1 - ca ^ 2))) * c * ca / b) + (-1))
      (1 - (1 + (((1 + b ^ 2 / a ^ 2) / 4) - 1 / 4 + (1 - b * ca / c) / (4 * (1 - ca ^ 2))) - 2 * ((1 + b ^ 2 / a ^ 2) / 4)))
      (1 - (1 + (((1 + b ^ 2 / a ^ 2) / 4) - 1 / 4 + (1 - b * ca / c) / (4 * (1 - ca ^ 2))) - 2 * ((1 + b ^ 2 / a ^ 2) / 4)) + (-1))
      (1 - ((1 / 2 + 2 * (((1 + b ^ 2 / a ^ 2) / 4) - 1 / 4 + (1 - b * ca / c) / (4 * (1 - ca ^ 2))) * c * ca / b) - 2 * (b * c * ca / (2 * a ^ 2))))
    (by wz) (by wz) (by wz) (by wz) (by wz) (by wz) (by wz) (by wz) (by wz)⟩ ?_
  refine .cons ⟨rfl, _, _, _, rfl, half_at (by norm_num) (by norm_num) (by norm_num)⟩ ?_
  exact .nil

set_option maxHeartbeats 800000 in
theorem places_MCLC5 {a b c alpha ca X Y Z W : ℝ}
    (hb : b ≠ 0) (hc : c ≠ 0) (hs0 : 1 - ca ^ 2 ≠ 0) (hca : Real.cos (alpha * toRadians) = ca)
    (hs : Real.sin (alpha * toRadians) ^ 2 = 1 - ca ^ 2) (hY : Y = 1 / b ^ 2)
    (hZ : Z = 1 / c ^ 2) (hW : W = ca / (b * c)) (ha : a ≠ 0) (hX : X = (1 - ca ^ 2) / a ^ 2)
    (hca0 : ca ≠ 0) :
    List.Forall₂ (GoodWhere (X + Y) (X + Y) Z (-X + Y) (-W) (-W))
      (scTable19 a b c alpha) atMCLC5 := by
  simp only [scTable19, hca, hs]
  clear hca hs
  unfold atMCLC5
  refine .cons ⟨rfl, _, _, _, rfl, origin_at⟩ ?_
  refine .cons ⟨rfl, _, _, _, rfl, vertex_at (by wz) (by wz) (by wz)⟩ ?_
  refine .cons ⟨rfl, _, _, _, rfl, vertex_at (by wz) (by wz) (by wz)⟩ ?_
  refine .cons ⟨rfl, _, _, _, rfl, vertex_at (by wz) (by wz) (by wz)⟩ ?_
  refine .cons ⟨rfl, _, _, _, rfl, vertex_at (by wz) (by wz) (by wz)⟩ ?_
  refine .cons ⟨rfl, _, _, _, rfl, vertex_at (by wz) (by wz) (by wz)⟩ ?_
  refine .cons ⟨rfl, _, _, _, rfl, vertex_at (by wz) (by wz) (by wz)⟩ ?_
  refine .cons ⟨rfl, _, _, _, rfl, vertex_at (by wz) (by wz) (by wz)⟩ ?_
  refine .cons ⟨rfl, _, _, _, rfl, vertex_at (by wz) (by wz) (by wz)⟩ ?_
  refine .cons ⟨rfl, _, _, _, rfl, half_at (by norm_num) (by norm_num) (by norm_num)⟩ ?_
  refine .cons ⟨rfl, _, _, _, rfl, half_at (by norm_num) (by norm_num) (by norm_num)⟩ ?_
  refine .cons ⟨rfl, _, _, _, rfl, half_at (by norm_num) (by norm_num) (by norm_num)⟩ ?_
  refine .cons ⟨rfl, _, _, _, rfl, half_at (by norm_num) (by norm_num) (by norm_num)⟩ ?_
  refine .cons ⟨rfl, _, _, _, rfl, half_at (by norm_num) (by norm_num) (by norm_num)⟩ ?_
  refine .cons ⟨rfl, _, _, _, rfl, between_at (((b ^ 2 / a ^ 2 + (1 - b * ca / c) / (1 - ca ^ 2)) / 4))
      (((b ^ 2 / a ^ 2 + (1 - b * ca / c) / (1 - ca ^ 2)) / 4))
      ((1 / 2 + 2 * ((b ^ 2 / a ^ 2 + (1 - b * ca / c) / (1 - ca ^ 2)) / 4) * c * ca / b) + (-1))
      ((2 * ((1 / 2 + 2 * ((b ^ 2 / a ^ 2 + (1 - b * ca / c) / (1 - ca ^ 2)) / 4) * c * ca / b) / 2 + b ^ 2 / (4 * a ^ 2) - b * c * ca / (2 * a ^ 2)) - ((b ^ 2 / a ^ 2 + (1 - b * ca / c) / (1 - ca ^ 2)) / 4)))
      ((2 * ((1 / 2 + 2 * ((b ^ 2 / a ^ 2 + (1 - b * ca / c) / (1 - ca ^ 2)) / 4) * c * ca / b) / 2 + b ^ 2 / (4 * a ^ 2) - b * c * ca / (2 * a ^ 2)) - ((b ^ 2 / a ^ 2 + (1 - b * ca / c) / (1 - ca ^ 2)) / 4)))
      (((4 * (2 * ((1 / 2 + 2 * ((b ^ 2 / a ^ 2 + (1 - b * ca / c) / (1 - ca ^ 2)) / 4) * c * ca / b) / 2 + b ^ 2 / (4 * a ^ 2) - b * c * ca / (2 * a ^ 2)) - ((b ^ 2 / a ^ 2 + (1 - b * ca / c) / (1 - ca ^ 2)) / 4)) - 1 - b ^ 2 * (1 - ca ^ 2) / a ^ 2) * c / (2 * b * ca)))
    (by wz) (by wz) (by wz) (by wz) (by wz) (by wz) (by wz) (by wz) (by wz)⟩ ?_
  refine .cons ⟨rfl, _, _, _, rfl, between_at (-((2 * ((1 / 2 + 2 * ((b ^ 2 / a ^ 2 + (1 - b * ca / c) / (1 - ca ^ 2)) / 4) * c * ca / b) / 2 + b ^ 2 / (4 * a ^ 2) - b * c * ca / (2 * a ^ 2)) - ((b ^ 2 / a ^ 2 + (1 - b * ca / c) / (1 - ca ^ 2)) / 4))) + 1)
      (-((2 * ((1 / 2 + 2 * ((b ^ 2 / a ^ 2 + (1 - b * ca / c) / (1 - ca ^ 2)) / 4) * c * ca / b) / 2 + b ^ 2 / (4 * a ^ 2) - b * c * ca / (2 * a ^ 2)) - ((b ^ 2 / a ^ 2 + (1 - b * ca / c) / (1 - ca ^ 2)) / 4))))
      (-(((4 * (2 * ((1 / 2 + 2 * ((b ^ 2 / a ^ 2 + (1 - b * ca / c) / (1 - ca ^ 2)) / 4) * c * ca / b) / 2 + b ^ 2 / (4 * a ^ 2) - b * c * ca / (2 * a ^ 2)) - ((b ^ 2 / a ^ 2 + (1 - b * ca / c) / (1 - ca ^ 2)) / 4)) - 1 - b ^ 2 * (1 - ca ^ 2) / a ^ 2) * c / (2 * b * ca))))
      (-(((b ^ 2 / a ^ 2 + (1 - b * ca / c) / (1 - ca ^ 2)) / 4)) + 1)
      (-(((b ^ 2 / a ^ 2 + (1 - b * ca / c) / (1 - ca ^ 2)) / 4)))
      (-((1 / 2 + 2 * ((b ^ 2 / a ^ 2 + (1 - b * ca / c) / (1 - ca ^ 2)) / 4) * c * ca / b)) + 1)
    (by wz) (by wz) (by wz) (by wz) (by wz) (by wz) (by wz) (by wz) (by wz)⟩ ?_
  refine .cons ⟨rfl, _, _, _, rfl, between_at (-((2 * ((1 / 2 + 2 * ((b ^ 2 / a ^ 2 + (1 - b * ca / c) / (1 - ca ^ 2)) / 4) * c * ca / b) / 2 + b ^ 2 / (4 * a ^ 2) - b * c * ca / (2 * a ^ 2)) - ((b ^ 2 / a ^ 2 + (1 - b * ca / c) / (1 - ca ^ 2)) / 4))))
      (-((2 * ((1 / 2 + 2 * ((b ^ 2 / a ^ 2 + (1 - b * ca / c) / (1 - ca ^ 2)) / 4) * c * ca / b) / 2 + b ^ 2 / (4 * a ^ 2) - b * c * ca / (2 * a ^ 2)) - ((b ^ 2 / a ^ 2 + (1 - b * ca / c) / (1 - ca ^ 2)) / 4))))
      (-(((4 * (2 * ((1 / 2 + 2 * ((b ^ 2 / a ^ 2 + (1 - b * ca / c) / (1 - ca ^ 2)) / 4) * c * ca / b) / 2 + b ^ 2 / (4 * a ^ 2) - b * c * ca / (2 * a ^ 2)) - ((b ^ 2 / a ^ 2 + (1 - b * ca / c) / (1 - ca ^ 2)) / 4)) - 1 - b ^ 2 * (1 - ca ^ 2) / a ^ 2) * c / (2 * b * ca))))
      (-(((b ^ 2 / a ^ 2 + (1 - b * ca / c) / (1 - ca ^ 2)) / 4)))
      (-(((b ^ 2 / a ^ 2 + (1 - b * ca / c) / (1 - ca ^ 2)) / 4)))
      (-((1 / 2 + 2 * ((b ^ 2 / a ^ 2 + (1 - b * ca / c) / (1 - ca ^ 2)) / 4) * c * ca / b)) + 1)
    (by wz) (by wz) (by wz) (by wz) (by wz) (by wz) (by wz) (by wz) (by wz)⟩ ?_
  refine .cons ⟨rfl, _, _, _, rfl, between_at (((b ^ 2 / a ^ 2 + (1 - b * ca / c) / (1 - ca ^ 2)) / 4))
      (((b ^ 2 / a ^ 2 + (1 - b * ca / c) / (1 - ca ^ 2)) / 4) + (-1))
      ((1 / 2 + 2 * ((b ^ 2 / a ^ 2 + (1 - b * ca / c) / (1 - ca ^ 2)) / 4) * c * ca / b) + (-1))
      ((2 * ((1 / 2 + 2 * ((b ^ 2 / a ^ 2 + (1 - b * ca / c) / (1 - ca ^ 2)) / 4) * c * ca / b) / 2 + b ^ 2 / (4 * a ^ 2) - b * c * ca / (2 * a ^ 2)) - ((b ^ 2 / a ^ 2 + (1 - b * ca / c) / (1 - ca ^ 2)) / 4)))
      ((2 * ((1 / 2 + 2 * ((b ^ 2 / a ^ 2 + (1 - b * ca / c) / (1 - ca ^ 2)) / 4) * c * ca / b) / 2 + b ^ 2 / (4 * a ^ 2) - b * c * ca / (2 * a ^ 2)) - ((b ^ 2 / a ^ 2 + (1 - b * ca / c) / (1 - ca ^ 2)) / 4)) + (-1))
      (((4 * (2 * ((1 / 2 + 2 * ((b ^ 2 / a ^ 2 + (1 - b * ca / c) / (1 - ca ^ 2)) / 4) * c * ca / b) / 2 + b ^ 2 / (4 * a ^ 2) - b * c * ca / (2 * a ^ 2)) - ((b ^ 2 / a ^ 2 + (1 - b * ca / c) / (1 - ca ^ 2)) / 4)) - 1 - b ^ 2 * (1 - ca ^ 2) / a ^ 2) * c / (2 * b * ca)))
    (by wz) (by wz) (by wz) (by wz) (by wz) (by wz) (by wz) (by wz) (by wz)⟩ ?_
  refine .cons ⟨rfl, _, _, _, rfl, half_at (by norm_num) (by norm_num) (by norm_num)⟩ ?_
  exact .nil

theorem places_TRIa {A B C X Y Z : ℝ} :
    List.Forall₂ (GoodWhere A B C Z Y X)
      scTable20 atTRIa := by
  simp only [scTable20]
  unfold atTRIa
  refine .cons ⟨rfl, _, _, _, rfl, origin_at⟩ ?_
  refine .cons ⟨rfl, _, _, _, rfl, half_at (by norm_num) (by norm_num) (by norm_num)⟩ ?_
  refine .cons ⟨rfl, _, _, _, rfl, half_at (by norm_num) (by norm_num) (by norm_num)⟩ ?_
  refine .cons ⟨rfl, _, _, _, rfl, half_at (by norm_num) (by norm_num) (by norm_num)⟩ ?_
  refine .cons ⟨rfl, _, _, _, rfl, half_at (by norm_num) (by norm_num) (by norm_num)⟩ ?_
  refine .cons ⟨rfl, _, _, _, rfl, half_at (by norm_num) (by norm_num) (by norm_num)⟩ ?_
  refine .cons ⟨rfl, _, _, _, rfl, half_at (by norm_num) (by norm_num) (by norm_num)⟩ ?_
  refine .cons ⟨rfl, _, _, _, rfl, half_at (by norm_num) (by norm_num) (by norm_num)⟩ ?_
  exact .nil

theorem places_TRIb {A B C X Y Z : ℝ} :
    List.Forall₂ (GoodWhere A B C Z Y X)
      scTable21 atTRIb := by
  simp only [scTable21]
  unfold atTRIb
  refine .cons ⟨rfl, _, _, _, rfl, origin_at⟩ ?_
  refine .cons ⟨rfl, _, _, _, rfl, half_at (by norm_num) (by norm_num) (by norm_num)⟩ ?_
  refine .cons ⟨rfl, _, _, _, rfl, half_at (by norm_num) (by norm_num) (by norm_num)⟩ ?_
  refine .cons ⟨rfl, _, _, _, rfl, half_at (by norm_num) (by norm_num) (by norm_num)⟩ ?_
  refine .cons ⟨rfl, _, _, _, rfl, half_at (by norm_num) (by norm_num) (by norm_num)⟩ ?_
  refine .cons ⟨rfl, _, _, _, rfl, half_at (by norm_num) (by norm_num) (by norm_num)⟩ ?_
  refine .cons ⟨rfl, _, _, _, rfl, half_at (by norm_num) (by norm_num) (by norm_num)⟩ ?_
  refine .cons ⟨rfl, _, _, _, rfl, half_at (by norm_num) (by norm_num) (by norm_num)⟩ ?_
  exact .nil

end Wulfric
