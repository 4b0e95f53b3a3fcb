import Verif.Lemmas.Places

/-!
# The points of the tables, one by one

Each point is checked against the lattice vectors listed for it.
-/

namespace Wulfric

open Matrix _root_.Spec

theorem places_cP {A : ℝ} :
    List.Forall₂ (GoodWhere A A A 0 0 0)
      hpkotTable69 atCP := by
  simp only [hpkotTable69]
  unfold atCP
  refine .cons ⟨rfl, _, _, _, rfl, origin_at⟩ ?_
  refine .cons ⟨rfl, _, _, _, rfl, half_at (by norm_num) (by norm_num) (by norm_num)⟩ ?_
  refine .cons ⟨rfl, _, _, _, rfl, half_at (by norm_num) (by norm_num) (by norm_num)⟩ ?_
  refine .cons ⟨rfl, _, _, _, rfl, half_at (by norm_num) (by norm_num) (by norm_num)⟩ ?_
  refine .cons ⟨rfl, _, _, _, rfl, half_at (by norm_num) (by norm_num) (by norm_num)⟩ ?_
  exact .nil

theorem places_cF {A : ℝ} :
    List.Forall₂ (GoodWhere (A + A + A) (A + A + A) (A + A + A) (-A - A + A) (-A + A - A) (A - A - A))
      hpkotTable70 atCF := by
  simp only [hpkotTable70]
  unfold atCF
  refine .cons ⟨rfl, _, _, _, rfl, origin_at⟩ ?_
  refine .cons ⟨rfl, _, _, _, rfl, half_at (by norm_num) (by norm_num) (by norm_num)⟩ ?_
  refine .cons ⟨rfl, _, _, _, rfl, half_at (by norm_num) (by norm_num) (by norm_num)⟩ ?_
  refine .cons ⟨rfl, _, _, _, rfl, vertex_at (by wz) (by wz) (by wz)⟩ ?_
  refine .cons ⟨rfl, _, _, _, rfl, vertex_at (by wz) (by wz) (by wz)⟩ ?_
  refine .cons ⟨rfl, _, _, _, rfl, edge_at (by wz) (by wz) (by wz)⟩ ?_
  refine .cons ⟨rfl, _, _, _, rfl, edge_at (by wz) (by wz) (by wz)⟩ ?_
  exact .nil

theorem places_cI {A : ℝ} :
    List.Forall₂ (GoodWhere (A + A) (A + A) (A + A) A A A)
      hpkotTable71 atCI := by
  simp only [hpkotTable71]
  unfold atCI
  refine .cons ⟨rfl, _, _, _, rfl, origin_at⟩ ?_
  refine .cons ⟨rfl, _, _, _, rfl, half_at (by norm_num) (by norm_num) (by norm_num)⟩ ?_
  refine .cons ⟨rfl, _, _, _, rfl, vertex_at (by wz) (by wz) (by wz)⟩ ?_
  refine .cons ⟨rfl, _, _, _, rfl, half_at (by norm_num) (by norm_num) (by norm_num)⟩ ?_
  exact .nil

theorem places_tP {A C : ℝ} :
    List.Forall₂ (GoodWhere A A C 0 0 0)
      hpkotTable72 atTP := by
  simp only [hpkotTable72]
  unfold atTP
  refine .cons ⟨rfl, _, _, _, rfl, origin_at⟩ ?_
  refine .cons ⟨rfl, _, _, _, rfl, half_at (by norm_num) (by norm_num) (by norm_num)⟩ ?_
  refine .cons ⟨rfl, _, _, _, rfl, half_at (by norm_num) (by norm_num) (by norm_num)⟩ ?_
  refine .cons ⟨rfl, _, _, _, rfl, half_at (by norm_num) (by norm_num) (by norm_num)⟩ ?_
  refine .cons ⟨rfl, _, _, _, rfl, half_at (by norm_num) (by norm_num) (by norm_num)⟩ ?_
  refine .cons ⟨rfl, _, _, _, rfl, half_at (by norm_num) (by norm_num) (by norm_num)⟩ ?_
  exact .nil

theorem places_tI1 {a c A C : ℝ}
    (ha : a ≠ 0) (hc : c ≠ 0) (hA : A = 1 / a ^ 2) (hC : C = 1 / c ^ 2) :
    List.Forall₂ (GoodWhere (A + C) (A + C) (A + A) C A A)
      (hpkotTable73 a c) atTI1 := by
  simp only [hpkotTable73]
  unfold atTI1
  refine .cons ⟨rfl, _, _, _, rfl, origin_at⟩ ?_
  refine .cons ⟨rfl, _, _, _, rfl, half_at (by norm_num) (by norm_num) (by norm_num)⟩ ?_
  refine .cons ⟨rfl, _, _, _, rfl, half_at (by norm_num) (by norm_num) (by norm_num)⟩ ?_
  refine .cons ⟨rfl, _, _, _, rfl, vertex_at (by wz) (by wz) (by wz)⟩ ?_
  refine .cons ⟨rfl, _, _, _, rfl, edge_at (by wz) (by wz) (by wz)⟩ ?_
  refine .cons ⟨rfl, _, _, _, rfl, edge_at (by wz) (by wz) (by wz)⟩ ?_
  refine .cons ⟨rfl, _, _, _, rfl, half_at (by norm_num) (by norm_num) (by norm_num)⟩ ?_
  exact .nil

theorem places_tI2 {a c A C : ℝ}
    (ha : a ≠ 0) (hc : c ≠ 0) (hA : A = 1 / a ^ 2) (hC : C = 1 / c ^ 2) :
    List.Forall₂ (GoodWhere (A + C) (A + C) (A + A) C A A)
      (hpkotTable74 a c) atTI2 := by
  simp only [hpkotTable74]
  unfold atTI2
  refine .cons ⟨rfl, _, _, _, rfl, origin_at⟩ ?_
  refine .cons ⟨rfl, _, _, _, rfl, half_at (by norm_num) (by norm_num) (by norm_num)⟩ ?_
  refine .cons ⟨rfl, _, _, _, rfl, half_at (by norm_num) (by norm_num) (by norm_num)⟩ ?_
  refine .cons ⟨rfl, _, _, _, rfl, vertex_at (by wz) (by wz) (by wz)⟩ ?_
  refine .cons ⟨rfl, _, _, _, rfl, half_at (by norm_num) (by norm_num) (by norm_num)⟩ ?_
  refine .cons ⟨rfl, _, _, _, rfl, edge_at (by wz) (by wz) (by wz)⟩ ?_
  refine .cons ⟨rfl, _, _, _, rfl, edge_at (by wz) (by wz) (by wz)⟩ ?_
  refine .cons ⟨rfl, _, _, _, rfl, vertex_at (by wz) (by wz) (by wz)⟩ ?_
  refine .cons ⟨rfl, _, _, _, rfl, vertex_at (by wz) (by wz) (by wz)⟩ ?_
  exact .nil

theorem places_oP {A B C : ℝ} :
    List.Forall₂ (GoodWhere A B C 0 0 0)
      hpkotTable75 atOP := by
  simp only [hpkotTable75]
  unfold atOP
  refine .cons ⟨rfl, _, _, _, rfl, origin_at⟩ ?_
  refine .cons ⟨rfl, _, _, _, rfl, half_at (by norm_num) (by norm_num) (by norm_num)⟩ ?_
  refine .cons ⟨rfl, _, _, _, rfl, half_at (by norm_num) (by norm_num) (by norm_num)⟩ ?_
  refine .cons ⟨rfl, _, _, _, rfl, half_at (by norm_num) (by norm_num) (by norm_num)⟩ ?_
  refine .cons ⟨rfl, _, _, _, rfl, half_at (by norm_num) (by norm_num) (by norm_num)⟩ ?_
  refine .cons ⟨rfl, _, _, _, rfl, half_at (by norm_num) (by norm_num) (by norm_num)⟩ ?_
  refine .cons ⟨rfl, _, _, _, rfl, half_at (by norm_num) (by norm_num) (by norm_num)⟩ ?_
  refine .cons ⟨rfl, _, _, _, rfl, half_at (by norm_num) (by norm_num) (by norm_num)⟩ ?_
  exact .nil

theorem places_oF1 {a b c A B C : ℝ}
    (ha : a ≠ 0) (hb : b ≠ 0) (hc : c ≠ 0) (hA : A = 1 / a ^ 2) (hB : B = 1 / b ^ 2)
    (hC : C = 1 / c ^ 2) :
    List.Forall₂ (GoodWhere (A + B + C) (A + B + C) (A + B + C) (-A - B + C) (-A + B - C) (A - B - C))
      (hpkotTable76 a b c) atOF1 := by
  simp only [hpkotTable76]
  unfold atOF1
  refine .cons ⟨rfl, _, _, _, rfl, origin_at⟩ ?_
  refine .cons ⟨rfl, _, _, _, rfl, half_at (by norm_num) (by norm_num) (by norm_num)⟩ ?_
  refine .cons ⟨rfl, _, _, _, rfl, half_at (by norm_num) (by norm_num) (by norm_num)⟩ ?_
  refine .cons ⟨rfl, _, _, _, rfl, half_at (by norm_num) (by norm_num) (by norm_num)⟩ ?_
  refine .cons ⟨rfl, _, _, _, rfl, edge_at (by wz) (by wz) (by wz)⟩ ?_
  refine .cons ⟨rfl, _, _, _, rfl, edge_at (by wz) (by wz) (by wz)⟩ ?_
  refine .cons ⟨rfl, _, _, _, rfl, vertex_at (by wz) (by wz) (by wz)⟩ ?_
  refine .cons ⟨rfl, _, _, _, rfl, vertex_at (by wz) (by wz) (by wz)⟩ ?_
  refine .cons ⟨rfl, _, _, _, rfl, half_at (by norm_num) (by norm_num) (by norm_num)⟩ ?_
  exact .nil

theorem places_oF2 {a b c A B C : ℝ}
    (ha : a ≠ 0) (hb : b ≠ 0) (hc : c ≠ 0) (hA : A = 1 / a ^ 2) (hB : B = 1 / b ^ 2)
    (hC : C = 1 / c ^ 2) :
    List.Forall₂ (GoodWhere (A + B + C) (A + B + C) (A + B + C) (-A - B + C) (-A + B - C) (A - B - C))
      (hpkotTable77 a b c) atOF2 := by
  simp only [hpkotTable77]
  unfold atOF2
  refine .cons ⟨rfl, _, _, _, rfl, origin_at⟩ ?_
  refine .cons ⟨rfl, _, _, _, rfl, half_at (by norm_num) (by norm_num) (by norm_num)⟩ ?_
  refine .cons ⟨rfl, _, _, _, rfl, half_at (by norm_num) (by norm_num) (by norm_num)⟩ ?_
  refine .cons ⟨rfl, _, _, _, rfl, half_at (by norm_num) (by norm_num) (by norm_num)⟩ ?_
  refine .cons ⟨rfl, _, _, _, rfl, edge_at (by wz) (by wz) (by wz)⟩ ?_
  refine .cons ⟨rfl, _, _, _, rfl, edge_at (by wz) (by wz) (by wz)⟩ ?_
  refine .cons ⟨rfl, _, _, _, rfl, vertex_at (by wz) (by wz) (by wz)⟩ ?_
  refine .cons ⟨rfl, _, _, _, rfl, vertex_at (by wz) (by wz) (by wz)⟩ ?_
  refine .cons ⟨rfl, _, _, _, rfl, half_at (by norm_num) (by norm_num) (by norm_num)⟩ ?_
  exact .nil

theorem places_oF3 {a b c A B C : ℝ}
    (ha : a ≠ 0) (hb : b ≠ 0) (hc : c ≠ 0) (hA : A = 1 / a ^ 2) (hB : B = 1 / b ^ 2)
    (hC : C = 1 / c ^ 2) :
    List.Forall₂ (GoodWhere (A + B + C) (A + B + C) (A + B + C) (-A - B + C) (-A + B - C) (A - B - C))
      (hpkotTable78 a b c) atOF3 := by
  simp only [hpkotTable78]
  unfold atOF3
  refine .cons ⟨rfl, _, _, _, rfl, origin_at⟩ ?_
  refine .cons ⟨rfl, _, _, _, rfl, half_at (by norm_num) (by norm_num) (by norm_num)⟩ ?_
  refine .cons ⟨rfl, _, _, _, rfl, half_at (by norm_num) (by norm_num) (by norm_num)⟩ ?_
  refine .cons ⟨rfl, _, _, _, rfl, half_at (by norm_num) (by norm_num) (by norm_num)⟩ ?_
  refine .cons ⟨rfl, _, _, _, rfl, vertex_at (by wz) (by wz) (by wz)⟩ ?_
  refine .cons ⟨rfl, _, _, _, rfl, vertex_at (by wz) (by wz) (by wz)⟩ ?_
  refine .cons ⟨rfl, _, _, _, rfl, vertex_at (by wz) (by wz) (by wz)⟩ ?_
  refine .cons ⟨rfl, _, _, _, rfl, vertex_at (by wz) (by wz) (by wz)⟩ ?_
  refine .cons ⟨rfl, _, _, _, rfl, vertex_at (by wz) (by wz) (by wz)⟩ ?_
  refine .cons ⟨rfl, _, _, _, rfl, vertex_at (by wz) (by wz) (by wz)⟩ ?_
  refine .cons ⟨rfl, _, _, _, rfl, half_at (by norm_num) (by norm_num) (by norm_num)⟩ ?_
  exact .nil

theorem places_oI1 {a b c A B C : ℝ}
    (ha : a ≠ 0) (hb : b ≠ 0) (hc : c ≠ 0) (hA : A = 1 / a ^ 2) (hB : B = 1 / b ^ 2)
    (hC : C = 1 / c ^ 2) :
    List.Forall₂ (GoodWhere (B + C) (A + C) (A + B) C B A)
      (hpkotTable79 a b c) atOI1 := by
  simp only [hpkotTable79]
  unfold atOI1
  refine .cons ⟨rfl, _, _, _, rfl, origin_at⟩ ?_
  refine .cons ⟨rfl, _, _, _, rfl, half_at (by norm_num) (by norm_num) (by norm_num)⟩ ?_
  refine .cons ⟨rfl, _, _, _, rfl, half_at (by norm_num) (by norm_num) (by norm_num)⟩ ?_
  refine .cons ⟨rfl, _, _, _, rfl, half_at (by norm_num) (by norm_num) (by norm_num)⟩ ?_
  refine .cons ⟨rfl, _, _, _, rfl, half_at (by norm_num) (by norm_num) (by norm_num)⟩ ?_
  refine .cons ⟨rfl, _, _, _, rfl, vertex_at (by wz) (by wz) (by wz)⟩ ?_
  refine .cons ⟨rfl, _, _, _, rfl, edge_at (by wz) (by wz) (by wz)⟩ ?_
  refine .cons ⟨rfl, _, _, _, rfl, edge_at (by wz) (by wz) (by wz)⟩ ?_
  refine .cons ⟨rfl, _, _, _, rfl, edge_at (by wz) (by wz) (by wz)⟩ ?_
  refine .cons ⟨rfl, _, _, _, rfl, edge_at (by wz) (by wz) (by wz)⟩ ?_
  refine .cons ⟨rfl, _, _, _, rfl, vertex_at (by wz) (by wz) (by wz)⟩ ?_
  refine .cons ⟨rfl, _, _, _, rfl, vertex_at (by wz) (by wz) (by wz)⟩ ?_
  refine .cons ⟨rfl, _, _, _, rfl, vertex_at (by wz) (by wz) (by wz)⟩ ?_
  exact .nil

theorem places_oI2 {a b c A B C : ℝ}
    (ha : a ≠ 0) (hb : b ≠ 0) (hc : c ≠ 0) (hA : A = 1 / a ^ 2) (hB : B = 1 / b ^ 2)
    (hC : C = 1 / c ^ 2) :
    List.Forall₂ (GoodWhere (B + C) (A + C) (A + B) C B A)
      (hpkotTable80 a b c) atOI2 := by
  simp only [hpkotTable80]
  unfold atOI2
  refine .cons ⟨rfl, _, _, _, rfl, origin_at⟩ ?_
  refine .cons ⟨rfl, _, _, _, rfl, half_at (by norm_num) (by norm_num) (by norm_num)⟩ ?_
  refine .cons ⟨rfl, _, _, _, rfl, half_at (by norm_num) (by norm_num) (by norm_num)⟩ ?_
  refine .cons ⟨rfl, _, _, _, rfl, half_at (by norm_num) (by norm_num) (by norm_num)⟩ ?_
  refine .cons ⟨rfl, _, _, _, rfl, half_at (by norm_num) (by norm_num) (by norm_num)⟩ ?_
  refine .cons ⟨rfl, _, _, _, rfl, vertex_at (by wz) (by wz) (by wz)⟩ ?_
  refine .cons ⟨rfl, _, _, _, rfl, edge_at (by wz) (by wz) (by wz)⟩ ?_
  refine .cons ⟨rfl, _, _, _, rfl, edge_at (by wz) (by wz) (by wz)⟩ ?_
  refine .cons ⟨rfl, _, _, _, rfl, edge_at (by wz) (by wz) (by wz)⟩ ?_
  refine .cons ⟨rfl, _, _, _, rfl, edge_at (by wz) (by wz) (by wz)⟩ ?_
  refine .cons ⟨rfl, _, _, _, rfl, vertex_at (by wz) (by wz) (by wz)⟩ ?_
  refine .cons ⟨rfl, _, _, _, rfl, vertex_at (by wz) (by wz) (by wz)⟩ ?_
  refine .cons ⟨rfl, _, _, _, rfl, vertex_at (by wz) (by wz) (by wz)⟩ ?_
  exact .nil

theorem places_oI3 {a b c A B C : ℝ}
    (ha : a ≠ 0) (hb : b ≠ 0) (hc : c ≠ 0) (hA : A = 1 / a ^ 2) (hB : B = 1 / b ^ 2)
    (hC : C = 1 / c ^ 2) :
    List.Forall₂ (GoodWhere (B + C) (A + C) (A + B) C B A)
      (hpkotTable81 a b c) atOI3 := by
  simp only [hpkotTable81]
  unfold atOI3
  refine .cons ⟨rfl, _, _, _, rfl, origin_at⟩ ?_
  refine .cons ⟨rfl, _, _, _, rfl, half_at (by norm_num) (by norm_num) (by norm_num)⟩ ?_
  refine .cons ⟨rfl, _, _, _, rfl, half_at (by norm_num) (by norm_num) (by norm_num)⟩ ?_
  refine .cons ⟨rfl, _, _, _, rfl, half_at (by norm_num) (by norm_num) (by norm_num)⟩ ?_
  refine .cons ⟨rfl, _, _, _, rfl, half_at (by norm_num) (by norm_num) (by norm_num)⟩ ?_
  refine .cons ⟨rfl, _, _, _, rfl, vertex_at (by wz) (by wz) (by wz)⟩ ?_
  refine .cons ⟨rfl, _, _, _, rfl, edge_at (by wz) (by wz) (by wz)⟩ ?_
  refine .cons ⟨rfl, _, _, _, rfl, edge_at (by wz) (by wz) (by wz)⟩ ?_
  refine .cons ⟨rfl, _, _, _, rfl, edge_at (by wz) (by wz) (by wz)⟩ ?_
  refine .cons ⟨rfl, _, _, _, rfl, edge_at (by wz) (by wz) (by wz)⟩ ?_
  refine .cons ⟨rfl, _, _, _, rfl, vertex_at (by wz) (by wz) (by wz)⟩ ?_
  refine .cons ⟨rfl, _, _, _, rfl, vertex_at (by wz) (by wz) (by wz)⟩ ?_
  refine .cons ⟨rfl, _, _, _, rfl, vertex_at (by wz) (by wz) (by wz)⟩ ?_
  exact .nil

end Wulfric
