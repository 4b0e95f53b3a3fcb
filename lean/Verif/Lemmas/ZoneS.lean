import Verif.Lemmas.ZoneB

/-! # Zones of lattices that are not monoclinic or triclinic, SC: generated certificates -/

namespace Wulfric

open Matrix _root_.Spec

theorem flow_RHL1 {ca x y z : ℝ} (f12 f13 f23 f10 f20 f30 : ℝ) (m1 m2 m3 : ℤ)
    (h1 : 2 * (x * (-1 + ca) + y * (-1 + ca) + z * (-1 + ca)) = f12 + f13 + f10)
    (h2 : 2 * (x * (-ca) + y * (-ca) + z * (1 + ca)) = -f12 + f23 + f20)
    (h3 : 2 * (x * (-ca) + y * (1 + ca) + z * (-ca)) = -f13 - f23 + f30)
    (b12 : |f12| ≤ 1 - ca) (b13 : |f13| ≤ 1 - ca) (b23 : |f23| ≤ ca)
    (b10 : |f10| ≤ 1 - ca) (b20 : |f20| ≤ ca) (b30 : |f30| ≤ ca)
    (hm : (m1, m2, m3) ≠ (0, 0, 0))
    (he : flowSum (1 - ca) (1 - ca) ca (1 - ca) ca ca
      f12 f13 f23 f10 f20 f30 m1 m2 m3 = 0) :
    OnZone (1 + ca) (1 + ca) (1 + ca) (-ca) (-ca) (-ca) x y z := by
  have key : ∀ m1 m2 m3 : ℤ, zoneForm (1 + ca) (1 + ca) (1 + ca) (-ca) (-ca) (-ca) x y z
      (-m1) (-m1 + m3) (-m1 + m2) =
      flowSum (1 - ca) (1 - ca) ca (1 - ca) ca ca
        f12 f13 f23 f10 f20 f30 m1 m2 m3 := by
    intro m1 m2 m3
    unfold zoneForm flowSum
    push_cast
    linear_combination -m1 * h1 - m2 * h2 - m3 * h3
  constructor
  · intro n1 n2 n3
    have e : zoneForm (1 + ca) (1 + ca) (1 + ca) (-ca) (-ca) (-ca) x y z n1 n2 n3 =
        flowSum (1 - ca) (1 - ca) ca (1 - ca) ca ca
          f12 f13 f23 f10 f20 f30 (-n1) (-n1 + n3) (-n1 + n2) := by
      unfold zoneForm flowSum
      push_cast
      linear_combination -(-n1) * h1 - (-n1 + n3) * h2 - (-n1 + n2) * h3
    rw [e]
    exact flow_nonneg b12 b13 b23 b10 b20 b30 _ _ _
  · refine ⟨_, _, _, ?_, (key m1 m2 m3).trans he⟩
    simp only [ne_eq, Prod.mk.injEq] at hm ⊢
    omega

theorem flow_RHL2 {ca x y z : ℝ} (f12 f13 f23 f10 f20 f30 : ℝ) (m1 m2 m3 : ℤ)
    (h1 : 2 * (x * (-1 - ca) + y * ca + z * ca) = f12 + f13 + f10)
    (h2 : 2 * (y * (-1 - 2 * ca) + z * (1 + 2 * ca)) = -f12 + f23 + f20)
    (h3 : 2 * (x * (-ca) + y * (1 + ca) + z * (-ca)) = -f13 - f23 + f30)
    (b12 : |f12| ≤ 0) (b13 : |f13| ≤ -ca) (b23 : |f23| ≤ 1 + 2 * ca)
    (b10 : |f10| ≤ 1 + 2 * ca) (b20 : |f20| ≤ 1 + 2 * ca) (b30 : |f30| ≤ 0)
    (hm : (m1, m2, m3) ≠ (0, 0, 0))
    (he : flowSum 0 (-ca) (1 + 2 * ca) (1 + 2 * ca) (1 + 2 * ca) 0
      f12 f13 f23 f10 f20 f30 m1 m2 m3 = 0) :
    OnZone (1 + ca) (1 + ca) (1 + ca) (-ca) (-ca) (-ca) x y z := by
  have key : ∀ m1 m2 m3 : ℤ, zoneForm (1 + ca) (1 + ca) (1 + ca) (-ca) (-ca) (-ca) x y z
      (-m1) (-m2 + m3) (m2) =
      flowSum 0 (-ca) (1 + 2 * ca) (1 + 2 * ca) (1 + 2 * ca) 0
        f12 f13 f23 f10 f20 f30 m1 m2 m3 := by
    intro m1 m2 m3
    unfold zoneForm flowSum
    push_cast
    linear_combination -m1 * h1 - m2 * h2 - m3 * h3
  constructor
  · intro n1 n2 n3
    have e : zoneForm (1 + ca) (1 + ca) (1 + ca) (-ca) (-ca) (-ca) x y z n1 n2 n3 =
        flowSum 0 (-ca) (1 + 2 * ca) (1 + 2 * ca) (1 + 2 * ca) 0
          f12 f13 f23 f10 f20 f30 (-n1) (n3) (n2 + n3) := by
      unfold zoneForm flowSum
      push_cast
      linear_combination -(-n1) * h1 - (n3) * h2 - (n2 + n3) * h3
    rw [e]
    exact flow_nonneg b12 b13 b23 b10 b20 b30 _ _ _
  · refine ⟨_, _, _, ?_, (key m1 m2 m3).trans he⟩
    simp only [ne_eq, Prod.mk.injEq] at hm ⊢
    omega

theorem zone_CUB {A : ℝ}
    (hA0 : 0 < A) :
    ∀ p ∈ scTable2, GoodPoint A A A 0 0 0 p := by
  simp only [scTable2, List.forall_mem_cons, List.not_mem_nil, false_imp_iff, implies_true, and_true]
  refine ⟨?_, ?_, ?_, ?_⟩
  · exact Or.inl ⟨rfl, rfl⟩
  · exact Or.inr ⟨_, _, _, rfl, flow_cP 0 (-A) 0 (-A) 0 0 0 0 1
      (by zpt) (by zpt) (by zpt) (by zbd) (by zbd) (by zbd) (by zbd) (by zbd) (by zbd)
      (by decide) (by zeq)⟩
  · exact Or.inr ⟨_, _, _, rfl, flow_cP (-A) (-A) 0 (-A) 0 0 0 1 0
      (by zpt) (by zpt) (by zpt) (by zbd) (by zbd) (by zbd) (by zbd) (by zbd) (by zbd)
      (by decide) (by zeq)⟩
  · exact Or.inr ⟨_, _, _, rfl, flow_cP 0 (-A) 0 0 0 0 0 0 1
      (by zpt) (by zpt) (by zpt) (by zbd) (by zbd) (by zbd) (by zbd) (by zbd) (by zbd)
      (by decide) (by zeq)⟩

theorem zone_FCC {A : ℝ}
    (hA0 : 0 < A) :
    ∀ p ∈ scTable3, GoodPoint (3 * A) (3 * A) (3 * A) (-A) (-A) (-A) p := by
  simp only [scTable3, List.forall_mem_cons, List.not_mem_nil, false_imp_iff, implies_true, and_true]
  refine ⟨?_, ?_, ?_, ?_, ?_, ?_⟩
  · exact Or.inl ⟨rfl, rfl⟩
  · exact Or.inr ⟨_, _, _, rfl, flow_cF (-A) (-A) A (-A) A 0 0 1 0
      (by zpt) (by zpt) (by zpt) (by zbd) (by zbd) (by zbd) (by zbd) (by zbd) (by zbd)
      (by decide) (by zeq)⟩
  · exact Or.inr ⟨_, _, _, rfl, flow_cF (-A) (-A) 0 (-A) 0 0 (-1) 0 0
      (by zpt) (by zpt) (by zpt) (by zbd) (by zbd) (by zbd) (by zbd) (by zbd) (by zbd)
      (by decide) (by zeq)⟩
  · exact Or.inr ⟨_, _, _, rfl, flow_cF (-A) (-A) A (-A) 0 (-A) (-1) 0 (-1)
      (by zpt) (by zpt) (by zpt) (by zbd) (by zbd) (by zbd) (by zbd) (by zbd) (by zbd)
      (by decide) (by zeq)⟩
  · exact Or.inr ⟨_, _, _, rfl, flow_cF (-A) (-A) A (-A) A (-A) 0 1 0
      (by zpt) (by zpt) (by zpt) (by zbd) (by zbd) (by zbd) (by zbd) (by zbd) (by zbd)
      (by decide) (by zeq)⟩
  · exact Or.inr ⟨_, _, _, rfl, flow_cF (-A) 0 A (-A) 0 (-A) (-1) 0 (-1)
      (by zpt) (by zpt) (by zpt) (by zbd) (by zbd) (by zbd) (by zbd) (by zbd) (by zbd)
      (by decide) (by zeq)⟩

theorem zone_BCC {A : ℝ}
    (hA0 : 0 < A) :
    ∀ p ∈ scTable4, GoodPoint (2 * A) (2 * A) (2 * A) A A A p := by
  simp only [scTable4, List.forall_mem_cons, List.not_mem_nil, false_imp_iff, implies_true, and_true]
  refine ⟨?_, ?_, ?_, ?_⟩
  · exact Or.inl ⟨rfl, rfl⟩
  · exact Or.inr ⟨_, _, _, rfl, flow_cI 0 (-A) A (-A) A 0 0 1 0
      (by zpt) (by zpt) (by zpt) (by zbd) (by zbd) (by zbd) (by zbd) (by zbd) (by zbd)
      (by decide) (by zeq)⟩
  · exact Or.inr ⟨_, _, _, rfl, flow_cI 0 (-A) (-A) (-A) A 0 0 0 1
      (by zpt) (by zpt) (by zpt) (by zbd) (by zbd) (by zbd) (by zbd) (by zbd) (by zbd)
      (by decide) (by zeq)⟩
  · exact Or.inr ⟨_, _, _, rfl, flow_cI 0 (-A) 0 0 A 0 0 1 1
      (by zpt) (by zpt) (by zpt) (by zbd) (by zbd) (by zbd) (by zbd) (by zbd) (by zbd)
      (by decide) (by zeq)⟩

theorem zone_TET {A C : ℝ}
    (hA0 : 0 < A) (hC0 : 0 < C) :
    ∀ p ∈ scTable5, GoodPoint A A C 0 0 0 p := by
  simp only [scTable5, List.forall_mem_cons, List.not_mem_nil, false_imp_iff, implies_true, and_true]
  refine ⟨?_, ?_, ?_, ?_, ?_, ?_⟩
  · exact Or.inl ⟨rfl, rfl⟩
  · exact Or.inr ⟨_, _, _, rfl, flow_tP (-C) (-A) 0 (-A) 0 0 0 1 0
      (by zpt) (by zpt) (by zpt) (by zbd) (by zbd) (by zbd) (by zbd) (by zbd) (by zbd)
      (by decide) (by zeq)⟩
  · exact Or.inr ⟨_, _, _, rfl, flow_tP 0 (-A) 0 (-A) 0 0 0 0 1
      (by zpt) (by zpt) (by zpt) (by zbd) (by zbd) (by zbd) (by zbd) (by zbd) (by zbd)
      (by decide) (by zeq)⟩
  · exact Or.inr ⟨_, _, _, rfl, flow_tP (-C) (-A) 0 0 0 0 0 1 0
      (by zpt) (by zpt) (by zpt) (by zbd) (by zbd) (by zbd) (by zbd) (by zbd) (by zbd)
      (by decide) (by zeq)⟩
  · exact Or.inr ⟨_, _, _, rfl, flow_tP 0 (-A) 0 0 0 0 0 0 1
      (by zpt) (by zpt) (by zpt) (by zbd) (by zbd) (by zbd) (by zbd) (by zbd) (by zbd)
      (by decide) (by zeq)⟩
  · exact Or.inr ⟨_, _, _, rfl, flow_tP (-C) 0 0 0 0 0 0 1 0
      (by zpt) (by zpt) (by zpt) (by zbd) (by zbd) (by zbd) (by zbd) (by zbd) (by zbd)
      (by decide) (by zeq)⟩

theorem zone_BCT1 {a c A C : ℝ}
    (ha : a ≠ 0) (hc : c ≠ 0) (hA : A = 1 / a ^ 2) (hC : C = 1 / c ^ 2)
    (hA0 : 0 < A) (h : A ≤ C) :
    ∀ p ∈ scTable6 a c, GoodPoint (A + C) (A + C) (2 * A) C A A p := by
  simp only [scTable6, List.forall_mem_cons, List.not_mem_nil, false_imp_iff, implies_true, and_true]
  refine ⟨?_, ?_, ?_, ?_, ?_, ?_, ?_⟩
  · exact Or.inl ⟨rfl, rfl⟩
  · exact Or.inr ⟨_, _, _, rfl, flow_tI1 (-A) 0 A A 0 A 0 1 0
      (by zpt) (by zpt) (by zpt) (by zbd) (by zbd) (by zbd) (by zbd) (by zbd) (by zbd)
      (by decide) (by zeq)⟩
  · exact Or.inr ⟨_, _, _, rfl, flow_tI1 (-A) (A - C) 0 0 0 A 0 1 1
      (by zpt) (by zpt) (by zpt) (by zbd) (by zbd) (by zbd) (by zbd) (by zbd) (by zbd)
      (by decide) (by zeq)⟩
  · exact Or.inr ⟨_, _, _, rfl, flow_tI1 (-A) (A - C) A (-A) 0 A 0 1 0
      (by zpt) (by zpt) (by zpt) (by zbd) (by zbd) (by zbd) (by zbd) (by zbd) (by zbd)
      (by decide) (by zeq)⟩
  · exact Or.inr ⟨_, _, _, rfl, flow_tI1 (-A) 0 A 0 0 0 0 1 0
      (by zpt) (by zpt) (by zpt) (by zbd) (by zbd) (by zbd) (by zbd) (by zbd) (by zbd)
      (by decide) (by zeq)⟩
  · exact Or.inr ⟨_, _, _, rfl, flow_tI1 (-A) (A - C) (-A) (-A) 0 A 0 0 1
      (by zpt) (by zpt) (by zpt) (by zbd) (by zbd) (by zbd) (by zbd) (by zbd) (by zbd)
      (by decide) (by zeq)⟩
  · exact Or.inr ⟨_, _, _, rfl, flow_tI1 (-A) (A - C) A A 0 A 0 1 0
      (by zpt) (by zpt) (by zpt) (by zbd) (by zbd) (by zbd) (by zbd) (by zbd) (by zbd)
      (by decide) (by zeq)⟩

theorem zone_BCT2 {a c A C : ℝ}
    (ha : a ≠ 0) (hc : c ≠ 0) (hA : A = 1 / a ^ 2) (hC : C = 1 / c ^ 2)
    (hC0 : 0 < C) (h : C ≤ A) :
    ∀ p ∈ scTable7 a c, GoodPoint (A + C) (A + C) (2 * A) C A A p := by
  simp only [scTable7, List.forall_mem_cons, List.not_mem_nil, false_imp_iff, implies_true, and_true]
  refine ⟨?_, ?_, ?_, ?_, ?_, ?_, ?_, ?_, ?_⟩
  · exact Or.inl ⟨rfl, rfl⟩
  · exact Or.inr ⟨_, _, _, rfl, flow_tI2 0 (-C) (-C) 0 0 (A - C) 0 0 1
      (by zpt) (by zpt) (by zpt) (by zbd) (by zbd) (by zbd) (by zbd) (by zbd) (by zbd)
      (by decide) (by zeq)⟩
  · exact Or.inr ⟨_, _, _, rfl, flow_tI2 (-A + C) (-C) (-C) (-C) C (A - C) 0 0 1
      (by zpt) (by zpt) (by zpt) (by zbd) (by zbd) (by zbd) (by zbd) (by zbd) (by zbd)
      (by decide) (by zeq)⟩
  · exact Or.inr ⟨_, _, _, rfl, flow_tI2 0 (-C) (-C) C C (A - C) 0 0 1
      (by zpt) (by zpt) (by zpt) (by zbd) (by zbd) (by zbd) (by zbd) (by zbd) (by zbd)
      (by decide) (by zeq)⟩
  · exact Or.inr ⟨_, _, _, rfl, flow_tI2 0 (-C) (-C) (-C) (-C) (A - C) 0 0 1
      (by zpt) (by zpt) (by zpt) (by zbd) (by zbd) (by zbd) (by zbd) (by zbd) (by zbd)
      (by decide) (by zeq)⟩
  · exact Or.inr ⟨_, _, _, rfl, flow_tI2 (-A + C) (-C) 0 0 C (A - C) 0 1 1
      (by zpt) (by zpt) (by zpt) (by zbd) (by zbd) (by zbd) (by zbd) (by zbd) (by zbd)
      (by decide) (by zeq)⟩
  · exact Or.inr ⟨_, _, _, rfl, flow_tI2 (-A + C) (-C) (-C) C C (A - C) 0 0 1
      (by zpt) (by zpt) (by zpt) (by zbd) (by zbd) (by zbd) (by zbd) (by zbd) (by zbd)
      (by decide) (by zeq)⟩
  · exact Or.inr ⟨_, _, _, rfl, flow_tI2 (-A + C) (-C) (-C) (-C) (-C) (A - C) 0 0 1
      (by zpt) (by zpt) (by zpt) (by zbd) (by zbd) (by zbd) (by zbd) (by zbd) (by zbd)
      (by decide) (by zeq)⟩
  · exact Or.inr ⟨_, _, _, rfl, flow_tI2 0 (-C) (-C) (-C) (-C) 0 (-1) (-1) 0
      (by zpt) (by zpt) (by zpt) (by zbd) (by zbd) (by zbd) (by zbd) (by zbd) (by zbd)
      (by decide) (by zeq)⟩

theorem zone_ORC {A B C : ℝ}
    (hA0 : 0 < A) (hB0 : 0 < B) (hC0 : 0 < C) :
    ∀ p ∈ scTable8, GoodPoint A B C 0 0 0 p := by
  simp only [scTable8, List.forall_mem_cons, List.not_mem_nil, false_imp_iff, implies_true, and_true]
  refine ⟨?_, ?_, ?_, ?_, ?_, ?_, ?_, ?_⟩
  · exact Or.inl ⟨rfl, rfl⟩
  · exact Or.inr ⟨_, _, _, rfl, flow_oP (-C) (-B) 0 (-A) 0 0 0 1 0
      (by zpt) (by zpt) (by zpt) (by zbd) (by zbd) (by zbd) (by zbd) (by zbd) (by zbd)
      (by decide) (by zeq)⟩
  · exact Or.inr ⟨_, _, _, rfl, flow_oP 0 (-B) 0 (-A) 0 0 0 0 1
      (by zpt) (by zpt) (by zpt) (by zbd) (by zbd) (by zbd) (by zbd) (by zbd) (by zbd)
      (by decide) (by zeq)⟩
  · exact Or.inr ⟨_, _, _, rfl, flow_oP (-C) (-B) 0 0 0 0 0 1 0
      (by zpt) (by zpt) (by zpt) (by zbd) (by zbd) (by zbd) (by zbd) (by zbd) (by zbd)
      (by decide) (by zeq)⟩
  · exact Or.inr ⟨_, _, _, rfl, flow_oP (-C) 0 0 (-A) 0 0 0 1 0
      (by zpt) (by zpt) (by zpt) (by zbd) (by zbd) (by zbd) (by zbd) (by zbd) (by zbd)
      (by decide) (by zeq)⟩
  · exact Or.inr ⟨_, _, _, rfl, flow_oP 0 0 0 (-A) 0 0 (-1) (-1) (-1)
      (by zpt) (by zpt) (by zpt) (by zbd) (by zbd) (by zbd) (by zbd) (by zbd) (by zbd)
      (by decide) (by zeq)⟩
  · exact Or.inr ⟨_, _, _, rfl, flow_oP 0 (-B) 0 0 0 0 0 0 1
      (by zpt) (by zpt) (by zpt) (by zbd) (by zbd) (by zbd) (by zbd) (by zbd) (by zbd)
      (by decide) (by zeq)⟩
  · exact Or.inr ⟨_, _, _, rfl, flow_oP (-C) 0 0 0 0 0 0 1 0
      (by zpt) (by zpt) (by zpt) (by zbd) (by zbd) (by zbd) (by zbd) (by zbd) (by zbd)
      (by decide) (by zeq)⟩

theorem zone_ORCF1 {a b c A B C : ℝ}
    (ha : a ≠ 0) (hb : b ≠ 0) (hc : c ≠ 0) (hA : A = 1 / a ^ 2) (hB : B = 1 / b ^ 2) (hC : C = 1 / c ^ 2)
    (hB0 : 0 < B) (hC0 : 0 < C) (h : B + C ≤ A) :
    ∀ p ∈ scTable9 a b c, GoodPoint (A + B + C) (A + B + C) (A + B + C) (-A - B + C) (-A + B - C) (A - B - C) p := by
  simp only [scTable9, List.forall_mem_cons, List.not_mem_nil, false_imp_iff, implies_true, and_true]
  refine ⟨?_, ?_, ?_, ?_, ?_, ?_, ?_, ?_, ?_⟩
  · exact Or.inl ⟨rfl, rfl⟩
  · exact Or.inr ⟨_, _, _, rfl, flow_oF1 (-A + B + C) (-2 * B) (2 * B) (-2 * C) (-2 * C) 0 (-1) (-1) (-1)
      (by zpt) (by zpt) (by zpt) (by zbd) (by zbd) (by zbd) (by zbd) (by zbd) (by zbd)
      (by decide) (by zeq)⟩
  · exact Or.inr ⟨_, _, _, rfl, flow_oF1 (-A + B + C) (-2 * B) (-2 * B) (-2 * C) (2 * C) 0 0 0 1
      (by zpt) (by zpt) (by zpt) (by zbd) (by zbd) (by zbd) (by zbd) (by zbd) (by zbd)
      (by decide) (by zeq)⟩
  · exact Or.inr ⟨_, _, _, rfl, flow_oF1 (-A + B + C) (-2 * B) 0 (-2 * C) 0 0 (-1) 0 0
      (by zpt) (by zpt) (by zpt) (by zbd) (by zbd) (by zbd) (by zbd) (by zbd) (by zbd)
      (by decide) (by zeq)⟩
  · exact Or.inr ⟨_, _, _, rfl, flow_oF1 0 (-2 * B) (-2 * B) (-2 * C) (-2 * C) 0 0 0 1
      (by zpt) (by zpt) (by zpt) (by zbd) (by zbd) (by zbd) (by zbd) (by zbd) (by zbd)
      (by decide) (by zeq)⟩
  · exact Or.inr ⟨_, _, _, rfl, flow_oF1 (-A + B + C) (-2 * B) (2 * B) (-2 * C) (2 * C) 0 0 1 0
      (by zpt) (by zpt) (by zpt) (by zbd) (by zbd) (by zbd) (by zbd) (by zbd) (by zbd)
      (by decide) (by zeq)⟩
  · exact Or.inr ⟨_, _, _, rfl, flow_oF1 (-A + B + C) (-2 * B) (-2 * B) (-2 * C) (-2 * C) 0 0 0 1
      (by zpt) (by zpt) (by zpt) (by zbd) (by zbd) (by zbd) (by zbd) (by zbd) (by zbd)
      (by decide) (by zeq)⟩
  · exact Or.inr ⟨_, _, _, rfl, flow_oF1 0 (-2 * B) (-2 * B) 0 0 0 0 0 1
      (by zpt) (by zpt) (by zpt) (by zbd) (by zbd) (by zbd) (by zbd) (by zbd) (by zbd)
      (by decide) (by zeq)⟩
  · exact Or.inr ⟨_, _, _, rfl, flow_oF1 0 0 0 (-2 * C) (-2 * C) 0 (-1) (-1) (-1)
      (by zpt) (by zpt) (by zpt) (by zbd) (by zbd) (by zbd) (by zbd) (by zbd) (by zbd)
      (by decide) (by zeq)⟩

theorem zone_ORCF2 {a b c A B C : ℝ}
    (ha : a ≠ 0) (hb : b ≠ 0) (hc : c ≠ 0) (hA : A = 1 / a ^ 2) (hB : B = 1 / b ^ 2) (hC : C = 1 / c ^ 2)
    (h1 : A ≤ B + C) (h2 : B ≤ A + C) (h3 : C ≤ A + B) :
    ∀ p ∈ scTable10 a b c, GoodPoint (A + B + C) (A + B + C) (A + B + C) (-A - B + C) (-A + B - C) (A - B - C) p := by
  simp only [scTable10, List.forall_mem_cons, List.not_mem_nil, false_imp_iff, implies_true, and_true]
  refine ⟨?_, ?_, ?_, ?_, ?_, ?_, ?_, ?_, ?_, ?_, ?_⟩
  · exact Or.inl ⟨rfl, rfl⟩
  · exact Or.inr ⟨_, _, _, rfl, flow_oF3 (-A - B + C) (-A + B - C) (-A + B + C) (A - B - C) (A - B + C) (-A - B + C) 0 1 0
      (by zpt) (by zpt) (by zpt) (by zbd) (by zbd) (by zbd) (by zbd) (by zbd) (by zbd)
      (by decide) (by zeq)⟩
  · exact Or.inr ⟨_, _, _, rfl, flow_oF3 (-A - B + C) (-A + B - C) (A - B - C) (A - B - C) (-A + B - C) (A + B - C) 0 0 1
      (by zpt) (by zpt) (by zpt) (by zbd) (by zbd) (by zbd) (by zbd) (by zbd) (by zbd)
      (by decide) (by zeq)⟩
  · exact Or.inr ⟨_, _, _, rfl, flow_oF3 (-A - B + C) (-A + B - C) (-A + B + C) (A - B - C) (A - B + C) (A + B - C) 0 1 0
      (by zpt) (by zpt) (by zpt) (by zbd) (by zbd) (by zbd) (by zbd) (by zbd) (by zbd)
      (by decide) (by zeq)⟩
  · exact Or.inr ⟨_, _, _, rfl, flow_oF3 (-A - B + C) (-A + B - C) (A - B - C) (A - B - C) (-A + B - C) (-A - B + C) (-1) (-1) (-1)
      (by zpt) (by zpt) (by zpt) (by zbd) (by zbd) (by zbd) (by zbd) (by zbd) (by zbd)
      (by decide) (by zeq)⟩
  · exact Or.inr ⟨_, _, _, rfl, flow_oF3 (-A - B + C) (-A + B - C) 0 (A - B - C) 0 0 (-1) 0 0
      (by zpt) (by zpt) (by zpt) (by zbd) (by zbd) (by zbd) (by zbd) (by zbd) (by zbd)
      (by decide) (by zeq)⟩
  · exact Or.inr ⟨_, _, _, rfl, flow_oF3 (-A - B + C) (-A + B - C) (-A + B + C) (A - B - C) (-A + B - C) (-A - B + C) (-1) (-1) (-1)
      (by zpt) (by zpt) (by zpt) (by zbd) (by zbd) (by zbd) (by zbd) (by zbd) (by zbd)
      (by decide) (by zeq)⟩
  · exact Or.inr ⟨_, _, _, rfl, flow_oF3 (-A - B + C) (-A + B - C) (A - B - C) (A - B - C) (A - B + C) (A + B - C) 0 0 1
      (by zpt) (by zpt) (by zpt) (by zbd) (by zbd) (by zbd) (by zbd) (by zbd) (by zbd)
      (by decide) (by zeq)⟩
  · exact Or.inr ⟨_, _, _, rfl, flow_oF3 (-A - B + C) (-A + B - C) 0 0 (A - B + C) (A + B - C) 0 1 1
      (by zpt) (by zpt) (by zpt) (by zbd) (by zbd) (by zbd) (by zbd) (by zbd) (by zbd)
      (by decide) (by zeq)⟩
  · exact Or.inr ⟨_, _, _, rfl, flow_oF3 (-A - B + C) 0 (-A + B + C) (A - B - C) 0 (-A - B + C) (-1) 0 (-1)
      (by zpt) (by zpt) (by zpt) (by zbd) (by zbd) (by zbd) (by zbd) (by zbd) (by zbd)
      (by decide) (by zeq)⟩
  · exact Or.inr ⟨_, _, _, rfl, flow_oF3 0 (-A + B - C) (A - B - C) (A - B - C) (-A + B - C) 0 (-1) (-1) 0
      (by zpt) (by zpt) (by zpt) (by zbd) (by zbd) (by zbd) (by zbd) (by zbd) (by zbd)
      (by decide) (by zeq)⟩

theorem zone_ORCI {a b c A B C : ℝ}
    (ha : a ≠ 0) (hb : b ≠ 0) (hc : c ≠ 0) (hA : A = 1 / a ^ 2) (hB : B = 1 / b ^ 2) (hC : C = 1 / c ^ 2)
    (hC0 : 0 < C) (h1 : C ≤ A) (h2 : C ≤ B) :
    ∀ p ∈ scTable11 a b c, GoodPoint (B + C) (A + C) (A + B) C B A p := by
  simp only [scTable11, List.forall_mem_cons, List.not_mem_nil, false_imp_iff, implies_true, and_true]
  refine ⟨?_, ?_, ?_, ?_, ?_, ?_, ?_, ?_, ?_, ?_, ?_, ?_, ?_⟩
  · exact Or.inl ⟨rfl, rfl⟩
  · exact Or.inr ⟨_, _, _, rfl, flow_oI1 (-B + C) (-C) (-C) C C (A - C) 0 0 1
      (by zpt) (by zpt) (by zpt) (by zbd) (by zbd) (by zbd) (by zbd) (by zbd) (by zbd)
      (by decide) (by zeq)⟩
  · exact Or.inr ⟨_, _, _, rfl, flow_oI1 (-B + C) (-C) C (-C) C (A - C) 0 1 0
      (by zpt) (by zpt) (by zpt) (by zbd) (by zbd) (by zbd) (by zbd) (by zbd) (by zbd)
      (by decide) (by zeq)⟩
  · exact Or.inr ⟨_, _, _, rfl, flow_oI1 (-B + C) (-C) (-C) (-C) (-C) (A - C) 0 0 1
      (by zpt) (by zpt) (by zpt) (by zbd) (by zbd) (by zbd) (by zbd) (by zbd) (by zbd)
      (by decide) (by zeq)⟩
  · exact Or.inr ⟨_, _, _, rfl, flow_oI1 0 (-C) (-C) 0 0 (A - C) 0 0 1
      (by zpt) (by zpt) (by zpt) (by zbd) (by zbd) (by zbd) (by zbd) (by zbd) (by zbd)
      (by decide) (by zeq)⟩
  · exact Or.inr ⟨_, _, _, rfl, flow_oI1 (-B + C) (-C) 0 (-C) 0 0 (-1) 0 0
      (by zpt) (by zpt) (by zpt) (by zbd) (by zbd) (by zbd) (by zbd) (by zbd) (by zbd)
      (by decide) (by zeq)⟩
  · exact Or.inr ⟨_, _, _, rfl, flow_oI1 (-B + C) (-C) 0 0 C (A - C) 0 1 1
      (by zpt) (by zpt) (by zpt) (by zbd) (by zbd) (by zbd) (by zbd) (by zbd) (by zbd)
      (by decide) (by zeq)⟩
  · exact Or.inr ⟨_, _, _, rfl, flow_oI1 (-B + C) (-C) (-C) (-C) C (A - C) 0 0 1
      (by zpt) (by zpt) (by zpt) (by zbd) (by zbd) (by zbd) (by zbd) (by zbd) (by zbd)
      (by decide) (by zeq)⟩
  · exact Or.inr ⟨_, _, _, rfl, flow_oI1 0 (-C) (-C) C C (A - C) 0 0 1
      (by zpt) (by zpt) (by zpt) (by zbd) (by zbd) (by zbd) (by zbd) (by zbd) (by zbd)
      (by decide) (by zeq)⟩
  · exact Or.inr ⟨_, _, _, rfl, flow_oI1 0 (-C) (-C) (-C) (-C) (A - C) 0 0 1
      (by zpt) (by zpt) (by zpt) (by zbd) (by zbd) (by zbd) (by zbd) (by zbd) (by zbd)
      (by decide) (by zeq)⟩
  · exact Or.inr ⟨_, _, _, rfl, flow_oI1 (-B + C) (-C) C (-C) C 0 0 1 0
      (by zpt) (by zpt) (by zpt) (by zbd) (by zbd) (by zbd) (by zbd) (by zbd) (by zbd)
      (by decide) (by zeq)⟩
  · exact Or.inr ⟨_, _, _, rfl, flow_oI1 (-B + C) (-C) (-C) (-C) (-C) 0 (-1) (-1) 0
      (by zpt) (by zpt) (by zpt) (by zbd) (by zbd) (by zbd) (by zbd) (by zbd) (by zbd)
      (by decide) (by zeq)⟩
  · exact Or.inr ⟨_, _, _, rfl, flow_oI1 0 (-C) (-C) (-C) (-C) 0 (-1) (-1) 0
      (by zpt) (by zpt) (by zpt) (by zbd) (by zbd) (by zbd) (by zbd) (by zbd) (by zbd)
      (by decide) (by zeq)⟩

theorem zone_ORCC {a b A B C : ℝ}
    (ha : a ≠ 0) (hb : b ≠ 0) (hA : A = 1 / a ^ 2) (hB : B = 1 / b ^ 2)
    (hB0 : 0 < B) (hC0 : 0 < C) (h : B ≤ A) :
    ∀ p ∈ scTable12 a b, GoodPoint (A + B) (A + B) C (A - B) 0 0 p := by
  simp only [scTable12, List.forall_mem_cons, List.not_mem_nil, false_imp_iff, implies_true, and_true]
  refine ⟨?_, ?_, ?_, ?_, ?_, ?_, ?_, ?_, ?_, ?_⟩
  · exact Or.inl ⟨rfl, rfl⟩
  · exact Or.inr ⟨_, _, _, rfl, flow_oC1 (-C) (-A + B) 0 (-2 * B) 0 (2 * B) 0 1 0
      (by zpt) (by zpt) (by zpt) (by zbd) (by zbd) (by zbd) (by zbd) (by zbd) (by zbd)
      (by decide) (by zeq)⟩
  · exact Or.inr ⟨_, _, _, rfl, flow_oC1 (-C) (-A + B) 0 (2 * B) 0 (2 * B) 0 1 0
      (by zpt) (by zpt) (by zpt) (by zbd) (by zbd) (by zbd) (by zbd) (by zbd) (by zbd)
      (by decide) (by zeq)⟩
  · exact Or.inr ⟨_, _, _, rfl, flow_oC1 (-C) (-A + B) 0 0 0 (2 * B) 0 1 0
      (by zpt) (by zpt) (by zpt) (by zbd) (by zbd) (by zbd) (by zbd) (by zbd) (by zbd)
      (by decide) (by zeq)⟩
  · exact Or.inr ⟨_, _, _, rfl, flow_oC1 0 (-A + B) 0 0 0 (2 * B) 0 0 1
      (by zpt) (by zpt) (by zpt) (by zbd) (by zbd) (by zbd) (by zbd) (by zbd) (by zbd)
      (by decide) (by zeq)⟩
  · exact Or.inr ⟨_, _, _, rfl, flow_oC1 (-C) 0 0 (2 * B) 0 (2 * B) 0 1 0
      (by zpt) (by zpt) (by zpt) (by zbd) (by zbd) (by zbd) (by zbd) (by zbd) (by zbd)
      (by decide) (by zeq)⟩
  · exact Or.inr ⟨_, _, _, rfl, flow_oC1 0 (-A + B) 0 (-2 * B) 0 (2 * B) 0 0 1
      (by zpt) (by zpt) (by zpt) (by zbd) (by zbd) (by zbd) (by zbd) (by zbd) (by zbd)
      (by decide) (by zeq)⟩
  · exact Or.inr ⟨_, _, _, rfl, flow_oC1 0 (-A + B) 0 (2 * B) 0 (2 * B) 0 0 1
      (by zpt) (by zpt) (by zpt) (by zbd) (by zbd) (by zbd) (by zbd) (by zbd) (by zbd)
      (by decide) (by zeq)⟩
  · exact Or.inr ⟨_, _, _, rfl, flow_oC1 0 0 0 (2 * B) 0 (2 * B) 1 1 1
      (by zpt) (by zpt) (by zpt) (by zbd) (by zbd) (by zbd) (by zbd) (by zbd) (by zbd)
      (by decide) (by zeq)⟩
  · exact Or.inr ⟨_, _, _, rfl, flow_oC1 (-C) 0 0 0 0 0 0 1 0
      (by zpt) (by zpt) (by zpt) (by zbd) (by zbd) (by zbd) (by zbd) (by zbd) (by zbd)
      (by decide) (by zeq)⟩

theorem zone_HEX {A C : ℝ}
    (hA0 : 0 < A) (hC0 : 0 < C) :
    ∀ p ∈ scTable13, GoodPoint (2 * A) (2 * A) C A 0 0 p := by
  simp only [scTable13, List.forall_mem_cons, List.not_mem_nil, false_imp_iff, implies_true, and_true]
  refine ⟨?_, ?_, ?_, ?_, ?_, ?_⟩
  · exact Or.inl ⟨rfl, rfl⟩
  · exact Or.inr ⟨_, _, _, rfl, flow_hP (-C) 0 0 0 0 0 0 1 0
      (by zpt) (by zpt) (by zpt) (by zbd) (by zbd) (by zbd) (by zbd) (by zbd) (by zbd)
      (by decide) (by zeq)⟩
  · exact Or.inr ⟨_, _, _, rfl, flow_hP (-C) (-A) 0 (-A) 0 A 0 1 0
      (by zpt) (by zpt) (by zpt) (by zbd) (by zbd) (by zbd) (by zbd) (by zbd) (by zbd)
      (by decide) (by zeq)⟩
  · exact Or.inr ⟨_, _, _, rfl, flow_hP 0 (-A) 0 (-A) 0 A 0 0 1
      (by zpt) (by zpt) (by zpt) (by zbd) (by zbd) (by zbd) (by zbd) (by zbd) (by zbd)
      (by decide) (by zeq)⟩
  · exact Or.inr ⟨_, _, _, rfl, flow_hP (-C) (-A) 0 (-A) 0 0 0 1 0
      (by zpt) (by zpt) (by zpt) (by zbd) (by zbd) (by zbd) (by zbd) (by zbd) (by zbd)
      (by decide) (by zeq)⟩
  · exact Or.inr ⟨_, _, _, rfl, flow_hP 0 (-A) 0 (-A) 0 0 (-1) (-1) 0
      (by zpt) (by zpt) (by zpt) (by zbd) (by zbd) (by zbd) (by zbd) (by zbd) (by zbd)
      (by decide) (by zeq)⟩

theorem zone_RHL1 {alpha ca : ℝ}
    (hca : Real.cos (alpha * toRadians) = ca) (h2 : 2 + 4 * ca ≠ 0)
    (h0 : 0 ≤ ca) (h1 : ca ≤ 1) :
    ∀ p ∈ scTable14 alpha, GoodPoint (1 + ca) (1 + ca) (1 + ca) (-ca) (-ca) (-ca) p := by
  simp only [scTable14, hca, List.forall_mem_cons, List.not_mem_nil, false_imp_iff, implies_true, and_true]
  clear hca
  refine ⟨?_, ?_, ?_, ?_, ?_, ?_, ?_, ?_, ?_, ?_, ?_, ?_⟩
  · exact Or.inl ⟨rfl, rfl⟩
  · exact Or.inr ⟨_, _, _, rfl, flow_RHL1 (-1 + ca) (-1 + ca) (-ca) (-1 + ca) (-ca) (-ca) (-1) (-1) (-1)
      (by zpt) (by zpt) (by zpt) (by zbd) (by zbd) (by zbd) (by zbd) (by zbd) (by zbd)
      (by decide) (by zeq)⟩
  · exact Or.inr ⟨_, _, _, rfl, flow_RHL1 (1 - ca) (-1 + ca) (-ca) (-1 + ca) (-ca) (-ca) (-1) (-1) (-1)
      (by zpt) (by zpt) (by zpt) (by zbd) (by zbd) (by zbd) (by zbd) (by zbd) (by zbd)
      (by decide) (by zeq)⟩
  · exact Or.inr ⟨_, _, _, rfl, flow_RHL1 0 (-1 + ca) (-ca) (-1 + ca) (-ca) 0 (-1) (-1) 0
      (by zpt) (by zpt) (by zpt) (by zbd) (by zbd) (by zbd) (by zbd) (by zbd) (by zbd)
      (by decide) (by zeq)⟩
  · exact Or.inr ⟨_, _, _, rfl, flow_RHL1 0 0 0 (-1 + ca) (-ca) (-ca) (-1) (-1) (-1)
      (by zpt) (by zpt) (by zpt) (by zbd) (by zbd) (by zbd) (by zbd) (by zbd) (by zbd)
      (by decide) (by zeq)⟩
  · exact Or.inr ⟨_, _, _, rfl, flow_RHL1 (1 - ca) 0 (-ca) 0 (-ca) 0 0 (-1) 0
      (by zpt) (by zpt) (by zpt) (by zbd) (by zbd) (by zbd) (by zbd) (by zbd) (by zbd)
      (by decide) (by zeq)⟩
  · exact Or.inr ⟨_, _, _, rfl, flow_RHL1 (-1 + ca) (-1 + ca) 0 (-1 + ca) (-ca) (-ca) (-1) (-1) (-1)
      (by zpt) (by zpt) (by zpt) (by zbd) (by zbd) (by zbd) (by zbd) (by zbd) (by zbd)
      (by decide) (by zeq)⟩
  · exact Or.inr ⟨_, _, _, rfl, flow_RHL1 (-1 + ca) (-1 + ca) (-ca) (-1 + ca) (-ca) 0 (-1) (-1) 0
      (by zpt) (by zpt) (by zpt) (by zbd) (by zbd) (by zbd) (by zbd) (by zbd) (by zbd)
      (by decide) (by zeq)⟩
  · exact Or.inr ⟨_, _, _, rfl, flow_RHL1 (1 - ca) (-1 + ca) (-ca) (-1 + ca) (-ca) 0 (-1) (-1) 0
      (by zpt) (by zpt) (by zpt) (by zbd) (by zbd) (by zbd) (by zbd) (by zbd) (by zbd)
      (by decide) (by zeq)⟩
  · exact Or.inr ⟨_, _, _, rfl, flow_RHL1 0 (-1 + ca) (-ca) (-1 + ca) (-ca) (-ca) (-1) (-1) (-1)
      (by zpt) (by zpt) (by zpt) (by zbd) (by zbd) (by zbd) (by zbd) (by zbd) (by zbd)
      (by decide) (by zeq)⟩
  · exact Or.inr ⟨_, _, _, rfl, flow_RHL1 (1 - ca) 0 (-ca) (-1 + ca) (-ca) (-ca) (-1) (-1) (-1)
      (by zpt) (by zpt) (by zpt) (by zbd) (by zbd) (by zbd) (by zbd) (by zbd) (by zbd)
      (by decide) (by zeq)⟩
  · exact Or.inr ⟨_, _, _, rfl, flow_RHL1 (-1 + ca) (-1 + ca) 0 (-1 + ca) 0 0 (-1) 0 0
      (by zpt) (by zpt) (by zpt) (by zbd) (by zbd) (by zbd) (by zbd) (by zbd) (by zbd)
      (by decide) (by zeq)⟩

theorem zone_RHL2 {alpha ca : ℝ}
    (hta : Real.tan (alpha * toRadians / 2) ^ 2 = (1 - ca) / (1 + ca))
    (h2 : 1 - ca ≠ 0) (h3 : 1 + ca ≠ 0) (h0 : ca ≤ 0) (h1 : -1 / 2 ≤ ca) :
    ∀ p ∈ scTable15 alpha, GoodPoint (1 + ca) (1 + ca) (1 + ca) (-ca) (-ca) (-ca) p := by
  simp only [scTable15, hta, List.forall_mem_cons, List.not_mem_nil, false_imp_iff, implies_true, and_true]
  clear hta
  refine ⟨?_, ?_, ?_, ?_, ?_, ?_, ?_, ?_⟩
  · exact Or.inl ⟨rfl, rfl⟩
  · exact Or.inr ⟨_, _, _, rfl, flow_RHL2 0 0 (1 + 2 * ca) (-1 - 2 * ca) 0 0 (-1) 0 (-1)
      (by zpt) (by zpt) (by zpt) (by zbd) (by zbd) (by zbd) (by zbd) (by zbd) (by zbd)
      (by decide) (by zeq)⟩
  · exact Or.inr ⟨_, _, _, rfl, flow_RHL2 0 ca 0 (-1 - 2 * ca) 0 0 (-1) 0 0
      (by zpt) (by zpt) (by zpt) (by zbd) (by zbd) (by zbd) (by zbd) (by zbd) (by zbd)
      (by decide) (by zeq)⟩
  · exact Or.inr ⟨_, _, _, rfl, flow_RHL2 0 0 (1 + 2 * ca) (-1 - 2 * ca) (1 + 2 * ca) 0 0 1 0
      (by zpt) (by zpt) (by zpt) (by zbd) (by zbd) (by zbd) (by zbd) (by zbd) (by zbd)
      (by decide) (by zeq)⟩
  · exact Or.inr ⟨_, _, _, rfl, flow_RHL2 0 0 (1 + 2 * ca) (-1 - 2 * ca) (-1 - 2 * ca) 0 (-1) (-1) (-1)
      (by zpt) (by zpt) (by zpt) (by zbd) (by zbd) (by zbd) (by zbd) (by zbd) (by zbd)
      (by decide) (by zeq)⟩
  · exact Or.inr ⟨_, _, _, rfl, flow_RHL2 0 ca (-1 - 2 * ca) (-1 - 2 * ca) (1 + 2 * ca) 0 0 0 1
      (by zpt) (by zpt) (by zpt) (by zbd) (by zbd) (by zbd) (by zbd) (by zbd) (by zbd)
      (by decide) (by zeq)⟩
  · exact Or.inr ⟨_, _, _, rfl, flow_RHL2 0 ca (1 + 2 * ca) (-1 - 2 * ca) (-1 - 2 * ca) 0 (-1) (-1) (-1)
      (by zpt) (by zpt) (by zpt) (by zbd) (by zbd) (by zbd) (by zbd) (by zbd) (by zbd)
      (by decide) (by zeq)⟩
  · exact Or.inr ⟨_, _, _, rfl, flow_RHL2 0 ca (1 + 2 * ca) (-1 - 2 * ca) (1 + 2 * ca) 0 0 1 0
      (by zpt) (by zpt) (by zpt) (by zbd) (by zbd) (by zbd) (by zbd) (by zbd) (by zbd)
      (by decide) (by zeq)⟩

end Wulfric
