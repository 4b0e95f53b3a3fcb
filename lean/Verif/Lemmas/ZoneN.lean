import Verif.Lemmas.ZoneA

/-! # Zones of monoclinic lattices, SC: generated certificates -/

namespace Wulfric

open Matrix _root_.Spec

theorem flow_MCL {X Y Z W x y z : ℝ} (f12 f13 f23 f10 f20 f30 : ℝ) (m1 m2 m3 : ℤ)
    (h1 : 2 * (x * (-X) + y * (-Y + W) + z * (-Z + W)) = f12 + f13 + f10)
    (h2 : 2 * (y * (-W) + z * Z) = -f12 + f23 + f20)
    (h3 : 2 * (y * Y + z * (-W)) = -f13 - f23 + f30)
    (b12 : |f12| ≤ Z - W) (b13 : |f13| ≤ Y - W) (b23 : |f23| ≤ W)
    (b10 : |f10| ≤ X) (b20 : |f20| ≤ 0) (b30 : |f30| ≤ 0)
    (hm : (m1, m2, m3) ≠ (0, 0, 0))
    (he : flowSum (Z - W) (Y - W) W X 0 0
      f12 f13 f23 f10 f20 f30 m1 m2 m3 = 0) :
    OnZone X Y Z 0 0 (-W) x y z := by
  have key : ∀ m1 m2 m3 : ℤ, zoneForm X Y Z 0 0 (-W) x y z
      (-m1) (-m1 + m3) (-m1 + m2) =
      flowSum (Z - W) (Y - W) W X 0 0
        f12 f13 f23 f10 f20 f30 m1 m2 m3 := by
    intro m1 m2 m3
    unfold zoneForm flowSum
    push_cast
    linear_combination -m1 * h1 - m2 * h2 - m3 * h3
  constructor
  · intro n1 n2 n3
    have e : zoneForm X Y Z 0 0 (-W) x y z n1 n2 n3 =
        flowSum (Z - W) (Y - W) W X 0 0
          f12 f13 f23 f10 f20 f30 (-n1) (-n1 + n3) (-n1 + n2) := by
      unfold zoneForm flowSum
      push_cast
      linear_combination -(-n1) * h1 - (-n1 + n3) * h2 - (-n1 + n2) * h3
    rw [e]
    exact flow_nonneg b12 b13 b23 b10 b20 b30 _ _ _
  · refine ⟨_, _, _, ?_, (key m1 m2 m3).trans he⟩
    simp only [ne_eq, Prod.mk.injEq] at hm ⊢
    omega

theorem flow_MCLC1 {X Y Z W x y z : ℝ} (f12 f13 f23 f10 f20 f30 : ℝ) (m1 m2 m3 : ℤ)
    (h1 : 2 * (x * (-2 * Y + W) + y * (-2 * Y + W) + z * (-Z + 2 * W)) = f12 + f13 + f10)
    (h2 : 2 * (x * (-W) + y * (-W) + z * Z) = -f12 + f23 + f20)
    (h3 : 2 * (x * (-X + Y) + y * (X + Y) + z * (-W)) = -f13 - f23 + f30)
    (b12 : |f12| ≤ Z - 2 * W) (b13 : |f13| ≤ 2 * Y - W) (b23 : |f23| ≤ W)
    (b10 : |f10| ≤ 2 * Y - W) (b20 : |f20| ≤ W) (b30 : |f30| ≤ X - Y)
    (hm : (m1, m2, m3) ≠ (0, 0, 0))
    (he : flowSum (Z - 2 * W) (2 * Y - W) W (2 * Y - W) W (X - Y)
      f12 f13 f23 f10 f20 f30 m1 m2 m3 = 0) :
    OnZone (X + Y) (X + Y) Z (-X + Y) (-W) (-W) x y z := by
  have key : ∀ m1 m2 m3 : ℤ, zoneForm (X + Y) (X + Y) Z (-X + Y) (-W) (-W) x y z
      (-m1) (-m1 + m3) (-m1 + m2) =
      flowSum (Z - 2 * W) (2 * Y - W) W (2 * Y - W) W (X - Y)
        f12 f13 f23 f10 f20 f30 m1 m2 m3 := by
    intro m1 m2 m3
    unfold zoneForm flowSum
    push_cast
    linear_combination -m1 * h1 - m2 * h2 - m3 * h3
  constructor
  · intro n1 n2 n3
    have e : zoneForm (X + Y) (X + Y) Z (-X + Y) (-W) (-W) x y z n1 n2 n3 =
        flowSum (Z - 2 * W) (2 * Y - W) W (2 * Y - W) W (X - Y)
          f12 f13 f23 f10 f20 f30 (-n1) (-n1 + n3) (-n1 + n2) := by
      unfold zoneForm flowSum
      push_cast
      linear_combination -(-n1) * h1 - (-n1 + n3) * h2 - (-n1 + n2) * h3
    rw [e]
    exact flow_nonneg b12 b13 b23 b10 b20 b30 _ _ _
  · refine ⟨_, _, _, ?_, (key m1 m2 m3).trans he⟩
    simp only [ne_eq, Prod.mk.injEq] at hm ⊢
    omega

theorem flow_MCLC3 {X Y Z W x y z : ℝ} (f12 f13 f23 f10 f20 f30 : ℝ) (m1 m2 m3 : ℤ)
    (h1 : 2 * (x * (-X - Y + W) + y * (X - Y + W) + z * (-Z + W)) = f12 + f13 + f10)
    (h2 : 2 * (x * (-W) + y * (-W) + z * Z) = -f12 + f23 + f20)
    (h3 : 2 * (x * (-X + Y) + y * (X + Y) + z * (-W)) = -f13 - f23 + f30)
    (b12 : |f12| ≤ Z - W) (b13 : |f13| ≤ -X + Y - W) (b23 : |f23| ≤ W)
    (b10 : |f10| ≤ 2 * X) (b20 : |f20| ≤ 0) (b30 : |f30| ≤ 2 * X)
    (hm : (m1, m2, m3) ≠ (0, 0, 0))
    (he : flowSum (Z - W) (-X + Y - W) W (2 * X) 0 (2 * X)
      f12 f13 f23 f10 f20 f30 m1 m2 m3 = 0) :
    OnZone (X + Y) (X + Y) Z (-X + Y) (-W) (-W) x y z := by
  have key : ∀ m1 m2 m3 : ℤ, zoneForm (X + Y) (X + Y) Z (-X + Y) (-W) (-W) x y z
      (-m1) (m3) (-m1 + m2) =
      flowSum (Z - W) (-X + Y - W) W (2 * X) 0 (2 * X)
        f12 f13 f23 f10 f20 f30 m1 m2 m3 := by
    intro m1 m2 m3
    unfold zoneForm flowSum
    push_cast
    linear_combination -m1 * h1 - m2 * h2 - m3 * h3
  constructor
  · intro n1 n2 n3
    have e : zoneForm (X + Y) (X + Y) Z (-X + Y) (-W) (-W) x y z n1 n2 n3 =
        flowSum (Z - W) (-X + Y - W) W (2 * X) 0 (2 * X)
          f12 f13 f23 f10 f20 f30 (-n1) (-n1 + n3) (n2) := by
      unfold zoneForm flowSum
      push_cast
      linear_combination -(-n1) * h1 - (-n1 + n3) * h2 - (n2) * h3
    rw [e]
    exact flow_nonneg b12 b13 b23 b10 b20 b30 _ _ _
  · refine ⟨_, _, _, ?_, (key m1 m2 m3).trans he⟩
    simp only [ne_eq, Prod.mk.injEq] at hm ⊢
    omega

theorem flow_MCLC5 {X Y Z W x y z : ℝ} (f12 f13 f23 f10 f20 f30 : ℝ) (m1 m2 m3 : ℤ)
    (h1 : 2 * (x * (-X - Y + W) + y * (X - Y + W) + z * (-Z + W)) = f12 + f13 + f10)
    (h2 : 2 * (x * (X - Y) + y * (-X - Y) + z * W) = -f12 + f23 + f20)
    (h3 : 2 * (x * (-X + Y - W) + y * (X + Y - W) + z * (Z - W)) = -f13 - f23 + f30)
    (b12 : |f12| ≤ X - Y + W) (b13 : |f13| ≤ -X + Y + Z - 2 * W) (b23 : |f23| ≤ X + Y - W)
    (b10 : |f10| ≤ X + Y - W) (b20 : |f20| ≤ -X + Y) (b30 : |f30| ≤ X - Y + W)
    (hm : (m1, m2, m3) ≠ (0, 0, 0))
    (he : flowSum (X - Y + W) (-X + Y + Z - 2 * W) (X + Y - W) (X + Y - W) (-X + Y) (X - Y + W)
      f12 f13 f23 f10 f20 f30 m1 m2 m3 = 0) :
    OnZone (X + Y) (X + Y) Z (-X + Y) (-W) (-W) x y z := by
  have key : ∀ m1 m2 m3 : ℤ, zoneForm (X + Y) (X + Y) Z (-X + Y) (-W) (-W) x y z
      (-m1) (-m2 + m3) (-m1 + m3) =
      flowSum (X - Y + W) (-X + Y + Z - 2 * W) (X + Y - W) (X + Y - W) (-X + Y) (X - Y + W)
        f12 f13 f23 f10 f20 f30 m1 m2 m3 := by
    intro m1 m2 m3
    unfold zoneForm flowSum
    push_cast
    linear_combination -m1 * h1 - m2 * h2 - m3 * h3
  constructor
  · intro n1 n2 n3
    have e : zoneForm (X + Y) (X + Y) Z (-X + Y) (-W) (-W) x y z n1 n2 n3 =
        flowSum (X - Y + W) (-X + Y + Z - 2 * W) (X + Y - W) (X + Y - W) (-X + Y) (X - Y + W)
          f12 f13 f23 f10 f20 f30 (-n1) (-n1 - n2 + n3) (-n1 + n3) := by
      unfold zoneForm flowSum
      push_cast
      linear_combination -(-n1) * h1 - (-n1 - n2 + n3) * h2 - (-n1 + n3) * h3
    rw [e]
    exact flow_nonneg b12 b13 b23 b10 b20 b30 _ _ _
  · refine ⟨_, _, _, ?_, (key m1 m2 m3).trans he⟩
    simp only [ne_eq, Prod.mk.injEq] at hm ⊢
    omega

theorem zone_MCL {b c alpha ca X Y Z W : ℝ}
    (hb : b ≠ 0) (hc : c ≠ 0) (hs0 : 1 - ca ^ 2 ≠ 0)
    (hca : Real.cos (alpha * toRadians) = ca) (hs : Real.sin (alpha * toRadians) ^ 2 = 1 - ca ^ 2)
    (hY : Y = 1 / b ^ 2) (hZ : Z = 1 / c ^ 2) (hW : W = ca / (b * c))
    (hX0 : 0 < X) (hW0 : 0 ≤ W) (h1 : W ≤ Y) (h2 : W ≤ Z) :
    ∀ p ∈ scTable16 b c alpha, GoodPoint X Y Z 0 0 (-W) p := by
  simp only [scTable16, hca, hs, List.forall_mem_cons, List.not_mem_nil, false_imp_iff, implies_true, and_true]
  clear hca hs
  refine ⟨?_, ?_, ?_, ?_, ?_, ?_, ?_, ?_, ?_, ?_, ?_, ?_, ?_, ?_, ?_, ?_⟩
  · exact Or.inl ⟨rfl, rfl⟩
  · exact Or.inr ⟨_, _, _, rfl, flow_MCL 0 (-Y + W) (-W) (-X) 0 0 0 0 1
      (by zpt) (by zpt) (by zpt) (by zbd) (by zbd) (by zbd) (by zbd) (by zbd) (by zbd)
      (by decide) (by zeq)⟩
  · exact Or.inr ⟨_, _, _, rfl, flow_MCL (-Z + W) (-Y + W) 0 0 0 0 0 1 1
      (by zpt) (by zpt) (by zpt) (by zbd) (by zbd) (by zbd) (by zbd) (by zbd) (by zbd)
      (by decide) (by zeq)⟩
  · exact Or.inr ⟨_, _, _, rfl, flow_MCL (-Z + W) 0 W (-X) 0 0 0 1 0
      (by zpt) (by zpt) (by zpt) (by zbd) (by zbd) (by zbd) (by zbd) (by zbd) (by zbd)
      (by decide) (by zeq)⟩
  · exact Or.inr ⟨_, _, _, rfl, flow_MCL (Z - W) 0 (-W) (-X) 0 0 (-1) (-1) (-1)
      (by zpt) (by zpt) (by zpt) (by zbd) (by zbd) (by zbd) (by zbd) (by zbd) (by zbd)
      (by decide) (by zeq)⟩
  · exact Or.inr ⟨_, _, _, rfl, flow_MCL (-Z + W) (-Y + W) 0 (-X) 0 0 (-1) (-1) (-1)
      (by zpt) (by zpt) (by zpt) (by zbd) (by zbd) (by zbd) (by zbd) (by zbd) (by zbd)
      (by decide) (by zeq)⟩
  · exact Or.inr ⟨_, _, _, rfl, flow_MCL (-Z + W) (-Y + W) W 0 0 0 0 1 0
      (by zpt) (by zpt) (by zpt) (by zbd) (by zbd) (by zbd) (by zbd) (by zbd) (by zbd)
      (by decide) (by zeq)⟩
  · exact Or.inr ⟨_, _, _, rfl, flow_MCL (-Z + W) (-Y + W) (-W) 0 0 0 0 0 1
      (by zpt) (by zpt) (by zpt) (by zbd) (by zbd) (by zbd) (by zbd) (by zbd) (by zbd)
      (by decide) (by zeq)⟩
  · exact Or.inr ⟨_, _, _, rfl, flow_MCL (Z - W) (-Y + W) (-W) 0 0 0 0 0 1
      (by zpt) (by zpt) (by zpt) (by zbd) (by zbd) (by zbd) (by zbd) (by zbd) (by zbd)
      (by decide) (by zeq)⟩
  · exact Or.inr ⟨_, _, _, rfl, flow_MCL (-Z + W) (-Y + W) W (-X) 0 0 0 1 0
      (by zpt) (by zpt) (by zpt) (by zbd) (by zbd) (by zbd) (by zbd) (by zbd) (by zbd)
      (by decide) (by zeq)⟩
  · exact Or.inr ⟨_, _, _, rfl, flow_MCL (-Z + W) (-Y + W) (-W) (-X) 0 0 0 0 1
      (by zpt) (by zpt) (by zpt) (by zbd) (by zbd) (by zbd) (by zbd) (by zbd) (by zbd)
      (by decide) (by zeq)⟩
  · exact Or.inr ⟨_, _, _, rfl, flow_MCL (Z - W) (-Y + W) (-W) (-X) 0 0 0 0 1
      (by zpt) (by zpt) (by zpt) (by zbd) (by zbd) (by zbd) (by zbd) (by zbd) (by zbd)
      (by decide) (by zeq)⟩
  · exact Or.inr ⟨_, _, _, rfl, flow_MCL 0 (-Y + W) (-W) 0 0 0 0 0 1
      (by zpt) (by zpt) (by zpt) (by zbd) (by zbd) (by zbd) (by zbd) (by zbd) (by zbd)
      (by decide) (by zeq)⟩
  · exact Or.inr ⟨_, _, _, rfl, flow_MCL (-Z + W) 0 W 0 0 0 0 1 0
      (by zpt) (by zpt) (by zpt) (by zbd) (by zbd) (by zbd) (by zbd) (by zbd) (by zbd)
      (by decide) (by zeq)⟩
  · exact Or.inr ⟨_, _, _, rfl, flow_MCL (Z - W) 0 (-W) 0 0 0 0 (-1) 0
      (by zpt) (by zpt) (by zpt) (by zbd) (by zbd) (by zbd) (by zbd) (by zbd) (by zbd)
      (by decide) (by zeq)⟩
  · exact Or.inr ⟨_, _, _, rfl, flow_MCL 0 0 0 (-X) 0 0 (-1) (-1) (-1)
      (by zpt) (by zpt) (by zpt) (by zbd) (by zbd) (by zbd) (by zbd) (by zbd) (by zbd)
      (by decide) (by zeq)⟩

theorem zone_MCLC1 {a b c alpha ca X Y Z W : ℝ}
    (hb : b ≠ 0) (hc : c ≠ 0) (hs0 : 1 - ca ^ 2 ≠ 0)
    (hca : Real.cos (alpha * toRadians) = ca) (hs : Real.sin (alpha * toRadians) ^ 2 = 1 - ca ^ 2)
    (hY : Y = 1 / b ^ 2) (hZ : Z = 1 / c ^ 2) (hW : W = ca / (b * c))
    (ha : a ≠ 0) (hX : X = (1 - ca ^ 2) / a ^ 2) (hW0 : 0 ≤ W) (h1 : W ≤ Y) (h2 : 2 * W ≤ Z) (h3 : Y ≤ X) :
    ∀ p ∈ scTable17 a b c alpha, p.1 = "F3" ∨ GoodPoint (X + Y) (X + Y) Z (-X + Y) (-W) (-W) p := by
  simp only [scTable17, hca, hs, List.forall_mem_cons, List.not_mem_nil, false_imp_iff, implies_true, and_true]
  clear hca hs
  refine ⟨?_, ?_, ?_, ?_, ?_, ?_, ?_, ?_, ?_, ?_, ?_, ?_, ?_, ?_, ?_, ?_, ?_⟩
  · exact Or.inr <| Or.inl ⟨rfl, rfl⟩
  · exact Or.inr <| Or.inr ⟨_, _, _, rfl, flow_MCLC1 0 0 0 (-2 * Y + W) (-W) (-X + Y) (-1) (-1) (-1)
      (by zpt) (by zpt) (by zpt) (by zbd) (by zbd) (by zbd) (by zbd) (by zbd) (by zbd)
      (by decide) (by zeq)⟩
  · exact Or.inr <| Or.inr ⟨_, _, _, rfl, flow_MCLC1 0 (2 * Y - W) W 0 0 (-X + Y) 0 0 (-1)
      (by zpt) (by zpt) (by zpt) (by zbd) (by zbd) (by zbd) (by zbd) (by zbd) (by zbd)
      (by decide) (by zeq)⟩
  · exact Or.inr <| Or.inr ⟨_, _, _, rfl, flow_MCLC1 (-Z + 2 * W) (-2 * Y + W) (-W) (-2 * Y + W) (-W) 0 (-1) (-1) 0
      (by zpt) (by zpt) (by zpt) (by zbd) (by zbd) (by zbd) (by zbd) (by zbd) (by zbd)
      (by decide) (by zeq)⟩
  · exact Or.inr <| Or.inr ⟨_, _, _, rfl, flow_MCLC1 (-Z + 2 * W) (-2 * Y + W) W (-2 * Y + W) W 0 0 1 0
      (by zpt) (by zpt) (by zpt) (by zbd) (by zbd) (by zbd) (by zbd) (by zbd) (by zbd)
      (by decide) (by zeq)⟩
  · exact Or.inr <| Or.inr ⟨_, _, _, rfl, flow_MCLC1 (-Z + 2 * W) (2 * Y - W) W (2 * Y - W) W 0 0 1 0
      (by zpt) (by zpt) (by zpt) (by zbd) (by zbd) (by zbd) (by zbd) (by zbd) (by zbd)
      (by decide) (by zeq)⟩
  · exact Or.inl (by simp)
  · exact Or.inr <| Or.inr ⟨_, _, _, rfl, flow_MCLC1 (-Z + 2 * W) (-2 * Y + W) W (-2 * Y + W) (-W) (-X + Y) (-1) (-1) (-1)
      (by zpt) (by zpt) (by zpt) (by zbd) (by zbd) (by zbd) (by zbd) (by zbd) (by zbd)
      (by decide) (by zeq)⟩
  · exact Or.inr <| Or.inr ⟨_, _, _, rfl, flow_MCLC1 (-Z + 2 * W) (2 * Y - W) W (-2 * Y + W) W (-X + Y) 0 1 0
      (by zpt) (by zpt) (by zpt) (by zbd) (by zbd) (by zbd) (by zbd) (by zbd) (by zbd)
      (by decide) (by zeq)⟩
  · exact Or.inr <| Or.inr ⟨_, _, _, rfl, flow_MCLC1 (-Z + 2 * W) (-2 * Y + W) 0 (-2 * Y + W) 0 0 (-1) 0 0
      (by zpt) (by zpt) (by zpt) (by zbd) (by zbd) (by zbd) (by zbd) (by zbd) (by zbd)
      (by decide) (by zeq)⟩
  · exact Or.inr <| Or.inr ⟨_, _, _, rfl, flow_MCLC1 (-Z + 2 * W) 0 W (-2 * Y + W) 0 (-X + Y) (-1) 0 (-1)
      (by zpt) (by zpt) (by zpt) (by zbd) (by zbd) (by zbd) (by zbd) (by zbd) (by zbd)
      (by decide) (by zeq)⟩
  · exact Or.inr <| Or.inr ⟨_, _, _, rfl, flow_MCLC1 0 (2 * Y - W) W (-2 * Y + W) (-W) (-X + Y) (-1) (-1) (-1)
      (by zpt) (by zpt) (by zpt) (by zbd) (by zbd) (by zbd) (by zbd) (by zbd) (by zbd)
      (by decide) (by zeq)⟩
  · exact Or.inr <| Or.inr ⟨_, _, _, rfl, flow_MCLC1 0 (-2 * Y + W) (-W) (-2 * Y + W) (-W) (-X + Y) (-1) (-1) (-1)
      (by zpt) (by zpt) (by zpt) (by zbd) (by zbd) (by zbd) (by zbd) (by zbd) (by zbd)
      (by decide) (by zeq)⟩
  · exact Or.inr <| Or.inr ⟨_, _, _, rfl, flow_MCLC1 0 (2 * Y - W) W (2 * Y - W) W (-X + Y) 1 1 0
      (by zpt) (by zpt) (by zpt) (by zbd) (by zbd) (by zbd) (by zbd) (by zbd) (by zbd)
      (by decide) (by zeq)⟩
  · exact Or.inr <| Or.inr ⟨_, _, _, rfl, flow_MCLC1 0 (-2 * Y + W) (-W) (-2 * Y + W) (-W) 0 (-1) (-1) 0
      (by zpt) (by zpt) (by zpt) (by zbd) (by zbd) (by zbd) (by zbd) (by zbd) (by zbd)
      (by decide) (by zeq)⟩
  · exact Or.inr <| Or.inr ⟨_, _, _, rfl, flow_MCLC1 0 (2 * Y - W) W (2 * Y - W) W 0 1 1 0
      (by zpt) (by zpt) (by zpt) (by zbd) (by zbd) (by zbd) (by zbd) (by zbd) (by zbd)
      (by decide) (by zeq)⟩
  · exact Or.inr <| Or.inr ⟨_, _, _, rfl, flow_MCLC1 (-Z + 2 * W) 0 W 0 W 0 0 1 0
      (by zpt) (by zpt) (by zpt) (by zbd) (by zbd) (by zbd) (by zbd) (by zbd) (by zbd)
      (by decide) (by zeq)⟩

theorem zone_MCLC3 {a b c alpha ca X Y Z W : ℝ}
    (hb : b ≠ 0) (hc : c ≠ 0) (hs0 : 1 - ca ^ 2 ≠ 0)
    (hca : Real.cos (alpha * toRadians) = ca) (hs : Real.sin (alpha * toRadians) ^ 2 = 1 - ca ^ 2)
    (hY : Y = 1 / b ^ 2) (hZ : Z = 1 / c ^ 2) (hW : W = ca / (b * c))
    (ha : a ≠ 0) (hX : X = (1 - ca ^ 2) / a ^ 2) (hX0 : 0 < X) (hW0 : 0 ≤ W) (h2 : W ≤ Z)
    (h3 : W + X ≤ Y) :
    ∀ p ∈ scTable18 a b c alpha, GoodPoint (X + Y) (X + Y) Z (-X + Y) (-W) (-W) p := by
  simp only [scTable18, hca, hs, List.forall_mem_cons, List.not_mem_nil, false_imp_iff, implies_true, and_true]
  clear hca hs
  refine ⟨?_, ?_, ?_, ?_, ?_, ?_, ?_, ?_, ?_, ?_, ?_, ?_, ?_, ?_, ?_, ?_, ?_⟩
  · exact Or.inl ⟨rfl, rfl⟩
  · exact Or.inr ⟨_, _, _, rfl, flow_MCLC3 (-Z + W) (X - Y + W) (-W) (-2 * X) 0 (2 * X) 0 0 1
      (by zpt) (by zpt) (by zpt) (by zbd) (by zbd) (by zbd) (by zbd) (by zbd) (by zbd)
      (by decide) (by zeq)⟩
  · exact Or.inr ⟨_, _, _, rfl, flow_MCLC3 (-Z + W) (X - Y + W) W (-2 * X) 0 (-2 * X) 0 1 0
      (by zpt) (by zpt) (by zpt) (by zbd) (by zbd) (by zbd) (by zbd) (by zbd) (by zbd)
      (by decide) (by zeq)⟩
  · exact Or.inr ⟨_, _, _, rfl, flow_MCLC3 (-Z + W) (-X + Y - W) W (-2 * X) 0 (-2 * X) 0 1 0
      (by zpt) (by zpt) (by zpt) (by zbd) (by zbd) (by zbd) (by zbd) (by zbd) (by zbd)
      (by decide) (by zeq)⟩
  · exact Or.inr ⟨_, _, _, rfl, flow_MCLC3 (-Z + W) (X - Y + W) W (-2 * X) 0 (2 * X) 0 1 0
      (by zpt) (by zpt) (by zpt) (by zbd) (by zbd) (by zbd) (by zbd) (by zbd) (by zbd)
      (by decide) (by zeq)⟩
  · exact Or.inr ⟨_, _, _, rfl, flow_MCLC3 (-Z + W) (X - Y + W) (-W) (-2 * X) 0 (-2 * X) (-1) (-1) (-1)
      (by zpt) (by zpt) (by zpt) (by zbd) (by zbd) (by zbd) (by zbd) (by zbd) (by zbd)
      (by decide) (by zeq)⟩
  · exact Or.inr ⟨_, _, _, rfl, flow_MCLC3 (-Z + W) (-X + Y - W) W (2 * X) 0 (-2 * X) 0 1 0
      (by zpt) (by zpt) (by zpt) (by zbd) (by zbd) (by zbd) (by zbd) (by zbd) (by zbd)
      (by decide) (by zeq)⟩
  · exact Or.inr ⟨_, _, _, rfl, flow_MCLC3 (-Z + W) 0 W (-2 * X) 0 (-2 * X) 0 1 0
      (by zpt) (by zpt) (by zpt) (by zbd) (by zbd) (by zbd) (by zbd) (by zbd) (by zbd)
      (by decide) (by zeq)⟩
  · exact Or.inr ⟨_, _, _, rfl, flow_MCLC3 (-Z + W) (X - Y + W) 0 (-2 * X) 0 0 (-1) 0 0
      (by zpt) (by zpt) (by zpt) (by zbd) (by zbd) (by zbd) (by zbd) (by zbd) (by zbd)
      (by decide) (by zeq)⟩
  · exact Or.inr ⟨_, _, _, rfl, flow_MCLC3 0 (X - Y + W) (-W) (-2 * X) 0 0 (-1) (-1) 0
      (by zpt) (by zpt) (by zpt) (by zbd) (by zbd) (by zbd) (by zbd) (by zbd) (by zbd)
      (by decide) (by zeq)⟩
  · exact Or.inr ⟨_, _, _, rfl, flow_MCLC3 0 (-X + Y - W) W 0 0 (-2 * X) 0 0 (-1)
      (by zpt) (by zpt) (by zpt) (by zbd) (by zbd) (by zbd) (by zbd) (by zbd) (by zbd)
      (by decide) (by zeq)⟩
  · exact Or.inr ⟨_, _, _, rfl, flow_MCLC3 0 0 0 (-2 * X) 0 (-2 * X) (-1) (-1) (-1)
      (by zpt) (by zpt) (by zpt) (by zbd) (by zbd) (by zbd) (by zbd) (by zbd) (by zbd)
      (by decide) (by zeq)⟩
  · exact Or.inr ⟨_, _, _, rfl, flow_MCLC3 0 (X - Y + W) (-W) (-2 * X) 0 (2 * X) 0 0 1
      (by zpt) (by zpt) (by zpt) (by zbd) (by zbd) (by zbd) (by zbd) (by zbd) (by zbd)
      (by decide) (by zeq)⟩
  · exact Or.inr ⟨_, _, _, rfl, flow_MCLC3 0 (X - Y + W) (-W) (-2 * X) 0 (-2 * X) (-1) (-1) (-1)
      (by zpt) (by zpt) (by zpt) (by zbd) (by zbd) (by zbd) (by zbd) (by zbd) (by zbd)
      (by decide) (by zeq)⟩
  · exact Or.inr ⟨_, _, _, rfl, flow_MCLC3 0 (-X + Y - W) W (2 * X) 0 (-2 * X) 1 1 0
      (by zpt) (by zpt) (by zpt) (by zbd) (by zbd) (by zbd) (by zbd) (by zbd) (by zbd)
      (by decide) (by zeq)⟩
  · exact Or.inr ⟨_, _, _, rfl, flow_MCLC3 0 (-X + Y - W) W (-2 * X) 0 (-2 * X) (-1) (-1) (-1)
      (by zpt) (by zpt) (by zpt) (by zbd) (by zbd) (by zbd) (by zbd) (by zbd) (by zbd)
      (by decide) (by zeq)⟩
  · exact Or.inr ⟨_, _, _, rfl, flow_MCLC3 (-Z + W) 0 W 0 0 0 0 1 0
      (by zpt) (by zpt) (by zpt) (by zbd) (by zbd) (by zbd) (by zbd) (by zbd) (by zbd)
      (by decide) (by zeq)⟩

set_option maxHeartbeats 800000 in
theorem zone_MCLC5 {a b c alpha ca X Y Z W : ℝ}
    (hb : b ≠ 0) (hc : c ≠ 0) (hs0 : 1 - ca ^ 2 ≠ 0)
    (hca : Real.cos (alpha * toRadians) = ca) (hs : Real.sin (alpha * toRadians) ^ 2 = 1 - ca ^ 2)
    (hY : Y = 1 / b ^ 2) (hZ : Z = 1 / c ^ 2) (hW : W = ca / (b * c))
    (ha : a ≠ 0) (hX : X = (1 - ca ^ 2) / a ^ 2) (hca0 : ca ≠ 0) (hX0 : 0 < X) (hW0 : 0 ≤ W) (h1 : W ≤ Y)
    (h2 : 2 * W ≤ Z) (h3 : Y ≤ W + X) (h4 : X ≤ Y) :
    ∀ p ∈ scTable19 a b c alpha, GoodPoint (X + Y) (X + Y) Z (-X + Y) (-W) (-W) p := by
  simp only [scTable19, hca, hs, List.forall_mem_cons, List.not_mem_nil, false_imp_iff, implies_true, and_true]
  clear hca hs
  refine ⟨?_, ?_, ?_, ?_, ?_, ?_, ?_, ?_, ?_, ?_, ?_, ?_, ?_, ?_, ?_, ?_, ?_, ?_, ?_⟩
  · exact Or.inl ⟨rfl, rfl⟩
  · exact Or.inr ⟨_, _, _, rfl, flow_MCLC5 (X - Y + W) (X - Y - Z + 2 * W) (-X - Y + W) (-X - Y + W) (X - Y) (-X + Y - W) (-1) (-1) (-1)
      (by zpt) (by zpt) (by zpt) (by zbd) (by zbd) (by zbd) (by zbd) (by zbd) (by zbd)
      (by decide) (by zeq)⟩
  · exact Or.inr ⟨_, _, _, rfl, flow_MCLC5 (-X + Y - W) (X - Y - Z + 2 * W) (-X - Y + W) (-X - Y + W) (X - Y) (X - Y + W) 0 0 1
      (by zpt) (by zpt) (by zpt) (by zbd) (by zbd) (by zbd) (by zbd) (by zbd) (by zbd)
      (by decide) (by zeq)⟩
  · exact Or.inr ⟨_, _, _, rfl, flow_MCLC5 (-X + Y - W) (X - Y - Z + 2 * W) (X + Y - W) (-X - Y + W) (-X + Y) (-X + Y - W) 0 1 0
      (by zpt) (by zpt) (by zpt) (by zbd) (by zbd) (by zbd) (by zbd) (by zbd) (by zbd)
      (by decide) (by zeq)⟩
  · exact Or.inr ⟨_, _, _, rfl, flow_MCLC5 (-X + Y - W) (X - Y - Z + 2 * W) (-X - Y + W) (-X - Y + W) (-X + Y) (X - Y + W) 0 0 1
      (by zpt) (by zpt) (by zpt) (by zbd) (by zbd) (by zbd) (by zbd) (by zbd) (by zbd)
      (by decide) (by zeq)⟩
  · exact Or.inr ⟨_, _, _, rfl, flow_MCLC5 (-X + Y - W) (X - Y - Z + 2 * W) (X + Y - W) (-X - Y + W) (X - Y) (-X + Y - W) (-1) (-1) (-1)
      (by zpt) (by zpt) (by zpt) (by zbd) (by zbd) (by zbd) (by zbd) (by zbd) (by zbd)
      (by decide) (by zeq)⟩
  · exact Or.inr ⟨_, _, _, rfl, flow_MCLC5 (-X + Y - W) (X - Y - Z + 2 * W) (X + Y - W) (X + Y - W) (-X + Y) (X - Y + W) 0 1 0
      (by zpt) (by zpt) (by zpt) (by zbd) (by zbd) (by zbd) (by zbd) (by zbd) (by zbd)
      (by decide) (by zeq)⟩
  · exact Or.inr ⟨_, _, _, rfl, flow_MCLC5 (-X + Y - W) (X - Y - Z + 2 * W) (-X - Y + W) (-X - Y + W) (X - Y) (-X + Y - W) (-1) (-1) (-1)
      (by zpt) (by zpt) (by zpt) (by zbd) (by zbd) (by zbd) (by zbd) (by zbd) (by zbd)
      (by decide) (by zeq)⟩
  · exact Or.inr ⟨_, _, _, rfl, flow_MCLC5 (-X + Y - W) (X - Y - Z + 2 * W) (X + Y - W) (-X - Y + W) (-X + Y) (X - Y + W) 0 1 0
      (by zpt) (by zpt) (by zpt) (by zbd) (by zbd) (by zbd) (by zbd) (by zbd) (by zbd)
      (by decide) (by zeq)⟩
  · exact Or.inr ⟨_, _, _, rfl, flow_MCLC5 0 (X - Y - Z + 2 * W) (-X - Y + W) (-X - Y + W) (X - Y) 0 (-1) (-1) 0
      (by zpt) (by zpt) (by zpt) (by zbd) (by zbd) (by zbd) (by zbd) (by zbd) (by zbd)
      (by decide) (by zeq)⟩
  · exact Or.inr ⟨_, _, _, rfl, flow_MCLC5 (-X + Y - W) (X - Y - Z + 2 * W) 0 (-X - Y + W) 0 0 (-1) 0 0
      (by zpt) (by zpt) (by zpt) (by zbd) (by zbd) (by zbd) (by zbd) (by zbd) (by zbd)
      (by decide) (by zeq)⟩
  · exact Or.inr ⟨_, _, _, rfl, flow_MCLC5 0 0 0 (-X - Y + W) (X - Y) (-X + Y - W) (-1) (-1) (-1)
      (by zpt) (by zpt) (by zpt) (by zbd) (by zbd) (by zbd) (by zbd) (by zbd) (by zbd)
      (by decide) (by zeq)⟩
  · exact Or.inr ⟨_, _, _, rfl, flow_MCLC5 (-X + Y - W) 0 (X + Y - W) 0 (-X + Y) 0 0 1 0
      (by zpt) (by zpt) (by zpt) (by zbd) (by zbd) (by zbd) (by zbd) (by zbd) (by zbd)
      (by decide) (by zeq)⟩
  · exact Or.inr ⟨_, _, _, rfl, flow_MCLC5 (-X + Y - W) 0 (X + Y - W) (-X - Y + W) 0 (-X + Y - W) (-1) 0 (-1)
      (by zpt) (by zpt) (by zpt) (by zbd) (by zbd) (by zbd) (by zbd) (by zbd) (by zbd)
      (by decide) (by zeq)⟩
  · exact Or.inr ⟨_, _, _, rfl, flow_MCLC5 (X - Y + W) 0 (-X - Y + W) (-X - Y + W) (X - Y) (-X + Y - W) (-1) (-1) (-1)
      (by zpt) (by zpt) (by zpt) (by zbd) (by zbd) (by zbd) (by zbd) (by zbd) (by zbd)
      (by decide) (by zeq)⟩
  · exact Or.inr ⟨_, _, _, rfl, flow_MCLC5 (-X + Y - W) 0 (X + Y - W) (-X - Y + W) (X - Y) (-X + Y - W) (-1) (-1) (-1)
      (by zpt) (by zpt) (by zpt) (by zbd) (by zbd) (by zbd) (by zbd) (by zbd) (by zbd)
      (by decide) (by zeq)⟩
  · exact Or.inr ⟨_, _, _, rfl, flow_MCLC5 (-X + Y - W) 0 (X + Y - W) (X + Y - W) (-X + Y) (X - Y + W) 0 1 0
      (by zpt) (by zpt) (by zpt) (by zbd) (by zbd) (by zbd) (by zbd) (by zbd) (by zbd)
      (by decide) (by zeq)⟩
  · exact Or.inr ⟨_, _, _, rfl, flow_MCLC5 (-X + Y - W) 0 (X + Y - W) (-X - Y + W) (-X + Y) (-X + Y - W) 0 1 0
      (by zpt) (by zpt) (by zpt) (by zbd) (by zbd) (by zbd) (by zbd) (by zbd) (by zbd)
      (by decide) (by zeq)⟩
  · exact Or.inr ⟨_, _, _, rfl, flow_MCLC5 (-X + Y - W) (X - Y - Z + 2 * W) 0 0 (-X + Y) (X - Y + W) 0 1 1
      (by zpt) (by zpt) (by zpt) (by zbd) (by zbd) (by zbd) (by zbd) (by zbd) (by zbd)
      (by decide) (by zeq)⟩

end Wulfric
