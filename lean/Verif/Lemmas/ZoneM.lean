import Verif.Lemmas.ZoneA

/-! # Zones of monoclinic lattices, HPKOT: generated certificates -/

namespace Wulfric

open Matrix _root_.Spec

theorem flow_mP {X Y Z W x y z : ℝ} (f12 f13 f23 f10 f20 f30 : ℝ) (m1 m2 m3 : ℤ)
    (h1 : 2 * (x * (-X) + y * (-Y) + z * (-W)) = f12 + f13 + f10)
    (h2 : 2 * (x * W + z * Z) = -f12 + f23 + f20)
    (h3 : 2 * (y * Y) = -f13 - f23 + f30)
    (b12 : |f12| ≤ W) (b13 : |f13| ≤ Y) (b23 : |f23| ≤ 0)
    (b10 : |f10| ≤ X - W) (b20 : |f20| ≤ Z - W) (b30 : |f30| ≤ 0)
    (hm : (m1, m2, m3) ≠ (0, 0, 0))
    (he : flowSum W Y 0 (X - W) (Z - W) 0
      f12 f13 f23 f10 f20 f30 m1 m2 m3 = 0) :
    OnZone X Y Z 0 W 0 x y z := by
  have key : ∀ m1 m2 m3 : ℤ, zoneForm X Y Z 0 W 0 x y z
      (-m1) (-m1 + m3) (m2) =
      flowSum W Y 0 (X - W) (Z - W) 0
        f12 f13 f23 f10 f20 f30 m1 m2 m3 := by
    intro m1 m2 m3
    unfold zoneForm flowSum
    push_cast
    linear_combination -m1 * h1 - m2 * h2 - m3 * h3
  constructor
  · intro n1 n2 n3
    have e : zoneForm X Y Z 0 W 0 x y z n1 n2 n3 =
        flowSum W Y 0 (X - W) (Z - W) 0
          f12 f13 f23 f10 f20 f30 (-n1) (n3) (-n1 + n2) := by
      unfold zoneForm flowSum
      push_cast
      linear_combination -(-n1) * h1 - (n3) * h2 - (-n1 + n2) * h3
    rw [e]
    exact flow_nonneg b12 b13 b23 b10 b20 b30 _ _ _
  · refine ⟨_, _, _, ?_, (key m1 m2 m3).trans he⟩
    simp only [ne_eq, Prod.mk.injEq] at hm ⊢
    omega

theorem flow_mC1 {X Y Z W x y z : ℝ} (f12 f13 f23 f10 f20 f30 : ℝ) (m1 m2 m3 : ℤ)
    (h1 : 2 * (x * (-X - Y) + y * (X - Y) + z * (-W)) = f12 + f13 + f10)
    (h2 : 2 * (x * W + y * (-W) + z * Z) = -f12 + f23 + f20)
    (h3 : 2 * (x * (-X + Y) + y * (X + Y) + z * (-W)) = -f13 - f23 + f30)
    (b12 : |f12| ≤ W) (b13 : |f13| ≤ -X + Y) (b23 : |f23| ≤ W)
    (b10 : |f10| ≤ 2 * X - W) (b20 : |f20| ≤ Z - 2 * W) (b30 : |f30| ≤ 2 * X - W)
    (hm : (m1, m2, m3) ≠ (0, 0, 0))
    (he : flowSum W (-X + Y) W (2 * X - W) (Z - 2 * W) (2 * X - W)
      f12 f13 f23 f10 f20 f30 m1 m2 m3 = 0) :
    OnZone (X + Y) (X + Y) Z (-X + Y) W (-W) x y z := by
  have key : ∀ m1 m2 m3 : ℤ, zoneForm (X + Y) (X + Y) Z (-X + Y) W (-W) x y z
      (-m1) (m3) (m2) =
      flowSum W (-X + Y) W (2 * X - W) (Z - 2 * W) (2 * X - W)
        f12 f13 f23 f10 f20 f30 m1 m2 m3 := by
    intro m1 m2 m3
    unfold zoneForm flowSum
    push_cast
    linear_combination -m1 * h1 - m2 * h2 - m3 * h3
  constructor
  · intro n1 n2 n3
    have e : zoneForm (X + Y) (X + Y) Z (-X + Y) W (-W) x y z n1 n2 n3 =
        flowSum W (-X + Y) W (2 * X - W) (Z - 2 * W) (2 * X - W)
          f12 f13 f23 f10 f20 f30 (-n1) (n3) (n2) := by
      unfold zoneForm flowSum
      push_cast
      linear_combination -(-n1) * h1 - (n3) * h2 - (n2) * h3
    rw [e]
    exact flow_nonneg b12 b13 b23 b10 b20 b30 _ _ _
  · refine ⟨_, _, _, ?_, (key m1 m2 m3).trans he⟩
    simp only [ne_eq, Prod.mk.injEq] at hm ⊢
    omega

theorem flow_mC2 {X Y Z W x y z : ℝ} (f12 f13 f23 f10 f20 f30 : ℝ) (m1 m2 m3 : ℤ)
    (h1 : 2 * (x * (-2 * Y) + y * (-2 * Y)) = f12 + f13 + f10)
    (h2 : 2 * (x * (-W) + y * W + z * (-Z)) = -f12 + f23 + f20)
    (h3 : 2 * (x * (-X + Y + W) + y * (X + Y - W) + z * (Z - W)) = -f13 - f23 + f30)
    (b12 : |f12| ≤ 0) (b13 : |f13| ≤ 2 * Y) (b23 : |f23| ≤ Z - W)
    (b10 : |f10| ≤ 2 * Y) (b20 : |f20| ≤ W) (b30 : |f30| ≤ X - Y - W)
    (hm : (m1, m2, m3) ≠ (0, 0, 0))
    (he : flowSum 0 (2 * Y) (Z - W) (2 * Y) W (X - Y - W)
      f12 f13 f23 f10 f20 f30 m1 m2 m3 = 0) :
    OnZone (X + Y) (X + Y) Z (-X + Y) W (-W) x y z := by
  have key : ∀ m1 m2 m3 : ℤ, zoneForm (X + Y) (X + Y) Z (-X + Y) W (-W) x y z
      (-m1) (-m1 + m3) (-m2 + m3) =
      flowSum 0 (2 * Y) (Z - W) (2 * Y) W (X - Y - W)
        f12 f13 f23 f10 f20 f30 m1 m2 m3 := by
    intro m1 m2 m3
    unfold zoneForm flowSum
    push_cast
    linear_combination -m1 * h1 - m2 * h2 - m3 * h3
  constructor
  · intro n1 n2 n3
    have e : zoneForm (X + Y) (X + Y) Z (-X + Y) W (-W) x y z n1 n2 n3 =
        flowSum 0 (2 * Y) (Z - W) (2 * Y) W (X - Y - W)
          f12 f13 f23 f10 f20 f30 (-n1) (-n1 + n2 - n3) (-n1 + n2) := by
      unfold zoneForm flowSum
      push_cast
      linear_combination -(-n1) * h1 - (-n1 + n2 - n3) * h2 - (-n1 + n2) * h3
    rw [e]
    exact flow_nonneg b12 b13 b23 b10 b20 b30 _ _ _
  · refine ⟨_, _, _, ?_, (key m1 m2 m3).trans he⟩
    simp only [ne_eq, Prod.mk.injEq] at hm ⊢
    omega

theorem flow_mC3 {X Y Z W x y z : ℝ} (f12 f13 f23 f10 f20 f30 : ℝ) (m1 m2 m3 : ℤ)
    (h1 : 2 * (x * (-X - Y) + y * (X - Y) + z * (-W)) = f12 + f13 + f10)
    (h2 : 2 * (x * (X - Y) + y * (-X - Y) + z * W) = -f12 + f23 + f20)
    (h3 : 2 * (x * (-X + Y + W) + y * (X + Y - W) + z * (Z - W)) = -f13 - f23 + f30)
    (b12 : |f12| ≤ X - Y) (b13 : |f13| ≤ -X + Y + W) (b23 : |f23| ≤ X + Y - W)
    (b10 : |f10| ≤ X + Y - W) (b20 : |f20| ≤ -X + Y + W) (b30 : |f30| ≤ X - Y + Z - 2 * W)
    (hm : (m1, m2, m3) ≠ (0, 0, 0))
    (he : flowSum (X - Y) (-X + Y + W) (X + Y - W) (X + Y - W) (-X + Y + W) (X - Y + Z - 2 * W)
      f12 f13 f23 f10 f20 f30 m1 m2 m3 = 0) :
    OnZone (X + Y) (X + Y) Z (-X + Y) W (-W) x y z := by
  have key : ∀ m1 m2 m3 : ℤ, zoneForm (X + Y) (X + Y) Z (-X + Y) W (-W) x y z
      (-m1) (-m2 + m3) (m3) =
      flowSum (X - Y) (-X + Y + W) (X + Y - W) (X + Y - W) (-X + Y + W) (X - Y + Z - 2 * W)
        f12 f13 f23 f10 f20 f30 m1 m2 m3 := by
    intro m1 m2 m3
    unfold zoneForm flowSum
    push_cast
    linear_combination -m1 * h1 - m2 * h2 - m3 * h3
  constructor
  · intro n1 n2 n3
    have e : zoneForm (X + Y) (X + Y) Z (-X + Y) W (-W) x y z n1 n2 n3 =
        flowSum (X - Y) (-X + Y + W) (X + Y - W) (X + Y - W) (-X + Y + W) (X - Y + Z - 2 * W)
          f12 f13 f23 f10 f20 f30 (-n1) (-n2 + n3) (n3) := by
      unfold zoneForm flowSum
      push_cast
      linear_combination -(-n1) * h1 - (-n2 + n3) * h2 - (n3) * h3
    rw [e]
    exact flow_nonneg b12 b13 b23 b10 b20 b30 _ _ _
  · refine ⟨_, _, _, ?_, (key m1 m2 m3).trans he⟩
    simp only [ne_eq, Prod.mk.injEq] at hm ⊢
    omega

theorem zone_mP {a c beta cb X Y Z W : ℝ}
    (ha : a ≠ 0) (hc : c ≠ 0) (hs0 : 1 - cb ^ 2 ≠ 0)
    (hcb : Real.cos (beta * toRadians) = cb) (hs : Real.sin (beta * toRadians) ^ 2 = 1 - cb ^ 2)
    (hX : X = 1 / a ^ 2) (hZ : Z = 1 / c ^ 2) (hW : W = -cb / (a * c))
    (hY0 : 0 < Y) (hW0 : 0 ≤ W) (h1 : W ≤ X) (h2 : W ≤ Z) :
    ∀ p ∈ hpkotTable87 a c beta, GoodPoint X Y Z 0 W 0 p := by
  simp only [hpkotTable87, hcb, hs, List.forall_mem_cons, List.not_mem_nil, false_imp_iff, implies_true, and_true]
  clear hcb hs
  refine ⟨?_, ?_, ?_, ?_, ?_, ?_, ?_, ?_, ?_, ?_, ?_, ?_, ?_, ?_, ?_, ?_, ?_, ?_⟩
  · exact Or.inl ⟨rfl, rfl⟩
  · exact Or.inr ⟨_, _, _, rfl, flow_mP 0 (-Y) 0 0 0 0 0 0 1
      (by zpt) (by zpt) (by zpt) (by zbd) (by zbd) (by zbd) (by zbd) (by zbd) (by zbd)
      (by decide) (by zeq)⟩
  · exact Or.inr ⟨_, _, _, rfl, flow_mP (-W) 0 0 0 (Z - W) 0 0 1 0
      (by zpt) (by zpt) (by zpt) (by zbd) (by zbd) (by zbd) (by zbd) (by zbd) (by zbd)
      (by decide) (by zeq)⟩
  · exact Or.inr ⟨_, _, _, rfl, flow_mP W 0 0 0 (-Z + W) 0 0 (-1) 0
      (by zpt) (by zpt) (by zpt) (by zbd) (by zbd) (by zbd) (by zbd) (by zbd) (by zbd)
      (by decide) (by zeq)⟩
  · exact Or.inr ⟨_, _, _, rfl, flow_mP (-W) 0 0 (-X + W) 0 0 (-1) 0 (-1)
      (by zpt) (by zpt) (by zpt) (by zbd) (by zbd) (by zbd) (by zbd) (by zbd) (by zbd)
      (by decide) (by zeq)⟩
  · exact Or.inr ⟨_, _, _, rfl, flow_mP W 0 0 (X - W) 0 0 1 0 1
      (by zpt) (by zpt) (by zpt) (by zbd) (by zbd) (by zbd) (by zbd) (by zbd) (by zbd)
      (by decide) (by zeq)⟩
  · exact Or.inr ⟨_, _, _, rfl, flow_mP (-W) (-Y) 0 (-X + W) 0 0 0 0 1
      (by zpt) (by zpt) (by zpt) (by zbd) (by zbd) (by zbd) (by zbd) (by zbd) (by zbd)
      (by decide) (by zeq)⟩
  · exact Or.inr ⟨_, _, _, rfl, flow_mP W (-Y) 0 (X - W) 0 0 0 0 1
      (by zpt) (by zpt) (by zpt) (by zbd) (by zbd) (by zbd) (by zbd) (by zbd) (by zbd)
      (by decide) (by zeq)⟩
  · exact Or.inr ⟨_, _, _, rfl, flow_mP (-W) (-Y) 0 0 (Z - W) 0 0 1 0
      (by zpt) (by zpt) (by zpt) (by zbd) (by zbd) (by zbd) (by zbd) (by zbd) (by zbd)
      (by decide) (by zeq)⟩
  · exact Or.inr ⟨_, _, _, rfl, flow_mP W (-Y) 0 0 (-Z + W) 0 0 0 1
      (by zpt) (by zpt) (by zpt) (by zbd) (by zbd) (by zbd) (by zbd) (by zbd) (by zbd)
      (by decide) (by zeq)⟩
  · exact Or.inr ⟨_, _, _, rfl, flow_mP 0 0 0 (X - W) (Z - W) 0 1 1 1
      (by zpt) (by zpt) (by zpt) (by zbd) (by zbd) (by zbd) (by zbd) (by zbd) (by zbd)
      (by decide) (by zeq)⟩
  · exact Or.inr ⟨_, _, _, rfl, flow_mP 0 (-Y) 0 (X - W) (Z - W) 0 0 0 1
      (by zpt) (by zpt) (by zpt) (by zbd) (by zbd) (by zbd) (by zbd) (by zbd) (by zbd)
      (by decide) (by zeq)⟩
  · exact Or.inr ⟨_, _, _, rfl, flow_mP (-W) 0 0 (X - W) (Z - W) 0 0 1 0
      (by zpt) (by zpt) (by zpt) (by zbd) (by zbd) (by zbd) (by zbd) (by zbd) (by zbd)
      (by decide) (by zeq)⟩
  · exact Or.inr ⟨_, _, _, rfl, flow_mP W 0 0 (X - W) (Z - W) 0 1 0 1
      (by zpt) (by zpt) (by zpt) (by zbd) (by zbd) (by zbd) (by zbd) (by zbd) (by zbd)
      (by decide) (by zeq)⟩
  · exact Or.inr ⟨_, _, _, rfl, flow_mP W 0 0 (X - W) (-Z + W) 0 1 0 1
      (by zpt) (by zpt) (by zpt) (by zbd) (by zbd) (by zbd) (by zbd) (by zbd) (by zbd)
      (by decide) (by zeq)⟩
  · exact Or.inr ⟨_, _, _, rfl, flow_mP (-W) (-Y) 0 (X - W) (Z - W) 0 0 1 0
      (by zpt) (by zpt) (by zpt) (by zbd) (by zbd) (by zbd) (by zbd) (by zbd) (by zbd)
      (by decide) (by zeq)⟩
  · exact Or.inr ⟨_, _, _, rfl, flow_mP W (-Y) 0 (X - W) (Z - W) 0 0 0 1
      (by zpt) (by zpt) (by zpt) (by zbd) (by zbd) (by zbd) (by zbd) (by zbd) (by zbd)
      (by decide) (by zeq)⟩
  · exact Or.inr ⟨_, _, _, rfl, flow_mP W (-Y) 0 (X - W) (-Z + W) 0 0 0 1
      (by zpt) (by zpt) (by zpt) (by zbd) (by zbd) (by zbd) (by zbd) (by zbd) (by zbd)
      (by decide) (by zeq)⟩

theorem zone_mC1 {a b c beta cb X Y Z W : ℝ}
    (ha : a ≠ 0) (hc : c ≠ 0) (hs0 : 1 - cb ^ 2 ≠ 0)
    (hcb : Real.cos (beta * toRadians) = cb) (hs : Real.sin (beta * toRadians) ^ 2 = 1 - cb ^ 2)
    (hX : X = 1 / a ^ 2) (hZ : Z = 1 / c ^ 2) (hW : W = -cb / (a * c))
    (hb : b ≠ 0) (hY : Y = (1 - cb ^ 2) / b ^ 2) (hW0 : 0 ≤ W) (h1 : W ≤ X) (h2 : 2 * W ≤ Z) (h3 : X ≤ Y) :
    ∀ p ∈ hpkotTable88 a b c beta, GoodPoint (X + Y) (X + Y) Z (-X + Y) W (-W) p := by
  simp only [hpkotTable88, hcb, hs, List.forall_mem_cons, List.not_mem_nil, false_imp_iff, implies_true, and_true]
  clear hcb hs
  refine ⟨?_, ?_, ?_, ?_, ?_, ?_, ?_, ?_, ?_, ?_, ?_, ?_, ?_, ?_, ?_, ?_⟩
  · exact Or.inl ⟨rfl, rfl⟩
  · exact Or.inr ⟨_, _, _, rfl, flow_mC1 W 0 (-W) (2 * X - W) 0 (2 * X - W) 1 0 1
      (by zpt) (by zpt) (by zpt) (by zbd) (by zbd) (by zbd) (by zbd) (by zbd) (by zbd)
      (by decide) (by zeq)⟩
  · exact Or.inr ⟨_, _, _, rfl, flow_mC1 (-W) 0 W (-2 * X + W) 0 (-2 * X + W) (-1) 0 (-1)
      (by zpt) (by zpt) (by zpt) (by zbd) (by zbd) (by zbd) (by zbd) (by zbd) (by zbd)
      (by decide) (by zeq)⟩
  · exact Or.inr ⟨_, _, _, rfl, flow_mC1 (-W) 0 W 0 (Z - 2 * W) 0 0 1 0
      (by zpt) (by zpt) (by zpt) (by zbd) (by zbd) (by zbd) (by zbd) (by zbd) (by zbd)
      (by decide) (by zeq)⟩
  · exact Or.inr ⟨_, _, _, rfl, flow_mC1 0 0 0 (2 * X - W) (Z - 2 * W) (2 * X - W) 1 1 1
      (by zpt) (by zpt) (by zpt) (by zbd) (by zbd) (by zbd) (by zbd) (by zbd) (by zbd)
      (by decide) (by zeq)⟩
  · exact Or.inr ⟨_, _, _, rfl, flow_mC1 (-W) (X - Y) 0 (-2 * X + W) 0 0 (-1) 0 0
      (by zpt) (by zpt) (by zpt) (by zbd) (by zbd) (by zbd) (by zbd) (by zbd) (by zbd)
      (by decide) (by zeq)⟩
  · exact Or.inr ⟨_, _, _, rfl, flow_mC1 0 (X - Y) (-W) 0 0 (2 * X - W) 0 0 1
      (by zpt) (by zpt) (by zpt) (by zbd) (by zbd) (by zbd) (by zbd) (by zbd) (by zbd)
      (by decide) (by zeq)⟩
  · exact Or.inr ⟨_, _, _, rfl, flow_mC1 (-W) (X - Y) 0 0 (Z - 2 * W) (2 * X - W) 0 1 1
      (by zpt) (by zpt) (by zpt) (by zbd) (by zbd) (by zbd) (by zbd) (by zbd) (by zbd)
      (by decide) (by zeq)⟩
  · exact Or.inr ⟨_, _, _, rfl, flow_mC1 (-W) (X - Y) (-W) (-2 * X + W) 0 (2 * X - W) 0 0 1
      (by zpt) (by zpt) (by zpt) (by zbd) (by zbd) (by zbd) (by zbd) (by zbd) (by zbd)
      (by decide) (by zeq)⟩
  · exact Or.inr ⟨_, _, _, rfl, flow_mC1 W (X - Y) (-W) (2 * X - W) 0 (2 * X - W) 0 0 1
      (by zpt) (by zpt) (by zpt) (by zbd) (by zbd) (by zbd) (by zbd) (by zbd) (by zbd)
      (by decide) (by zeq)⟩
  · exact Or.inr ⟨_, _, _, rfl, flow_mC1 (-W) (X - Y) W (-2 * X + W) 0 (-2 * X + W) (-1) 0 (-1)
      (by zpt) (by zpt) (by zpt) (by zbd) (by zbd) (by zbd) (by zbd) (by zbd) (by zbd)
      (by decide) (by zeq)⟩
  · exact Or.inr ⟨_, _, _, rfl, flow_mC1 (-W) (X - Y) (-W) (2 * X - W) (Z - 2 * W) (2 * X - W) 0 0 1
      (by zpt) (by zpt) (by zpt) (by zbd) (by zbd) (by zbd) (by zbd) (by zbd) (by zbd)
      (by decide) (by zeq)⟩
  · exact Or.inr ⟨_, _, _, rfl, flow_mC1 (-W) (X - Y) W (-2 * X + W) (Z - 2 * W) (2 * X - W) 0 1 0
      (by zpt) (by zpt) (by zpt) (by zbd) (by zbd) (by zbd) (by zbd) (by zbd) (by zbd)
      (by decide) (by zeq)⟩
  · exact Or.inr ⟨_, _, _, rfl, flow_mC1 W 0 (-W) (2 * X - W) (Z - 2 * W) (2 * X - W) 1 0 1
      (by zpt) (by zpt) (by zpt) (by zbd) (by zbd) (by zbd) (by zbd) (by zbd) (by zbd)
      (by decide) (by zeq)⟩
  · exact Or.inr ⟨_, _, _, rfl, flow_mC1 (-W) 0 W (2 * X - W) (Z - 2 * W) (2 * X - W) 0 1 0
      (by zpt) (by zpt) (by zpt) (by zbd) (by zbd) (by zbd) (by zbd) (by zbd) (by zbd)
      (by decide) (by zeq)⟩
  · exact Or.inr ⟨_, _, _, rfl, flow_mC1 (-W) 0 W (-2 * X + W) (Z - 2 * W) (-2 * X + W) 0 1 0
      (by zpt) (by zpt) (by zpt) (by zbd) (by zbd) (by zbd) (by zbd) (by zbd) (by zbd)
      (by decide) (by zeq)⟩

theorem zone_mC2 {a b c beta cb X Y Z W : ℝ}
    (ha : a ≠ 0) (hc : c ≠ 0) (hs0 : 1 - cb ^ 2 ≠ 0)
    (hcb : Real.cos (beta * toRadians) = cb) (hs : Real.sin (beta * toRadians) ^ 2 = 1 - cb ^ 2)
    (hX : X = 1 / a ^ 2) (hZ : Z = 1 / c ^ 2) (hW : W = -cb / (a * c))
    (hb : b ≠ 0) (hY : Y = (1 - cb ^ 2) / b ^ 2) (hY0 : 0 < Y) (hW0 : 0 ≤ W) (h2 : W ≤ Z)
    (h3 : W + Y ≤ X) :
    ∀ p ∈ hpkotTable89 a b c beta, GoodPoint (X + Y) (X + Y) Z (-X + Y) W (-W) p := by
  simp only [hpkotTable89, hcb, hs, List.forall_mem_cons, List.not_mem_nil, false_imp_iff, implies_true, and_true]
  clear hcb hs
  refine ⟨?_, ?_, ?_, ?_, ?_, ?_, ?_, ?_, ?_, ?_, ?_, ?_, ?_, ?_, ?_, ?_⟩
  · exact Or.inl ⟨rfl, rfl⟩
  · exact Or.inr ⟨_, _, _, rfl, flow_mC2 0 (-2 * Y) 0 (-2 * Y) 0 0 (-1) 0 0
      (by zpt) (by zpt) (by zpt) (by zbd) (by zbd) (by zbd) (by zbd) (by zbd) (by zbd)
      (by decide) (by zeq)⟩
  · exact Or.inr ⟨_, _, _, rfl, flow_mC2 0 0 (-Z + W) 0 (-W) 0 0 (-1) 0
      (by zpt) (by zpt) (by zpt) (by zbd) (by zbd) (by zbd) (by zbd) (by zbd) (by zbd)
      (by decide) (by zeq)⟩
  · exact Or.inr ⟨_, _, _, rfl, flow_mC2 0 (-2 * Y) (-Z + W) (-2 * Y) (-W) 0 (-1) (-1) 0
      (by zpt) (by zpt) (by zpt) (by zbd) (by zbd) (by zbd) (by zbd) (by zbd) (by zbd)
      (by decide) (by zeq)⟩
  · exact Or.inr ⟨_, _, _, rfl, flow_mC2 0 (-2 * Y) 0 0 W (X - Y - W) 0 1 1
      (by zpt) (by zpt) (by zpt) (by zbd) (by zbd) (by zbd) (by zbd) (by zbd) (by zbd)
      (by decide) (by zeq)⟩
  · exact Or.inr ⟨_, _, _, rfl, flow_mC2 0 (-2 * Y) (-Z + W) 0 0 (X - Y - W) 0 0 1
      (by zpt) (by zpt) (by zpt) (by zbd) (by zbd) (by zbd) (by zbd) (by zbd) (by zbd)
      (by decide) (by zeq)⟩
  · exact Or.inr ⟨_, _, _, rfl, flow_mC2 0 (-2 * Y) (-Z + W) (2 * Y) W (X - Y - W) 0 0 1
      (by zpt) (by zpt) (by zpt) (by zbd) (by zbd) (by zbd) (by zbd) (by zbd) (by zbd)
      (by decide) (by zeq)⟩
  · exact Or.inr ⟨_, _, _, rfl, flow_mC2 0 (-2 * Y) (-Z + W) (-2 * Y) (-W) (X - Y - W) 0 0 1
      (by zpt) (by zpt) (by zpt) (by zbd) (by zbd) (by zbd) (by zbd) (by zbd) (by zbd)
      (by decide) (by zeq)⟩
  · exact Or.inr ⟨_, _, _, rfl, flow_mC2 0 (-2 * Y) (-Z + W) (-2 * Y) (-W) (-X + Y + W) (-1) (-1) (-1)
      (by zpt) (by zpt) (by zpt) (by zbd) (by zbd) (by zbd) (by zbd) (by zbd) (by zbd)
      (by decide) (by zeq)⟩
  · exact Or.inr ⟨_, _, _, rfl, flow_mC2 0 (-2 * Y) (-Z + W) (2 * Y) (-W) (X - Y - W) 0 0 1
      (by zpt) (by zpt) (by zpt) (by zbd) (by zbd) (by zbd) (by zbd) (by zbd) (by zbd)
      (by decide) (by zeq)⟩
  · exact Or.inr ⟨_, _, _, rfl, flow_mC2 0 (-2 * Y) (-Z + W) (-2 * Y) W (X - Y - W) 0 0 1
      (by zpt) (by zpt) (by zpt) (by zbd) (by zbd) (by zbd) (by zbd) (by zbd) (by zbd)
      (by decide) (by zeq)⟩
  · exact Or.inr ⟨_, _, _, rfl, flow_mC2 0 (2 * Y) (-Z + W) (-2 * Y) (-W) (-X + Y + W) (-1) (-1) (-1)
      (by zpt) (by zpt) (by zpt) (by zbd) (by zbd) (by zbd) (by zbd) (by zbd) (by zbd)
      (by decide) (by zeq)⟩
  · exact Or.inr ⟨_, _, _, rfl, flow_mC2 0 (-2 * Y) 0 (2 * Y) W (X - Y - W) 0 1 1
      (by zpt) (by zpt) (by zpt) (by zbd) (by zbd) (by zbd) (by zbd) (by zbd) (by zbd)
      (by decide) (by zeq)⟩
  · exact Or.inr ⟨_, _, _, rfl, flow_mC2 0 (-2 * Y) 0 (-2 * Y) W (X - Y - W) 0 1 1
      (by zpt) (by zpt) (by zpt) (by zbd) (by zbd) (by zbd) (by zbd) (by zbd) (by zbd)
      (by decide) (by zeq)⟩
  · exact Or.inr ⟨_, _, _, rfl, flow_mC2 0 (2 * Y) 0 (-2 * Y) (-W) (-X + Y + W) (-1) (-1) (-1)
      (by zpt) (by zpt) (by zpt) (by zbd) (by zbd) (by zbd) (by zbd) (by zbd) (by zbd)
      (by decide) (by zeq)⟩
  · exact Or.inr ⟨_, _, _, rfl, flow_mC2 0 (-2 * Y) 0 (-2 * Y) (-W) (-X + Y + W) (-1) (-1) (-1)
      (by zpt) (by zpt) (by zpt) (by zbd) (by zbd) (by zbd) (by zbd) (by zbd) (by zbd)
      (by decide) (by zeq)⟩

set_option maxHeartbeats 800000 in
theorem zone_mC3 {a b c beta cb X Y Z W : ℝ}
    (ha : a ≠ 0) (hc : c ≠ 0) (hs0 : 1 - cb ^ 2 ≠ 0)
    (hcb : Real.cos (beta * toRadians) = cb) (hs : Real.sin (beta * toRadians) ^ 2 = 1 - cb ^ 2)
    (hX : X = 1 / a ^ 2) (hZ : Z = 1 / c ^ 2) (hW : W = -cb / (a * c))
    (hb : b ≠ 0) (hY : Y = (1 - cb ^ 2) / b ^ 2) (hcb0 : cb ≠ 0) (hY0 : 0 < Y) (hW0 : 0 ≤ W) (h1 : W ≤ X)
    (h2 : 2 * W ≤ Z) (h3 : X ≤ W + Y) (h4 : Y ≤ X) :
    ∀ p ∈ hpkotTable90 a b c beta, GoodPoint (X + Y) (X + Y) Z (-X + Y) W (-W) p := by
  simp only [hpkotTable90, hcb, hs, List.forall_mem_cons, List.not_mem_nil, false_imp_iff, implies_true, and_true]
  clear hcb hs
  refine ⟨?_, ?_, ?_, ?_, ?_, ?_, ?_, ?_, ?_, ?_, ?_, ?_, ?_, ?_, ?_, ?_, ?_, ?_, ?_⟩
  · exact Or.inl ⟨rfl, rfl⟩
  · exact Or.inr ⟨_, _, _, rfl, flow_mC3 0 (X - Y - W) (-X - Y + W) (-X - Y + W) (X - Y - W) 0 (-1) (-1) 0
      (by zpt) (by zpt) (by zpt) (by zbd) (by zbd) (by zbd) (by zbd) (by zbd) (by zbd)
      (by decide) (by zeq)⟩
  · exact Or.inr ⟨_, _, _, rfl, flow_mC3 (-X + Y) (X - Y - W) 0 0 (-X + Y + W) (X - Y + Z - 2 * W) 0 1 1
      (by zpt) (by zpt) (by zpt) (by zbd) (by zbd) (by zbd) (by zbd) (by zbd) (by zbd)
      (by decide) (by zeq)⟩
  · exact Or.inr ⟨_, _, _, rfl, flow_mC3 (X - Y) 0 (-X - Y + W) (X + Y - W) 0 (X - Y + Z - 2 * W) 1 0 1
      (by zpt) (by zpt) (by zpt) (by zbd) (by zbd) (by zbd) (by zbd) (by zbd) (by zbd)
      (by decide) (by zeq)⟩
  · exact Or.inr ⟨_, _, _, rfl, flow_mC3 (-X + Y) (X - Y - W) 0 (-X - Y + W) 0 0 (-1) 0 0
      (by zpt) (by zpt) (by zpt) (by zbd) (by zbd) (by zbd) (by zbd) (by zbd) (by zbd)
      (by decide) (by zeq)⟩
  · exact Or.inr ⟨_, _, _, rfl, flow_mC3 (X - Y) 0 (-X - Y + W) 0 (X - Y - W) 0 0 (-1) 0
      (by zpt) (by zpt) (by zpt) (by zbd) (by zbd) (by zbd) (by zbd) (by zbd) (by zbd)
      (by decide) (by zeq)⟩
  · exact Or.inr ⟨_, _, _, rfl, flow_mC3 0 (X - Y - W) (-X - Y + W) 0 0 (X - Y + Z - 2 * W) 0 0 1
      (by zpt) (by zpt) (by zpt) (by zbd) (by zbd) (by zbd) (by zbd) (by zbd) (by zbd)
      (by decide) (by zeq)⟩
  · exact Or.inr ⟨_, _, _, rfl, flow_mC3 (X - Y) (X - Y - W) (-X - Y + W) (X + Y - W) (X - Y - W) (X - Y + Z - 2 * W) 0 0 1
      (by zpt) (by zpt) (by zpt) (by zbd) (by zbd) (by zbd) (by zbd) (by zbd) (by zbd)
      (by decide) (by zeq)⟩
  · exact Or.inr ⟨_, _, _, rfl, flow_mC3 (-X + Y) (X - Y - W) (-X - Y + W) (-X - Y + W) (-X + Y + W) (X - Y + Z - 2 * W) 0 0 1
      (by zpt) (by zpt) (by zpt) (by zbd) (by zbd) (by zbd) (by zbd) (by zbd) (by zbd)
      (by decide) (by zeq)⟩
  · exact Or.inr ⟨_, _, _, rfl, flow_mC3 (X - Y) (-X + Y + W) (-X - Y + W) (X + Y - W) (X - Y - W) (X - Y + Z - 2 * W) 1 0 0
      (by zpt) (by zpt) (by zpt) (by zbd) (by zbd) (by zbd) (by zbd) (by zbd) (by zbd)
      (by decide) (by zeq)⟩
  · exact Or.inr ⟨_, _, _, rfl, flow_mC3 (X - Y) (X - Y - W) (-X - Y + W) (X + Y - W) (-X + Y + W) (X - Y + Z - 2 * W) 0 0 1
      (by zpt) (by zpt) (by zpt) (by zbd) (by zbd) (by zbd) (by zbd) (by zbd) (by zbd)
      (by decide) (by zeq)⟩
  · exact Or.inr ⟨_, _, _, rfl, flow_mC3 (-X + Y) (X - Y - W) (-X - Y + W) (-X - Y + W) (X - Y - W) (X - Y + Z - 2 * W) 0 0 1
      (by zpt) (by zpt) (by zpt) (by zbd) (by zbd) (by zbd) (by zbd) (by zbd) (by zbd)
      (by decide) (by zeq)⟩
  · exact Or.inr ⟨_, _, _, rfl, flow_mC3 (-X + Y) (X - Y - W) (-X - Y + W) (X + Y - W) (-X + Y + W) (X - Y + Z - 2 * W) 0 0 1
      (by zpt) (by zpt) (by zpt) (by zbd) (by zbd) (by zbd) (by zbd) (by zbd) (by zbd)
      (by decide) (by zeq)⟩
  · exact Or.inr ⟨_, _, _, rfl, flow_mC3 (X - Y) (X - Y - W) (-X - Y + W) (-X - Y + W) (X - Y - W) (X - Y + Z - 2 * W) 0 0 1
      (by zpt) (by zpt) (by zpt) (by zbd) (by zbd) (by zbd) (by zbd) (by zbd) (by zbd)
      (by decide) (by zeq)⟩
  · exact Or.inr ⟨_, _, _, rfl, flow_mC3 (-X + Y) (X - Y - W) (X + Y - W) (-X - Y + W) (-X + Y + W) (X - Y + Z - 2 * W) 0 1 0
      (by zpt) (by zpt) (by zpt) (by zbd) (by zbd) (by zbd) (by zbd) (by zbd) (by zbd)
      (by decide) (by zeq)⟩
  · exact Or.inr ⟨_, _, _, rfl, flow_mC3 (X - Y) (-X + Y + W) (-X - Y + W) (X + Y - W) (X - Y - W) 0 1 0 0
      (by zpt) (by zpt) (by zpt) (by zbd) (by zbd) (by zbd) (by zbd) (by zbd) (by zbd)
      (by decide) (by zeq)⟩
  · exact Or.inr ⟨_, _, _, rfl, flow_mC3 (X - Y) (X - Y - W) (-X - Y + W) (-X - Y + W) (X - Y - W) 0 (-1) (-1) 0
      (by zpt) (by zpt) (by zpt) (by zbd) (by zbd) (by zbd) (by zbd) (by zbd) (by zbd)
      (by decide) (by zeq)⟩
  · exact Or.inr ⟨_, _, _, rfl, flow_mC3 (-X + Y) (X - Y - W) (X + Y - W) (-X - Y + W) (-X + Y + W) 0 0 1 0
      (by zpt) (by zpt) (by zpt) (by zbd) (by zbd) (by zbd) (by zbd) (by zbd) (by zbd)
      (by decide) (by zeq)⟩
  · exact Or.inr ⟨_, _, _, rfl, flow_mC3 (-X + Y) (X - Y - W) (-X - Y + W) (-X - Y + W) (X - Y - W) 0 (-1) (-1) 0
      (by zpt) (by zpt) (by zpt) (by zbd) (by zbd) (by zbd) (by zbd) (by zbd) (by zbd)
      (by decide) (by zeq)⟩

end Wulfric
