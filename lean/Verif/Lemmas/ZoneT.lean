import Verif.Lemmas.ZoneA

/-! # Zones of triclinic lattices: generated certificates -/

namespace Wulfric

open Matrix _root_.Spec

theorem flow_aP3X {A B C X Y Z x y z : ℝ} (f12 f13 f23 f10 f20 f30 : ℝ) (m1 m2 m3 : ℤ)
    (h1 : 2 * (x * (-A + Y) + y * (X - Z) + z * (C - Y)) = f12 + f13 + f10)
    (h2 : 2 * (x * (-Y) + y * (-X) + z * (-C)) = -f12 + f23 + f20)
    (h3 : 2 * (x * Z + y * B + z * X) = -f13 - f23 + f30)
    (b12 : |f12| ≤ C - Y) (b13 : |f13| ≤ -X + Z) (b23 : |f23| ≤ X)
    (b10 : |f10| ≤ A + X - Y - Z) (b20 : |f20| ≤ -X + Y) (b30 : |f30| ≤ B - Z)
    (hm : (m1, m2, m3) ≠ (0, 0, 0))
    (he : flowSum (C - Y) (-X + Z) X (A + X - Y - Z) (-X + Y) (B - Z)
      f12 f13 f23 f10 f20 f30 m1 m2 m3 = 0) :
    OnZone A B C Z Y X x y z := by
  have key : ∀ m1 m2 m3 : ℤ, zoneForm A B C Z Y X x y z
      (-m1) (m3) (m1 - m2) =
      flowSum (C - Y) (-X + Z) X (A + X - Y - Z) (-X + Y) (B - Z)
        f12 f13 f23 f10 f20 f30 m1 m2 m3 := by
    intro m1 m2 m3
    unfold zoneForm flowSum
    push_cast
    linear_combination -m1 * h1 - m2 * h2 - m3 * h3
  constructor
  · intro n1 n2 n3
    have e : zoneForm A B C Z Y X x y z n1 n2 n3 =
        flowSum (C - Y) (-X + Z) X (A + X - Y - Z) (-X + Y) (B - Z)
          f12 f13 f23 f10 f20 f30 (-n1) (-n1 - n3) (n2) := by
      unfold zoneForm flowSum
      push_cast
      linear_combination -(-n1) * h1 - (-n1 - n3) * h2 - (n2) * h3
    rw [e]
    exact flow_nonneg b12 b13 b23 b10 b20 b30 _ _ _
  · refine ⟨_, _, _, ?_, (key m1 m2 m3).trans he⟩
    simp only [ne_eq, Prod.mk.injEq] at hm ⊢
    omega

theorem flow_aP3Y {A B C X Y Z x y z : ℝ} (f12 f13 f23 f10 f20 f30 : ℝ) (m1 m2 m3 : ℤ)
    (h1 : 2 * (x * (-A) + y * (-Z) + z * (-Y)) = f12 + f13 + f10)
    (h2 : 2 * (x * Y + y * X + z * C) = -f12 + f23 + f20)
    (h3 : 2 * (x * (-Y + Z) + y * (B - X) + z * (-C + X)) = -f13 - f23 + f30)
    (b12 : |f12| ≤ Y) (b13 : |f13| ≤ -Y + Z) (b23 : |f23| ≤ C - X)
    (b10 : |f10| ≤ A - Z) (b20 : |f20| ≤ X - Y) (b30 : |f30| ≤ B - X + Y - Z)
    (hm : (m1, m2, m3) ≠ (0, 0, 0))
    (he : flowSum Y (-Y + Z) (C - X) (A - Z) (X - Y) (B - X + Y - Z)
      f12 f13 f23 f10 f20 f30 m1 m2 m3 = 0) :
    OnZone A B C Z Y X x y z := by
  have key : ∀ m1 m2 m3 : ℤ, zoneForm A B C Z Y X x y z
      (-m1) (m3) (m2 - m3) =
      flowSum Y (-Y + Z) (C - X) (A - Z) (X - Y) (B - X + Y - Z)
        f12 f13 f23 f10 f20 f30 m1 m2 m3 := by
    intro m1 m2 m3
    unfold zoneForm flowSum
    push_cast
    linear_combination -m1 * h1 - m2 * h2 - m3 * h3
  constructor
  · intro n1 n2 n3
    have e : zoneForm A B C Z Y X x y z n1 n2 n3 =
        flowSum Y (-Y + Z) (C - X) (A - Z) (X - Y) (B - X + Y - Z)
          f12 f13 f23 f10 f20 f30 (-n1) (n2 + n3) (n2) := by
      unfold zoneForm flowSum
      push_cast
      linear_combination -(-n1) * h1 - (n2 + n3) * h2 - (n2) * h3
    rw [e]
    exact flow_nonneg b12 b13 b23 b10 b20 b30 _ _ _
  · refine ⟨_, _, _, ?_, (key m1 m2 m3).trans he⟩
    simp only [ne_eq, Prod.mk.injEq] at hm ⊢
    omega

theorem flow_aP3Z {A B C X Y Z x y z : ℝ} (f12 f13 f23 f10 f20 f30 : ℝ) (m1 m2 m3 : ℤ)
    (h1 : 2 * (x * (-A) + y * (-Z) + z * (-Y)) = f12 + f13 + f10)
    (h2 : 2 * (x * (Y - Z) + y * (-B + X) + z * (C - X)) = -f12 + f23 + f20)
    (h3 : 2 * (x * Z + y * B + z * X) = -f13 - f23 + f30)
    (b12 : |f12| ≤ Y - Z) (b13 : |f13| ≤ Z) (b23 : |f23| ≤ B - X)
    (b10 : |f10| ≤ A - Y) (b20 : |f20| ≤ C - X - Y + Z) (b30 : |f30| ≤ X - Z)
    (hm : (m1, m2, m3) ≠ (0, 0, 0))
    (he : flowSum (Y - Z) Z (B - X) (A - Y) (C - X - Y + Z) (X - Z)
      f12 f13 f23 f10 f20 f30 m1 m2 m3 = 0) :
    OnZone A B C Z Y X x y z := by
  have key : ∀ m1 m2 m3 : ℤ, zoneForm A B C Z Y X x y z
      (-m1) (-m2 + m3) (m2) =
      flowSum (Y - Z) Z (B - X) (A - Y) (C - X - Y + Z) (X - Z)
        f12 f13 f23 f10 f20 f30 m1 m2 m3 := by
    intro m1 m2 m3
    unfold zoneForm flowSum
    push_cast
    linear_combination -m1 * h1 - m2 * h2 - m3 * h3
  constructor
  · intro n1 n2 n3
    have e : zoneForm A B C Z Y X x y z n1 n2 n3 =
        flowSum (Y - Z) Z (B - X) (A - Y) (C - X - Y + Z) (X - Z)
          f12 f13 f23 f10 f20 f30 (-n1) (n3) (n2 + n3) := by
      unfold zoneForm flowSum
      push_cast
      linear_combination -(-n1) * h1 - (n3) * h2 - (n2 + n3) * h3
    rw [e]
    exact flow_nonneg b12 b13 b23 b10 b20 b30 _ _ _
  · refine ⟨_, _, _, ?_, (key m1 m2 m3).trans he⟩
    simp only [ne_eq, Prod.mk.injEq] at hm ⊢
    omega

theorem flow_aP2 {A B C X Y Z x y z : ℝ} (f12 f13 f23 f10 f20 f30 : ℝ) (m1 m2 m3 : ℤ)
    (h1 : 2 * (x * (-A - Y - Z) + y * (-B - X - Z) + z * (-C - X - Y)) = f12 + f13 + f10)
    (h2 : 2 * (x * Y + y * X + z * C) = -f12 + f23 + f20)
    (h3 : 2 * (x * Z + y * B + z * X) = -f13 - f23 + f30)
    (b12 : |f12| ≤ C + X + Y) (b13 : |f13| ≤ B + X + Z) (b23 : |f23| ≤ -X)
    (b10 : |f10| ≤ A + Y + Z) (b20 : |f20| ≤ -Y) (b30 : |f30| ≤ -Z)
    (hm : (m1, m2, m3) ≠ (0, 0, 0))
    (he : flowSum (C + X + Y) (B + X + Z) (-X) (A + Y + Z) (-Y) (-Z)
      f12 f13 f23 f10 f20 f30 m1 m2 m3 = 0) :
    OnZone A B C Z Y X x y z := by
  have key : ∀ m1 m2 m3 : ℤ, zoneForm A B C Z Y X x y z
      (-m1) (-m1 + m3) (-m1 + m2) =
      flowSum (C + X + Y) (B + X + Z) (-X) (A + Y + Z) (-Y) (-Z)
        f12 f13 f23 f10 f20 f30 m1 m2 m3 := by
    intro m1 m2 m3
    unfold zoneForm flowSum
    push_cast
    linear_combination -m1 * h1 - m2 * h2 - m3 * h3
  constructor
  · intro n1 n2 n3
    have e : zoneForm A B C Z Y X x y z n1 n2 n3 =
        flowSum (C + X + Y) (B + X + Z) (-X) (A + Y + Z) (-Y) (-Z)
          f12 f13 f23 f10 f20 f30 (-n1) (-n1 + n3) (-n1 + n2) := by
      unfold zoneForm flowSum
      push_cast
      linear_combination -(-n1) * h1 - (-n1 + n3) * h2 - (-n1 + n2) * h3
    rw [e]
    exact flow_nonneg b12 b13 b23 b10 b20 b30 _ _ _
  · refine ⟨_, _, _, ?_, (key m1 m2 m3).trans he⟩
    simp only [ne_eq, Prod.mk.injEq] at hm ⊢
    omega

theorem zone_aP3X {A B C X Y Z : ℝ}
    (hX0 : 0 ≤ X) (hY0 : 0 ≤ Y) (hZ0 : 0 ≤ Z)
    (h1 : 2 * Z ≤ A) (h2 : 2 * Z ≤ B) (h3 : 2 * Y ≤ A) (h4 : 2 * Y ≤ C) (h5 : 2 * X ≤ B)
    (h6 : 2 * X ≤ C) (m1 : X ≤ Y) (m2 : X ≤ Z) :
    ∀ p ∈ hpkotTable92, p.1 = "R2" ∨ GoodPoint A B C Z Y X p := by
  simp only [hpkotTable92, List.forall_mem_cons, List.not_mem_nil, false_imp_iff, implies_true, and_true]
  refine ⟨?_, ?_, ?_, ?_, ?_, ?_, ?_, ?_, ?_⟩
  · exact Or.inr <| Or.inl ⟨rfl, rfl⟩
  · exact Or.inr <| Or.inr ⟨_, _, _, rfl, flow_aP3X (C - Y) 0 (-X) 0 (X - Y) 0 0 (-1) 0
      (by zpt) (by zpt) (by zpt) (by zbd) (by zbd) (by zbd) (by zbd) (by zbd) (by zbd)
      (by decide) (by zeq)⟩
  · exact Or.inr <| Or.inr ⟨_, _, _, rfl, flow_aP3X 0 (X - Z) (-X) 0 0 (B - Z) 0 0 1
      (by zpt) (by zpt) (by zpt) (by zbd) (by zbd) (by zbd) (by zbd) (by zbd) (by zbd)
      (by decide) (by zeq)⟩
  · exact Or.inr <| Or.inr ⟨_, _, _, rfl, flow_aP3X 0 (-X + Z) X 0 0 (-B + Z) 0 0 (-1)
      (by zpt) (by zpt) (by zpt) (by zbd) (by zbd) (by zbd) (by zbd) (by zbd) (by zbd)
      (by decide) (by zeq)⟩
  · exact Or.inr <| Or.inr ⟨_, _, _, rfl, flow_aP3X 0 (X - Z) (-X) (-A - X + Y + Z) (X - Y) 0 (-1) (-1) 0
      (by zpt) (by zpt) (by zpt) (by zbd) (by zbd) (by zbd) (by zbd) (by zbd) (by zbd)
      (by decide) (by zeq)⟩
  · exact Or.inr <| Or.inr ⟨_, _, _, rfl, flow_aP3X 0 0 0 (-A - X + Y + Z) (X - Y) (-B + Z) (-1) (-1) (-1)
      (by zpt) (by zpt) (by zpt) (by zbd) (by zbd) (by zbd) (by zbd) (by zbd) (by zbd)
      (by decide) (by zeq)⟩
  · exact Or.inr <| Or.inr ⟨_, _, _, rfl, flow_aP3X (C - Y) (-X + Z) 0 (A + X - Y - Z) 0 0 1 0 0
      (by zpt) (by zpt) (by zpt) (by zbd) (by zbd) (by zbd) (by zbd) (by zbd) (by zbd)
      (by decide) (by zeq)⟩
  · exact Or.inr <| Or.inr ⟨_, _, _, rfl, flow_aP3X (C - Y) (-X + Z) 0 0 (X - Y) (-B + Z) 0 (-1) (-1)
      (by zpt) (by zpt) (by zpt) (by zbd) (by zbd) (by zbd) (by zbd) (by zbd) (by zbd)
      (by decide) (by zeq)⟩
  · exact Or.inl (by simp)

theorem zone_TRIbX {A B C X Y Z : ℝ}
    (hX0 : 0 ≤ X) (hY0 : 0 ≤ Y) (hZ0 : 0 ≤ Z)
    (h1 : 2 * Z ≤ A) (h2 : 2 * Z ≤ B) (h3 : 2 * Y ≤ A) (h4 : 2 * Y ≤ C) (h5 : 2 * X ≤ B)
    (h6 : 2 * X ≤ C) (m1 : X ≤ Y) (m2 : X ≤ Z) :
    ∀ p ∈ scTable21, p.1 = "N" ∨ GoodPoint A B C Z Y X p := by
  simp only [scTable21, List.forall_mem_cons, List.not_mem_nil, false_imp_iff, implies_true, and_true]
  refine ⟨?_, ?_, ?_, ?_, ?_, ?_, ?_, ?_⟩
  · exact Or.inr <| Or.inl ⟨rfl, rfl⟩
  · exact Or.inr <| Or.inr ⟨_, _, _, rfl, flow_aP3X 0 0 0 (-A - X + Y + Z) (X - Y) (-B + Z) (-1) (-1) (-1)
      (by zpt) (by zpt) (by zpt) (by zbd) (by zbd) (by zbd) (by zbd) (by zbd) (by zbd)
      (by decide) (by zeq)⟩
  · exact Or.inr <| Or.inr ⟨_, _, _, rfl, flow_aP3X (C - Y) 0 (-X) 0 (X - Y) 0 0 (-1) 0
      (by zpt) (by zpt) (by zpt) (by zbd) (by zbd) (by zbd) (by zbd) (by zbd) (by zbd)
      (by decide) (by zeq)⟩
  · exact Or.inl (by simp)
  · exact Or.inr <| Or.inr ⟨_, _, _, rfl, flow_aP3X (C - Y) (-X + Z) 0 0 (X - Y) (-B + Z) 0 (-1) (-1)
      (by zpt) (by zpt) (by zpt) (by zbd) (by zbd) (by zbd) (by zbd) (by zbd) (by zbd)
      (by decide) (by zeq)⟩
  · exact Or.inr <| Or.inr ⟨_, _, _, rfl, flow_aP3X 0 (-X + Z) X 0 0 (-B + Z) 0 0 (-1)
      (by zpt) (by zpt) (by zpt) (by zbd) (by zbd) (by zbd) (by zbd) (by zbd) (by zbd)
      (by decide) (by zeq)⟩
  · exact Or.inr <| Or.inr ⟨_, _, _, rfl, flow_aP3X 0 (X - Z) (-X) (-A - X + Y + Z) (X - Y) 0 (-1) (-1) 0
      (by zpt) (by zpt) (by zpt) (by zbd) (by zbd) (by zbd) (by zbd) (by zbd) (by zbd)
      (by decide) (by zeq)⟩
  · exact Or.inr <| Or.inr ⟨_, _, _, rfl, flow_aP3X (C - Y) (-X + Z) 0 (A + X - Y - Z) 0 0 1 0 0
      (by zpt) (by zpt) (by zpt) (by zbd) (by zbd) (by zbd) (by zbd) (by zbd) (by zbd)
      (by decide) (by zeq)⟩

theorem zone_aP3Y {A B C X Y Z : ℝ}
    (hX0 : 0 ≤ X) (hY0 : 0 ≤ Y) (hZ0 : 0 ≤ Z)
    (h1 : 2 * Z ≤ A) (h2 : 2 * Z ≤ B) (h3 : 2 * Y ≤ A) (h4 : 2 * Y ≤ C) (h5 : 2 * X ≤ B)
    (h6 : 2 * X ≤ C) (m1 : Y ≤ X) (m2 : Y ≤ Z) :
    ∀ p ∈ hpkotTable92, p.1 = "R2" ∨ GoodPoint A B C Z Y X p := by
  simp only [hpkotTable92, List.forall_mem_cons, List.not_mem_nil, false_imp_iff, implies_true, and_true]
  refine ⟨?_, ?_, ?_, ?_, ?_, ?_, ?_, ?_, ?_⟩
  · exact Or.inr <| Or.inl ⟨rfl, rfl⟩
  · exact Or.inr <| Or.inr ⟨_, _, _, rfl, flow_aP3Y (-Y) 0 (C - X) 0 (X - Y) 0 0 1 0
      (by zpt) (by zpt) (by zpt) (by zbd) (by zbd) (by zbd) (by zbd) (by zbd) (by zbd)
      (by decide) (by zeq)⟩
  · exact Or.inr <| Or.inr ⟨_, _, _, rfl, flow_aP3Y (-Y) (Y - Z) 0 0 (X - Y) (B - X + Y - Z) 0 1 1
      (by zpt) (by zpt) (by zpt) (by zbd) (by zbd) (by zbd) (by zbd) (by zbd) (by zbd)
      (by decide) (by zeq)⟩
  · exact Or.inr <| Or.inr ⟨_, _, _, rfl, flow_aP3Y Y (-Y + Z) 0 0 (-X + Y) (-B + X - Y + Z) 0 (-1) (-1)
      (by zpt) (by zpt) (by zpt) (by zbd) (by zbd) (by zbd) (by zbd) (by zbd) (by zbd)
      (by decide) (by zeq)⟩
  · exact Or.inr <| Or.inr ⟨_, _, _, rfl, flow_aP3Y (-Y) (Y - Z) 0 (-A + Z) 0 0 (-1) 0 0
      (by zpt) (by zpt) (by zpt) (by zbd) (by zbd) (by zbd) (by zbd) (by zbd) (by zbd)
      (by decide) (by zeq)⟩
  · exact Or.inr <| Or.inr ⟨_, _, _, rfl, flow_aP3Y 0 0 0 (-A + Z) (-X + Y) (-B + X - Y + Z) (-1) (-1) (-1)
      (by zpt) (by zpt) (by zpt) (by zbd) (by zbd) (by zbd) (by zbd) (by zbd) (by zbd)
      (by decide) (by zeq)⟩
  · exact Or.inr <| Or.inr ⟨_, _, _, rfl, flow_aP3Y 0 (-Y + Z) (C - X) (A - Z) (X - Y) 0 1 1 0
      (by zpt) (by zpt) (by zpt) (by zbd) (by zbd) (by zbd) (by zbd) (by zbd) (by zbd)
      (by decide) (by zeq)⟩
  · exact Or.inr <| Or.inr ⟨_, _, _, rfl, flow_aP3Y 0 (-Y + Z) (C - X) 0 0 (-B + X - Y + Z) 0 0 (-1)
      (by zpt) (by zpt) (by zpt) (by zbd) (by zbd) (by zbd) (by zbd) (by zbd) (by zbd)
      (by decide) (by zeq)⟩
  · exact Or.inl (by simp)

theorem zone_TRIbY {A B C X Y Z : ℝ}
    (hX0 : 0 ≤ X) (hY0 : 0 ≤ Y) (hZ0 : 0 ≤ Z)
    (h1 : 2 * Z ≤ A) (h2 : 2 * Z ≤ B) (h3 : 2 * Y ≤ A) (h4 : 2 * Y ≤ C) (h5 : 2 * X ≤ B)
    (h6 : 2 * X ≤ C) (m1 : Y ≤ X) (m2 : Y ≤ Z) :
    ∀ p ∈ scTable21, p.1 = "N" ∨ GoodPoint A B C Z Y X p := by
  simp only [scTable21, List.forall_mem_cons, List.not_mem_nil, false_imp_iff, implies_true, and_true]
  refine ⟨?_, ?_, ?_, ?_, ?_, ?_, ?_, ?_⟩
  · exact Or.inr <| Or.inl ⟨rfl, rfl⟩
  · exact Or.inr <| Or.inr ⟨_, _, _, rfl, flow_aP3Y 0 0 0 (-A + Z) (-X + Y) (-B + X - Y + Z) (-1) (-1) (-1)
      (by zpt) (by zpt) (by zpt) (by zbd) (by zbd) (by zbd) (by zbd) (by zbd) (by zbd)
      (by decide) (by zeq)⟩
  · exact Or.inr <| Or.inr ⟨_, _, _, rfl, flow_aP3Y (-Y) 0 (C - X) 0 (X - Y) 0 0 1 0
      (by zpt) (by zpt) (by zpt) (by zbd) (by zbd) (by zbd) (by zbd) (by zbd) (by zbd)
      (by decide) (by zeq)⟩
  · exact Or.inl (by simp)
  · exact Or.inr <| Or.inr ⟨_, _, _, rfl, flow_aP3Y 0 (-Y + Z) (C - X) 0 0 (-B + X - Y + Z) 0 0 (-1)
      (by zpt) (by zpt) (by zpt) (by zbd) (by zbd) (by zbd) (by zbd) (by zbd) (by zbd)
      (by decide) (by zeq)⟩
  · exact Or.inr <| Or.inr ⟨_, _, _, rfl, flow_aP3Y Y (-Y + Z) 0 0 (-X + Y) (-B + X - Y + Z) 0 (-1) (-1)
      (by zpt) (by zpt) (by zpt) (by zbd) (by zbd) (by zbd) (by zbd) (by zbd) (by zbd)
      (by decide) (by zeq)⟩
  · exact Or.inr <| Or.inr ⟨_, _, _, rfl, flow_aP3Y (-Y) (Y - Z) 0 (-A + Z) 0 0 (-1) 0 0
      (by zpt) (by zpt) (by zpt) (by zbd) (by zbd) (by zbd) (by zbd) (by zbd) (by zbd)
      (by decide) (by zeq)⟩
  · exact Or.inr <| Or.inr ⟨_, _, _, rfl, flow_aP3Y 0 (-Y + Z) (C - X) (A - Z) (X - Y) 0 1 1 0
      (by zpt) (by zpt) (by zpt) (by zbd) (by zbd) (by zbd) (by zbd) (by zbd) (by zbd)
      (by decide) (by zeq)⟩

theorem zone_aP3Z {A B C X Y Z : ℝ}
    (hX0 : 0 ≤ X) (hY0 : 0 ≤ Y) (hZ0 : 0 ≤ Z)
    (h1 : 2 * Z ≤ A) (h2 : 2 * Z ≤ B) (h3 : 2 * Y ≤ A) (h4 : 2 * Y ≤ C) (h5 : 2 * X ≤ B)
    (h6 : 2 * X ≤ C) (m1 : Z ≤ X) (m2 : Z ≤ Y) :
    ∀ p ∈ hpkotTable92, GoodPoint A B C Z Y X p := by
  simp only [hpkotTable92, List.forall_mem_cons, List.not_mem_nil, false_imp_iff, implies_true, and_true]
  refine ⟨?_, ?_, ?_, ?_, ?_, ?_, ?_, ?_, ?_⟩
  · exact Or.inl ⟨rfl, rfl⟩
  · exact Or.inr ⟨_, _, _, rfl, flow_aP3Z (-Y + Z) (-Z) 0 0 (C - X - Y + Z) (X - Z) 0 1 1
      (by zpt) (by zpt) (by zpt) (by zbd) (by zbd) (by zbd) (by zbd) (by zbd) (by zbd)
      (by decide) (by zeq)⟩
  · exact Or.inr ⟨_, _, _, rfl, flow_aP3Z 0 (-Z) (-B + X) 0 0 (X - Z) 0 0 1
      (by zpt) (by zpt) (by zpt) (by zbd) (by zbd) (by zbd) (by zbd) (by zbd) (by zbd)
      (by decide) (by zeq)⟩
  · exact Or.inr ⟨_, _, _, rfl, flow_aP3Z 0 Z (B - X) 0 0 (-X + Z) 0 0 (-1)
      (by zpt) (by zpt) (by zpt) (by zbd) (by zbd) (by zbd) (by zbd) (by zbd) (by zbd)
      (by decide) (by zeq)⟩
  · exact Or.inr ⟨_, _, _, rfl, flow_aP3Z (-Y + Z) (-Z) 0 (-A + Y) 0 0 (-1) 0 0
      (by zpt) (by zpt) (by zpt) (by zbd) (by zbd) (by zbd) (by zbd) (by zbd) (by zbd)
      (by decide) (by zeq)⟩
  · exact Or.inr ⟨_, _, _, rfl, flow_aP3Z (-Y + Z) 0 (B - X) (-A + Y) 0 (-X + Z) (-1) 0 (-1)
      (by zpt) (by zpt) (by zpt) (by zbd) (by zbd) (by zbd) (by zbd) (by zbd) (by zbd)
      (by decide) (by zeq)⟩
  · exact Or.inr ⟨_, _, _, rfl, flow_aP3Z 0 0 0 (A - Y) (C - X - Y + Z) (X - Z) 1 1 1
      (by zpt) (by zpt) (by zpt) (by zbd) (by zbd) (by zbd) (by zbd) (by zbd) (by zbd)
      (by decide) (by zeq)⟩
  · exact Or.inr ⟨_, _, _, rfl, flow_aP3Z (-Y + Z) 0 (B - X) 0 (C - X - Y + Z) 0 0 1 0
      (by zpt) (by zpt) (by zpt) (by zbd) (by zbd) (by zbd) (by zbd) (by zbd) (by zbd)
      (by decide) (by zeq)⟩
  · exact Or.inr ⟨_, _, _, rfl, flow_aP3Z 0 Z (B - X) (A - Y) (C - X - Y + Z) 0 1 1 0
      (by zpt) (by zpt) (by zpt) (by zbd) (by zbd) (by zbd) (by zbd) (by zbd) (by zbd)
      (by decide) (by zeq)⟩

theorem zone_TRIbZ {A B C X Y Z : ℝ}
    (hX0 : 0 ≤ X) (hY0 : 0 ≤ Y) (hZ0 : 0 ≤ Z)
    (h1 : 2 * Z ≤ A) (h2 : 2 * Z ≤ B) (h3 : 2 * Y ≤ A) (h4 : 2 * Y ≤ C) (h5 : 2 * X ≤ B)
    (h6 : 2 * X ≤ C) (m1 : Z ≤ X) (m2 : Z ≤ Y) :
    ∀ p ∈ scTable21, GoodPoint A B C Z Y X p := by
  simp only [scTable21, List.forall_mem_cons, List.not_mem_nil, false_imp_iff, implies_true, and_true]
  refine ⟨?_, ?_, ?_, ?_, ?_, ?_, ?_, ?_⟩
  · exact Or.inl ⟨rfl, rfl⟩
  · exact Or.inr ⟨_, _, _, rfl, flow_aP3Z (-Y + Z) 0 (B - X) (-A + Y) 0 (-X + Z) (-1) 0 (-1)
      (by zpt) (by zpt) (by zpt) (by zbd) (by zbd) (by zbd) (by zbd) (by zbd) (by zbd)
      (by decide) (by zeq)⟩
  · exact Or.inr ⟨_, _, _, rfl, flow_aP3Z (-Y + Z) (-Z) 0 0 (C - X - Y + Z) (X - Z) 0 1 1
      (by zpt) (by zpt) (by zpt) (by zbd) (by zbd) (by zbd) (by zbd) (by zbd) (by zbd)
      (by decide) (by zeq)⟩
  · exact Or.inr ⟨_, _, _, rfl, flow_aP3Z 0 Z (B - X) (A - Y) (C - X - Y + Z) 0 1 1 0
      (by zpt) (by zpt) (by zpt) (by zbd) (by zbd) (by zbd) (by zbd) (by zbd) (by zbd)
      (by decide) (by zeq)⟩
  · exact Or.inr ⟨_, _, _, rfl, flow_aP3Z (-Y + Z) 0 (B - X) 0 (C - X - Y + Z) 0 0 1 0
      (by zpt) (by zpt) (by zpt) (by zbd) (by zbd) (by zbd) (by zbd) (by zbd) (by zbd)
      (by decide) (by zeq)⟩
  · exact Or.inr ⟨_, _, _, rfl, flow_aP3Z 0 Z (B - X) 0 0 (-X + Z) 0 0 (-1)
      (by zpt) (by zpt) (by zpt) (by zbd) (by zbd) (by zbd) (by zbd) (by zbd) (by zbd)
      (by decide) (by zeq)⟩
  · exact Or.inr ⟨_, _, _, rfl, flow_aP3Z (-Y + Z) (-Z) 0 (-A + Y) 0 0 (-1) 0 0
      (by zpt) (by zpt) (by zpt) (by zbd) (by zbd) (by zbd) (by zbd) (by zbd) (by zbd)
      (by decide) (by zeq)⟩
  · exact Or.inr ⟨_, _, _, rfl, flow_aP3Z 0 0 0 (A - Y) (C - X - Y + Z) (X - Z) 1 1 1
      (by zpt) (by zpt) (by zpt) (by zbd) (by zbd) (by zbd) (by zbd) (by zbd) (by zbd)
      (by decide) (by zeq)⟩

theorem zone_aP2 {A B C X Y Z : ℝ}
    (hX0 : X ≤ 0) (hY0 : Y ≤ 0) (hZ0 : Z ≤ 0)
    (h1 : 0 ≤ A + Y + Z) (h2 : 0 ≤ B + X + Z) (h3 : 0 ≤ C + X + Y) :
    ∀ p ∈ hpkotTable91, p.1 = "Z" ∨ GoodPoint A B C Z Y X p := by
  simp only [hpkotTable91, List.forall_mem_cons, List.not_mem_nil, false_imp_iff, implies_true, and_true]
  refine ⟨?_, ?_, ?_, ?_, ?_, ?_, ?_, ?_⟩
  · exact Or.inr <| Or.inl ⟨rfl, rfl⟩
  · exact Or.inl (by simp)
  · exact Or.inr <| Or.inr ⟨_, _, _, rfl, flow_aP2 0 (-B - X - Z) X 0 0 (-Z) 0 0 1
      (by zpt) (by zpt) (by zpt) (by zbd) (by zbd) (by zbd) (by zbd) (by zbd) (by zbd)
      (by decide) (by zeq)⟩
  · exact Or.inr <| Or.inr ⟨_, _, _, rfl, flow_aP2 0 0 0 (-A - Y - Z) Y Z (-1) (-1) (-1)
      (by zpt) (by zpt) (by zpt) (by zbd) (by zbd) (by zbd) (by zbd) (by zbd) (by zbd)
      (by decide) (by zeq)⟩
  · exact Or.inr <| Or.inr ⟨_, _, _, rfl, flow_aP2 0 (-B - X - Z) X (-A - Y - Z) Y 0 (-1) (-1) 0
      (by zpt) (by zpt) (by zpt) (by zbd) (by zbd) (by zbd) (by zbd) (by zbd) (by zbd)
      (by decide) (by zeq)⟩
  · exact Or.inr <| Or.inr ⟨_, _, _, rfl, flow_aP2 (-C - X - Y) 0 (-X) (-A - Y - Z) 0 Z (-1) 0 (-1)
      (by zpt) (by zpt) (by zpt) (by zbd) (by zbd) (by zbd) (by zbd) (by zbd) (by zbd)
      (by decide) (by zeq)⟩
  · exact Or.inr <| Or.inr ⟨_, _, _, rfl, flow_aP2 (-C - X - Y) (-B - X - Z) 0 0 (-Y) (-Z) 0 1 1
      (by zpt) (by zpt) (by zpt) (by zbd) (by zbd) (by zbd) (by zbd) (by zbd) (by zbd)
      (by decide) (by zeq)⟩
  · exact Or.inr <| Or.inr ⟨_, _, _, rfl, flow_aP2 (-C - X - Y) (-B - X - Z) 0 (-A - Y - Z) 0 0 (-1) 0 0
      (by zpt) (by zpt) (by zpt) (by zbd) (by zbd) (by zbd) (by zbd) (by zbd) (by zbd)
      (by decide) (by zeq)⟩

theorem zone_TRIa {A B C X Y Z : ℝ}
    (hX0 : X ≤ 0) (hY0 : Y ≤ 0) (hZ0 : Z ≤ 0)
    (h1 : 0 ≤ A + Y + Z) (h2 : 0 ≤ B + X + Z) (h3 : 0 ≤ C + X + Y) :
    ∀ p ∈ scTable20, GoodPoint A B C Z Y X p := by
  simp only [scTable20, List.forall_mem_cons, List.not_mem_nil, false_imp_iff, implies_true, and_true]
  refine ⟨?_, ?_, ?_, ?_, ?_, ?_, ?_, ?_⟩
  · exact Or.inl ⟨rfl, rfl⟩
  · exact Or.inr ⟨_, _, _, rfl, flow_aP2 0 (-B - X - Z) X (-A - Y - Z) Y 0 (-1) (-1) 0
      (by zpt) (by zpt) (by zpt) (by zbd) (by zbd) (by zbd) (by zbd) (by zbd) (by zbd)
      (by decide) (by zeq)⟩
  · exact Or.inr ⟨_, _, _, rfl, flow_aP2 (-C - X - Y) (-B - X - Z) 0 0 (-Y) (-Z) 0 1 1
      (by zpt) (by zpt) (by zpt) (by zbd) (by zbd) (by zbd) (by zbd) (by zbd) (by zbd)
      (by decide) (by zeq)⟩
  · exact Or.inr ⟨_, _, _, rfl, flow_aP2 (-C - X - Y) 0 (-X) (-A - Y - Z) 0 Z (-1) 0 (-1)
      (by zpt) (by zpt) (by zpt) (by zbd) (by zbd) (by zbd) (by zbd) (by zbd) (by zbd)
      (by decide) (by zeq)⟩
  · exact Or.inr ⟨_, _, _, rfl, flow_aP2 (-C - X - Y) (-B - X - Z) 0 (-A - Y - Z) 0 0 (-1) 0 0
      (by zpt) (by zpt) (by zpt) (by zbd) (by zbd) (by zbd) (by zbd) (by zbd) (by zbd)
      (by decide) (by zeq)⟩
  · exact Or.inr ⟨_, _, _, rfl, flow_aP2 0 0 0 (-A - Y - Z) Y Z (-1) (-1) (-1)
      (by zpt) (by zpt) (by zpt) (by zbd) (by zbd) (by zbd) (by zbd) (by zbd) (by zbd)
      (by decide) (by zeq)⟩
  · exact Or.inr ⟨_, _, _, rfl, flow_aP2 0 (-B - X - Z) X 0 0 (-Z) 0 0 1
      (by zpt) (by zpt) (by zpt) (by zbd) (by zbd) (by zbd) (by zbd) (by zbd) (by zbd)
      (by decide) (by zeq)⟩
  · exact Or.inr ⟨_, _, _, rfl, flow_aP2 (-C - X - Y) 0 (-X) 0 (-Y) 0 0 1 0
      (by zpt) (by zpt) (by zpt) (by zbd) (by zbd) (by zbd) (by zbd) (by zbd) (by zbd)
      (by decide) (by zeq)⟩

end Wulfric
