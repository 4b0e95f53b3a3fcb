import Verif.Lemmas.ZoneA

/-! # Zones of orthorhombic C, A and hexagonal lattices, HPKOT: generated certificates -/

namespace Wulfric

open Matrix _root_.Spec

theorem flow_oC1 {A B C x y z : ℝ} (f12 f13 f23 f10 f20 f30 : ℝ) (m1 m2 m3 : ℤ)
    (h1 : 2 * (x * (-A - B) + y * (-A + B) + z * (-C)) = f12 + f13 + f10)
    (h2 : 2 * (z * C) = -f12 + f23 + f20)
    (h3 : 2 * (x * (A - B) + y * (A + B)) = -f13 - f23 + f30)
    (b12 : |f12| ≤ C) (b13 : |f13| ≤ A - B) (b23 : |f23| ≤ 0)
    (b10 : |f10| ≤ 2 * B) (b20 : |f20| ≤ 0) (b30 : |f30| ≤ 2 * B)
    (hm : (m1, m2, m3) ≠ (0, 0, 0))
    (he : flowSum C (A - B) 0 (2 * B) 0 (2 * B)
      f12 f13 f23 f10 f20 f30 m1 m2 m3 = 0) :
    OnZone (A + B) (A + B) C (A - B) 0 0 x y z := by
  have key : ∀ m1 m2 m3 : ℤ, zoneForm (A + B) (A + B) C (A - B) 0 0 x y z
      (-m1) (m3) (-m1 + m2) =
      flowSum C (A - B) 0 (2 * B) 0 (2 * B)
        f12 f13 f23 f10 f20 f30 m1 m2 m3 := by
    intro m1 m2 m3
    unfold zoneForm flowSum
    push_cast
    linear_combination -m1 * h1 - m2 * h2 - m3 * h3
  constructor
  · intro n1 n2 n3
    have e : zoneForm (A + B) (A + B) C (A - B) 0 0 x y z n1 n2 n3 =
        flowSum C (A - B) 0 (2 * B) 0 (2 * B)
          f12 f13 f23 f10 f20 f30 (-n1) (-n1 + n3) (n2) := by
      unfold zoneForm flowSum
      push_cast
      linear_combination -(-n1) * h1 - (-n1 + n3) * h2 - (n2) * h3
    rw [e]
    exact flow_nonneg b12 b13 b23 b10 b20 b30 _ _ _
  · refine ⟨_, _, _, ?_, (key m1 m2 m3).trans he⟩
    simp only [ne_eq, Prod.mk.injEq] at hm ⊢
    omega

theorem flow_oC2 {A B C x y z : ℝ} (f12 f13 f23 f10 f20 f30 : ℝ) (m1 m2 m3 : ℤ)
    (h1 : 2 * (x * (-2 * A) + y * (-2 * A) + z * (-C)) = f12 + f13 + f10)
    (h2 : 2 * (z * C) = -f12 + f23 + f20)
    (h3 : 2 * (x * (A - B) + y * (A + B)) = -f13 - f23 + f30)
    (b12 : |f12| ≤ C) (b13 : |f13| ≤ 2 * A) (b23 : |f23| ≤ 0)
    (b10 : |f10| ≤ 2 * A) (b20 : |f20| ≤ 0) (b30 : |f30| ≤ -A + B)
    (hm : (m1, m2, m3) ≠ (0, 0, 0))
    (he : flowSum C (2 * A) 0 (2 * A) 0 (-A + B)
      f12 f13 f23 f10 f20 f30 m1 m2 m3 = 0) :
    OnZone (A + B) (A + B) C (A - B) 0 0 x y z := by
  have key : ∀ m1 m2 m3 : ℤ, zoneForm (A + B) (A + B) C (A - B) 0 0 x y z
      (-m1) (-m1 + m3) (-m1 + m2) =
      flowSum C (2 * A) 0 (2 * A) 0 (-A + B)
        f12 f13 f23 f10 f20 f30 m1 m2 m3 := by
    intro m1 m2 m3
    unfold zoneForm flowSum
    push_cast
    linear_combination -m1 * h1 - m2 * h2 - m3 * h3
  constructor
  · intro n1 n2 n3
    have e : zoneForm (A + B) (A + B) C (A - B) 0 0 x y z n1 n2 n3 =
        flowSum C (2 * A) 0 (2 * A) 0 (-A + B)
          f12 f13 f23 f10 f20 f30 (-n1) (-n1 + n3) (-n1 + n2) := by
      unfold zoneForm flowSum
      push_cast
      linear_combination -(-n1) * h1 - (-n1 + n3) * h2 - (-n1 + n2) * h3
    rw [e]
    exact flow_nonneg b12 b13 b23 b10 b20 b30 _ _ _
  · refine ⟨_, _, _, ?_, (key m1 m2 m3).trans he⟩
    simp only [ne_eq, Prod.mk.injEq] at hm ⊢
    omega

theorem flow_oA1 {A B C x y z : ℝ} (f12 f13 f23 f10 f20 f30 : ℝ) (m1 m2 m3 : ℤ)
    (h1 : 2 * (x * (-B - C) + y * (-B + C) + z * (-A)) = f12 + f13 + f10)
    (h2 : 2 * (z * A) = -f12 + f23 + f20)
    (h3 : 2 * (x * (B - C) + y * (B + C)) = -f13 - f23 + f30)
    (b12 : |f12| ≤ A) (b13 : |f13| ≤ B - C) (b23 : |f23| ≤ 0)
    (b10 : |f10| ≤ 2 * C) (b20 : |f20| ≤ 0) (b30 : |f30| ≤ 2 * C)
    (hm : (m1, m2, m3) ≠ (0, 0, 0))
    (he : flowSum A (B - C) 0 (2 * C) 0 (2 * C)
      f12 f13 f23 f10 f20 f30 m1 m2 m3 = 0) :
    OnZone (B + C) (B + C) A (B - C) 0 0 x y z := by
  have key : ∀ m1 m2 m3 : ℤ, zoneForm (B + C) (B + C) A (B - C) 0 0 x y z
      (-m1) (m3) (-m1 + m2) =
      flowSum A (B - C) 0 (2 * C) 0 (2 * C)
        f12 f13 f23 f10 f20 f30 m1 m2 m3 := by
    intro m1 m2 m3
    unfold zoneForm flowSum
    push_cast
    linear_combination -m1 * h1 - m2 * h2 - m3 * h3
  constructor
  · intro n1 n2 n3
    have e : zoneForm (B + C) (B + C) A (B - C) 0 0 x y z n1 n2 n3 =
        flowSum A (B - C) 0 (2 * C) 0 (2 * C)
          f12 f13 f23 f10 f20 f30 (-n1) (-n1 + n3) (n2) := by
      unfold zoneForm flowSum
      push_cast
      linear_combination -(-n1) * h1 - (-n1 + n3) * h2 - (n2) * h3
    rw [e]
    exact flow_nonneg b12 b13 b23 b10 b20 b30 _ _ _
  · refine ⟨_, _, _, ?_, (key m1 m2 m3).trans he⟩
    simp only [ne_eq, Prod.mk.injEq] at hm ⊢
    omega

theorem flow_oA2 {A B C x y z : ℝ} (f12 f13 f23 f10 f20 f30 : ℝ) (m1 m2 m3 : ℤ)
    (h1 : 2 * (x * (-2 * B) + y * (-2 * B) + z * (-A)) = f12 + f13 + f10)
    (h2 : 2 * (z * A) = -f12 + f23 + f20)
    (h3 : 2 * (x * (B - C) + y * (B + C)) = -f13 - f23 + f30)
    (b12 : |f12| ≤ A) (b13 : |f13| ≤ 2 * B) (b23 : |f23| ≤ 0)
    (b10 : |f10| ≤ 2 * B) (b20 : |f20| ≤ 0) (b30 : |f30| ≤ -B + C)
    (hm : (m1, m2, m3) ≠ (0, 0, 0))
    (he : flowSum A (2 * B) 0 (2 * B) 0 (-B + C)
      f12 f13 f23 f10 f20 f30 m1 m2 m3 = 0) :
    OnZone (B + C) (B + C) A (B - C) 0 0 x y z := by
  have key : ∀ m1 m2 m3 : ℤ, zoneForm (B + C) (B + C) A (B - C) 0 0 x y z
      (-m1) (-m1 + m3) (-m1 + m2) =
      flowSum A (2 * B) 0 (2 * B) 0 (-B + C)
        f12 f13 f23 f10 f20 f30 m1 m2 m3 := by
    intro m1 m2 m3
    unfold zoneForm flowSum
    push_cast
    linear_combination -m1 * h1 - m2 * h2 - m3 * h3
  constructor
  · intro n1 n2 n3
    have e : zoneForm (B + C) (B + C) A (B - C) 0 0 x y z n1 n2 n3 =
        flowSum A (2 * B) 0 (2 * B) 0 (-B + C)
          f12 f13 f23 f10 f20 f30 (-n1) (-n1 + n3) (-n1 + n2) := by
      unfold zoneForm flowSum
      push_cast
      linear_combination -(-n1) * h1 - (-n1 + n3) * h2 - (-n1 + n2) * h3
    rw [e]
    exact flow_nonneg b12 b13 b23 b10 b20 b30 _ _ _
  · refine ⟨_, _, _, ?_, (key m1 m2 m3).trans he⟩
    simp only [ne_eq, Prod.mk.injEq] at hm ⊢
    omega

theorem flow_hP {A C x y z : ℝ} (f12 f13 f23 f10 f20 f30 : ℝ) (m1 m2 m3 : ℤ)
    (h1 : 2 * (x * (-2 * A) + y * (-A) + z * (-C)) = f12 + f13 + f10)
    (h2 : 2 * (z * C) = -f12 + f23 + f20)
    (h3 : 2 * (x * A + y * (2 * A)) = -f13 - f23 + f30)
    (b12 : |f12| ≤ C) (b13 : |f13| ≤ A) (b23 : |f23| ≤ 0)
    (b10 : |f10| ≤ A) (b20 : |f20| ≤ 0) (b30 : |f30| ≤ A)
    (hm : (m1, m2, m3) ≠ (0, 0, 0))
    (he : flowSum C A 0 A 0 A
      f12 f13 f23 f10 f20 f30 m1 m2 m3 = 0) :
    OnZone (2 * A) (2 * A) C A 0 0 x y z := by
  have key : ∀ m1 m2 m3 : ℤ, zoneForm (2 * A) (2 * A) C A 0 0 x y z
      (-m1) (m3) (-m1 + m2) =
      flowSum C A 0 A 0 A
        f12 f13 f23 f10 f20 f30 m1 m2 m3 := by
    intro m1 m2 m3
    unfold zoneForm flowSum
    push_cast
    linear_combination -m1 * h1 - m2 * h2 - m3 * h3
  constructor
  · intro n1 n2 n3
    have e : zoneForm (2 * A) (2 * A) C A 0 0 x y z n1 n2 n3 =
        flowSum C A 0 A 0 A
          f12 f13 f23 f10 f20 f30 (-n1) (-n1 + n3) (n2) := by
      unfold zoneForm flowSum
      push_cast
      linear_combination -(-n1) * h1 - (-n1 + n3) * h2 - (n2) * h3
    rw [e]
    exact flow_nonneg b12 b13 b23 b10 b20 b30 _ _ _
  · refine ⟨_, _, _, ?_, (key m1 m2 m3).trans he⟩
    simp only [ne_eq, Prod.mk.injEq] at hm ⊢
    omega

theorem flow_hR1 {A C x y z : ℝ} (f12 f13 f23 f10 f20 f30 : ℝ) (m1 m2 m3 : ℤ)
    (h1 : 2 * (x * (-3 * C) + y * (-3 * C) + z * (-3 * C)) = f12 + f13 + f10)
    (h2 : 2 * (x * (-A + C) + y * (-A + C) + z * (2 * A + C)) = -f12 + f23 + f20)
    (h3 : 2 * (x * (-A + C) + y * (2 * A + C) + z * (-A + C)) = -f13 - f23 + f30)
    (b12 : |f12| ≤ 3 * C) (b13 : |f13| ≤ 3 * C) (b23 : |f23| ≤ A - C)
    (b10 : |f10| ≤ 3 * C) (b20 : |f20| ≤ A - C) (b30 : |f30| ≤ A - C)
    (hm : (m1, m2, m3) ≠ (0, 0, 0))
    (he : flowSum (3 * C) (3 * C) (A - C) (3 * C) (A - C) (A - C)
      f12 f13 f23 f10 f20 f30 m1 m2 m3 = 0) :
    OnZone (2 * A + C) (2 * A + C) (2 * A + C) (-A + C) (-A + C) (-A + C) x y z := by
  have key : ∀ m1 m2 m3 : ℤ, zoneForm (2 * A + C) (2 * A + C) (2 * A + C) (-A + C) (-A + C) (-A + C) x y z
      (-m1) (-m1 + m3) (-m1 + m2) =
      flowSum (3 * C) (3 * C) (A - C) (3 * C) (A - C) (A - C)
        f12 f13 f23 f10 f20 f30 m1 m2 m3 := by
    intro m1 m2 m3
    unfold zoneForm flowSum
    push_cast
    linear_combination -m1 * h1 - m2 * h2 - m3 * h3
  constructor
  · intro n1 n2 n3
    have e : zoneForm (2 * A + C) (2 * A + C) (2 * A + C) (-A + C) (-A + C) (-A + C) x y z n1 n2 n3 =
        flowSum (3 * C) (3 * C) (A - C) (3 * C) (A - C) (A - C)
          f12 f13 f23 f10 f20 f30 (-n1) (-n1 + n3) (-n1 + n2) := by
      unfold zoneForm flowSum
      push_cast
      linear_combination -(-n1) * h1 - (-n1 + n3) * h2 - (-n1 + n2) * h3
    rw [e]
    exact flow_nonneg b12 b13 b23 b10 b20 b30 _ _ _
  · refine ⟨_, _, _, ?_, (key m1 m2 m3).trans he⟩
    simp only [ne_eq, Prod.mk.injEq] at hm ⊢
    omega

theorem flow_hR2 {A C x y z : ℝ} (f12 f13 f23 f10 f20 f30 : ℝ) (m1 m2 m3 : ℤ)
    (h1 : 2 * (x * (-2 * A - C) + y * (A - C) + z * (A - C)) = f12 + f13 + f10)
    (h2 : 2 * (y * (-3 * A) + z * (3 * A)) = -f12 + f23 + f20)
    (h3 : 2 * (x * (-A + C) + y * (2 * A + C) + z * (-A + C)) = -f13 - f23 + f30)
    (b12 : |f12| ≤ 0) (b13 : |f13| ≤ -A + C) (b23 : |f23| ≤ 3 * A)
    (b10 : |f10| ≤ 3 * A) (b20 : |f20| ≤ 3 * A) (b30 : |f30| ≤ 0)
    (hm : (m1, m2, m3) ≠ (0, 0, 0))
    (he : flowSum 0 (-A + C) (3 * A) (3 * A) (3 * A) 0
      f12 f13 f23 f10 f20 f30 m1 m2 m3 = 0) :
    OnZone (2 * A + C) (2 * A + C) (2 * A + C) (-A + C) (-A + C) (-A + C) x y z := by
  have key : ∀ m1 m2 m3 : ℤ, zoneForm (2 * A + C) (2 * A + C) (2 * A + C) (-A + C) (-A + C) (-A + C) x y z
      (-m1) (-m2 + m3) (m2) =
      flowSum 0 (-A + C) (3 * A) (3 * A) (3 * A) 0
        f12 f13 f23 f10 f20 f30 m1 m2 m3 := by
    intro m1 m2 m3
    unfold zoneForm flowSum
    push_cast
    linear_combination -m1 * h1 - m2 * h2 - m3 * h3
  constructor
  · intro n1 n2 n3
    have e : zoneForm (2 * A + C) (2 * A + C) (2 * A + C) (-A + C) (-A + C) (-A + C) x y z n1 n2 n3 =
        flowSum 0 (-A + C) (3 * A) (3 * A) (3 * A) 0
          f12 f13 f23 f10 f20 f30 (-n1) (n3) (n2 + n3) := by
      unfold zoneForm flowSum
      push_cast
      linear_combination -(-n1) * h1 - (n3) * h2 - (n2 + n3) * h3
    rw [e]
    exact flow_nonneg b12 b13 b23 b10 b20 b30 _ _ _
  · refine ⟨_, _, _, ?_, (key m1 m2 m3).trans he⟩
    simp only [ne_eq, Prod.mk.injEq] at hm ⊢
    omega

theorem zone_oC1 {a b zeta A B C : ℝ}
    (ha : a ≠ 0) (hb : b ≠ 0) (hA : A = 1 / a ^ 2) (hB : B = 1 / b ^ 2)
    (hz : zeta = (1 + (a / b) ^ 2) / 4) (hB0 : 0 < B) (hC0 : 0 < C) (h : B ≤ A) :
    ∀ p ∈ hpkotTable82 zeta, GoodPoint (A + B) (A + B) C (A - B) 0 0 p := by
  simp only [hpkotTable82, List.forall_mem_cons, List.not_mem_nil, false_imp_iff, implies_true, and_true]
  refine ⟨?_, ?_, ?_, ?_, ?_, ?_, ?_, ?_, ?_, ?_⟩
  · exact Or.inl ⟨rfl, rfl⟩
  · exact Or.inr ⟨_, _, _, rfl, flow_oC1 0 0 0 (2 * B) 0 (2 * B) 1 1 1
      (by zpt) (by zpt) (by zpt) (by zbd) (by zbd) (by zbd) (by zbd) (by zbd) (by zbd)
      (by decide) (by zeq)⟩
  · exact Or.inr ⟨_, _, _, rfl, flow_oC1 (-C) 0 0 (2 * B) 0 (2 * B) 0 1 0
      (by zpt) (by zpt) (by zpt) (by zbd) (by zbd) (by zbd) (by zbd) (by zbd) (by zbd)
      (by decide) (by zeq)⟩
  · exact Or.inr ⟨_, _, _, rfl, flow_oC1 (-C) 0 0 0 0 0 0 1 0
      (by zpt) (by zpt) (by zpt) (by zbd) (by zbd) (by zbd) (by zbd) (by zbd) (by zbd)
      (by decide) (by zeq)⟩
  · exact Or.inr ⟨_, _, _, rfl, flow_oC1 0 (-A + B) 0 0 0 (2 * B) 0 0 1
      (by zpt) (by zpt) (by zpt) (by zbd) (by zbd) (by zbd) (by zbd) (by zbd) (by zbd)
      (by decide) (by zeq)⟩
  · exact Or.inr ⟨_, _, _, rfl, flow_oC1 (-C) (-A + B) 0 0 0 (2 * B) 0 1 0
      (by zpt) (by zpt) (by zpt) (by zbd) (by zbd) (by zbd) (by zbd) (by zbd) (by zbd)
      (by decide) (by zeq)⟩
  · exact Or.inr ⟨_, _, _, rfl, flow_oC1 0 (-A + B) 0 (-2 * B) 0 (2 * B) 0 0 1
      (by zpt) (by zpt) (by zpt) (by zbd) (by zbd) (by zbd) (by zbd) (by zbd) (by zbd)
      (by decide) (by zeq)⟩
  · exact Or.inr ⟨_, _, _, rfl, flow_oC1 0 (-A + B) 0 (2 * B) 0 (2 * B) 0 0 1
      (by zpt) (by zpt) (by zpt) (by zbd) (by zbd) (by zbd) (by zbd) (by zbd) (by zbd)
      (by decide) (by zeq)⟩
  · exact Or.inr ⟨_, _, _, rfl, flow_oC1 (-C) (-A + B) 0 (-2 * B) 0 (2 * B) 0 1 0
      (by zpt) (by zpt) (by zpt) (by zbd) (by zbd) (by zbd) (by zbd) (by zbd) (by zbd)
      (by decide) (by zeq)⟩
  · exact Or.inr ⟨_, _, _, rfl, flow_oC1 (-C) (-A + B) 0 (2 * B) 0 (2 * B) 0 1 0
      (by zpt) (by zpt) (by zpt) (by zbd) (by zbd) (by zbd) (by zbd) (by zbd) (by zbd)
      (by decide) (by zeq)⟩

theorem zone_oC2 {a b zeta A B C : ℝ}
    (ha : a ≠ 0) (hb : b ≠ 0) (hA : A = 1 / a ^ 2) (hB : B = 1 / b ^ 2)
    (hz : zeta = (1 + (b / a) ^ 2) / 4) (hA0 : 0 < A) (hC0 : 0 < C) (h : A ≤ B) :
    ∀ p ∈ hpkotTable83 zeta, GoodPoint (A + B) (A + B) C (A - B) 0 0 p := by
  simp only [hpkotTable83, List.forall_mem_cons, List.not_mem_nil, false_imp_iff, implies_true, and_true]
  refine ⟨?_, ?_, ?_, ?_, ?_, ?_, ?_, ?_, ?_, ?_, ?_, ?_, ?_, ?_, ?_⟩
  · exact Or.inl ⟨rfl, rfl⟩
  · exact Or.inr ⟨_, _, _, rfl, flow_oC2 0 (-2 * A) 0 (-2 * A) 0 0 (-1) (-1) 0
      (by zpt) (by zpt) (by zpt) (by zbd) (by zbd) (by zbd) (by zbd) (by zbd) (by zbd)
      (by decide) (by zeq)⟩
  · exact Or.inr ⟨_, _, _, rfl, flow_oC2 (-C) (-2 * A) 0 (-2 * A) 0 0 0 1 0
      (by zpt) (by zpt) (by zpt) (by zbd) (by zbd) (by zbd) (by zbd) (by zbd) (by zbd)
      (by decide) (by zeq)⟩
  · exact Or.inr ⟨_, _, _, rfl, flow_oC2 C (-2 * A) 0 (-2 * A) 0 0 (-1) (-1) 0
      (by zpt) (by zpt) (by zpt) (by zbd) (by zbd) (by zbd) (by zbd) (by zbd) (by zbd)
      (by decide) (by zeq)⟩
  · exact Or.inr ⟨_, _, _, rfl, flow_oC2 (-C) 0 0 0 0 0 0 1 0
      (by zpt) (by zpt) (by zpt) (by zbd) (by zbd) (by zbd) (by zbd) (by zbd) (by zbd)
      (by decide) (by zeq)⟩
  · exact Or.inr ⟨_, _, _, rfl, flow_oC2 C 0 0 0 0 0 0 (-1) 0
      (by zpt) (by zpt) (by zpt) (by zbd) (by zbd) (by zbd) (by zbd) (by zbd) (by zbd)
      (by decide) (by zeq)⟩
  · exact Or.inr ⟨_, _, _, rfl, flow_oC2 0 (-2 * A) 0 0 0 (-A + B) 0 0 1
      (by zpt) (by zpt) (by zpt) (by zbd) (by zbd) (by zbd) (by zbd) (by zbd) (by zbd)
      (by decide) (by zeq)⟩
  · exact Or.inr ⟨_, _, _, rfl, flow_oC2 (-C) (-2 * A) 0 0 0 (-A + B) 0 1 0
      (by zpt) (by zpt) (by zpt) (by zbd) (by zbd) (by zbd) (by zbd) (by zbd) (by zbd)
      (by decide) (by zeq)⟩
  · exact Or.inr ⟨_, _, _, rfl, flow_oC2 C (-2 * A) 0 0 0 (-A + B) 0 0 1
      (by zpt) (by zpt) (by zpt) (by zbd) (by zbd) (by zbd) (by zbd) (by zbd) (by zbd)
      (by decide) (by zeq)⟩
  · exact Or.inr ⟨_, _, _, rfl, flow_oC2 0 (-2 * A) 0 (2 * A) 0 (-A + B) 0 0 1
      (by zpt) (by zpt) (by zpt) (by zbd) (by zbd) (by zbd) (by zbd) (by zbd) (by zbd)
      (by decide) (by zeq)⟩
  · exact Or.inr ⟨_, _, _, rfl, flow_oC2 0 (-2 * A) 0 (-2 * A) 0 (-A + B) 0 0 1
      (by zpt) (by zpt) (by zpt) (by zbd) (by zbd) (by zbd) (by zbd) (by zbd) (by zbd)
      (by decide) (by zeq)⟩
  · exact Or.inr ⟨_, _, _, rfl, flow_oC2 (-C) (-2 * A) 0 (2 * A) 0 (-A + B) 0 1 0
      (by zpt) (by zpt) (by zpt) (by zbd) (by zbd) (by zbd) (by zbd) (by zbd) (by zbd)
      (by decide) (by zeq)⟩
  · exact Or.inr ⟨_, _, _, rfl, flow_oC2 C (-2 * A) 0 (2 * A) 0 (-A + B) 0 0 1
      (by zpt) (by zpt) (by zpt) (by zbd) (by zbd) (by zbd) (by zbd) (by zbd) (by zbd)
      (by decide) (by zeq)⟩
  · exact Or.inr ⟨_, _, _, rfl, flow_oC2 (-C) (-2 * A) 0 (-2 * A) 0 (-A + B) 0 1 0
      (by zpt) (by zpt) (by zpt) (by zbd) (by zbd) (by zbd) (by zbd) (by zbd) (by zbd)
      (by decide) (by zeq)⟩
  · exact Or.inr ⟨_, _, _, rfl, flow_oC2 C (-2 * A) 0 (-2 * A) 0 (-A + B) 0 0 1
      (by zpt) (by zpt) (by zpt) (by zbd) (by zbd) (by zbd) (by zbd) (by zbd) (by zbd)
      (by decide) (by zeq)⟩

theorem zone_oA1 {b c zeta A B C : ℝ}
    (hb : b ≠ 0) (hc : c ≠ 0) (hB : B = 1 / b ^ 2) (hC : C = 1 / c ^ 2)
    (hz : zeta = (1 + (b / c) ^ 2) / 4) (hA0 : 0 < A) (hC0 : 0 < C) (h : C ≤ B) :
    ∀ p ∈ hpkotTable82 zeta, GoodPoint (B + C) (B + C) A (B - C) 0 0 p := by
  simp only [hpkotTable82, List.forall_mem_cons, List.not_mem_nil, false_imp_iff, implies_true, and_true]
  refine ⟨?_, ?_, ?_, ?_, ?_, ?_, ?_, ?_, ?_, ?_⟩
  · exact Or.inl ⟨rfl, rfl⟩
  · exact Or.inr ⟨_, _, _, rfl, flow_oA1 0 0 0 (2 * C) 0 (2 * C) 1 1 1
      (by zpt) (by zpt) (by zpt) (by zbd) (by zbd) (by zbd) (by zbd) (by zbd) (by zbd)
      (by decide) (by zeq)⟩
  · exact Or.inr ⟨_, _, _, rfl, flow_oA1 (-A) 0 0 (2 * C) 0 (2 * C) 0 1 0
      (by zpt) (by zpt) (by zpt) (by zbd) (by zbd) (by zbd) (by zbd) (by zbd) (by zbd)
      (by decide) (by zeq)⟩
  · exact Or.inr ⟨_, _, _, rfl, flow_oA1 (-A) 0 0 0 0 0 0 1 0
      (by zpt) (by zpt) (by zpt) (by zbd) (by zbd) (by zbd) (by zbd) (by zbd) (by zbd)
      (by decide) (by zeq)⟩
  · exact Or.inr ⟨_, _, _, rfl, flow_oA1 0 (-B + C) 0 0 0 (2 * C) 0 0 1
      (by zpt) (by zpt) (by zpt) (by zbd) (by zbd) (by zbd) (by zbd) (by zbd) (by zbd)
      (by decide) (by zeq)⟩
  · exact Or.inr ⟨_, _, _, rfl, flow_oA1 (-A) (-B + C) 0 0 0 (2 * C) 0 1 0
      (by zpt) (by zpt) (by zpt) (by zbd) (by zbd) (by zbd) (by zbd) (by zbd) (by zbd)
      (by decide) (by zeq)⟩
  · exact Or.inr ⟨_, _, _, rfl, flow_oA1 0 (-B + C) 0 (-2 * C) 0 (2 * C) 0 0 1
      (by zpt) (by zpt) (by zpt) (by zbd) (by zbd) (by zbd) (by zbd) (by zbd) (by zbd)
      (by decide) (by zeq)⟩
  · exact Or.inr ⟨_, _, _, rfl, flow_oA1 0 (-B + C) 0 (2 * C) 0 (2 * C) 0 0 1
      (by zpt) (by zpt) (by zpt) (by zbd) (by zbd) (by zbd) (by zbd) (by zbd) (by zbd)
      (by decide) (by zeq)⟩
  · exact Or.inr ⟨_, _, _, rfl, flow_oA1 (-A) (-B + C) 0 (-2 * C) 0 (2 * C) 0 1 0
      (by zpt) (by zpt) (by zpt) (by zbd) (by zbd) (by zbd) (by zbd) (by zbd) (by zbd)
      (by decide) (by zeq)⟩
  · exact Or.inr ⟨_, _, _, rfl, flow_oA1 (-A) (-B + C) 0 (2 * C) 0 (2 * C) 0 1 0
      (by zpt) (by zpt) (by zpt) (by zbd) (by zbd) (by zbd) (by zbd) (by zbd) (by zbd)
      (by decide) (by zeq)⟩

theorem zone_oA2 {b c zeta A B C : ℝ}
    (hb : b ≠ 0) (hc : c ≠ 0) (hB : B = 1 / b ^ 2) (hC : C = 1 / c ^ 2)
    (hz : zeta = (1 + (c / b) ^ 2) / 4) (hA0 : 0 < A) (hB0 : 0 < B) (h : B ≤ C) :
    ∀ p ∈ hpkotTable83 zeta, GoodPoint (B + C) (B + C) A (B - C) 0 0 p := by
  simp only [hpkotTable83, List.forall_mem_cons, List.not_mem_nil, false_imp_iff, implies_true, and_true]
  refine ⟨?_, ?_, ?_, ?_, ?_, ?_, ?_, ?_, ?_, ?_, ?_, ?_, ?_, ?_, ?_⟩
  · exact Or.inl ⟨rfl, rfl⟩
  · exact Or.inr ⟨_, _, _, rfl, flow_oA2 0 (-2 * B) 0 (-2 * B) 0 0 (-1) (-1) 0
      (by zpt) (by zpt) (by zpt) (by zbd) (by zbd) (by zbd) (by zbd) (by zbd) (by zbd)
      (by decide) (by zeq)⟩
  · exact Or.inr ⟨_, _, _, rfl, flow_oA2 (-A) (-2 * B) 0 (-2 * B) 0 0 0 1 0
      (by zpt) (by zpt) (by zpt) (by zbd) (by zbd) (by zbd) (by zbd) (by zbd) (by zbd)
      (by decide) (by zeq)⟩
  · exact Or.inr ⟨_, _, _, rfl, flow_oA2 A (-2 * B) 0 (-2 * B) 0 0 (-1) (-1) 0
      (by zpt) (by zpt) (by zpt) (by zbd) (by zbd) (by zbd) (by zbd) (by zbd) (by zbd)
      (by decide) (by zeq)⟩
  · exact Or.inr ⟨_, _, _, rfl, flow_oA2 (-A) 0 0 0 0 0 0 1 0
      (by zpt) (by zpt) (by zpt) (by zbd) (by zbd) (by zbd) (by zbd) (by zbd) (by zbd)
      (by decide) (by zeq)⟩
  · exact Or.inr ⟨_, _, _, rfl, flow_oA2 A 0 0 0 0 0 0 (-1) 0
      (by zpt) (by zpt) (by zpt) (by zbd) (by zbd) (by zbd) (by zbd) (by zbd) (by zbd)
      (by decide) (by zeq)⟩
  · exact Or.inr ⟨_, _, _, rfl, flow_oA2 0 (-2 * B) 0 0 0 (-B + C) 0 0 1
      (by zpt) (by zpt) (by zpt) (by zbd) (by zbd) (by zbd) (by zbd) (by zbd) (by zbd)
      (by decide) (by zeq)⟩
  · exact Or.inr ⟨_, _, _, rfl, flow_oA2 (-A) (-2 * B) 0 0 0 (-B + C) 0 1 0
      (by zpt) (by zpt) (by zpt) (by zbd) (by zbd) (by zbd) (by zbd) (by zbd) (by zbd)
      (by decide) (by zeq)⟩
  · exact Or.inr ⟨_, _, _, rfl, flow_oA2 A (-2 * B) 0 0 0 (-B + C) 0 0 1
      (by zpt) (by zpt) (by zpt) (by zbd) (by zbd) (by zbd) (by zbd) (by zbd) (by zbd)
      (by decide) (by zeq)⟩
  · exact Or.inr ⟨_, _, _, rfl, flow_oA2 0 (-2 * B) 0 (2 * B) 0 (-B + C) 0 0 1
      (by zpt) (by zpt) (by zpt) (by zbd) (by zbd) (by zbd) (by zbd) (by zbd) (by zbd)
      (by decide) (by zeq)⟩
  · exact Or.inr ⟨_, _, _, rfl, flow_oA2 0 (-2 * B) 0 (-2 * B) 0 (-B + C) 0 0 1
      (by zpt) (by zpt) (by zpt) (by zbd) (by zbd) (by zbd) (by zbd) (by zbd) (by zbd)
      (by decide) (by zeq)⟩
  · exact Or.inr ⟨_, _, _, rfl, flow_oA2 (-A) (-2 * B) 0 (2 * B) 0 (-B + C) 0 1 0
      (by zpt) (by zpt) (by zpt) (by zbd) (by zbd) (by zbd) (by zbd) (by zbd) (by zbd)
      (by decide) (by zeq)⟩
  · exact Or.inr ⟨_, _, _, rfl, flow_oA2 A (-2 * B) 0 (2 * B) 0 (-B + C) 0 0 1
      (by zpt) (by zpt) (by zpt) (by zbd) (by zbd) (by zbd) (by zbd) (by zbd) (by zbd)
      (by decide) (by zeq)⟩
  · exact Or.inr ⟨_, _, _, rfl, flow_oA2 (-A) (-2 * B) 0 (-2 * B) 0 (-B + C) 0 1 0
      (by zpt) (by zpt) (by zpt) (by zbd) (by zbd) (by zbd) (by zbd) (by zbd) (by zbd)
      (by decide) (by zeq)⟩
  · exact Or.inr ⟨_, _, _, rfl, flow_oA2 A (-2 * B) 0 (-2 * B) 0 (-B + C) 0 0 1
      (by zpt) (by zpt) (by zpt) (by zbd) (by zbd) (by zbd) (by zbd) (by zbd) (by zbd)
      (by decide) (by zeq)⟩

theorem zone_hP {A C : ℝ}
    (hA0 : 0 < A) (hC0 : 0 < C) :
    ∀ p ∈ hpkotTable84, GoodPoint (2 * A) (2 * A) C A 0 0 p := by
  simp only [hpkotTable84, List.forall_mem_cons, List.not_mem_nil, false_imp_iff, implies_true, and_true]
  refine ⟨?_, ?_, ?_, ?_, ?_, ?_, ?_⟩
  · exact Or.inl ⟨rfl, rfl⟩
  · exact Or.inr ⟨_, _, _, rfl, flow_hP (-C) 0 0 0 0 0 0 1 0
      (by zpt) (by zpt) (by zpt) (by zbd) (by zbd) (by zbd) (by zbd) (by zbd) (by zbd)
      (by decide) (by zeq)⟩
  · exact Or.inr ⟨_, _, _, rfl, flow_hP 0 (-A) 0 (-A) 0 A 0 0 1
      (by zpt) (by zpt) (by zpt) (by zbd) (by zbd) (by zbd) (by zbd) (by zbd) (by zbd)
      (by decide) (by zeq)⟩
  · exact Or.inr ⟨_, _, _, rfl, flow_hP (-C) (-A) 0 (-A) 0 A 0 1 0
      (by zpt) (by zpt) (by zpt) (by zbd) (by zbd) (by zbd) (by zbd) (by zbd) (by zbd)
      (by decide) (by zeq)⟩
  · exact Or.inr ⟨_, _, _, rfl, flow_hP C (-A) 0 (-A) 0 A 0 0 1
      (by zpt) (by zpt) (by zpt) (by zbd) (by zbd) (by zbd) (by zbd) (by zbd) (by zbd)
      (by decide) (by zeq)⟩
  · exact Or.inr ⟨_, _, _, rfl, flow_hP 0 (-A) 0 (-A) 0 0 (-1) (-1) 0
      (by zpt) (by zpt) (by zpt) (by zbd) (by zbd) (by zbd) (by zbd) (by zbd) (by zbd)
      (by decide) (by zeq)⟩
  · exact Or.inr ⟨_, _, _, rfl, flow_hP (-C) (-A) 0 (-A) 0 0 0 1 0
      (by zpt) (by zpt) (by zpt) (by zbd) (by zbd) (by zbd) (by zbd) (by zbd) (by zbd)
      (by decide) (by zeq)⟩

theorem zone_hR1 {a c A C : ℝ}
    (ha : a ≠ 0) (hc : c ≠ 0) (hA : A = 2 / (3 * a ^ 2)) (hC : C = 1 / c ^ 2)
    (hC0 : 0 < C) (h : C ≤ A) :
    ∀ p ∈ hpkotTable85 a c, GoodPoint (2 * A + C) (2 * A + C) (2 * A + C) (-A + C) (-A + C) (-A + C) p := by
  simp only [hpkotTable85, List.forall_mem_cons, List.not_mem_nil, false_imp_iff, implies_true, and_true]
  refine ⟨?_, ?_, ?_, ?_, ?_, ?_, ?_, ?_, ?_, ?_, ?_, ?_, ?_, ?_, ?_, ?_, ?_, ?_, ?_, ?_⟩
  · exact Or.inl ⟨rfl, rfl⟩
  · exact Or.inr ⟨_, _, _, rfl, flow_hR1 (-3 * C) (-3 * C) 0 (-3 * C) 0 0 (-1) 0 0
      (by zpt) (by zpt) (by zpt) (by zbd) (by zbd) (by zbd) (by zbd) (by zbd) (by zbd)
      (by decide) (by zeq)⟩
  · exact Or.inr ⟨_, _, _, rfl, flow_hR1 0 0 0 (-3 * C) (-A + C) (-A + C) (-1) (-1) (-1)
      (by zpt) (by zpt) (by zpt) (by zbd) (by zbd) (by zbd) (by zbd) (by zbd) (by zbd)
      (by decide) (by zeq)⟩
  · exact Or.inr ⟨_, _, _, rfl, flow_hR1 0 (3 * C) (A - C) 0 0 (-A + C) 0 0 (-1)
      (by zpt) (by zpt) (by zpt) (by zbd) (by zbd) (by zbd) (by zbd) (by zbd) (by zbd)
      (by decide) (by zeq)⟩
  · exact Or.inr ⟨_, _, _, rfl, flow_hR1 (3 * C) 0 (-A + C) 0 (-A + C) 0 0 (-1) 0
      (by zpt) (by zpt) (by zpt) (by zbd) (by zbd) (by zbd) (by zbd) (by zbd) (by zbd)
      (by decide) (by zeq)⟩
  · exact Or.inr ⟨_, _, _, rfl, flow_hR1 (-3 * C) 0 (A - C) (-3 * C) 0 (-A + C) (-1) 0 (-1)
      (by zpt) (by zpt) (by zpt) (by zbd) (by zbd) (by zbd) (by zbd) (by zbd) (by zbd)
      (by decide) (by zeq)⟩
  · exact Or.inr ⟨_, _, _, rfl, flow_hR1 0 (-3 * C) (-A + C) (-3 * C) (-A + C) 0 (-1) (-1) 0
      (by zpt) (by zpt) (by zpt) (by zbd) (by zbd) (by zbd) (by zbd) (by zbd) (by zbd)
      (by decide) (by zeq)⟩
  · exact Or.inr ⟨_, _, _, rfl, flow_hR1 0 (3 * C) (A - C) (-3 * C) (-A + C) (-A + C) (-1) (-1) (-1)
      (by zpt) (by zpt) (by zpt) (by zbd) (by zbd) (by zbd) (by zbd) (by zbd) (by zbd)
      (by decide) (by zeq)⟩
  · exact Or.inr ⟨_, _, _, rfl, flow_hR1 (-3 * C) 0 (A - C) (-3 * C) (-A + C) (-A + C) (-1) (-1) (-1)
      (by zpt) (by zpt) (by zpt) (by zbd) (by zbd) (by zbd) (by zbd) (by zbd) (by zbd)
      (by decide) (by zeq)⟩
  · exact Or.inr ⟨_, _, _, rfl, flow_hR1 (3 * C) 0 (-A + C) (-3 * C) (-A + C) (-A + C) (-1) (-1) (-1)
      (by zpt) (by zpt) (by zpt) (by zbd) (by zbd) (by zbd) (by zbd) (by zbd) (by zbd)
      (by decide) (by zeq)⟩
  · exact Or.inr ⟨_, _, _, rfl, flow_hR1 0 (-3 * C) (-A + C) (-3 * C) (-A + C) (-A + C) (-1) (-1) (-1)
      (by zpt) (by zpt) (by zpt) (by zbd) (by zbd) (by zbd) (by zbd) (by zbd) (by zbd)
      (by decide) (by zeq)⟩
  · exact Or.inr ⟨_, _, _, rfl, flow_hR1 (-3 * C) (3 * C) (A - C) (-3 * C) (-A + C) (-A + C) (-1) (-1) (-1)
      (by zpt) (by zpt) (by zpt) (by zbd) (by zbd) (by zbd) (by zbd) (by zbd) (by zbd)
      (by decide) (by zeq)⟩
  · exact Or.inr ⟨_, _, _, rfl, flow_hR1 (-3 * C) (-3 * C) (A - C) (-3 * C) (-A + C) (-A + C) (-1) (-1) (-1)
      (by zpt) (by zpt) (by zpt) (by zbd) (by zbd) (by zbd) (by zbd) (by zbd) (by zbd)
      (by decide) (by zeq)⟩
  · exact Or.inr ⟨_, _, _, rfl, flow_hR1 (-3 * C) (-3 * C) (-A + C) (-3 * C) (-A + C) (-A + C) (-1) (-1) (-1)
      (by zpt) (by zpt) (by zpt) (by zbd) (by zbd) (by zbd) (by zbd) (by zbd) (by zbd)
      (by decide) (by zeq)⟩
  · exact Or.inr ⟨_, _, _, rfl, flow_hR1 (3 * C) (-3 * C) (-A + C) (-3 * C) (-A + C) (-A + C) (-1) (-1) (-1)
      (by zpt) (by zpt) (by zpt) (by zbd) (by zbd) (by zbd) (by zbd) (by zbd) (by zbd)
      (by decide) (by zeq)⟩
  · exact Or.inr ⟨_, _, _, rfl, flow_hR1 (-3 * C) (3 * C) (A - C) (-3 * C) 0 (-A + C) (-1) 0 (-1)
      (by zpt) (by zpt) (by zpt) (by zbd) (by zbd) (by zbd) (by zbd) (by zbd) (by zbd)
      (by decide) (by zeq)⟩
  · exact Or.inr ⟨_, _, _, rfl, flow_hR1 (-3 * C) (-3 * C) (A - C) (-3 * C) 0 (-A + C) (-1) 0 (-1)
      (by zpt) (by zpt) (by zpt) (by zbd) (by zbd) (by zbd) (by zbd) (by zbd) (by zbd)
      (by decide) (by zeq)⟩
  · exact Or.inr ⟨_, _, _, rfl, flow_hR1 (-3 * C) (-3 * C) 0 (-3 * C) (-A + C) (-A + C) (-1) (-1) (-1)
      (by zpt) (by zpt) (by zpt) (by zbd) (by zbd) (by zbd) (by zbd) (by zbd) (by zbd)
      (by decide) (by zeq)⟩
  · exact Or.inr ⟨_, _, _, rfl, flow_hR1 (-3 * C) (-3 * C) (-A + C) (-3 * C) (-A + C) 0 (-1) (-1) 0
      (by zpt) (by zpt) (by zpt) (by zbd) (by zbd) (by zbd) (by zbd) (by zbd) (by zbd)
      (by decide) (by zeq)⟩
  · exact Or.inr ⟨_, _, _, rfl, flow_hR1 (3 * C) (-3 * C) (-A + C) (-3 * C) (-A + C) 0 (-1) (-1) 0
      (by zpt) (by zpt) (by zpt) (by zbd) (by zbd) (by zbd) (by zbd) (by zbd) (by zbd)
      (by decide) (by zeq)⟩

theorem zone_hR2 {a c A C : ℝ}
    (ha : a ≠ 0) (hc : c ≠ 0) (hA : A = 2 / (3 * a ^ 2)) (hC : C = 1 / c ^ 2)
    (hA0 : 0 < A) (h : A ≤ C) :
    ∀ p ∈ hpkotTable86 a c, GoodPoint (2 * A + C) (2 * A + C) (2 * A + C) (-A + C) (-A + C) (-A + C) p := by
  simp only [hpkotTable86, List.forall_mem_cons, List.not_mem_nil, false_imp_iff, implies_true, and_true]
  refine ⟨?_, ?_, ?_, ?_, ?_, ?_, ?_, ?_, ?_⟩
  · exact Or.inl ⟨rfl, rfl⟩
  · exact Or.inr ⟨_, _, _, rfl, flow_hR2 0 (A - C) (3 * A) (-3 * A) (3 * A) 0 0 1 0
      (by zpt) (by zpt) (by zpt) (by zbd) (by zbd) (by zbd) (by zbd) (by zbd) (by zbd)
      (by decide) (by zeq)⟩
  · exact Or.inr ⟨_, _, _, rfl, flow_hR2 0 (-A + C) (3 * A) (-3 * A) (3 * A) 0 0 1 0
      (by zpt) (by zpt) (by zpt) (by zbd) (by zbd) (by zbd) (by zbd) (by zbd) (by zbd)
      (by decide) (by zeq)⟩
  · exact Or.inr ⟨_, _, _, rfl, flow_hR2 0 (A - C) (-3 * A) (-3 * A) (3 * A) 0 0 0 1
      (by zpt) (by zpt) (by zpt) (by zbd) (by zbd) (by zbd) (by zbd) (by zbd) (by zbd)
      (by decide) (by zeq)⟩
  · exact Or.inr ⟨_, _, _, rfl, flow_hR2 0 (A - C) (3 * A) (-3 * A) (-3 * A) 0 (-1) (-1) (-1)
      (by zpt) (by zpt) (by zpt) (by zbd) (by zbd) (by zbd) (by zbd) (by zbd) (by zbd)
      (by decide) (by zeq)⟩
  · exact Or.inr ⟨_, _, _, rfl, flow_hR2 0 0 (3 * A) (-3 * A) (3 * A) 0 0 1 0
      (by zpt) (by zpt) (by zpt) (by zbd) (by zbd) (by zbd) (by zbd) (by zbd) (by zbd)
      (by decide) (by zeq)⟩
  · exact Or.inr ⟨_, _, _, rfl, flow_hR2 0 0 (3 * A) (-3 * A) (-3 * A) 0 (-1) (-1) (-1)
      (by zpt) (by zpt) (by zpt) (by zbd) (by zbd) (by zbd) (by zbd) (by zbd) (by zbd)
      (by decide) (by zeq)⟩
  · exact Or.inr ⟨_, _, _, rfl, flow_hR2 0 (A - C) 0 (-3 * A) 0 0 (-1) 0 0
      (by zpt) (by zpt) (by zpt) (by zbd) (by zbd) (by zbd) (by zbd) (by zbd) (by zbd)
      (by decide) (by zeq)⟩
  · exact Or.inr ⟨_, _, _, rfl, flow_hR2 0 0 (3 * A) (-3 * A) 0 0 (-1) 0 (-1)
      (by zpt) (by zpt) (by zpt) (by zbd) (by zbd) (by zbd) (by zbd) (by zbd) (by zbd)
      (by decide) (by zeq)⟩

end Wulfric
