import Verif.Lemmas.Zone

/-! # Zones of cubic, tetragonal and orthorhombic F, I lattices, HPKOT: generated certificates -/

namespace Wulfric

open Matrix _root_.Spec

/-- The equation of a point. -/
macro "zpt" : tactic => `(tactic| first | ring1 | (subst_vars; field_simp; ring1))

/-- A bound of a flow. -/
macro "zbd" : tactic => `(tactic| exact abs_le.2 ⟨by linarith, by linarith⟩)

/-- A point at the same distance. -/
macro "zeq" : tactic => `(tactic| (simp only [flowSum]; push_cast; ring1))

theorem flow_cP {A x y z : ℝ} (f12 f13 f23 f10 f20 f30 : ℝ) (m1 m2 m3 : ℤ)
    (h1 : 2 * (x * (-A) + y * (-A) + z * (-A)) = f12 + f13 + f10)
    (h2 : 2 * (z * A) = -f12 + f23 + f20)
    (h3 : 2 * (y * A) = -f13 - f23 + f30)
    (b12 : |f12| ≤ A) (b13 : |f13| ≤ A) (b23 : |f23| ≤ 0)
    (b10 : |f10| ≤ A) (b20 : |f20| ≤ 0) (b30 : |f30| ≤ 0)
    (hm : (m1, m2, m3) ≠ (0, 0, 0))
    (he : flowSum A A 0 A 0 0
      f12 f13 f23 f10 f20 f30 m1 m2 m3 = 0) :
    OnZone A A A 0 0 0 x y z := by
  have key : ∀ m1 m2 m3 : ℤ, zoneForm A A A 0 0 0 x y z
      (-m1) (-m1 + m3) (-m1 + m2) =
      flowSum A A 0 A 0 0
        f12 f13 f23 f10 f20 f30 m1 m2 m3 := by
    intro m1 m2 m3
    unfold zoneForm flowSum
    push_cast
    linear_combination -m1 * h1 - m2 * h2 - m3 * h3
  constructor
  · intro n1 n2 n3
    have e : zoneForm A A A 0 0 0 x y z n1 n2 n3 =
        flowSum A A 0 A 0 0
          f12 f13 f23 f10 f20 f30 (-n1) (-n1 + n3) (-n1 + n2) := by
      unfold zoneForm flowSum
      push_cast
      linear_combination -(-n1) * h1 - (-n1 + n3) * h2 - (-n1 + n2) * h3
    rw [e]
    exact flow_nonneg b12 b13 b23 b10 b20 b30 _ _ _
  · refine ⟨_, _, _, ?_, (key m1 m2 m3).trans he⟩
    simp only [ne_eq, Prod.mk.injEq] at hm ⊢
    omega

theorem flow_cF {A x y z : ℝ} (f12 f13 f23 f10 f20 f30 : ℝ) (m1 m2 m3 : ℤ)
    (h1 : 2 * (x * (-A) + y * (-A) + z * (-A)) = f12 + f13 + f10)
    (h2 : 2 * (x * (-A) + y * (-A) + z * (3 * A)) = -f12 + f23 + f20)
    (h3 : 2 * (x * (-A) + y * (3 * A) + z * (-A)) = -f13 - f23 + f30)
    (b12 : |f12| ≤ A) (b13 : |f13| ≤ A) (b23 : |f23| ≤ A)
    (b10 : |f10| ≤ A) (b20 : |f20| ≤ A) (b30 : |f30| ≤ A)
    (hm : (m1, m2, m3) ≠ (0, 0, 0))
    (he : flowSum A A A A A A
      f12 f13 f23 f10 f20 f30 m1 m2 m3 = 0) :
    OnZone (3 * A) (3 * A) (3 * A) (-A) (-A) (-A) x y z := by
  have key : ∀ m1 m2 m3 : ℤ, zoneForm (3 * A) (3 * A) (3 * A) (-A) (-A) (-A) x y z
      (-m1) (-m1 + m3) (-m1 + m2) =
      flowSum A A A A A A
        f12 f13 f23 f10 f20 f30 m1 m2 m3 := by
    intro m1 m2 m3
    unfold zoneForm flowSum
    push_cast
    linear_combination -m1 * h1 - m2 * h2 - m3 * h3
  constructor
  · intro n1 n2 n3
    have e : zoneForm (3 * A) (3 * A) (3 * A) (-A) (-A) (-A) x y z n1 n2 n3 =
        flowSum A A A A A A
          f12 f13 f23 f10 f20 f30 (-n1) (-n1 + n3) (-n1 + n2) := by
      unfold zoneForm flowSum
      push_cast
      linear_combination -(-n1) * h1 - (-n1 + n3) * h2 - (-n1 + n2) * h3
    rw [e]
    exact flow_nonneg b12 b13 b23 b10 b20 b30 _ _ _
  · refine ⟨_, _, _, ?_, (key m1 m2 m3).trans he⟩
    simp only [ne_eq, Prod.mk.injEq] at hm ⊢
    omega

theorem flow_cI {A x y z : ℝ} (f12 f13 f23 f10 f20 f30 : ℝ) (m1 m2 m3 : ℤ)
    (h1 : 2 * (x * (-2 * A) + y * (-A) + z * (-A)) = f12 + f13 + f10)
    (h2 : 2 * (y * (-A) + z * A) = -f12 + f23 + f20)
    (h3 : 2 * (x * A + y * (2 * A) + z * A) = -f13 - f23 + f30)
    (b12 : |f12| ≤ 0) (b13 : |f13| ≤ A) (b23 : |f23| ≤ A)
    (b10 : |f10| ≤ A) (b20 : |f20| ≤ A) (b30 : |f30| ≤ 0)
    (hm : (m1, m2, m3) ≠ (0, 0, 0))
    (he : flowSum 0 A A A A 0
      f12 f13 f23 f10 f20 f30 m1 m2 m3 = 0) :
    OnZone (2 * A) (2 * A) (2 * A) A A A x y z := by
  have key : ∀ m1 m2 m3 : ℤ, zoneForm (2 * A) (2 * A) (2 * A) A A A x y z
      (-m1) (-m2 + m3) (m2) =
      flowSum 0 A A A A 0
        f12 f13 f23 f10 f20 f30 m1 m2 m3 := by
    intro m1 m2 m3
    unfold zoneForm flowSum
    push_cast
    linear_combination -m1 * h1 - m2 * h2 - m3 * h3
  constructor
  · intro n1 n2 n3
    have e : zoneForm (2 * A) (2 * A) (2 * A) A A A x y z n1 n2 n3 =
        flowSum 0 A A A A 0
          f12 f13 f23 f10 f20 f30 (-n1) (n3) (n2 + n3) := by
      unfold zoneForm flowSum
      push_cast
      linear_combination -(-n1) * h1 - (n3) * h2 - (n2 + n3) * h3
    rw [e]
    exact flow_nonneg b12 b13 b23 b10 b20 b30 _ _ _
  · refine ⟨_, _, _, ?_, (key m1 m2 m3).trans he⟩
    simp only [ne_eq, Prod.mk.injEq] at hm ⊢
    omega

theorem flow_tP {A C x y z : ℝ} (f12 f13 f23 f10 f20 f30 : ℝ) (m1 m2 m3 : ℤ)
    (h1 : 2 * (x * (-A) + y * (-A) + z * (-C)) = f12 + f13 + f10)
    (h2 : 2 * (z * C) = -f12 + f23 + f20)
    (h3 : 2 * (y * A) = -f13 - f23 + f30)
    (b12 : |f12| ≤ C) (b13 : |f13| ≤ A) (b23 : |f23| ≤ 0)
    (b10 : |f10| ≤ A) (b20 : |f20| ≤ 0) (b30 : |f30| ≤ 0)
    (hm : (m1, m2, m3) ≠ (0, 0, 0))
    (he : flowSum C A 0 A 0 0
      f12 f13 f23 f10 f20 f30 m1 m2 m3 = 0) :
    OnZone A A C 0 0 0 x y z := by
  have key : ∀ m1 m2 m3 : ℤ, zoneForm A A C 0 0 0 x y z
      (-m1) (-m1 + m3) (-m1 + m2) =
      flowSum C A 0 A 0 0
        f12 f13 f23 f10 f20 f30 m1 m2 m3 := by
    intro m1 m2 m3
    unfold zoneForm flowSum
    push_cast
    linear_combination -m1 * h1 - m2 * h2 - m3 * h3
  constructor
  · intro n1 n2 n3
    have e : zoneForm A A C 0 0 0 x y z n1 n2 n3 =
        flowSum C A 0 A 0 0
          f12 f13 f23 f10 f20 f30 (-n1) (-n1 + n3) (-n1 + n2) := by
      unfold zoneForm flowSum
      push_cast
      linear_combination -(-n1) * h1 - (-n1 + n3) * h2 - (-n1 + n2) * h3
    rw [e]
    exact flow_nonneg b12 b13 b23 b10 b20 b30 _ _ _
  · refine ⟨_, _, _, ?_, (key m1 m2 m3).trans he⟩
    simp only [ne_eq, Prod.mk.injEq] at hm ⊢
    omega

theorem flow_tI1 {A C x y z : ℝ} (f12 f13 f23 f10 f20 f30 : ℝ) (m1 m2 m3 : ℤ)
    (h1 : 2 * (x * (-A - C) + y * (-C) + z * (-A)) = f12 + f13 + f10)
    (h2 : 2 * (x * A + y * A + z * (2 * A)) = -f12 + f23 + f20)
    (h3 : 2 * (x * (-A + C) + y * C + z * (-A)) = -f13 - f23 + f30)
    (b12 : |f12| ≤ A) (b13 : |f13| ≤ -A + C) (b23 : |f23| ≤ A)
    (b10 : |f10| ≤ A) (b20 : |f20| ≤ 0) (b30 : |f30| ≤ A)
    (hm : (m1, m2, m3) ≠ (0, 0, 0))
    (he : flowSum A (-A + C) A A 0 A
      f12 f13 f23 f10 f20 f30 m1 m2 m3 = 0) :
    OnZone (A + C) (A + C) (2 * A) C A A x y z := by
  have key : ∀ m1 m2 m3 : ℤ, zoneForm (A + C) (A + C) (2 * A) C A A x y z
      (-m1) (m3) (m2 - m3) =
      flowSum A (-A + C) A A 0 A
        f12 f13 f23 f10 f20 f30 m1 m2 m3 := by
    intro m1 m2 m3
    unfold zoneForm flowSum
    push_cast
    linear_combination -m1 * h1 - m2 * h2 - m3 * h3
  constructor
  · intro n1 n2 n3
    have e : zoneForm (A + C) (A + C) (2 * A) C A A x y z n1 n2 n3 =
        flowSum A (-A + C) A A 0 A
          f12 f13 f23 f10 f20 f30 (-n1) (n2 + n3) (n2) := by
      unfold zoneForm flowSum
      push_cast
      linear_combination -(-n1) * h1 - (n2 + n3) * h2 - (n2) * h3
    rw [e]
    exact flow_nonneg b12 b13 b23 b10 b20 b30 _ _ _
  · refine ⟨_, _, _, ?_, (key m1 m2 m3).trans he⟩
    simp only [ne_eq, Prod.mk.injEq] at hm ⊢
    omega

theorem flow_tI2 {A C x y z : ℝ} (f12 f13 f23 f10 f20 f30 : ℝ) (m1 m2 m3 : ℤ)
    (h1 : 2 * (x * (-A - C) + y * (-C) + z * (-A)) = f12 + f13 + f10)
    (h2 : 2 * (x * (A - C) + y * (-C) + z * A) = -f12 + f23 + f20)
    (h3 : 2 * (x * C + y * (A + C) + z * A) = -f13 - f23 + f30)
    (b12 : |f12| ≤ A - C) (b13 : |f13| ≤ C) (b23 : |f23| ≤ C)
    (b10 : |f10| ≤ C) (b20 : |f20| ≤ C) (b30 : |f30| ≤ A - C)
    (hm : (m1, m2, m3) ≠ (0, 0, 0))
    (he : flowSum (A - C) C C C C (A - C)
      f12 f13 f23 f10 f20 f30 m1 m2 m3 = 0) :
    OnZone (A + C) (A + C) (2 * A) C A A x y z := by
  have key : ∀ m1 m2 m3 : ℤ, zoneForm (A + C) (A + C) (2 * A) C A A x y z
      (-m1) (-m2 + m3) (m2) =
      flowSum (A - C) C C C C (A - C)
        f12 f13 f23 f10 f20 f30 m1 m2 m3 := by
    intro m1 m2 m3
    unfold zoneForm flowSum
    push_cast
    linear_combination -m1 * h1 - m2 * h2 - m3 * h3
  constructor
  · intro n1 n2 n3
    have e : zoneForm (A + C) (A + C) (2 * A) C A A x y z n1 n2 n3 =
        flowSum (A - C) C C C C (A - C)
          f12 f13 f23 f10 f20 f30 (-n1) (n3) (n2 + n3) := by
      unfold zoneForm flowSum
      push_cast
      linear_combination -(-n1) * h1 - (n3) * h2 - (n2 + n3) * h3
    rw [e]
    exact flow_nonneg b12 b13 b23 b10 b20 b30 _ _ _
  · refine ⟨_, _, _, ?_, (key m1 m2 m3).trans he⟩
    simp only [ne_eq, Prod.mk.injEq] at hm ⊢
    omega

theorem flow_oP {A B C x y z : ℝ} (f12 f13 f23 f10 f20 f30 : ℝ) (m1 m2 m3 : ℤ)
    (h1 : 2 * (x * (-A) + y * (-B) + z * (-C)) = f12 + f13 + f10)
    (h2 : 2 * (z * C) = -f12 + f23 + f20)
    (h3 : 2 * (y * B) = -f13 - f23 + f30)
    (b12 : |f12| ≤ C) (b13 : |f13| ≤ B) (b23 : |f23| ≤ 0)
    (b10 : |f10| ≤ A) (b20 : |f20| ≤ 0) (b30 : |f30| ≤ 0)
    (hm : (m1, m2, m3) ≠ (0, 0, 0))
    (he : flowSum C B 0 A 0 0
      f12 f13 f23 f10 f20 f30 m1 m2 m3 = 0) :
    OnZone A B C 0 0 0 x y z := by
  have key : ∀ m1 m2 m3 : ℤ, zoneForm A B C 0 0 0 x y z
      (-m1) (-m1 + m3) (-m1 + m2) =
      flowSum C B 0 A 0 0
        f12 f13 f23 f10 f20 f30 m1 m2 m3 := by
    intro m1 m2 m3
    unfold zoneForm flowSum
    push_cast
    linear_combination -m1 * h1 - m2 * h2 - m3 * h3
  constructor
  · intro n1 n2 n3
    have e : zoneForm A B C 0 0 0 x y z n1 n2 n3 =
        flowSum C B 0 A 0 0
          f12 f13 f23 f10 f20 f30 (-n1) (-n1 + n3) (-n1 + n2) := by
      unfold zoneForm flowSum
      push_cast
      linear_combination -(-n1) * h1 - (-n1 + n3) * h2 - (-n1 + n2) * h3
    rw [e]
    exact flow_nonneg b12 b13 b23 b10 b20 b30 _ _ _
  · refine ⟨_, _, _, ?_, (key m1 m2 m3).trans he⟩
    simp only [ne_eq, Prod.mk.injEq] at hm ⊢
    omega

theorem flow_oF1 {A B C x y z : ℝ} (f12 f13 f23 f10 f20 f30 : ℝ) (m1 m2 m3 : ℤ)
    (h1 : 2 * (x * (A - B - C) + y * (-A + B - C) + z * (-A - B + C)) = f12 + f13 + f10)
    (h2 : 2 * (x * (-A - B - C) + y * (A + B - C) + z * (A - B + C)) = -f12 + f23 + f20)
    (h3 : 2 * (x * (2 * B) + y * (-2 * B) + z * (2 * B)) = -f13 - f23 + f30)
    (b12 : |f12| ≤ A - B - C) (b13 : |f13| ≤ 2 * B) (b23 : |f23| ≤ 2 * B)
    (b10 : |f10| ≤ 2 * C) (b20 : |f20| ≤ 2 * C) (b30 : |f30| ≤ 0)
    (hm : (m1, m2, m3) ≠ (0, 0, 0))
    (he : flowSum (A - B - C) (2 * B) (2 * B) (2 * C) (2 * C) 0
      f12 f13 f23 f10 f20 f30 m1 m2 m3 = 0) :
    OnZone (A + B + C) (A + B + C) (A + B + C) (-A - B + C) (-A + B - C) (A - B - C) x y z := by
  have key : ∀ m1 m2 m3 : ℤ, zoneForm (A + B + C) (A + B + C) (A + B + C) (-A - B + C) (-A + B - C) (A - B - C) x y z
      (-m1 - m2 + m3) (-m1) (-m1 + m3) =
      flowSum (A - B - C) (2 * B) (2 * B) (2 * C) (2 * C) 0
        f12 f13 f23 f10 f20 f30 m1 m2 m3 := by
    intro m1 m2 m3
    unfold zoneForm flowSum
    push_cast
    linear_combination -m1 * h1 - m2 * h2 - m3 * h3
  constructor
  · intro n1 n2 n3
    have e : zoneForm (A + B + C) (A + B + C) (A + B + C) (-A - B + C) (-A + B - C) (A - B - C) x y z n1 n2 n3 =
        flowSum (A - B - C) (2 * B) (2 * B) (2 * C) (2 * C) 0
          f12 f13 f23 f10 f20 f30 (-n2) (-n1 + n3) (-n2 + n3) := by
      unfold zoneForm flowSum
      push_cast
      linear_combination -(-n2) * h1 - (-n1 + n3) * h2 - (-n2 + n3) * h3
    rw [e]
    exact flow_nonneg b12 b13 b23 b10 b20 b30 _ _ _
  · refine ⟨_, _, _, ?_, (key m1 m2 m3).trans he⟩
    simp only [ne_eq, Prod.mk.injEq] at hm ⊢
    omega

theorem flow_oF2 {A B C x y z : ℝ} (f12 f13 f23 f10 f20 f30 : ℝ) (m1 m2 m3 : ℤ)
    (h1 : 2 * (x * (A - B - C) + y * (-A + B - C) + z * (-A - B + C)) = f12 + f13 + f10)
    (h2 : 2 * (x * (A - B + C) + y * (-A + B + C) + z * (-A - B - C)) = -f12 + f23 + f20)
    (h3 : 2 * (x * (-2 * A) + y * (2 * A) + z * (2 * A)) = -f13 - f23 + f30)
    (b12 : |f12| ≤ -A - B + C) (b13 : |f13| ≤ 2 * A) (b23 : |f23| ≤ 2 * A)
    (b10 : |f10| ≤ 2 * B) (b20 : |f20| ≤ 2 * B) (b30 : |f30| ≤ 0)
    (hm : (m1, m2, m3) ≠ (0, 0, 0))
    (he : flowSum (-A - B + C) (2 * A) (2 * A) (2 * B) (2 * B) 0
      f12 f13 f23 f10 f20 f30 m1 m2 m3 = 0) :
    OnZone (A + B + C) (A + B + C) (A + B + C) (-A - B + C) (-A + B - C) (A - B - C) x y z := by
  have key : ∀ m1 m2 m3 : ℤ, zoneForm (A + B + C) (A + B + C) (A + B + C) (-A - B + C) (-A + B - C) (A - B - C) x y z
      (-m1) (-m1 + m3) (-m1 - m2 + m3) =
      flowSum (-A - B + C) (2 * A) (2 * A) (2 * B) (2 * B) 0
        f12 f13 f23 f10 f20 f30 m1 m2 m3 := by
    intro m1 m2 m3
    unfold zoneForm flowSum
    push_cast
    linear_combination -m1 * h1 - m2 * h2 - m3 * h3
  constructor
  · intro n1 n2 n3
    have e : zoneForm (A + B + C) (A + B + C) (A + B + C) (-A - B + C) (-A + B - C) (A - B - C) x y z n1 n2 n3 =
        flowSum (-A - B + C) (2 * A) (2 * A) (2 * B) (2 * B) 0
          f12 f13 f23 f10 f20 f30 (-n1) (n2 - n3) (-n1 + n2) := by
      unfold zoneForm flowSum
      push_cast
      linear_combination -(-n1) * h1 - (n2 - n3) * h2 - (-n1 + n2) * h3
    rw [e]
    exact flow_nonneg b12 b13 b23 b10 b20 b30 _ _ _
  · refine ⟨_, _, _, ?_, (key m1 m2 m3).trans he⟩
    simp only [ne_eq, Prod.mk.injEq] at hm ⊢
    omega

theorem flow_oF3 {A B C x y z : ℝ} (f12 f13 f23 f10 f20 f30 : ℝ) (m1 m2 m3 : ℤ)
    (h1 : 2 * (x * (A - B - C) + y * (-A + B - C) + z * (-A - B + C)) = f12 + f13 + f10)
    (h2 : 2 * (x * (-A + B - C) + y * (A - B - C) + z * (A + B + C)) = -f12 + f23 + f20)
    (h3 : 2 * (x * (-A - B + C) + y * (A + B + C) + z * (A - B - C)) = -f13 - f23 + f30)
    (b12 : |f12| ≤ A + B - C) (b13 : |f13| ≤ A - B + C) (b23 : |f23| ≤ -A + B + C)
    (b10 : |f10| ≤ -A + B + C) (b20 : |f20| ≤ A - B + C) (b30 : |f30| ≤ A + B - C)
    (hm : (m1, m2, m3) ≠ (0, 0, 0))
    (he : flowSum (A + B - C) (A - B + C) (-A + B + C) (-A + B + C) (A - B + C) (A + B - C)
      f12 f13 f23 f10 f20 f30 m1 m2 m3 = 0) :
    OnZone (A + B + C) (A + B + C) (A + B + C) (-A - B + C) (-A + B - C) (A - B - C) x y z := by
  have key : ∀ m1 m2 m3 : ℤ, zoneForm (A + B + C) (A + B + C) (A + B + C) (-A - B + C) (-A + B - C) (A - B - C) x y z
      (-m1) (-m1 + m3) (-m1 + m2) =
      flowSum (A + B - C) (A - B + C) (-A + B + C) (-A + B + C) (A - B + C) (A + B - C)
        f12 f13 f23 f10 f20 f30 m1 m2 m3 := by
    intro m1 m2 m3
    unfold zoneForm flowSum
    push_cast
    linear_combination -m1 * h1 - m2 * h2 - m3 * h3
  constructor
  · intro n1 n2 n3
    have e : zoneForm (A + B + C) (A + B + C) (A + B + C) (-A - B + C) (-A + B - C) (A - B - C) x y z n1 n2 n3 =
        flowSum (A + B - C) (A - B + C) (-A + B + C) (-A + B + C) (A - B + C) (A + B - C)
          f12 f13 f23 f10 f20 f30 (-n1) (-n1 + n3) (-n1 + n2) := by
      unfold zoneForm flowSum
      push_cast
      linear_combination -(-n1) * h1 - (-n1 + n3) * h2 - (-n1 + n2) * h3
    rw [e]
    exact flow_nonneg b12 b13 b23 b10 b20 b30 _ _ _
  · refine ⟨_, _, _, ?_, (key m1 m2 m3).trans he⟩
    simp only [ne_eq, Prod.mk.injEq] at hm ⊢
    omega

theorem flow_oI1 {A B C x y z : ℝ} (f12 f13 f23 f10 f20 f30 : ℝ) (m1 m2 m3 : ℤ)
    (h1 : 2 * (x * (-B - C) + y * (-C) + z * (-B)) = f12 + f13 + f10)
    (h2 : 2 * (x * (B - C) + y * (-C) + z * B) = -f12 + f23 + f20)
    (h3 : 2 * (x * C + y * (A + C) + z * A) = -f13 - f23 + f30)
    (b12 : |f12| ≤ B - C) (b13 : |f13| ≤ C) (b23 : |f23| ≤ C)
    (b10 : |f10| ≤ C) (b20 : |f20| ≤ C) (b30 : |f30| ≤ A - C)
    (hm : (m1, m2, m3) ≠ (0, 0, 0))
    (he : flowSum (B - C) C C C C (A - C)
      f12 f13 f23 f10 f20 f30 m1 m2 m3 = 0) :
    OnZone (B + C) (A + C) (A + B) C B A x y z := by
  have key : ∀ m1 m2 m3 : ℤ, zoneForm (B + C) (A + C) (A + B) C B A x y z
      (-m1) (-m2 + m3) (m2) =
      flowSum (B - C) C C C C (A - C)
        f12 f13 f23 f10 f20 f30 m1 m2 m3 := by
    intro m1 m2 m3
    unfold zoneForm flowSum
    push_cast
    linear_combination -m1 * h1 - m2 * h2 - m3 * h3
  constructor
  · intro n1 n2 n3
    have e : zoneForm (B + C) (A + C) (A + B) C B A x y z n1 n2 n3 =
        flowSum (B - C) C C C C (A - C)
          f12 f13 f23 f10 f20 f30 (-n1) (n3) (n2 + n3) := by
      unfold zoneForm flowSum
      push_cast
      linear_combination -(-n1) * h1 - (n3) * h2 - (n2 + n3) * h3
    rw [e]
    exact flow_nonneg b12 b13 b23 b10 b20 b30 _ _ _
  · refine ⟨_, _, _, ?_, (key m1 m2 m3).trans he⟩
    simp only [ne_eq, Prod.mk.injEq] at hm ⊢
    omega

theorem flow_oI2 {A B C x y z : ℝ} (f12 f13 f23 f10 f20 f30 : ℝ) (m1 m2 m3 : ℤ)
    (h1 : 2 * (x * (-C) + y * (A - C) + z * A) = f12 + f13 + f10)
    (h2 : 2 * (x * (-B) + y * (-A) + z * (-A - B)) = -f12 + f23 + f20)
    (h3 : 2 * (x * C + y * (A + C) + z * A) = -f13 - f23 + f30)
    (b12 : |f12| ≤ A) (b13 : |f13| ≤ -A + C) (b23 : |f23| ≤ A)
    (b10 : |f10| ≤ A) (b20 : |f20| ≤ -A + B) (b30 : |f30| ≤ A)
    (hm : (m1, m2, m3) ≠ (0, 0, 0))
    (he : flowSum A (-A + C) A A (-A + B) A
      f12 f13 f23 f10 f20 f30 m1 m2 m3 = 0) :
    OnZone (B + C) (A + C) (A + B) C B A x y z := by
  have key : ∀ m1 m2 m3 : ℤ, zoneForm (B + C) (A + C) (A + B) C B A x y z
      (-m1) (m3) (m1 - m2) =
      flowSum A (-A + C) A A (-A + B) A
        f12 f13 f23 f10 f20 f30 m1 m2 m3 := by
    intro m1 m2 m3
    unfold zoneForm flowSum
    push_cast
    linear_combination -m1 * h1 - m2 * h2 - m3 * h3
  constructor
  · intro n1 n2 n3
    have e : zoneForm (B + C) (A + C) (A + B) C B A x y z n1 n2 n3 =
        flowSum A (-A + C) A A (-A + B) A
          f12 f13 f23 f10 f20 f30 (-n1) (-n1 - n3) (n2) := by
      unfold zoneForm flowSum
      push_cast
      linear_combination -(-n1) * h1 - (-n1 - n3) * h2 - (n2) * h3
    rw [e]
    exact flow_nonneg b12 b13 b23 b10 b20 b30 _ _ _
  · refine ⟨_, _, _, ?_, (key m1 m2 m3).trans he⟩
    simp only [ne_eq, Prod.mk.injEq] at hm ⊢
    omega

theorem flow_oI3 {A B C x y z : ℝ} (f12 f13 f23 f10 f20 f30 : ℝ) (m1 m2 m3 : ℤ)
    (h1 : 2 * (x * (-B - C) + y * (-C) + z * (-B)) = f12 + f13 + f10)
    (h2 : 2 * (x * B + y * A + z * (A + B)) = -f12 + f23 + f20)
    (h3 : 2 * (x * (-B + C) + y * C + z * (-B)) = -f13 - f23 + f30)
    (b12 : |f12| ≤ B) (b13 : |f13| ≤ -B + C) (b23 : |f23| ≤ B)
    (b10 : |f10| ≤ B) (b20 : |f20| ≤ A - B) (b30 : |f30| ≤ B)
    (hm : (m1, m2, m3) ≠ (0, 0, 0))
    (he : flowSum B (-B + C) B B (A - B) B
      f12 f13 f23 f10 f20 f30 m1 m2 m3 = 0) :
    OnZone (B + C) (A + C) (A + B) C B A x y z := by
  have key : ∀ m1 m2 m3 : ℤ, zoneForm (B + C) (A + C) (A + B) C B A x y z
      (-m1) (m3) (m2 - m3) =
      flowSum B (-B + C) B B (A - B) B
        f12 f13 f23 f10 f20 f30 m1 m2 m3 := by
    intro m1 m2 m3
    unfold zoneForm flowSum
    push_cast
    linear_combination -m1 * h1 - m2 * h2 - m3 * h3
  constructor
  · intro n1 n2 n3
    have e : zoneForm (B + C) (A + C) (A + B) C B A x y z n1 n2 n3 =
        flowSum B (-B + C) B B (A - B) B
          f12 f13 f23 f10 f20 f30 (-n1) (n2 + n3) (n2) := by
      unfold zoneForm flowSum
      push_cast
      linear_combination -(-n1) * h1 - (n2 + n3) * h2 - (n2) * h3
    rw [e]
    exact flow_nonneg b12 b13 b23 b10 b20 b30 _ _ _
  · refine ⟨_, _, _, ?_, (key m1 m2 m3).trans he⟩
    simp only [ne_eq, Prod.mk.injEq] at hm ⊢
    omega

theorem zone_cP {A : ℝ}
    (hA0 : 0 < A) :
    ∀ p ∈ hpkotTable69, GoodPoint A A A 0 0 0 p := by
  simp only [hpkotTable69, List.forall_mem_cons, List.not_mem_nil, false_imp_iff, implies_true, and_true]
  refine ⟨?_, ?_, ?_, ?_, ?_⟩
  · exact Or.inl ⟨rfl, rfl⟩
  · exact Or.inr ⟨_, _, _, rfl, flow_cP (-A) (-A) 0 (-A) 0 0 0 1 0
      (by zpt) (by zpt) (by zpt) (by zbd) (by zbd) (by zbd) (by zbd) (by zbd) (by zbd)
      (by decide) (by zeq)⟩
  · exact Or.inr ⟨_, _, _, rfl, flow_cP 0 (-A) 0 (-A) 0 0 0 0 1
      (by zpt) (by zpt) (by zpt) (by zbd) (by zbd) (by zbd) (by zbd) (by zbd) (by zbd)
      (by decide) (by zeq)⟩
  · exact Or.inr ⟨_, _, _, rfl, flow_cP 0 (-A) 0 0 0 0 0 0 1
      (by zpt) (by zpt) (by zpt) (by zbd) (by zbd) (by zbd) (by zbd) (by zbd) (by zbd)
      (by decide) (by zeq)⟩
  · exact Or.inr ⟨_, _, _, rfl, flow_cP 0 0 0 (-A) 0 0 (-1) (-1) (-1)
      (by zpt) (by zpt) (by zpt) (by zbd) (by zbd) (by zbd) (by zbd) (by zbd) (by zbd)
      (by decide) (by zeq)⟩

theorem zone_cF {A : ℝ}
    (hA0 : 0 < A) :
    ∀ p ∈ hpkotTable70, GoodPoint (3 * A) (3 * A) (3 * A) (-A) (-A) (-A) p := by
  simp only [hpkotTable70, List.forall_mem_cons, List.not_mem_nil, false_imp_iff, implies_true, and_true]
  refine ⟨?_, ?_, ?_, ?_, ?_, ?_, ?_⟩
  · exact Or.inl ⟨rfl, rfl⟩
  · exact Or.inr ⟨_, _, _, rfl, flow_cF (-A) 0 A (-A) 0 (-A) (-1) 0 (-1)
      (by zpt) (by zpt) (by zpt) (by zbd) (by zbd) (by zbd) (by zbd) (by zbd) (by zbd)
      (by decide) (by zeq)⟩
  · exact Or.inr ⟨_, _, _, rfl, flow_cF (-A) (-A) 0 (-A) 0 0 (-1) 0 0
      (by zpt) (by zpt) (by zpt) (by zbd) (by zbd) (by zbd) (by zbd) (by zbd) (by zbd)
      (by decide) (by zeq)⟩
  · exact Or.inr ⟨_, _, _, rfl, flow_cF (-A) (-A) A (-A) A (-A) 0 1 0
      (by zpt) (by zpt) (by zpt) (by zbd) (by zbd) (by zbd) (by zbd) (by zbd) (by zbd)
      (by decide) (by zeq)⟩
  · exact Or.inr ⟨_, _, _, rfl, flow_cF (-A) (-A) A (-A) (-A) (-A) (-1) (-1) (-1)
      (by zpt) (by zpt) (by zpt) (by zbd) (by zbd) (by zbd) (by zbd) (by zbd) (by zbd)
      (by decide) (by zeq)⟩
  · exact Or.inr ⟨_, _, _, rfl, flow_cF (-A) (-A) A (-A) A 0 0 1 0
      (by zpt) (by zpt) (by zpt) (by zbd) (by zbd) (by zbd) (by zbd) (by zbd) (by zbd)
      (by decide) (by zeq)⟩
  · exact Or.inr ⟨_, _, _, rfl, flow_cF (-A) (-A) A (-A) 0 (-A) (-1) 0 (-1)
      (by zpt) (by zpt) (by zpt) (by zbd) (by zbd) (by zbd) (by zbd) (by zbd) (by zbd)
      (by decide) (by zeq)⟩

theorem zone_cI {A : ℝ}
    (hA0 : 0 < A) :
    ∀ p ∈ hpkotTable71, GoodPoint (2 * A) (2 * A) (2 * A) A A A p := by
  simp only [hpkotTable71, List.forall_mem_cons, List.not_mem_nil, false_imp_iff, implies_true, and_true]
  refine ⟨?_, ?_, ?_, ?_⟩
  · exact Or.inl ⟨rfl, rfl⟩
  · exact Or.inr ⟨_, _, _, rfl, flow_cI 0 (-A) A (-A) A 0 0 1 0
      (by zpt) (by zpt) (by zpt) (by zbd) (by zbd) (by zbd) (by zbd) (by zbd) (by zbd)
      (by decide) (by zeq)⟩
  · exact Or.inr ⟨_, _, _, rfl, flow_cI 0 (-A) (-A) (-A) A 0 0 0 1
      (by zpt) (by zpt) (by zpt) (by zbd) (by zbd) (by zbd) (by zbd) (by zbd) (by zbd)
      (by decide) (by zeq)⟩
  · exact Or.inr ⟨_, _, _, rfl, flow_cI 0 (-A) 0 0 A 0 0 1 1
      (by zpt) (by zpt) (by zpt) (by zbd) (by zbd) (by zbd) (by zbd) (by zbd) (by zbd)
      (by decide) (by zeq)⟩

theorem zone_tP {A C : ℝ}
    (hA0 : 0 < A) (hC0 : 0 < C) :
    ∀ p ∈ hpkotTable72, GoodPoint A A C 0 0 0 p := by
  simp only [hpkotTable72, List.forall_mem_cons, List.not_mem_nil, false_imp_iff, implies_true, and_true]
  refine ⟨?_, ?_, ?_, ?_, ?_, ?_⟩
  · exact Or.inl ⟨rfl, rfl⟩
  · exact Or.inr ⟨_, _, _, rfl, flow_tP (-C) 0 0 0 0 0 0 1 0
      (by zpt) (by zpt) (by zpt) (by zbd) (by zbd) (by zbd) (by zbd) (by zbd) (by zbd)
      (by decide) (by zeq)⟩
  · exact Or.inr ⟨_, _, _, rfl, flow_tP 0 (-A) 0 (-A) 0 0 0 0 1
      (by zpt) (by zpt) (by zpt) (by zbd) (by zbd) (by zbd) (by zbd) (by zbd) (by zbd)
      (by decide) (by zeq)⟩
  · exact Or.inr ⟨_, _, _, rfl, flow_tP (-C) (-A) 0 (-A) 0 0 0 1 0
      (by zpt) (by zpt) (by zpt) (by zbd) (by zbd) (by zbd) (by zbd) (by zbd) (by zbd)
      (by decide) (by zeq)⟩
  · exact Or.inr ⟨_, _, _, rfl, flow_tP (-C) (-A) 0 0 0 0 0 1 0
      (by zpt) (by zpt) (by zpt) (by zbd) (by zbd) (by zbd) (by zbd) (by zbd) (by zbd)
      (by decide) (by zeq)⟩
  · exact Or.inr ⟨_, _, _, rfl, flow_tP 0 (-A) 0 0 0 0 0 0 1
      (by zpt) (by zpt) (by zpt) (by zbd) (by zbd) (by zbd) (by zbd) (by zbd) (by zbd)
      (by decide) (by zeq)⟩

theorem zone_tI1 {a c A C : ℝ}
    (ha : a ≠ 0) (hc : c ≠ 0) (hA : A = 1 / a ^ 2) (hC : C = 1 / c ^ 2)
    (hA0 : 0 < A) (h : A ≤ C) :
    ∀ p ∈ hpkotTable73 a c, GoodPoint (A + C) (A + C) (2 * A) C A A p := by
  simp only [hpkotTable73, List.forall_mem_cons, List.not_mem_nil, false_imp_iff, implies_true, and_true]
  refine ⟨?_, ?_, ?_, ?_, ?_, ?_, ?_⟩
  · exact Or.inl ⟨rfl, rfl⟩
  · exact Or.inr ⟨_, _, _, rfl, flow_tI1 (-A) 0 A A 0 A 0 1 0
      (by zpt) (by zpt) (by zpt) (by zbd) (by zbd) (by zbd) (by zbd) (by zbd) (by zbd)
      (by decide) (by zeq)⟩
  · exact Or.inr ⟨_, _, _, rfl, flow_tI1 (-A) 0 A 0 0 0 0 1 0
      (by zpt) (by zpt) (by zpt) (by zbd) (by zbd) (by zbd) (by zbd) (by zbd) (by zbd)
      (by decide) (by zeq)⟩
  · exact Or.inr ⟨_, _, _, rfl, flow_tI1 (-A) (A - C) A (-A) 0 A 0 1 0
      (by zpt) (by zpt) (by zpt) (by zbd) (by zbd) (by zbd) (by zbd) (by zbd) (by zbd)
      (by decide) (by zeq)⟩
  · exact Or.inr ⟨_, _, _, rfl, flow_tI1 (-A) (A - C) (-A) (-A) 0 A 0 0 1
      (by zpt) (by zpt) (by zpt) (by zbd) (by zbd) (by zbd) (by zbd) (by zbd) (by zbd)
      (by decide) (by zeq)⟩
  · exact Or.inr ⟨_, _, _, rfl, flow_tI1 (-A) (A - C) A A 0 A 0 1 0
      (by zpt) (by zpt) (by zpt) (by zbd) (by zbd) (by zbd) (by zbd) (by zbd) (by zbd)
      (by decide) (by zeq)⟩
  · exact Or.inr ⟨_, _, _, rfl, flow_tI1 (-A) (A - C) 0 0 0 A 0 1 1
      (by zpt) (by zpt) (by zpt) (by zbd) (by zbd) (by zbd) (by zbd) (by zbd) (by zbd)
      (by decide) (by zeq)⟩

theorem zone_tI2 {a c A C : ℝ}
    (ha : a ≠ 0) (hc : c ≠ 0) (hA : A = 1 / a ^ 2) (hC : C = 1 / c ^ 2)
    (hC0 : 0 < C) (h : C ≤ A) :
    ∀ p ∈ hpkotTable74 a c, GoodPoint (A + C) (A + C) (2 * A) C A A p := by
  simp only [hpkotTable74, List.forall_mem_cons, List.not_mem_nil, false_imp_iff, implies_true, and_true]
  refine ⟨?_, ?_, ?_, ?_, ?_, ?_, ?_, ?_, ?_⟩
  · exact Or.inl ⟨rfl, rfl⟩
  · exact Or.inr ⟨_, _, _, rfl, flow_tI2 0 (-C) (-C) (-C) (-C) 0 (-1) (-1) 0
      (by zpt) (by zpt) (by zpt) (by zbd) (by zbd) (by zbd) (by zbd) (by zbd) (by zbd)
      (by decide) (by zeq)⟩
  · exact Or.inr ⟨_, _, _, rfl, flow_tI2 (-A + C) (-C) 0 0 C (A - C) 0 1 1
      (by zpt) (by zpt) (by zpt) (by zbd) (by zbd) (by zbd) (by zbd) (by zbd) (by zbd)
      (by decide) (by zeq)⟩
  · exact Or.inr ⟨_, _, _, rfl, flow_tI2 (-A + C) (-C) (-C) (-C) C (A - C) 0 0 1
      (by zpt) (by zpt) (by zpt) (by zbd) (by zbd) (by zbd) (by zbd) (by zbd) (by zbd)
      (by decide) (by zeq)⟩
  · exact Or.inr ⟨_, _, _, rfl, flow_tI2 0 (-C) (-C) 0 0 (A - C) 0 0 1
      (by zpt) (by zpt) (by zpt) (by zbd) (by zbd) (by zbd) (by zbd) (by zbd) (by zbd)
      (by decide) (by zeq)⟩
  · exact Or.inr ⟨_, _, _, rfl, flow_tI2 0 (-C) (-C) C C (A - C) 0 0 1
      (by zpt) (by zpt) (by zpt) (by zbd) (by zbd) (by zbd) (by zbd) (by zbd) (by zbd)
      (by decide) (by zeq)⟩
  · exact Or.inr ⟨_, _, _, rfl, flow_tI2 0 (-C) (-C) (-C) (-C) (A - C) 0 0 1
      (by zpt) (by zpt) (by zpt) (by zbd) (by zbd) (by zbd) (by zbd) (by zbd) (by zbd)
      (by decide) (by zeq)⟩
  · exact Or.inr ⟨_, _, _, rfl, flow_tI2 (-A + C) (-C) (-C) C C (A - C) 0 0 1
      (by zpt) (by zpt) (by zpt) (by zbd) (by zbd) (by zbd) (by zbd) (by zbd) (by zbd)
      (by decide) (by zeq)⟩
  · exact Or.inr ⟨_, _, _, rfl, flow_tI2 (-A + C) (-C) (-C) (-C) (-C) (A - C) 0 0 1
      (by zpt) (by zpt) (by zpt) (by zbd) (by zbd) (by zbd) (by zbd) (by zbd) (by zbd)
      (by decide) (by zeq)⟩

theorem zone_oP {A B C : ℝ}
    (hA0 : 0 < A) (hB0 : 0 < B) (hC0 : 0 < C) :
    ∀ p ∈ hpkotTable75, GoodPoint A B C 0 0 0 p := by
  simp only [hpkotTable75, List.forall_mem_cons, List.not_mem_nil, false_imp_iff, implies_true, and_true]
  refine ⟨?_, ?_, ?_, ?_, ?_, ?_, ?_, ?_⟩
  · exact Or.inl ⟨rfl, rfl⟩
  · exact Or.inr ⟨_, _, _, rfl, flow_oP 0 0 0 (-A) 0 0 (-1) (-1) (-1)
      (by zpt) (by zpt) (by zpt) (by zbd) (by zbd) (by zbd) (by zbd) (by zbd) (by zbd)
      (by decide) (by zeq)⟩
  · exact Or.inr ⟨_, _, _, rfl, flow_oP (-C) 0 0 0 0 0 0 1 0
      (by zpt) (by zpt) (by zpt) (by zbd) (by zbd) (by zbd) (by zbd) (by zbd) (by zbd)
      (by decide) (by zeq)⟩
  · exact Or.inr ⟨_, _, _, rfl, flow_oP (-C) 0 0 (-A) 0 0 0 1 0
      (by zpt) (by zpt) (by zpt) (by zbd) (by zbd) (by zbd) (by zbd) (by zbd) (by zbd)
      (by decide) (by zeq)⟩
  · exact Or.inr ⟨_, _, _, rfl, flow_oP 0 (-B) 0 0 0 0 0 0 1
      (by zpt) (by zpt) (by zpt) (by zbd) (by zbd) (by zbd) (by zbd) (by zbd) (by zbd)
      (by decide) (by zeq)⟩
  · exact Or.inr ⟨_, _, _, rfl, flow_oP 0 (-B) 0 (-A) 0 0 0 0 1
      (by zpt) (by zpt) (by zpt) (by zbd) (by zbd) (by zbd) (by zbd) (by zbd) (by zbd)
      (by decide) (by zeq)⟩
  · exact Or.inr ⟨_, _, _, rfl, flow_oP (-C) (-B) 0 0 0 0 0 1 0
      (by zpt) (by zpt) (by zpt) (by zbd) (by zbd) (by zbd) (by zbd) (by zbd) (by zbd)
      (by decide) (by zeq)⟩
  · exact Or.inr ⟨_, _, _, rfl, flow_oP (-C) (-B) 0 (-A) 0 0 0 1 0
      (by zpt) (by zpt) (by zpt) (by zbd) (by zbd) (by zbd) (by zbd) (by zbd) (by zbd)
      (by decide) (by zeq)⟩

theorem zone_oF1 {a b c A B C : ℝ}
    (ha : a ≠ 0) (hb : b ≠ 0) (hc : c ≠ 0) (hA : A = 1 / a ^ 2) (hB : B = 1 / b ^ 2) (hC : C = 1 / c ^ 2)
    (hB0 : 0 < B) (hC0 : 0 < C) (h : B + C ≤ A) :
    ∀ p ∈ hpkotTable76 a b c, GoodPoint (A + B + C) (A + B + C) (A + B + C) (-A - B + C) (-A + B - C) (A - B - C) p := by
  simp only [hpkotTable76, List.forall_mem_cons, List.not_mem_nil, false_imp_iff, implies_true, and_true]
  refine ⟨?_, ?_, ?_, ?_, ?_, ?_, ?_, ?_, ?_⟩
  · exact Or.inl ⟨rfl, rfl⟩
  · exact Or.inr ⟨_, _, _, rfl, flow_oF1 0 (-2 * B) (-2 * B) (-2 * C) (-2 * C) 0 0 0 1
      (by zpt) (by zpt) (by zpt) (by zbd) (by zbd) (by zbd) (by zbd) (by zbd) (by zbd)
      (by decide) (by zeq)⟩
  · exact Or.inr ⟨_, _, _, rfl, flow_oF1 0 0 0 (-2 * C) (-2 * C) 0 (-1) (-1) (-1)
      (by zpt) (by zpt) (by zpt) (by zbd) (by zbd) (by zbd) (by zbd) (by zbd) (by zbd)
      (by decide) (by zeq)⟩
  · exact Or.inr ⟨_, _, _, rfl, flow_oF1 0 (-2 * B) (-2 * B) 0 0 0 0 0 1
      (by zpt) (by zpt) (by zpt) (by zbd) (by zbd) (by zbd) (by zbd) (by zbd) (by zbd)
      (by decide) (by zeq)⟩
  · exact Or.inr ⟨_, _, _, rfl, flow_oF1 (-A + B + C) (-2 * B) (2 * B) (-2 * C) (2 * C) 0 0 1 0
      (by zpt) (by zpt) (by zpt) (by zbd) (by zbd) (by zbd) (by zbd) (by zbd) (by zbd)
      (by decide) (by zeq)⟩
  · exact Or.inr ⟨_, _, _, rfl, flow_oF1 (-A + B + C) (-2 * B) (-2 * B) (-2 * C) (-2 * C) 0 0 0 1
      (by zpt) (by zpt) (by zpt) (by zbd) (by zbd) (by zbd) (by zbd) (by zbd) (by zbd)
      (by decide) (by zeq)⟩
  · exact Or.inr ⟨_, _, _, rfl, flow_oF1 (-A + B + C) (-2 * B) (2 * B) (-2 * C) (-2 * C) 0 (-1) (-1) (-1)
      (by zpt) (by zpt) (by zpt) (by zbd) (by zbd) (by zbd) (by zbd) (by zbd) (by zbd)
      (by decide) (by zeq)⟩
  · exact Or.inr ⟨_, _, _, rfl, flow_oF1 (-A + B + C) (-2 * B) (-2 * B) (-2 * C) (2 * C) 0 0 0 1
      (by zpt) (by zpt) (by zpt) (by zbd) (by zbd) (by zbd) (by zbd) (by zbd) (by zbd)
      (by decide) (by zeq)⟩
  · exact Or.inr ⟨_, _, _, rfl, flow_oF1 (-A + B + C) (-2 * B) 0 (-2 * C) 0 0 (-1) 0 0
      (by zpt) (by zpt) (by zpt) (by zbd) (by zbd) (by zbd) (by zbd) (by zbd) (by zbd)
      (by decide) (by zeq)⟩

theorem zone_oF2 {a b c A B C : ℝ}
    (ha : a ≠ 0) (hb : b ≠ 0) (hc : c ≠ 0) (hA : A = 1 / a ^ 2) (hB : B = 1 / b ^ 2) (hC : C = 1 / c ^ 2)
    (hA0 : 0 < A) (hB0 : 0 < B) (h : A + B ≤ C) :
    ∀ p ∈ hpkotTable77 a b c, GoodPoint (A + B + C) (A + B + C) (A + B + C) (-A - B + C) (-A + B - C) (A - B - C) p := by
  simp only [hpkotTable77, List.forall_mem_cons, List.not_mem_nil, false_imp_iff, implies_true, and_true]
  refine ⟨?_, ?_, ?_, ?_, ?_, ?_, ?_, ?_, ?_⟩
  · exact Or.inl ⟨rfl, rfl⟩
  · exact Or.inr ⟨_, _, _, rfl, flow_oF2 0 (-2 * A) (-2 * A) 0 0 0 0 0 1
      (by zpt) (by zpt) (by zpt) (by zbd) (by zbd) (by zbd) (by zbd) (by zbd) (by zbd)
      (by decide) (by zeq)⟩
  · exact Or.inr ⟨_, _, _, rfl, flow_oF2 0 (-2 * A) (-2 * A) (-2 * B) (-2 * B) 0 0 0 1
      (by zpt) (by zpt) (by zpt) (by zbd) (by zbd) (by zbd) (by zbd) (by zbd) (by zbd)
      (by decide) (by zeq)⟩
  · exact Or.inr ⟨_, _, _, rfl, flow_oF2 0 0 0 (-2 * B) (-2 * B) 0 (-1) (-1) (-1)
      (by zpt) (by zpt) (by zpt) (by zbd) (by zbd) (by zbd) (by zbd) (by zbd) (by zbd)
      (by decide) (by zeq)⟩
  · exact Or.inr ⟨_, _, _, rfl, flow_oF2 (A + B - C) (-2 * A) (2 * A) (-2 * B) (2 * B) 0 0 1 0
      (by zpt) (by zpt) (by zpt) (by zbd) (by zbd) (by zbd) (by zbd) (by zbd) (by zbd)
      (by decide) (by zeq)⟩
  · exact Or.inr ⟨_, _, _, rfl, flow_oF2 (A + B - C) (-2 * A) (-2 * A) (-2 * B) (-2 * B) 0 0 0 1
      (by zpt) (by zpt) (by zpt) (by zbd) (by zbd) (by zbd) (by zbd) (by zbd) (by zbd)
      (by decide) (by zeq)⟩
  · exact Or.inr ⟨_, _, _, rfl, flow_oF2 (A + B - C) (-2 * A) (-2 * A) (-2 * B) (2 * B) 0 0 0 1
      (by zpt) (by zpt) (by zpt) (by zbd) (by zbd) (by zbd) (by zbd) (by zbd) (by zbd)
      (by decide) (by zeq)⟩
  · exact Or.inr ⟨_, _, _, rfl, flow_oF2 (A + B - C) (-2 * A) (2 * A) (-2 * B) (-2 * B) 0 (-1) (-1) (-1)
      (by zpt) (by zpt) (by zpt) (by zbd) (by zbd) (by zbd) (by zbd) (by zbd) (by zbd)
      (by decide) (by zeq)⟩
  · exact Or.inr ⟨_, _, _, rfl, flow_oF2 (A + B - C) (-2 * A) 0 (-2 * B) 0 0 (-1) 0 0
      (by zpt) (by zpt) (by zpt) (by zbd) (by zbd) (by zbd) (by zbd) (by zbd) (by zbd)
      (by decide) (by zeq)⟩

theorem zone_oF3 {a b c A B C : ℝ}
    (ha : a ≠ 0) (hb : b ≠ 0) (hc : c ≠ 0) (hA : A = 1 / a ^ 2) (hB : B = 1 / b ^ 2) (hC : C = 1 / c ^ 2)
    (h1 : A ≤ B + C) (h2 : B ≤ A + C) (h3 : C ≤ A + B) :
    ∀ p ∈ hpkotTable78 a b c, GoodPoint (A + B + C) (A + B + C) (A + B + C) (-A - B + C) (-A + B - C) (A - B - C) p := by
  simp only [hpkotTable78, List.forall_mem_cons, List.not_mem_nil, false_imp_iff, implies_true, and_true]
  refine ⟨?_, ?_, ?_, ?_, ?_, ?_, ?_, ?_, ?_, ?_, ?_⟩
  · exact Or.inl ⟨rfl, rfl⟩
  · exact Or.inr ⟨_, _, _, rfl, flow_oF3 (-A - B + C) (-A + B - C) 0 0 (A - B + C) (A + B - C) 0 1 1
      (by zpt) (by zpt) (by zpt) (by zbd) (by zbd) (by zbd) (by zbd) (by zbd) (by zbd)
      (by decide) (by zeq)⟩
  · exact Or.inr ⟨_, _, _, rfl, flow_oF3 0 (-A + B - C) (A - B - C) (A - B - C) (-A + B - C) 0 (-1) (-1) 0
      (by zpt) (by zpt) (by zpt) (by zbd) (by zbd) (by zbd) (by zbd) (by zbd) (by zbd)
      (by decide) (by zeq)⟩
  · exact Or.inr ⟨_, _, _, rfl, flow_oF3 (-A - B + C) 0 (-A + B + C) (A - B - C) 0 (-A - B + C) (-1) 0 (-1)
      (by zpt) (by zpt) (by zpt) (by zbd) (by zbd) (by zbd) (by zbd) (by zbd) (by zbd)
      (by decide) (by zeq)⟩
  · exact Or.inr ⟨_, _, _, rfl, flow_oF3 (-A - B + C) (-A + B - C) (A - B - C) (A - B - C) (-A + B - C) (A + B - C) 0 0 1
      (by zpt) (by zpt) (by zpt) (by zbd) (by zbd) (by zbd) (by zbd) (by zbd) (by zbd)
      (by decide) (by zeq)⟩
  · exact Or.inr ⟨_, _, _, rfl, flow_oF3 (-A - B + C) (-A + B - C) (-A + B + C) (A - B - C) (A - B + C) (-A - B + C) 0 1 0
      (by zpt) (by zpt) (by zpt) (by zbd) (by zbd) (by zbd) (by zbd) (by zbd) (by zbd)
      (by decide) (by zeq)⟩
  · exact Or.inr ⟨_, _, _, rfl, flow_oF3 (-A - B + C) (-A + B - C) (A - B - C) (A - B - C) (-A + B - C) (-A - B + C) (-1) (-1) (-1)
      (by zpt) (by zpt) (by zpt) (by zbd) (by zbd) (by zbd) (by zbd) (by zbd) (by zbd)
      (by decide) (by zeq)⟩
  · exact Or.inr ⟨_, _, _, rfl, flow_oF3 (-A - B + C) (-A + B - C) (-A + B + C) (A - B - C) (A - B + C) (A + B - C) 0 1 0
      (by zpt) (by zpt) (by zpt) (by zbd) (by zbd) (by zbd) (by zbd) (by zbd) (by zbd)
      (by decide) (by zeq)⟩
  · exact Or.inr ⟨_, _, _, rfl, flow_oF3 (-A - B + C) (-A + B - C) (A - B - C) (A - B - C) (A - B + C) (A + B - C) 0 0 1
      (by zpt) (by zpt) (by zpt) (by zbd) (by zbd) (by zbd) (by zbd) (by zbd) (by zbd)
      (by decide) (by zeq)⟩
  · exact Or.inr ⟨_, _, _, rfl, flow_oF3 (-A - B + C) (-A + B - C) (-A + B + C) (A - B - C) (-A + B - C) (-A - B + C) (-1) (-1) (-1)
      (by zpt) (by zpt) (by zpt) (by zbd) (by zbd) (by zbd) (by zbd) (by zbd) (by zbd)
      (by decide) (by zeq)⟩
  · exact Or.inr ⟨_, _, _, rfl, flow_oF3 (-A - B + C) (-A + B - C) 0 (A - B - C) 0 0 (-1) 0 0
      (by zpt) (by zpt) (by zpt) (by zbd) (by zbd) (by zbd) (by zbd) (by zbd) (by zbd)
      (by decide) (by zeq)⟩

theorem zone_oI1 {a b c A B C : ℝ}
    (ha : a ≠ 0) (hb : b ≠ 0) (hc : c ≠ 0) (hA : A = 1 / a ^ 2) (hB : B = 1 / b ^ 2) (hC : C = 1 / c ^ 2)
    (hC0 : 0 < C) (h1 : C ≤ A) (h2 : C ≤ B) :
    ∀ p ∈ hpkotTable79 a b c, GoodPoint (B + C) (A + C) (A + B) C B A p := by
  simp only [hpkotTable79, List.forall_mem_cons, List.not_mem_nil, false_imp_iff, implies_true, and_true]
  refine ⟨?_, ?_, ?_, ?_, ?_, ?_, ?_, ?_, ?_, ?_, ?_, ?_, ?_⟩
  · exact Or.inl ⟨rfl, rfl⟩
  · exact Or.inr ⟨_, _, _, rfl, flow_oI1 0 (-C) (-C) (-C) (-C) 0 (-1) (-1) 0
      (by zpt) (by zpt) (by zpt) (by zbd) (by zbd) (by zbd) (by zbd) (by zbd) (by zbd)
      (by decide) (by zeq)⟩
  · exact Or.inr ⟨_, _, _, rfl, flow_oI1 (-B + C) (-C) 0 (-C) 0 0 (-1) 0 0
      (by zpt) (by zpt) (by zpt) (by zbd) (by zbd) (by zbd) (by zbd) (by zbd) (by zbd)
      (by decide) (by zeq)⟩
  · exact Or.inr ⟨_, _, _, rfl, flow_oI1 0 (-C) (-C) 0 0 (A - C) 0 0 1
      (by zpt) (by zpt) (by zpt) (by zbd) (by zbd) (by zbd) (by zbd) (by zbd) (by zbd)
      (by decide) (by zeq)⟩
  · exact Or.inr ⟨_, _, _, rfl, flow_oI1 (-B + C) (-C) 0 0 C (A - C) 0 1 1
      (by zpt) (by zpt) (by zpt) (by zbd) (by zbd) (by zbd) (by zbd) (by zbd) (by zbd)
      (by decide) (by zeq)⟩
  · exact Or.inr ⟨_, _, _, rfl, flow_oI1 (-B + C) (-C) (-C) (-C) C (A - C) 0 0 1
      (by zpt) (by zpt) (by zpt) (by zbd) (by zbd) (by zbd) (by zbd) (by zbd) (by zbd)
      (by decide) (by zeq)⟩
  · exact Or.inr ⟨_, _, _, rfl, flow_oI1 0 (-C) (-C) C C (A - C) 0 0 1
      (by zpt) (by zpt) (by zpt) (by zbd) (by zbd) (by zbd) (by zbd) (by zbd) (by zbd)
      (by decide) (by zeq)⟩
  · exact Or.inr ⟨_, _, _, rfl, flow_oI1 0 (-C) (-C) (-C) (-C) (A - C) 0 0 1
      (by zpt) (by zpt) (by zpt) (by zbd) (by zbd) (by zbd) (by zbd) (by zbd) (by zbd)
      (by decide) (by zeq)⟩
  · exact Or.inr ⟨_, _, _, rfl, flow_oI1 (-B + C) (-C) C (-C) C 0 0 1 0
      (by zpt) (by zpt) (by zpt) (by zbd) (by zbd) (by zbd) (by zbd) (by zbd) (by zbd)
      (by decide) (by zeq)⟩
  · exact Or.inr ⟨_, _, _, rfl, flow_oI1 (-B + C) (-C) (-C) (-C) (-C) 0 (-1) (-1) 0
      (by zpt) (by zpt) (by zpt) (by zbd) (by zbd) (by zbd) (by zbd) (by zbd) (by zbd)
      (by decide) (by zeq)⟩
  · exact Or.inr ⟨_, _, _, rfl, flow_oI1 (-B + C) (-C) (-C) C C (A - C) 0 0 1
      (by zpt) (by zpt) (by zpt) (by zbd) (by zbd) (by zbd) (by zbd) (by zbd) (by zbd)
      (by decide) (by zeq)⟩
  · exact Or.inr ⟨_, _, _, rfl, flow_oI1 (-B + C) (-C) C (-C) C (A - C) 0 1 0
      (by zpt) (by zpt) (by zpt) (by zbd) (by zbd) (by zbd) (by zbd) (by zbd) (by zbd)
      (by decide) (by zeq)⟩
  · exact Or.inr ⟨_, _, _, rfl, flow_oI1 (-B + C) (-C) (-C) (-C) (-C) (A - C) 0 0 1
      (by zpt) (by zpt) (by zpt) (by zbd) (by zbd) (by zbd) (by zbd) (by zbd) (by zbd)
      (by decide) (by zeq)⟩

theorem zone_oI2 {a b c A B C : ℝ}
    (ha : a ≠ 0) (hb : b ≠ 0) (hc : c ≠ 0) (hA : A = 1 / a ^ 2) (hB : B = 1 / b ^ 2) (hC : C = 1 / c ^ 2)
    (hA0 : 0 < A) (h1 : A ≤ B) (h2 : A ≤ C) :
    ∀ p ∈ hpkotTable80 a b c, GoodPoint (B + C) (A + C) (A + B) C B A p := by
  simp only [hpkotTable80, List.forall_mem_cons, List.not_mem_nil, false_imp_iff, implies_true, and_true]
  refine ⟨?_, ?_, ?_, ?_, ?_, ?_, ?_, ?_, ?_, ?_, ?_, ?_, ?_⟩
  · exact Or.inl ⟨rfl, rfl⟩
  · exact Or.inr ⟨_, _, _, rfl, flow_oI2 A 0 (-A) A 0 A 1 0 1
      (by zpt) (by zpt) (by zpt) (by zbd) (by zbd) (by zbd) (by zbd) (by zbd) (by zbd)
      (by decide) (by zeq)⟩
  · exact Or.inr ⟨_, _, _, rfl, flow_oI2 0 (A - C) (-A) (-A) (A - B) 0 (-1) (-1) 0
      (by zpt) (by zpt) (by zpt) (by zbd) (by zbd) (by zbd) (by zbd) (by zbd) (by zbd)
      (by decide) (by zeq)⟩
  · exact Or.inr ⟨_, _, _, rfl, flow_oI2 0 (A - C) (-A) 0 0 A 0 0 1
      (by zpt) (by zpt) (by zpt) (by zbd) (by zbd) (by zbd) (by zbd) (by zbd) (by zbd)
      (by decide) (by zeq)⟩
  · exact Or.inr ⟨_, _, _, rfl, flow_oI2 A 0 (-A) 0 (A - B) 0 0 (-1) 0
      (by zpt) (by zpt) (by zpt) (by zbd) (by zbd) (by zbd) (by zbd) (by zbd) (by zbd)
      (by decide) (by zeq)⟩
  · exact Or.inr ⟨_, _, _, rfl, flow_oI2 A (A - C) (-A) (-A) (A - B) A 0 0 1
      (by zpt) (by zpt) (by zpt) (by zbd) (by zbd) (by zbd) (by zbd) (by zbd) (by zbd)
      (by decide) (by zeq)⟩
  · exact Or.inr ⟨_, _, _, rfl, flow_oI2 A 0 (-A) (-A) (A - B) (-A) (-1) (-1) (-1)
      (by zpt) (by zpt) (by zpt) (by zbd) (by zbd) (by zbd) (by zbd) (by zbd) (by zbd)
      (by decide) (by zeq)⟩
  · exact Or.inr ⟨_, _, _, rfl, flow_oI2 A 0 (-A) A (A - B) A 1 0 1
      (by zpt) (by zpt) (by zpt) (by zbd) (by zbd) (by zbd) (by zbd) (by zbd) (by zbd)
      (by decide) (by zeq)⟩
  · exact Or.inr ⟨_, _, _, rfl, flow_oI2 (-A) (A - C) (-A) (-A) 0 A 0 0 1
      (by zpt) (by zpt) (by zpt) (by zbd) (by zbd) (by zbd) (by zbd) (by zbd) (by zbd)
      (by decide) (by zeq)⟩
  · exact Or.inr ⟨_, _, _, rfl, flow_oI2 A (A - C) (-A) A 0 A 0 0 1
      (by zpt) (by zpt) (by zpt) (by zbd) (by zbd) (by zbd) (by zbd) (by zbd) (by zbd)
      (by decide) (by zeq)⟩
  · exact Or.inr ⟨_, _, _, rfl, flow_oI2 A (A - C) (-A) (-A) (A - B) (-A) (-1) (-1) (-1)
      (by zpt) (by zpt) (by zpt) (by zbd) (by zbd) (by zbd) (by zbd) (by zbd) (by zbd)
      (by decide) (by zeq)⟩
  · exact Or.inr ⟨_, _, _, rfl, flow_oI2 (-A) (A - C) (-A) (-A) (A - B) A 0 0 1
      (by zpt) (by zpt) (by zpt) (by zbd) (by zbd) (by zbd) (by zbd) (by zbd) (by zbd)
      (by decide) (by zeq)⟩
  · exact Or.inr ⟨_, _, _, rfl, flow_oI2 A (A - C) (-A) A (A - B) A 0 0 1
      (by zpt) (by zpt) (by zpt) (by zbd) (by zbd) (by zbd) (by zbd) (by zbd) (by zbd)
      (by decide) (by zeq)⟩

theorem zone_oI3 {a b c A B C : ℝ}
    (ha : a ≠ 0) (hb : b ≠ 0) (hc : c ≠ 0) (hA : A = 1 / a ^ 2) (hB : B = 1 / b ^ 2) (hC : C = 1 / c ^ 2)
    (hB0 : 0 < B) (h1 : B ≤ A) (h2 : B ≤ C) :
    ∀ p ∈ hpkotTable81 a b c, GoodPoint (B + C) (A + C) (A + B) C B A p := by
  simp only [hpkotTable81, List.forall_mem_cons, List.not_mem_nil, false_imp_iff, implies_true, and_true]
  refine ⟨?_, ?_, ?_, ?_, ?_, ?_, ?_, ?_, ?_, ?_, ?_, ?_, ?_⟩
  · exact Or.inl ⟨rfl, rfl⟩
  · exact Or.inr ⟨_, _, _, rfl, flow_oI3 (-B) 0 B (-B) 0 (-B) (-1) 0 (-1)
      (by zpt) (by zpt) (by zpt) (by zbd) (by zbd) (by zbd) (by zbd) (by zbd) (by zbd)
      (by decide) (by zeq)⟩
  · exact Or.inr ⟨_, _, _, rfl, flow_oI3 (-B) (B - C) 0 (-B) 0 0 (-1) 0 0
      (by zpt) (by zpt) (by zpt) (by zbd) (by zbd) (by zbd) (by zbd) (by zbd) (by zbd)
      (by decide) (by zeq)⟩
  · exact Or.inr ⟨_, _, _, rfl, flow_oI3 (-B) (B - C) 0 0 (A - B) B 0 1 1
      (by zpt) (by zpt) (by zpt) (by zbd) (by zbd) (by zbd) (by zbd) (by zbd) (by zbd)
      (by decide) (by zeq)⟩
  · exact Or.inr ⟨_, _, _, rfl, flow_oI3 (-B) 0 B 0 (A - B) 0 0 1 0
      (by zpt) (by zpt) (by zpt) (by zbd) (by zbd) (by zbd) (by zbd) (by zbd) (by zbd)
      (by decide) (by zeq)⟩
  · exact Or.inr ⟨_, _, _, rfl, flow_oI3 (-B) (B - C) B (-B) (A - B) B 0 1 0
      (by zpt) (by zpt) (by zpt) (by zbd) (by zbd) (by zbd) (by zbd) (by zbd) (by zbd)
      (by decide) (by zeq)⟩
  · exact Or.inr ⟨_, _, _, rfl, flow_oI3 (-B) 0 B B (A - B) B 0 1 0
      (by zpt) (by zpt) (by zpt) (by zbd) (by zbd) (by zbd) (by zbd) (by zbd) (by zbd)
      (by decide) (by zeq)⟩
  · exact Or.inr ⟨_, _, _, rfl, flow_oI3 (-B) 0 B (-B) (A - B) (-B) 0 1 0
      (by zpt) (by zpt) (by zpt) (by zbd) (by zbd) (by zbd) (by zbd) (by zbd) (by zbd)
      (by decide) (by zeq)⟩
  · exact Or.inr ⟨_, _, _, rfl, flow_oI3 (-B) (B - C) (-B) (-B) 0 B 0 0 1
      (by zpt) (by zpt) (by zpt) (by zbd) (by zbd) (by zbd) (by zbd) (by zbd) (by zbd)
      (by decide) (by zeq)⟩
  · exact Or.inr ⟨_, _, _, rfl, flow_oI3 (-B) (B - C) B (-B) 0 (-B) (-1) 0 (-1)
      (by zpt) (by zpt) (by zpt) (by zbd) (by zbd) (by zbd) (by zbd) (by zbd) (by zbd)
      (by decide) (by zeq)⟩
  · exact Or.inr ⟨_, _, _, rfl, flow_oI3 (-B) (B - C) (-B) (-B) (A - B) B 0 0 1
      (by zpt) (by zpt) (by zpt) (by zbd) (by zbd) (by zbd) (by zbd) (by zbd) (by zbd)
      (by decide) (by zeq)⟩
  · exact Or.inr ⟨_, _, _, rfl, flow_oI3 (-B) (B - C) B B (A - B) B 0 1 0
      (by zpt) (by zpt) (by zpt) (by zbd) (by zbd) (by zbd) (by zbd) (by zbd) (by zbd)
      (by decide) (by zeq)⟩
  · exact Or.inr ⟨_, _, _, rfl, flow_oI3 (-B) (B - C) B (-B) (A - B) (-B) 0 1 0
      (by zpt) (by zpt) (by zpt) (by zbd) (by zbd) (by zbd) (by zbd) (by zbd) (by zbd)
      (by decide) (by zeq)⟩

end Wulfric
