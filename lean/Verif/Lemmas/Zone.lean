import Verif.Spec.Zone
import Verif.Model.Points
import Mathlib.LinearAlgebra.Matrix.Nondegenerate
import Mathlib.Tactic.FieldSimp
import Mathlib.Tactic.LinearCombination
import Mathlib.Tactic.Linarith

/-!
# Points on the boundary of the first Brillouin zone

A lattice with a basis `w₁, w₂, w₃` such that the scalar products of `w₁, w₂, w₃` and
`w₀ = -w₁ - w₂ - w₃` are not positive, `p_ij = -w_i·w_j`, has
`|G|² = Σ p_ij (n_i - n_j)²` for `G = Σ n_i w_i`. A point `k` with
`2 k·w_i = Σ_j f_ij`, where `f` is antisymmetric and `|f_ij| ≤ p_ij`, has
`2 k·G = Σ f_ij (n_i - n_j) ≤ |G|²`.
-/

namespace Wulfric

open Matrix _root_.Spec

/-- `|n|² - 2 x·n` for the quadratic form with the given entries. -/
def zoneForm (q11 q22 q33 q12 q13 q23 x y z : ℝ) (n1 n2 n3 : ℤ) : ℝ :=
  q11 * n1 ^ 2 + q22 * n2 ^ 2 + q33 * n3 ^ 2 + 2 * q12 * n1 * n2 + 2 * q13 * n1 * n3 +
    2 * q23 * n2 * n3 - 2 * (x * (q11 * n1 + q12 * n2 + q13 * n3) +
      y * (q12 * n1 + q22 * n2 + q23 * n3) + z * (q13 * n1 + q23 * n2 + q33 * n3))

/-- The point with the coordinates `x, y, z` is on the boundary of the zone of the form. -/
def OnZone (q11 q22 q33 q12 q13 q23 x y z : ℝ) : Prop :=
  (∀ n1 n2 n3, 0 ≤ zoneForm q11 q22 q33 q12 q13 q23 x y z n1 n2 n3) ∧
    ∃ n1 n2 n3, (n1, n2, n3) ≠ ((0 : ℤ), (0 : ℤ), (0 : ℤ)) ∧
      zoneForm q11 q22 q33 q12 q13 q23 x y z n1 n2 n3 = 0

theorem flow_term {p f : ℝ} (h : |f| ≤ p) (d : ℤ) : 0 ≤ p * (d : ℝ) ^ 2 - f * d := by
  have h1 : |(d : ℝ)| ≤ (d : ℝ) ^ 2 := by
    rw [← sq_abs]
    rcases eq_or_ne d 0 with rfl | hd
    · simp
    · have : (1 : ℝ) ≤ |(d : ℝ)| := by exact_mod_cast Int.one_le_abs hd
      nlinarith
  have h2 : f * d ≤ |f| * |(d : ℝ)| := by rw [← abs_mul]; exact le_abs_self _
  have h3 : |f| * |(d : ℝ)| ≤ p * (d : ℝ) ^ 2 :=
    mul_le_mul h h1 (abs_nonneg _) ((abs_nonneg _).trans h)
  linarith

/-- The sum of the six terms. -/
def flowSum (p12 p13 p23 p10 p20 p30 f12 f13 f23 f10 f20 f30 : ℝ) (m1 m2 m3 : ℤ) : ℝ :=
  (p12 * ((m1 - m2 : ℤ) : ℝ) ^ 2 - f12 * ((m1 - m2 : ℤ) : ℝ)) +
  (p13 * ((m1 - m3 : ℤ) : ℝ) ^ 2 - f13 * ((m1 - m3 : ℤ) : ℝ)) +
  (p23 * ((m2 - m3 : ℤ) : ℝ) ^ 2 - f23 * ((m2 - m3 : ℤ) : ℝ)) +
  (p10 * (m1 : ℝ) ^ 2 - f10 * m1) + (p20 * (m2 : ℝ) ^ 2 - f20 * m2) +
  (p30 * (m3 : ℝ) ^ 2 - f30 * m3)

theorem flow_nonneg {p12 p13 p23 p10 p20 p30 f12 f13 f23 f10 f20 f30 : ℝ}
    (h12 : |f12| ≤ p12) (h13 : |f13| ≤ p13) (h23 : |f23| ≤ p23) (h10 : |f10| ≤ p10)
    (h20 : |f20| ≤ p20) (h30 : |f30| ≤ p30) (m1 m2 m3 : ℤ) :
    0 ≤ flowSum p12 p13 p23 p10 p20 p30 f12 f13 f23 f10 f20 f30 m1 m2 m3 := by
  have := flow_term h12 (m1 - m2)
  have := flow_term h13 (m1 - m3)
  have := flow_term h23 (m2 - m3)
  have := flow_term h10 m1
  have := flow_term h20 m2
  have := flow_term h30 m3
  unfold flowSum
  linarith

/-- A table entry: the origin or a point on the boundary. -/
def GoodPoint (q11 q22 q33 q12 q13 q23 : ℝ) (p : String × Vec ℝ) : Prop :=
  (p.1 = "GAMMA" ∧ p.2 = ![0, 0, 0]) ∨
    ∃ x y z, p.2 = ![x, y, z] ∧ OnZone q11 q22 q33 q12 q13 q23 x y z

theorem onZone_boundary {r : Cell ℝ} {s q11 q22 q33 q12 q13 q23 x y z : ℝ} (hs : 0 ≤ s)
    (h11 : dot (r 0) (r 0) = s * q11) (h22 : dot (r 1) (r 1) = s * q22)
    (h33 : dot (r 2) (r 2) = s * q33) (h12 : dot (r 0) (r 1) = s * q12)
    (h13 : dot (r 0) (r 2) = s * q13) (h23 : dot (r 1) (r 2) = s * q23) (hd : r.det ≠ 0)
    (h : OnZone q11 q22 q33 q12 q13 q23 x y z) : OnZoneBoundary r (![x, y, z] ᵥ* r) := by
  have key : ∀ n : Fin 3 → ℤ, dot (![x, y, z] ᵥ* r - fun j => ∑ i, (n i : ℝ) * r i j)
      (![x, y, z] ᵥ* r - fun j => ∑ i, (n i : ℝ) * r i j) =
      dot (![x, y, z] ᵥ* r) (![x, y, z] ᵥ* r) +
        s * zoneForm q11 q22 q33 q12 q13 q23 x y z (n 0) (n 1) (n 2) := by
    intro n
    have e : ∀ j, (![x, y, z] ᵥ* r) j = x * r 0 j + y * r 1 j + z * r 2 j := by
      intro j; simp [Matrix.vecMul, dotProduct, Fin.sum_univ_three]
    unfold zoneForm
    simp only [dot, Pi.sub_apply, e, Fin.sum_univ_three] at *
    linear_combination (n 0 ^ 2 - 2 * x * n 0) * h11 + (n 1 ^ 2 - 2 * y * n 1) * h22 +
      (n 2 ^ 2 - 2 * z * n 2) * h33 + (2 * n 0 * n 1 - 2 * x * n 1 - 2 * y * n 0) * h12 +
      (2 * n 0 * n 2 - 2 * x * n 2 - 2 * z * n 0) * h13 +
      (2 * n 1 * n 2 - 2 * y * n 2 - 2 * z * n 1) * h23
  obtain ⟨h0, n1, n2, n3, hne, heq⟩ := h
  constructor
  · rintro g ⟨n, rfl⟩
    rw [key]
    have := mul_nonneg hs (h0 (n 0) (n 1) (n 2))
    linarith
  · refine ⟨fun j => ∑ i, ((![n1, n2, n3] i : ℤ) : ℝ) * r i j, ⟨_, rfl⟩, ?_, ?_⟩
    · intro h
      apply hne
      have hz : (fun i => ((![n1, n2, n3] i : ℤ) : ℝ)) = 0 := by
        apply Matrix.eq_zero_of_vecMul_eq_zero hd
        funext j
        have := congrFun h j
        simpa [Matrix.vecMul, dotProduct] using this
      have e0 := congrFun hz 0
      have e1 := congrFun hz 1
      have e2 := congrFun hz 2
      simp at e0 e1 e2
      rw [e0, e1, e2]
    · rw [key]
      simp only [Matrix.cons_val]
      rw [show zoneForm q11 q22 q33 q12 q13 q23 x y z n1 n2 n3 = 0 from heq]
      ring

theorem gamma_inZone (r : Cell ℝ) : InZone r (![0, 0, 0] ᵥ* r) := by
  have : (![0, 0, 0] : Vec ℝ) = 0 := by ext i; fin_cases i <;> rfl
  rw [this, Matrix.zero_vecMul]
  intro g _
  simp only [dot, Pi.sub_apply, Pi.zero_apply]
  nlinarith [sq_nonneg (g 0), sq_nonneg (g 1), sq_nonneg (g 2)]

theorem zone_neg {r : Cell ℝ} {k : Vec ℝ} (h : InZone r k) : InZone r (-k) := by
  rintro g ⟨n, rfl⟩
  have := h _ ⟨fun i => -n i, rfl⟩
  simp only [dot, Pi.sub_apply, Pi.neg_apply, Fin.sum_univ_three] at *
  push_cast at this
  linarith

theorem boundary_neg {r : Cell ℝ} {k : Vec ℝ} (h : OnZoneBoundary r k) : OnZoneBoundary r (-k) := by
  obtain ⟨h1, g, ⟨n, rfl⟩, h2, h3⟩ := h
  refine ⟨zone_neg h1, _, ⟨fun i => -n i, rfl⟩, ?_, ?_⟩
  · intro h
    apply h2
    funext j
    have := congrFun h j
    simp only [Fin.sum_univ_three, Pi.zero_apply] at *
    push_cast at this
    linarith
  · simp only [dot, Pi.sub_apply, Pi.neg_apply, Fin.sum_univ_three] at *
    push_cast
    linarith

end Wulfric
