import Verif.Lemmas.LepageOrtho

/-! # The Le Page algorithm on hexagonal and rhombohedral lattices -/

namespace Wulfric

open Matrix _root_.Spec

theorem quad_comm (c : Cell ℝ) (u v : Fin 3 → ℤ) :
    quad (c * c.transpose) u v = quad (c * c.transpose) v u := by
  rw [← dot_intMat, ← dot_intMat, dot_comm']

theorem angles_scale {c : Cell ℝ} {b : (Fin 3 → ℤ) → (Fin 3 → ℤ) → ℤ} {l : List (Fin 3 → ℤ)}
    (hs : ∀ u v, b u v = b v u) (hpos : ∀ u ∈ l, 0 < b u u)
    (scale : ∀ u ∈ l, ∃ k : ℝ, 0 < k ∧ ∀ v, quad (c * c.transpose) u v = k * b u v)
    (known : ∀ u ∈ l, ∀ v ∈ l, code (b u v ^ 2) (b u u * b v v) ≠ 1000) : Angles c b l := by
  refine ⟨hpos, ?_, ?_, known⟩
  · intro u hu
    obtain ⟨k, hk, e⟩ := scale u hu
    rw [e u]
    have : (0 : ℝ) < b u u := by exact_mod_cast hpos u hu
    positivity
  · intro u hu v hv
    obtain ⟨k, hk, e⟩ := scale u hu
    obtain ⟨k', hk', e'⟩ := scale v hv
    have g := e v
    have g' := e' u
    rw [hs v u, quad_comm] at g'
    rw [e u, e' v, sq]
    have : quad (c * c.transpose) u v * quad (c * c.transpose) u v = k * b u v * (k' * b u v) := by
      rw [← g, ← g']
    rw [this]
    push_cast
    ring

/-! ### Hexagonal lattices -/

/-- The matrix of scalar products: two edges `a` at 120 degrees, and the edge `h`. -/
noncomputable def hexGram (a h : ℝ) : Cell ℝ := !![a ^ 2, -a ^ 2 / 2, 0; -a ^ 2 / 2, a ^ 2, 0; 0, 0, h ^ 2]

noncomputable def hexDual (a h : ℝ) : Cell ℝ :=
  !![4 / (3 * a ^ 2), 2 / (3 * a ^ 2), 0; 2 / (3 * a ^ 2), 4 / (3 * a ^ 2), 0; 0, 0, 1 / h ^ 2]

theorem hex_inverse {a h : ℝ} (ha : 0 < a) (hh : 0 < h) : hexGram a h * hexDual a h = 1 := by
  ext i j
  fin_cases i <;> fin_cases j <;>
    simp [hexGram, hexDual, Matrix.mul_apply, Fin.sum_univ_three] <;> field_simp <;> norm_num

def hexN (u : Fin 3 → ℤ) : ℤ := u 0 ^ 2 - u 0 * u 1 + u 1 ^ 2
def hexM (h : Fin 3 → ℤ) : ℤ := h 0 ^ 2 + h 0 * h 1 + h 1 ^ 2
def hexK (u h : Fin 3 → ℤ) : ℤ := u 0 * (h 0 + 2 * h 1) - u 1 * (2 * h 0 + h 1)

theorem hex_quad {a t : ℝ} (ha : 0 < a) (ht : 0 < t) {u h : Fin 3 → ℤ} (huh : |intDot u h| = 2) :
    quad (hexGram a t) u u * quad (hexDual a t) h h =
      4 + ((hexK u h : ℝ) ^ 2 / 3 + (hexN u * h 2 ^ 2 : ℤ) * (a / t) ^ 2 +
        4 / 3 * (u 2 ^ 2 * hexM h : ℤ) * (t / a) ^ 2 -
        2 * ((u 0 * h 0 + u 1 * h 1) * (u 2 * h 2) : ℤ)) := by
  have h2 : ((u 0 : ℝ) * h 0 + u 1 * h 1 + u 2 * h 2) ^ 2 = 4 := by
    have habs : |((u 0 : ℝ) * h 0 + u 1 * h 1 + u 2 * h 2)| = 2 := by
      have := congrArg (fun z : ℤ => (z : ℝ)) huh
      unfold intDot at this
      push_cast at this
      exact this
    rw [← sq_abs, habs]
    norm_num
  have key : quad (hexGram a t) u u * quad (hexDual a t) h h =
      ((u 0 : ℝ) * h 0 + u 1 * h 1 + u 2 * h 2) ^ 2 +
        ((hexK u h : ℝ) ^ 2 / 3 + (hexN u * h 2 ^ 2 : ℤ) * (a / t) ^ 2 +
        4 / 3 * (u 2 ^ 2 * hexM h : ℤ) * (t / a) ^ 2 -
        2 * ((u 0 * h 0 + u 1 * h 1) * (u 2 * h 2) : ℤ)) := by
    simp only [quad, Fin.sum_univ_three, hexGram, hexDual, hexN, hexM, hexK]
    simp [Matrix.of_apply]
    field_simp
    ring
  rw [key, h2]

/-- The exact pairs. -/
def hexExact (u h : Fin 3 → ℤ) : Bool :=
  hexK u h == 0 && hexN u * h 2 ^ 2 == 0 && u 2 ^ 2 * hexM h == 0

def hexTest : Bool :=
  (millerIndices 2).all fun u => (millerIndices 2).all fun h =>
    (intDot u h).natAbs != 2 || hexK u h != 0 || hexN u * h 2 ^ 2 == 0 || u 2 ^ 2 * hexM h == 0 ||
      decide ((u 0 * h 0 + u 1 * h 1) * (u 2 * h 2) < 0)

theorem hex_test : hexTest = true := by decide +kernel

theorem sq_quot {x y k : ℝ} (hx : 0 < x) (hy : 0 < y) (hk : 0 < k) (h : y ≤ k * x) :
    1 / k ^ 2 ≤ (x / y) ^ 2 := by
  have : 1 / k ≤ x / y := by
    rw [div_le_div_iff₀ hk hy]; linarith
  calc 1 / k ^ 2 = (1 / k) ^ 2 := by rw [div_pow, one_pow]
    _ ≤ _ := by gcongr

theorem hexN_nonneg (u : Fin 3 → ℤ) : 0 ≤ hexN u := by
  unfold hexN; nlinarith [sq_nonneg (u 0 - u 1), sq_nonneg (u 0), sq_nonneg (u 1)]

theorem hexM_nonneg (u : Fin 3 → ℤ) : 0 ≤ hexM u := by
  unfold hexM; nlinarith [sq_nonneg (u 0 + u 1), sq_nonneg (u 0), sq_nonneg (u 1)]

theorem hexN_zero {u : Fin 3 → ℤ} (h : hexN u = 0) : u 0 = 0 ∧ u 1 = 0 := by
  unfold hexN at h
  have a : u 0 ^ 2 + u 1 ^ 2 + (u 0 - u 1) ^ 2 = 0 := by linarith
  constructor
  · exact pow_eq_zero_iff (two_ne_zero) |>.1 (by
      nlinarith [sq_nonneg (u 0), sq_nonneg (u 1), sq_nonneg (u 0 - u 1)])
  · exact pow_eq_zero_iff (two_ne_zero) |>.1 (by
      nlinarith [sq_nonneg (u 0), sq_nonneg (u 1), sq_nonneg (u 0 - u 1)])

theorem hexM_zero {u : Fin 3 → ℤ} (h : hexM u = 0) : u 0 = 0 ∧ u 1 = 0 := by
  unfold hexM at h
  have a : u 0 ^ 2 + u 1 ^ 2 + (u 0 + u 1) ^ 2 = 0 := by linarith
  constructor
  · exact pow_eq_zero_iff (two_ne_zero) |>.1 (by
      nlinarith [sq_nonneg (u 0), sq_nonneg (u 1), sq_nonneg (u 0 + u 1)])
  · exact pow_eq_zero_iff (two_ne_zero) |>.1 (by
      nlinarith [sq_nonneg (u 0), sq_nonneg (u 1), sq_nonneg (u 0 + u 1)])

theorem hex_gap {a t : ℝ} (ha : 0 < a) (ht : 0 < t) (h1 : a ≤ 14 * t) (h2 : t ≤ 14 * a)
    (u : Fin 3 → ℤ) (hu : u ∈ millerIndices 2) (h : Fin 3 → ℤ) (hh : h ∈ millerIndices 2)
    (huh : |intDot u h| = 2) :
    (hexExact u h = true → quad (hexGram a t) u u * quad (hexDual a t) h h = 4) ∧
    (hexExact u h = false → 4 + 1 / 196 ≤ quad (hexGram a t) u u * quad (hexDual a t) h h) := by
  rw [hex_quad ha ht huh]
  have htest := List.all_eq_true.1 (List.all_eq_true.1 hex_test u hu) h hh
  have hnat : ((intDot u h).natAbs != 2) = false := by
    have : (intDot u h).natAbs = 2 := by
      have := Int.natCast_natAbs (intDot u h)
      omega
    simp [this]
  rw [hnat, Bool.false_or] at htest
  simp only [Bool.or_eq_true, bne_iff_ne, beq_iff_eq, decide_eq_true_eq] at htest
  have q1 := sq_quot ha ht (k := 14) (by norm_num) h2
  have q2 := sq_quot ht ha (k := 14) (by norm_num) h1
  have q3 : (a / t) ^ 2 * (t / a) ^ 2 = 1 := by field_simp
  have hA : 0 ≤ hexN u * h 2 ^ 2 := mul_nonneg (hexN_nonneg u) (sq_nonneg _)
  have hB : 0 ≤ u 2 ^ 2 * hexM h := mul_nonneg (sq_nonneg _) (hexM_nonneg h)
  have id1 : (hexN u * h 2 ^ 2) * (4 * (u 2 ^ 2 * hexM h)) =
      (3 * (u 0 * h 0 + u 1 * h 1) ^ 2 + hexK u h ^ 2) * (u 2 * h 2) ^ 2 := by
    unfold hexN hexM hexK; ring
  -- a product of the two parts is zero when one of the terms is
  have zero : hexN u * h 2 ^ 2 = 0 ∨ u 2 ^ 2 * hexM h = 0 →
      (u 0 * h 0 + u 1 * h 1) * (u 2 * h 2) = 0 := by
    rintro (e | e)
    · rcases mul_eq_zero.1 e with e | e
      · obtain ⟨e0, e1⟩ := hexN_zero e
        rw [e0, e1]; ring
      · rw [pow_eq_zero_iff two_ne_zero] at e
        rw [e]; ring
    · rcases mul_eq_zero.1 e with e | e
      · rw [pow_eq_zero_iff two_ne_zero] at e
        rw [e]; ring
      · obtain ⟨e0, e1⟩ := hexM_zero e
        rw [e0, e1]; ring
  constructor
  · intro he
    simp only [hexExact, Bool.and_eq_true, beq_iff_eq] at he
    obtain ⟨⟨e1, e2⟩, e3⟩ := he
    rw [zero (Or.inl e2), e1, e2, e3]
    simp
  · intro he
    have hne : ¬ (hexK u h = 0 ∧ hexN u * h 2 ^ 2 = 0 ∧ u 2 ^ 2 * hexM h = 0) := by
      rintro ⟨e1, e2, e3⟩
      simp [hexExact, e1, e2, e3] at he
    generalize hexN u * h 2 ^ 2 = A at *
    generalize u 2 ^ 2 * hexM h = B at *
    generalize hexK u h = k at *
    generalize (u 0 * h 0 + u 1 * h 1) = p at *
    generalize (u 2 * h 2) = w at *
    generalize (a / t) ^ 2 = x at *
    generalize (t / a) ^ 2 = y at *
    have hA' : (0 : ℝ) ≤ A := by exact_mod_cast hA
    have hB' : (0 : ℝ) ≤ B := by exact_mod_cast hB
    have hx : 0 < x := by linarith [q1, show (0 : ℝ) < 1 / 14 ^ 2 by norm_num]
    have hy : 0 < y := by linarith [q2, show (0 : ℝ) < 1 / 14 ^ 2 by norm_num]
    by_cases hk : k = 0
    · subst hk
      by_cases eA : A = 0
      · have eB : B ≠ 0 := fun e => hne ⟨rfl, eA, e⟩
        have : (1 : ℝ) ≤ B := by exact_mod_cast (by omega : (1 : ℤ) ≤ B)
        rw [zero (Or.inl eA), eA]
        simp only [Int.cast_zero]
        nlinarith
      · by_cases eB : B = 0
        · have : (1 : ℝ) ≤ A := by exact_mod_cast (by omega : (1 : ℤ) ≤ A)
          rw [zero (Or.inr eB), eB]
          simp only [Int.cast_zero]
          nlinarith
        · rcases htest with ((e | e) | e) | e
          · exact absurd rfl e
          · exact absurd e eA
          · exact absurd e eB
          · have : ((p * w : ℤ) : ℝ) ≤ -1 := by exact_mod_cast (by omega : p * w ≤ -1)
            have r1 : 0 ≤ (A : ℝ) * x := by positivity
            have r2 : 0 ≤ (B : ℝ) * y := by positivity
            have r3 : 4 / 3 * (B : ℝ) * y = 4 / 3 * (B * y) := by ring
            rw [r3]
            simp only [Int.cast_zero]
            linarith
    · have hk1 := int_sq hk
      -- the inequality of the means
      have r1 : 0 ≤ (A : ℝ) * x := by positivity
      have r2 : 0 ≤ 4 / 3 * (B : ℝ) * y := by positivity
      have id2 : ((A : ℝ) * x) * (4 / 3 * B * y) = (p ^ 2 + (k : ℝ) ^ 2 / 3) * (w : ℝ) ^ 2 := by
        have : (A : ℝ) * (4 * B) = (3 * (p : ℝ) ^ 2 + (k : ℝ) ^ 2) * (w : ℝ) ^ 2 := by
          exact_mod_cast id1
        calc ((A : ℝ) * x) * (4 / 3 * B * y) = (A * (4 * B)) / 3 * (x * y) := by ring
          _ = _ := by rw [q3, this]; ring
      have hm : (2 * ((p * w : ℤ) : ℝ)) ^ 2 ≤ ((A : ℝ) * x + 4 / 3 * (B : ℝ) * y) ^ 2 := by
        push_cast
        nlinarith [sq_nonneg ((A : ℝ) * x - 4 / 3 * (B : ℝ) * y), sq_nonneg ((k : ℝ) * w)]
      have := abs_le_of_sq_le_sq hm (by linarith)
      have h3 := (abs_le.1 this).2
      linarith

def axesHEX : List (Fin 3 → ℤ) :=
  [![0, 0, 2], ![0, 1, 0], ![1, -1, 0], ![1, 0, 0], ![1, 1, 0], ![1, 2, 0], ![2, 1, 0]]

theorem drop_HEX : dropU (exactPairs hexExact) = axesHEX := by decide +kernel

def hexB (u v : Fin 3 → ℤ) : ℤ :=
  2 * (u 0 * v 0 + u 1 * v 1 + u 2 * v 2) - (u 0 * v 1 + u 1 * v 0)

theorem lepage_HEX {niggli : Cell ℝ → Except Err (Cell ℝ)} {cell c : Cell ℝ} {tol limit : ℝ}
    {noNiggli : Bool} (hcell : lepageCell niggli cell noNiggli = .ok c) (h0 : tol ≠ 0)
    (h1 : |tol| ≤ 1) (hl0 : 0 < limit) (hl2 : limit ≤ 2) {a t : ℝ} (ha : 0 < a) (ht : 0 < t)
    (hr : a ≤ 14 * t) (hr' : t ≤ 14 * a) (hc : c * c.transpose = hexGram a t) (fuel : ℕ) :
    lepage niggli (fuel + 1) cell tol noNiggli limit = some (.ok ["HEX"]) := by
  have hang : Angles c hexB axesHEX := by
    apply angles_scale
    · intro u v
      unfold hexB; ring
    · decide +kernel
    · intro u hu
      have : u 2 = 0 ∨ u 0 = 0 ∧ u 1 = 0 := by
        revert u
        decide +kernel
      rw [hc]
      rcases this with e | ⟨e, e'⟩
      · refine ⟨a ^ 2 / 2, by positivity, fun v => ?_⟩
        simp only [quad, Fin.sum_univ_three, hexGram, hexB]
        simp [e]
        ring
      · refine ⟨t ^ 2 / 2, by positivity, fun v => ?_⟩
        simp only [quad, Fin.sum_univ_three, hexGram, hexB]
        simp [e, e']
        ring
    · decide +kernel
  exact lepage_exact hcell (by rw [hc]; exact hex_inverse ha ht) hl0 hl2 hexExact
    (by rw [hc]; exact hex_gap ha ht hr hr') drop_HEX
    (classify_hex hang (abs_pos.2 h0) h1 (by decide) (by decide +kernel)) fuel

/-! ### Rhombohedral lattices -/

/-- The matrix of scalar products: three edges `a`, `x` the cosine of the angle between any two. -/
noncomputable def rhlGram (a x : ℝ) : Cell ℝ := fun i j => if i = j then a ^ 2 else a ^ 2 * x

noncomputable def rhlDual (a x : ℝ) : Cell ℝ := fun i j =>
  if i = j then (1 + x) / (a ^ 2 * (1 - x) * (1 + 2 * x)) else -x / (a ^ 2 * (1 - x) * (1 + 2 * x))

theorem rhl_inverse {a x : ℝ} (ha : 0 < a) (h1 : 0 < 1 - x) (h2 : 0 < 1 + 2 * x) :
    rhlGram a x * rhlDual a x = 1 := by
  have e1 := h1.ne'
  have e2 := h2.ne'
  have e3 : 1 + x * 2 ≠ 0 := by rw [mul_comm x 2]; exact h2.ne'
  ext i j
  fin_cases i <;> fin_cases j <;>
    simp [rhlGram, rhlDual, Matrix.mul_apply, Fin.sum_univ_three] <;> field_simp <;> ring

def rhlS (u : Fin 3 → ℤ) : ℤ := u 0 + u 1 + u 2
def rhlN (u : Fin 3 → ℤ) : ℤ := 3 * (u 0 ^ 2 + u 1 ^ 2 + u 2 ^ 2) - rhlS u ^ 2
def rhlP (u h : Fin 3 → ℤ) : ℤ := 3 * intDot u h - rhlS u * rhlS h
def rhlK (u h : Fin 3 → ℤ) : ℤ :=
  u 1 * h 2 - u 2 * h 1 + (u 2 * h 0 - u 0 * h 2) + (u 0 * h 1 - u 1 * h 0)

theorem rhl_id (u h : Fin 3 → ℤ) : rhlN u * rhlN h = rhlP u h ^ 2 + 3 * rhlK u h ^ 2 := by
  unfold rhlN rhlP rhlK rhlS intDot
  ring

theorem rhl_quad {a x : ℝ} (ha : 0 < a) (h1 : 0 < 1 - x) (h2 : 0 < 1 + 2 * x) {u h : Fin 3 → ℤ}
    (huh : |intDot u h| = 2) :
    quad (rhlGram a x) u u * quad (rhlDual a x) h h =
      4 + (3 * (rhlK u h : ℝ) ^ 2 + (rhlN u * rhlS h ^ 2 : ℤ) * ((1 - x) / (1 + 2 * x)) +
        (rhlS u ^ 2 * rhlN h : ℤ) * ((1 + 2 * x) / (1 - x)) -
        2 * (rhlP u h * (rhlS u * rhlS h) : ℤ)) / 9 := by
  have e1 := h1.ne'
  have e2 := h2.ne'
  have e3 : 1 + x * 2 ≠ 0 := by rw [mul_comm x 2]; exact h2.ne'
  have hd : (intDot u h : ℝ) ^ 2 = 4 := by
    have habs : |(intDot u h : ℝ)| = 2 := by
      have := congrArg (fun z : ℤ => (z : ℝ)) huh
      push_cast at this
      exact this
    rw [← sq_abs, habs]
    norm_num
  have key : quad (rhlGram a x) u u * quad (rhlDual a x) h h =
      (intDot u h : ℝ) ^ 2 +
        (3 * (rhlK u h : ℝ) ^ 2 + (rhlN u * rhlS h ^ 2 : ℤ) * ((1 - x) / (1 + 2 * x)) +
        (rhlS u ^ 2 * rhlN h : ℤ) * ((1 + 2 * x) / (1 - x)) -
        2 * (rhlP u h * (rhlS u * rhlS h) : ℤ)) / 9 := by
    have k1 : quad (rhlGram a x) u u = a ^ 2 * ((1 - x) * rhlN u + (1 + 2 * x) * rhlS u ^ 2) / 3 := by
      simp only [quad, Fin.sum_univ_three, rhlGram, rhlN, rhlS]
      simp
      ring
    have k2 : quad (rhlDual a x) h h = ((1 + 2 * x) * rhlN h + (1 - x) * rhlS h ^ 2) /
        (3 * (a ^ 2 * (1 - x) * (1 + 2 * x))) := by
      generalize hd : a ^ 2 * (1 - x) * (1 + 2 * x) = d
      simp only [quad, Fin.sum_univ_three, rhlDual, rhlN, rhlS, hd]
      simp
      ring
    have k3 : (rhlN u : ℝ) * rhlN h = (rhlP u h : ℝ) ^ 2 + 3 * (rhlK u h : ℝ) ^ 2 := by
      exact_mod_cast rhl_id u h
    have k4 : (rhlP u h : ℝ) = 3 * intDot u h - rhlS u * rhlS h := by
      unfold rhlP; push_cast; ring
    have k5 : 3 * (rhlK u h : ℝ) ^ 2 = rhlN u * rhlN h - (3 * intDot u h - rhlS u * rhlS h) ^ 2 := by
      rw [k3, k4]; ring
    rw [k1, k2, k5]
    push_cast
    rw [k4]
    generalize 1 - x = α at *
    generalize 1 + 2 * x = β at *
    field_simp
    ring
  rw [key, hd]

/-- The exact pairs. -/
def rhlExact (u h : Fin 3 → ℤ) : Bool :=
  rhlK u h == 0 && rhlN u * rhlS h ^ 2 == 0 && rhlS u ^ 2 * rhlN h == 0

def rhlTest : Bool :=
  (millerIndices 2).all fun u => (millerIndices 2).all fun h =>
    (intDot u h).natAbs != 2 || rhlK u h != 0 || rhlN u * rhlS h ^ 2 == 0 ||
      rhlS u ^ 2 * rhlN h == 0 || decide (rhlP u h * (rhlS u * rhlS h) < 0) ||
      (rhlP u h * (rhlS u * rhlS h) == 8 && [((8, 8) : ℤ × ℤ), (32, 2), (2, 32)].contains
        (rhlN u * rhlS h ^ 2, rhlS u ^ 2 * rhlN h))

theorem rhl_test : rhlTest = true := by decide +kernel

theorem rhlN_nonneg (u : Fin 3 → ℤ) : 0 ≤ rhlN u := by
  unfold rhlN rhlS
  nlinarith [sq_nonneg (u 0 - u 1), sq_nonneg (u 0 - u 2), sq_nonneg (u 1 - u 2)]

theorem rhl_gap {a x : ℝ} (ha : 0 < a) (h1 : 0 < 1 - x) (h2 : 0 < 1 + 2 * x)
    (r1 : 1 - x ≤ 20 * (1 + 2 * x)) (r2 : 1 + 2 * x ≤ 20 * (1 - x))
    (f1 : (1 - x) * (1 + 2 * x) ≤ 1568 * x ^ 2)
    (f2 : (1 - x) * (1 + 2 * x) ≤ 392 * (1 - 2 * x) ^ 2)
    (f3 : (1 - x) * (1 + 2 * x) ≤ 392 * (1 + 3 * x) ^ 2)
    (u : Fin 3 → ℤ) (hu : u ∈ millerIndices 2) (h : Fin 3 → ℤ) (hh : h ∈ millerIndices 2)
    (huh : |intDot u h| = 2) :
    (rhlExact u h = true → quad (rhlGram a x) u u * quad (rhlDual a x) h h = 4) ∧
    (rhlExact u h = false → 4 + 1 / 196 ≤ quad (rhlGram a x) u u * quad (rhlDual a x) h h) := by
  rw [rhl_quad ha h1 h2 huh]
  have htest := List.all_eq_true.1 (List.all_eq_true.1 rhl_test u hu) h hh
  have hnat : ((intDot u h).natAbs != 2) = false := by
    have : (intDot u h).natAbs = 2 := by
      have := Int.natCast_natAbs (intDot u h)
      omega
    simp [this]
  rw [hnat, Bool.false_or] at htest
  simp only [Bool.or_eq_true, Bool.and_eq_true, bne_iff_ne, beq_iff_eq, decide_eq_true_eq,
    List.contains_iff_mem, List.mem_cons, List.not_mem_nil, or_false, Prod.mk.injEq] at htest
  have q1 : 1 / 20 ≤ (1 - x) / (1 + 2 * x) := by rw [div_le_div_iff₀ (by norm_num) h2]; linarith
  have q2 : 1 / 20 ≤ (1 + 2 * x) / (1 - x) := by rw [div_le_div_iff₀ (by norm_num) h1]; linarith
  have q3 : (1 - x) / (1 + 2 * x) * ((1 + 2 * x) / (1 - x)) = 1 := by
    have e1 := h1.ne'
    have e2 := h2.ne'
    have e3 : 1 + x * 2 ≠ 0 := by rw [mul_comm x 2]; exact h2.ne'
    field_simp
  have hA : 0 ≤ rhlN u * rhlS h ^ 2 := mul_nonneg (rhlN_nonneg u) (sq_nonneg _)
  have hB : 0 ≤ rhlS u ^ 2 * rhlN h := mul_nonneg (sq_nonneg _) (rhlN_nonneg h)
  have id1 : (rhlN u * rhlS h ^ 2) * (rhlS u ^ 2 * rhlN h) =
      (rhlP u h ^ 2 + 3 * rhlK u h ^ 2) * (rhlS u * rhlS h) ^ 2 := by
    rw [← rhl_id]; ring
  have zero : rhlN u * rhlS h ^ 2 = 0 ∨ rhlS u ^ 2 * rhlN h = 0 →
      rhlP u h * (rhlS u * rhlS h) = 0 := by
    intro e
    have e0 : (rhlN u * rhlS h ^ 2) * (rhlS u ^ 2 * rhlN h) = 0 := by
      rcases e with e | e <;> rw [e] <;> ring
    rw [id1] at e0
    have : (rhlP u h * (rhlS u * rhlS h)) ^ 2 ≤ 0 := by
      nlinarith [sq_nonneg (rhlK u h * (rhlS u * rhlS h))]
    exact pow_eq_zero_iff two_ne_zero |>.1 (le_antisymm this (sq_nonneg _))
  constructor
  · intro he
    simp only [rhlExact, Bool.and_eq_true, beq_iff_eq] at he
    obtain ⟨⟨e1, e2⟩, e3⟩ := he
    rw [zero (Or.inl e2), e1, e2, e3]
    simp
  · intro he
    have hne : ¬ (rhlK u h = 0 ∧ rhlN u * rhlS h ^ 2 = 0 ∧ rhlS u ^ 2 * rhlN h = 0) := by
      rintro ⟨e1, e2, e3⟩
      simp [rhlExact, e1, e2, e3] at he
    generalize rhlN u * rhlS h ^ 2 = A at *
    generalize rhlS u ^ 2 * rhlN h = B at *
    generalize rhlK u h = k at *
    generalize rhlP u h = p at *
    generalize rhlS u * rhlS h = w at *
    have hA' : (0 : ℝ) ≤ A := by exact_mod_cast hA
    have hB' : (0 : ℝ) ≤ B := by exact_mod_cast hB
    by_cases hk : k = 0
    · subst hk
      by_cases eA : A = 0
      · have eB : B ≠ 0 := fun e => hne ⟨rfl, eA, e⟩
        have : (1 : ℝ) ≤ B := by exact_mod_cast (by omega : (1 : ℤ) ≤ B)
        rw [zero (Or.inl eA), eA]
        simp only [Int.cast_zero]
        nlinarith
      · by_cases eB : B = 0
        · have : (1 : ℝ) ≤ A := by exact_mod_cast (by omega : (1 : ℤ) ≤ A)
          rw [zero (Or.inr eB), eB]
          simp only [Int.cast_zero]
          nlinarith
        · have e1 := h1.ne'
          have e2 := h2.ne'
          have e3 : 1 + x * 2 ≠ 0 := by rw [mul_comm x 2]; exact h2.ne'
          have hpos : 0 < (1 - x) * (1 + 2 * x) := mul_pos h1 h2
          rcases htest with (((e | e) | e) | e) | ⟨e, e'⟩
          · exact absurd rfl e
          · exact absurd e eA
          · exact absurd e eB
          · have : ((p * w : ℤ) : ℝ) ≤ -1 := by exact_mod_cast (by omega : p * w ≤ -1)
            have r1 : 0 ≤ (A : ℝ) * ((1 - x) / (1 + 2 * x)) := by positivity
            have r2 : 0 ≤ (B : ℝ) * ((1 + 2 * x) / (1 - x)) := by positivity
            simp only [Int.cast_zero]
            linarith
          · rw [e]
            rcases e' with ⟨rfl, rfl⟩ | ⟨rfl, rfl⟩ | ⟨rfl, rfl⟩
            · have : (1 : ℝ) / 196 ≤ 8 * x ^ 2 / ((1 - x) * (1 + 2 * x)) := by
                rw [div_le_div_iff₀ (by norm_num) hpos]; linarith
              calc _ ≤ 4 + 8 * x ^ 2 / ((1 - x) * (1 + 2 * x)) := by linarith
                _ = _ := by push_cast; field_simp; ring
            · have : (1 : ℝ) / 196 ≤ 2 * (1 - 2 * x) ^ 2 / ((1 - x) * (1 + 2 * x)) := by
                rw [div_le_div_iff₀ (by norm_num) hpos]; linarith
              calc _ ≤ 4 + 2 * (1 - 2 * x) ^ 2 / ((1 - x) * (1 + 2 * x)) := by linarith
                _ = _ := by push_cast; field_simp; ring
            · have : (1 : ℝ) / 196 ≤ 2 * (1 + 3 * x) ^ 2 / ((1 - x) * (1 + 2 * x)) := by
                rw [div_le_div_iff₀ (by norm_num) hpos]; linarith
              calc _ ≤ 4 + 2 * (1 + 3 * x) ^ 2 / ((1 - x) * (1 + 2 * x)) := by linarith
                _ = _ := by push_cast; field_simp; ring
    · have hk1 := int_sq hk
      generalize (1 - x) / (1 + 2 * x) = s at *
      generalize (1 + 2 * x) / (1 - x) = t at *
      have hs : 0 < s := by linarith [q1, show (0 : ℝ) < 1 / 20 by norm_num]
      have ht : 0 < t := by linarith [q2, show (0 : ℝ) < 1 / 20 by norm_num]
      have r1 : 0 ≤ (A : ℝ) * s := by positivity
      have r2 : 0 ≤ (B : ℝ) * t := by positivity
      have id2 : ((A : ℝ) * s) * (B * t) = (p ^ 2 + 3 * (k : ℝ) ^ 2) * (w : ℝ) ^ 2 := by
        have : (A : ℝ) * B = ((p : ℝ) ^ 2 + 3 * (k : ℝ) ^ 2) * (w : ℝ) ^ 2 := by
          exact_mod_cast id1
        calc ((A : ℝ) * s) * (B * t) = (A * B) * (s * t) := by ring
          _ = _ := by rw [q3, this]; ring
      have hm : (2 * ((p * w : ℤ) : ℝ)) ^ 2 ≤ ((A : ℝ) * s + (B : ℝ) * t) ^ 2 := by
        push_cast
        nlinarith [sq_nonneg ((A : ℝ) * s - (B : ℝ) * t), sq_nonneg ((k : ℝ) * w)]
      have := abs_le_of_sq_le_sq hm (by linarith)
      have h3 := (abs_le.1 this).2
      linarith

def axesRHL : List (Fin 3 → ℤ) := [![0, 1, -1], ![1, -1, 0], ![1, 0, -1]]

theorem drop_RHL : dropU (exactPairs rhlExact) = axesRHL := by decide +kernel

theorem lepage_RHL {niggli : Cell ℝ → Except Err (Cell ℝ)} {cell c : Cell ℝ} {tol limit : ℝ}
    {noNiggli : Bool} (hcell : lepageCell niggli cell noNiggli = .ok c) (h0 : tol ≠ 0)
    (ht : |tol| ≤ 1) (hl0 : 0 < limit) (hl2 : limit ≤ 2) {a x : ℝ} (ha : 0 < a)
    (h1 : 0 < 1 - x) (h2 : 0 < 1 + 2 * x)
    (r1 : 1 - x ≤ 20 * (1 + 2 * x)) (r2 : 1 + 2 * x ≤ 20 * (1 - x))
    (f1 : (1 - x) * (1 + 2 * x) ≤ 1568 * x ^ 2)
    (f2 : (1 - x) * (1 + 2 * x) ≤ 392 * (1 - 2 * x) ^ 2)
    (f3 : (1 - x) * (1 + 2 * x) ≤ 392 * (1 + 3 * x) ^ 2)
    (hc : c * c.transpose = rhlGram a x) (fuel : ℕ) :
    lepage niggli (fuel + 1) cell tol noNiggli limit = some (.ok ["RHL"]) := by
  have hang : Angles c intDot axesRHL := by
    apply angles_scale
    · intro u v
      unfold intDot; ring
    · decide +kernel
    · intro u hu
      have : u 2 = - u 0 - u 1 := by
        revert u
        decide +kernel
      rw [hc]
      refine ⟨a ^ 2 * (1 - x), by positivity, fun v => ?_⟩
      simp only [quad, Fin.sum_univ_three, rhlGram, intDot]
      simp [this]
      ring
    · decide +kernel
  exact lepage_exact hcell (by rw [hc]; exact rhl_inverse ha h1 h2) hl0 hl2 rhlExact
    (by rw [hc]; exact rhl_gap ha h1 h2 r1 r2 f1 f2 f3) drop_RHL
    (classify_rhl hang (abs_pos.2 h0) ht (by decide) (by decide +kernel)) fuel

end Wulfric
