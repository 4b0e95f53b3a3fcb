import Verif.Lemmas.LepageRhl

/-! # The twofold axes of a rhombohedral lattice -/

namespace Wulfric

open Matrix _root_.Spec

/-- Twice a number of the form `p ^ 2 + p q + q ^ 2`, of a product 64. -/
theorem loeschian {p q r t : ℤ} {A B R : ℤ} (hA : A = 2 * (p ^ 2 + p * q + q ^ 2))
    (hB : B = 2 * (r ^ 2 + r * t + t ^ 2)) (hR : R ∈ [5, 8, 9]) (h : A * B = R ^ 2) (h0 : 0 ≤ A) :
    R = 8 ∧ ((A = 2 ∧ B = 32) ∨ (A = 8 ∧ B = 8) ∨ (A = 32 ∧ B = 2)) := by
  set X := p ^ 2 + p * q + q ^ 2 with hX
  set Y := r ^ 2 + r * t + t ^ 2 with hY
  have hXY : 4 * (X * Y) = R ^ 2 := by rw [hA, hB] at h; linarith
  have hR8 : R = 8 := by
    simp only [List.mem_cons, List.not_mem_nil, or_false] at hR
    rcases hR with rfl | rfl | rfl
    · omega
    · rfl
    · omega
  subst hR8
  refine ⟨rfl, ?_⟩
  have h16 : X * Y = 16 := by omega
  have X0 : 0 < X := by
    rcases lt_trichotomy X 0 with g | g | g
    · omega
    · rw [g] at h16; omega
    · exact g
  have hdvd : X ∣ 16 := ⟨Y, h16.symm⟩
  have hle : X ≤ 16 := Int.le_of_dvd (by norm_num) hdvd
  -- `p ^ 2 + p q + q ^ 2` is never 2 or 8: both numbers are even, the rest is a quarter
  have par : ∀ p q : ℤ, (p ^ 2 + p * q + q ^ 2) % 4 ≠ 2 := by
    intro p q
    have hp : p % 4 = 0 ∨ p % 4 = 1 ∨ p % 4 = 2 ∨ p % 4 = 3 := by omega
    have hq : q % 4 = 0 ∨ q % 4 = 1 ∨ q % 4 = 2 ∨ q % 4 = 3 := by omega
    rcases hp with hp | hp | hp | hp <;> rcases hq with hq | hq | hq | hq <;>
      simp [pow_two, Int.add_emod, Int.mul_emod, hp, hq]
  have par8 : ∀ p q : ℤ, p ^ 2 + p * q + q ^ 2 ≠ 8 := by
    intro p q h
    have ev : p % 2 = 0 ∧ q % 2 = 0 := by
      have hp : p % 2 = 0 ∨ p % 2 = 1 := by omega
      have hq : q % 2 = 0 ∨ q % 2 = 1 := by omega
      have h2 : (p ^ 2 + p * q + q ^ 2) % 2 = 0 := by rw [h]; rfl
      rcases hp with hp | hp <;> rcases hq with hq | hq <;>
        simp [pow_two, Int.add_emod, Int.mul_emod, hp, hq] at h2 ⊢
    obtain ⟨p', rfl⟩ : ∃ k, p = 2 * k := ⟨p / 2, by omega⟩
    obtain ⟨q', rfl⟩ : ∃ k, q = 2 * k := ⟨q / 2, by omega⟩
    have := par p' q'
    have e : p' ^ 2 + p' * q' + q' ^ 2 = 2 := by linarith
    rw [e] at this
    exact this rfl
  have n2 : X ≠ 2 := fun g => par p q (by rw [← hX, g]; rfl)
  have n8 : X ≠ 8 := par8 p q
  have cases : X = 1 ∨ X = 4 ∨ X = 16 := by
    clear_value X Y
    clear hX hY par par8
    interval_cases X <;> omega
  rcases cases with g | g | g
  · left; rw [g] at h16; rw [hA, hB, g]; omega
  · right; left; rw [g] at h16; rw [hA, hB, g]; omega
  · right; right; rw [g] at h16; rw [hA, hB, g]; omega

theorem rhl_axes {e : Cell ℝ} {a x : ℝ} (ha : 0 < a) (h1 : 0 < 1 - x) (h2 : 0 < 1 + 2 * x)
    (he : e * e.transpose = rhlGram a x) (n0 : x ≠ 0) (n1 : x ≠ 1 / 2) (n2 : x ≠ -(1 / 3)) :
    AxesAlong e [e 0 - e 1, e 0 - e 2, e 1 - e 2] := by
  rintro d ⟨U, rfl⟩ ⟨hd0, hd⟩
  set d : Fin 3 → ℝ := fun j => ∑ i, (U i : ℝ) * e i j with hdd
  have gram : ∀ i j, dot (e i) (e j) = if i = j then a ^ 2 else a ^ 2 * x := by
    intro i j
    have : (e * e.transpose) i j = dot (e i) (e j) := by
      rw [Matrix.mul_apply, Fin.sum_univ_three]; rfl
    rw [← this, he]
    rfl
  have hed : e.det ≠ 0 := by
    intro z
    have := congrArg Matrix.det (rhl_inverse ha h1 h2)
    rw [← he, det_mul, det_mul, z] at this
    simp at this
  have mem : ∀ i, e i ∈ latticePoints e := by
    intro i
    refine ⟨fun t => if t = i then 1 else 0, ?_⟩
    funext j
    fin_cases i <;> simp
  -- the scalar products with the axis, without the factor
  set S : ℝ := (U 0 : ℝ) + U 1 + U 2 with hS
  set Q : ℝ := (1 - x) * ((U 0 : ℝ) ^ 2 + (U 1 : ℝ) ^ 2 + (U 2 : ℝ) ^ 2) + x * S ^ 2 with hQ
  have ed : ∀ i, dot (e i) d = a ^ 2 * ((1 - x) * U i + x * S) := by
    intro i
    have : dot (e i) d = U 0 * dot (e i) (e 0) + U 1 * dot (e i) (e 1) + U 2 * dot (e i) (e 2) := by
      simp only [dot, hdd, Fin.sum_univ_three]; ring
    rw [this, gram, gram, gram, hS]
    fin_cases i <;> simp <;> ring
  have dd : dot d d = a ^ 2 * Q := by
    have : dot d d = U 0 * dot (e 0) d + U 1 * dot (e 1) d + U 2 * dot (e 2) d := by
      simp only [dot, hdd, Fin.sum_univ_three]; ring
    rw [this, ed, ed, ed, hQ, hS]
    ring
  have hQp : 0 < Q := by
    have := vdot_self_pos hd0
    rw [dd] at this
    exact pos_of_mul_pos_right this (by positivity)
  have hq : ∀ i k, ∃ q : ℤ, (q : ℝ) * Q = 2 * U k * ((1 - x) * U i + x * S) := by
    intro i k
    obtain ⟨v, hv⟩ := hd _ (mem i)
    have e1 : halfTurn d (e i) = fun j => ∑ t, (2 * (dot (e i) d / dot d d) * U t -
        (if t = i then 1 else 0)) * e t j := by
      funext j
      simp only [halfTurn, hdd, Fin.sum_univ_three]
      fin_cases i <;> simp <;> ring
    rw [e1] at hv
    have inj : ∀ t, 2 * (dot (e i) d / dot d d) * U t - (if t = i then (1 : ℝ) else 0) = v t := by
      have hz : (fun t => 2 * (dot (e i) d / dot d d) * U t - (if t = i then (1 : ℝ) else 0) -
          v t) ᵥ* e = 0 := by
        funext j
        have := congrFun hv j
        simp only [Fin.sum_univ_three] at this
        simp only [vecMul, dotProduct, Fin.sum_univ_three, Pi.zero_apply]
        linarith
      have := congrArg (fun w => w ᵥ* e⁻¹) hz
      simp only [vecMul_vecMul, zero_vecMul] at this
      rw [mul_nonsing_inv _ (isUnit_iff_ne_zero.2 hed), vecMul_one] at this
      intro t
      have := congrFun this t
      simp only [Pi.zero_apply] at this
      linarith
    refine ⟨v k + if k = i then 1 else 0, ?_⟩
    have := inj k
    rw [ed, dd] at this
    have a2 : a ^ 2 ≠ 0 := by positivity
    have Q0 := hQp.ne'
    have e2 : (v k : ℝ) + (if k = i then 1 else 0) = 2 * U k * ((1 - x) * U i + x * S) / Q := by
      rw [← this]
      field_simp
      ring
    have e3 : ((v k + if k = i then 1 else 0 : ℤ) : ℝ) = (v k : ℝ) + (if k = i then 1 else 0) := by
      push_cast; rfl
    rw [e3, e2, div_mul_cancel₀ _ Q0]
  choose q hq using hq
  have line : ∀ (D : Fin 3 → ℝ) (t : ℝ), (∀ k, (U k : ℝ) = t * D k) →
      SameLine d (fun j => ∑ k, D k * e k j) := by
    intro D t h
    have : d = t • (fun j => ∑ k, D k * e k j) := by
      funext j
      simp only [hdd, h, Pi.smul_apply, smul_eq_mul, Fin.sum_univ_three]
      ring
    rw [this]
    unfold SameLine
    simp only [dot, Pi.smul_apply, smul_eq_mul]
    ring
  by_cases hS0 : S = 0
  · -- perpendicular to the body diagonal
    have sum : q 0 0 + q 1 1 + q 2 2 = 2 := by
      have a := hq 0 0
      have b := hq 1 1
      have c := hq 2 2
      have : ((q 0 0 : ℝ) + q 1 1 + q 2 2) * Q = 2 * Q := by
        rw [hS0] at a b c
        rw [hQ, hS0] at *
        linarith
      exact_mod_cast mul_right_cancel₀ hQp.ne' this
    have pos : ∀ i, (U i : ℝ) ≠ 0 → 0 < q i i := by
      intro i hi
      have h := hq i i
      have : (0 : ℝ) < q i i * Q := by
        rw [h, hS0]
        have := mul_pos h1 (mul_self_pos.2 hi)
        linarith
      exact_mod_cast pos_of_mul_pos_left this hQp.le
    by_cases u0 : (U 0 : ℝ) = 0
    · refine ⟨e 1 - e 2, by simp, ?_⟩
      have r : e 1 - e 2 = fun j => ∑ k, (![0, 1, -1] : Fin 3 → ℝ) k * e k j := by
        funext j; simp [Fin.sum_univ_three, sub_eq_add_neg]
      rw [r]
      refine line _ (U 1) fun k => ?_
      fin_cases k <;> simp [u0]; linarith
    by_cases u1 : (U 1 : ℝ) = 0
    · refine ⟨e 0 - e 2, by simp, ?_⟩
      have r : e 0 - e 2 = fun j => ∑ k, (![1, 0, -1] : Fin 3 → ℝ) k * e k j := by
        funext j; simp [Fin.sum_univ_three, sub_eq_add_neg]
      rw [r]
      refine line _ (U 0) fun k => ?_
      fin_cases k <;> simp [u1]; linarith
    by_cases u2 : (U 2 : ℝ) = 0
    · refine ⟨e 0 - e 1, by simp, ?_⟩
      have r : e 0 - e 1 = fun j => ∑ k, (![1, -1, 0] : Fin 3 → ℝ) k * e k j := by
        funext j; simp [Fin.sum_univ_three, sub_eq_add_neg]
      rw [r]
      refine line _ (U 0) fun k => ?_
      fin_cases k <;> simp [u2]; linarith
    have a := pos 0 u0
    have b := pos 1 u1
    have c := pos 2 u2
    omega
  · exfalso
    -- sums over the first and over the second index
    set w : Fin 3 → ℤ := fun k => q 0 k + q 1 k + q 2 k with hw
    set v : Fin 3 → ℤ := fun i => q i 0 + q i 1 + q i 2 with hv
    have ew : ∀ k, (w k : ℝ) * Q = 2 * U k * ((1 + 2 * x) * S) := by
      intro k
      have a := hq 0 k
      have b := hq 1 k
      have c := hq 2 k
      simp only [hw]
      push_cast
      rw [hS] at *
      linarith
    have ev : ∀ i, (v i : ℝ) * Q = 2 * S * ((1 - x) * U i + x * S) := by
      intro i
      have a := hq i 0
      have b := hq i 1
      have c := hq i 2
      simp only [hv]
      push_cast
      rw [hS] at *
      linarith
    set T : ℤ := w 0 + w 1 + w 2 with hT
    have eT : (T : ℝ) * Q = 2 * (1 + 2 * x) * S ^ 2 := by
      have a := ew 0
      have b := ew 1
      have c := ew 2
      rw [hT]
      push_cast
      rw [hS] at *
      linarith
    set N : ℝ := ((U 0 : ℝ) - U 1) ^ 2 + ((U 0 : ℝ) - U 2) ^ 2 + ((U 1 : ℝ) - U 2) ^ 2 with hN
    have eN : (6 - T : ℝ) * Q = 2 * (1 - x) * N := by
      have : (6 - T : ℝ) * Q = 6 * Q - T * Q := by ring
      rw [this, eT, hQ, hN, hS]
      ring
    have S2 : 0 < S ^ 2 := by positivity
    have T0 : 0 < T := by
      have : (0 : ℝ) < T * Q := by rw [eT]; positivity
      exact_mod_cast pos_of_mul_pos_left this hQp.le
    have N0 : 0 ≤ N := by rw [hN]; positivity
    have T6 : T ≤ 6 := by
      have : (0 : ℝ) ≤ (6 - T) * Q := by rw [eN]; positivity
      have := nonneg_of_mul_nonneg_left this hQp
      have : (T : ℝ) ≤ 6 := by linarith
      exact_mod_cast this
    have Tne : T ≠ 6 := by
      intro g
      rw [g] at eN
      norm_num at eN
      have zN : N = 0 := by
        rcases eN with h | h
        · linarith
        · exact h
      have s1 := sq_nonneg ((U 0 : ℝ) - U 1)
      have s2 := sq_nonneg ((U 0 : ℝ) - U 2)
      have s3 := sq_nonneg ((U 1 : ℝ) - U 2)
      have a1 : (U 0 : ℝ) - U 1 = 0 := pow_eq_zero_iff two_ne_zero |>.1 (by rw [hN] at zN; linarith)
      have a2 : (U 0 : ℝ) - U 2 = 0 := pow_eq_zero_iff two_ne_zero |>.1 (by rw [hN] at zN; linarith)
      have b1 : (U 1 : ℝ) = U 0 := by linarith
      have b2 : (U 2 : ℝ) = U 0 := by linarith
      have h00 := hq 0 0
      have hU : S = 3 * U 0 := by rw [hS, b1, b2]; ring
      have hQ' : Q = 3 * (U 0 : ℝ) ^ 2 * (1 + 2 * x) := by rw [hQ, hU, b1, b2]; ring
      rw [hQ', hU] at h00
      have u0 : (U 0 : ℝ) ≠ 0 := by
        intro z; rw [hU, z, mul_zero] at hS0; exact hS0 rfl
      have : (3 * (q 0 0 : ℝ)) * ((U 0 : ℝ) ^ 2 * (1 + 2 * x)) = 2 * ((U 0 : ℝ) ^ 2 * (1 + 2 * x)) := by
        linarith
      have := mul_right_cancel₀ (by positivity : (U 0 : ℝ) ^ 2 * (1 + 2 * x) ≠ 0) this
      have : 3 * q 0 0 = 2 := by exact_mod_cast this
      omega
    -- the differences
    set A : ℤ := (v 0 - v 1) ^ 2 + (v 0 - v 2) ^ 2 + (v 1 - v 2) ^ 2 with hA
    set B : ℤ := (w 0 - w 1) ^ 2 + (w 0 - w 2) ^ 2 + (w 1 - w 2) ^ 2 with hB
    have dv : ∀ i j, ((v i : ℝ) - v j) * Q = 2 * S * (1 - x) * ((U i : ℝ) - U j) := by
      intro i j
      have a := ev i
      have b := ev j
      linarith
    have dw : ∀ i j, ((w i : ℝ) - w j) * Q = 2 * S * (1 + 2 * x) * ((U i : ℝ) - U j) := by
      intro i j
      have a := ew i
      have b := ew j
      linarith
    have eA : (A : ℝ) * Q ^ 2 = 4 * S ^ 2 * (1 - x) ^ 2 * N := by
      rw [hA, hN]
      push_cast
      linear_combination (((v 0 : ℝ) - v 1) * Q + 2 * S * (1 - x) * ((U 0 : ℝ) - U 1)) * dv 0 1 +
        (((v 0 : ℝ) - v 2) * Q + 2 * S * (1 - x) * ((U 0 : ℝ) - U 2)) * dv 0 2 +
        (((v 1 : ℝ) - v 2) * Q + 2 * S * (1 - x) * ((U 1 : ℝ) - U 2)) * dv 1 2
    have eB : (B : ℝ) * Q ^ 2 = 4 * S ^ 2 * (1 + 2 * x) ^ 2 * N := by
      rw [hB, hN]
      push_cast
      linear_combination (((w 0 : ℝ) - w 1) * Q + 2 * S * (1 + 2 * x) * ((U 0 : ℝ) - U 1)) * dw 0 1 +
        (((w 0 : ℝ) - w 2) * Q + 2 * S * (1 + 2 * x) * ((U 0 : ℝ) - U 2)) * dw 0 2 +
        (((w 1 : ℝ) - w 2) * Q + 2 * S * (1 + 2 * x) * ((U 1 : ℝ) - U 2)) * dw 1 2
    have eR : ((T * (6 - T) : ℤ) : ℝ) * Q ^ 2 = 4 * S ^ 2 * ((1 - x) * (1 + 2 * x)) * N := by
      push_cast
      linear_combination ((6 - T : ℝ) * Q) * eT + (2 * (1 + 2 * x) * S ^ 2) * eN
    have Q2 : Q ^ 2 ≠ 0 := pow_ne_zero 2 hQp.ne'
    have prod : A * B = (T * (6 - T)) ^ 2 := by
      have : (A : ℝ) * B = ((T * (6 - T) : ℤ) : ℝ) ^ 2 := by
        apply mul_right_cancel₀ (mul_ne_zero Q2 Q2)
        have l : (A : ℝ) * B * (Q ^ 2 * Q ^ 2) = (A * Q ^ 2) * (B * Q ^ 2) := by ring
        have r : ((T * (6 - T) : ℤ) : ℝ) ^ 2 * (Q ^ 2 * Q ^ 2) =
            (((T * (6 - T) : ℤ) : ℝ) * Q ^ 2) * (((T * (6 - T) : ℤ) : ℝ) * Q ^ 2) := by ring
        rw [l, r, eA, eB, eR]
        ring
      exact_mod_cast this
    have hRm : T * (6 - T) ∈ [5, 8, 9] := by
      have : T ≤ 5 := by omega
      clear_value T
      interval_cases T <;> simp
    obtain ⟨h8, hc⟩ := loeschian (p := v 0 - v 1) (q := v 1 - v 2) (r := w 0 - w 1) (t := w 1 - w 2)
      (by rw [hA]; ring) (by rw [hB]; ring) hRm prod (by rw [hA]; positivity)
    have ratio : (A : ℝ) * (1 + 2 * x) = 8 * (1 - x) := by
      apply mul_right_cancel₀ Q2
      rw [h8] at eR
      push_cast at eR
      linear_combination (1 + 2 * x) * eA - (1 - x) * eR
    rcases hc with ⟨g, -⟩ | ⟨g, -⟩ | ⟨g, -⟩ <;> rw [g] at ratio <;> push_cast at ratio
    · exact n1 (by linarith)
    · exact n0 (by linarith)
    · exact n2 (by linarith)

end Wulfric
