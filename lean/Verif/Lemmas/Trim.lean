import Verif.Spec.Trim
import Verif.Lemmas.ZoneHpkot
import Verif.Lemmas.ZoneSc

/-! # Symmetries of a lattice in terms of integer matrices -/

namespace Wulfric

open Matrix _root_.Spec Wulfric.Spec

/-- The basis `V r` of the lattice of `r` has the scalar products of `r`. -/
def LatSym (r : Cell ℝ) (V : Matrix (Fin 3) (Fin 3) ℤ) : Prop :=
  IsUnit V.det ∧ V.map (Int.cast : ℤ → ℝ) * (r * r.transpose) * (V.map (Int.cast : ℤ → ℝ)).transpose =
    r * r.transpose

theorem LatSym.symmetry {r : Cell ℝ} (hr : IsUnit r.det) {V : Matrix (Fin 3) (Fin 3) ℤ}
    (h : LatSym r V) : IsSymmetry r (r⁻¹ * (V.map (Int.cast : ℤ → ℝ) * r)) := by
  have e : r * (r⁻¹ * (V.map (Int.cast : ℤ → ℝ) * r)) = V.map (Int.cast : ℤ → ℝ) * r := by
    rw [← Matrix.mul_assoc, Matrix.mul_nonsing_inv r hr, Matrix.one_mul]
  constructor
  · have h2 := h.2
    rw [transpose_mul, transpose_mul]
    calc r⁻¹ * (V.map (Int.cast : ℤ → ℝ) * r) * (r.transpose * (V.map (Int.cast : ℤ → ℝ)).transpose *
          (r⁻¹).transpose)
        = r⁻¹ * (V.map (Int.cast : ℤ → ℝ) * (r * r.transpose) *
          (V.map (Int.cast : ℤ → ℝ)).transpose) * (r⁻¹).transpose := by
          simp only [Matrix.mul_assoc]
      _ = (r⁻¹ * r) * (r⁻¹ * r).transpose := by
          rw [h2, transpose_mul]
          simp only [Matrix.mul_assoc]
      _ = 1 := by rw [Matrix.nonsing_inv_mul r hr, transpose_one, Matrix.mul_one]
  · rw [e]
    exact sameLattice_of_unimodular V h.1 r

/-- The eight classes of half vectors. -/
def parities : List (Fin 3 → ℤ) :=
  [![0, 0, 0], ![0, 0, 1], ![0, 1, 0], ![0, 1, 1], ![1, 0, 0], ![1, 0, 1], ![1, 1, 0], ![1, 1, 1]]

theorem parities_mod (n : Fin 3 → ℤ) : ∃ e ∈ parities, ∃ q : Fin 3 → ℤ, n = e + (2 : ℤ) • q := by
  refine ⟨![n 0 % 2, n 1 % 2, n 2 % 2], ?_, fun i => n i / 2, ?_⟩
  · rcases Int.emod_two_eq_zero_or_one (n 0) with h0 | h0 <;>
    rcases Int.emod_two_eq_zero_or_one (n 1) with h1 | h1 <;>
    rcases Int.emod_two_eq_zero_or_one (n 2) with h2 | h2 <;>
    simp [parities, h0, h1, h2]
  · funext i
    fin_cases i <;> simp [Int.emod_add_mul_ediv]

/-- A table of points that holds all classes. -/
theorem trims_of {r : Cell ℝ} (hr : IsUnit r.det) {names : List String}
    {raw : PyDict String (Vec ℝ)}
    (h : ∀ e ∈ parities, ∃ x ∈ raw, x.1 ∈ names ∧ ∃ V, LatSym r V ∧ ∃ z : Fin 3 → ℤ,
      ∀ j, ((e ᵥ* V) j : ℝ) = 2 * (x.2 j + z j)) :
    ∀ k, TimeInvariant r k → ∃ x ∈ raw, x.1 ∈ names ∧ EquivalentVectors r k (x.2 ᵥ* r) := by
  rintro k ⟨n, hn⟩
  obtain ⟨e, he, q, rfl⟩ := parities_mod n
  obtain ⟨x, hx, hxn, V, hV, z, hz⟩ := h e he
  refine ⟨x, hx, hxn, _, hV.symmetry hr, z + q ᵥ* V, ?_⟩
  have hk : k = ((fun i => (e i : ℝ) / 2 + q i) : Fin 3 → ℝ) ᵥ* r := by
    funext j
    have := congrFun hn j
    simp only [Pi.sub_apply, Pi.neg_apply, sub_neg_eq_add, Fin.sum_univ_three, Pi.add_apply,
      Pi.smul_apply, smul_eq_mul, Int.cast_add, Int.cast_mul, Int.cast_ofNat] at this
    simp only [Matrix.vecMul, dotProduct, Fin.sum_univ_three]
    linarith
  have e1 : k ᵥ* (r⁻¹ * (V.map (Int.cast : ℤ → ℝ) * r)) =
      (((fun i => (e i : ℝ) / 2 + q i) : Fin 3 → ℝ) ᵥ* V.map (Int.cast : ℤ → ℝ)) ᵥ* r := by
    rw [hk, Matrix.vecMul_vecMul, Matrix.vecMul_vecMul, ← Matrix.mul_assoc,
      Matrix.mul_nonsing_inv r hr, Matrix.one_mul]
  rw [e1]
  have e2 : (((fun i => (e i : ℝ) / 2 + q i) : Fin 3 → ℝ) ᵥ* V.map (Int.cast : ℤ → ℝ)) =
      x.2 + fun j => ((z + q ᵥ* V) j : ℝ) := by
    funext j
    have := hz j
    simp only [Matrix.vecMul, dotProduct, Fin.sum_univ_three, Matrix.map_apply, Pi.add_apply,
      Int.cast_add, Int.cast_mul] at this ⊢
    linarith
  rw [e2, Matrix.add_vecMul, add_sub_cancel_left]
  funext j
  simp only [Matrix.vecMul, dotProduct]

/-- A symmetry of the conventional cell is one of the reciprocal lattice of the primitive cell. -/
theorem latSym_of {conv r : Cell ℝ} {P : Cell ℝ} (hr : getReciprocal (P.transpose * conv) = .ok r)
    (Uc Up V : Matrix (Fin 3) (Fin 3) ℤ)
    (hc : Uc.map (Int.cast : ℤ → ℝ) * (conv * conv.transpose) *
      (Uc.map (Int.cast : ℤ → ℝ)).transpose = conv * conv.transpose)
    (hP : Up.map (Int.cast : ℤ → ℝ) * P.transpose = P.transpose * Uc.map (Int.cast : ℤ → ℝ))
    (hV : V * Up.transpose = 1) : LatSym r V := by
  obtain ⟨hd, rfl⟩ := recip_ok hr
  set p := P.transpose * conv with hp
  have hdet : V.det * Up.det = 1 := by
    rw [← det_transpose Up, ← det_mul, hV, det_one]
  have hVr : V.map (Int.cast : ℤ → ℝ) * (Up.map (Int.cast : ℤ → ℝ)).transpose = 1 := by
    have h1 : (V * Up.transpose).map (Int.castRingHom ℝ) =
        V.map (Int.castRingHom ℝ) * Up.transpose.map (Int.castRingHom ℝ) := Matrix.map_mul
    have h2 : (1 : Matrix (Fin 3) (Fin 3) ℤ).map (Int.castRingHom ℝ) = 1 := by simp
    rw [hV, h2] at h1
    exact h1.symm
  have hVt : Up.map (Int.cast : ℤ → ℝ) * (V.map (Int.cast : ℤ → ℝ)).transpose = 1 := by
    have := congrArg Matrix.transpose hVr
    simpa [transpose_mul] using this
  have hG : Up.map (Int.cast : ℤ → ℝ) * (p * p.transpose) *
      (Up.map (Int.cast : ℤ → ℝ)).transpose = p * p.transpose := by
    have e : Up.map (Int.cast : ℤ → ℝ) * p = P.transpose * (Uc.map (Int.cast : ℤ → ℝ) * conv) := by
      rw [hp, ← Matrix.mul_assoc, hP, Matrix.mul_assoc]
    calc Up.map (Int.cast : ℤ → ℝ) * (p * p.transpose) * (Up.map (Int.cast : ℤ → ℝ)).transpose
        = (Up.map (Int.cast : ℤ → ℝ) * p) * (Up.map (Int.cast : ℤ → ℝ) * p).transpose := by
          rw [transpose_mul (Up.map (Int.cast : ℤ → ℝ)) p]; simp only [Matrix.mul_assoc]
      _ = P.transpose * (Uc.map (Int.cast : ℤ → ℝ) * (conv * conv.transpose) *
          (Uc.map (Int.cast : ℤ → ℝ)).transpose) * P := by
          rw [e]; simp only [transpose_mul, transpose_transpose, Matrix.mul_assoc]
      _ = p * p.transpose := by
          rw [hc, hp]; simp only [transpose_mul, transpose_transpose, Matrix.mul_assoc]
  clear_value p
  have hi : (p * p.transpose)⁻¹ = V.map (Int.cast : ℤ → ℝ) * (p * p.transpose)⁻¹ *
      (V.map (Int.cast : ℤ → ℝ)).transpose := by
    conv_lhs => rw [← hG, Matrix.mul_inv_rev, Matrix.mul_inv_rev]
    rw [Matrix.inv_eq_left_inv hVr, Matrix.inv_eq_right_inv hVt, Matrix.mul_assoc]
  refine ⟨IsUnit.of_mul_eq_one _ hdet, ?_⟩
  have hrr : (2 * Real.pi) • (p⁻¹).transpose * ((2 * Real.pi) • (p⁻¹).transpose).transpose =
      ((2 * Real.pi) * (2 * Real.pi)) • (p * p.transpose)⁻¹ := by
    rw [transpose_smul, transpose_transpose, Matrix.smul_mul, Matrix.mul_smul, smul_smul, Matrix.mul_inv_rev,
      transpose_nonsing_inv]
  rw [hrr, Matrix.mul_smul, Matrix.smul_mul, ← hi]

theorem latSym_one (r : Cell ℝ) : LatSym r !![1, 0, 0; 0, 1, 0; 0, 0, 1] := by
  have e : (!![1, 0, 0; 0, 1, 0; 0, 0, 1] : Matrix (Fin 3) (Fin 3) ℤ) = 1 := by decide
  rw [e]
  refine ⟨by rw [det_one]; exact isUnit_one, ?_⟩
  have h2 : (1 : Matrix (Fin 3) (Fin 3) ℤ).map (Int.cast : ℤ → ℝ) = 1 := by simp
  rw [h2, transpose_one, Matrix.one_mul, Matrix.mul_one]

theorem recip_unit {p r : Cell ℝ} (hr : getReciprocal p = .ok r) : IsUnit r.det := by
  obtain ⟨hd, rfl⟩ := recip_ok hr
  rw [det_smul, det_transpose, isUnit_iff_ne_zero]
  have := Real.pi_pos
  have h2 : (p⁻¹).det ≠ 0 := by
    rw [det_nonsing_inv, Ring.inverse_eq_inv']
    exact inv_ne_zero hd
  have : (2 * Real.pi) ^ Fintype.card (Fin 3) ≠ 0 := by positivity
  exact mul_ne_zero this h2

/-- Every time-reversal-invariant momentum is equivalent to a point of the table with one of the
names. -/
def TrimTable (r : Cell ℝ) (names : List String) (raw : PyDict String (Vec ℝ)) : Prop :=
  ∀ k, TimeInvariant r k → ∃ x ∈ raw, x.1 ∈ names ∧ EquivalentVectors r k (x.2 ᵥ* r)

/-- The names are on the path. -/
def namesOn (names : List String) (path : String) : Bool :=
  match getPathAsList path with
  | .error _ => false
  | .ok p => names.all fun n => decide (n ∈ p.flatten)

/-! ## Metrics of the conventional cells -/

theorem gram_eq (conv : Cell ℝ) : conv * conv.transpose =
    !![dot (conv 0) (conv 0), dot (conv 0) (conv 1), dot (conv 0) (conv 2);
      dot (conv 0) (conv 1), dot (conv 1) (conv 1), dot (conv 1) (conv 2);
      dot (conv 0) (conv 2), dot (conv 1) (conv 2), dot (conv 2) (conv 2)] := by
  ext i j
  fin_cases i <;> fin_cases j <;>
    simp [Matrix.mul_apply, Fin.sum_univ_three, Spec.dot] <;> ring

theorem angle_90 {u v : Vec ℝ} (h : AngleDeg u v 90) : dot u v = 0 := by
  rw [h.2.2]
  have : (90 : ℝ) * (Real.pi / 180) = Real.pi / 2 := by ring
  rw [this, Real.cos_pi_div_two, mul_zero]

theorem metric_box {conv : Cell ℝ} {a b c : ℝ} (h : HasParams conv a b c 90 90 90) :
    conv * conv.transpose = !![a ^ 2, 0, 0; 0, b ^ 2, 0; 0, 0, c ^ 2] := by
  rw [gram_eq, h.aa, h.bb, h.cc, angle_90 h.alpha, angle_90 h.beta, angle_90 h.gamma]

theorem metric_hex {conv : Cell ℝ} {a c : ℝ} (h : HasParams conv a a c 90 90 120) :
    conv * conv.transpose = !![a ^ 2, -(a ^ 2 / 2), 0; -(a ^ 2 / 2), a ^ 2, 0; 0, 0, c ^ 2] := by
  have e : dot (conv 0) (conv 1) = -(a ^ 2 / 2) := by
    rw [h.gamma.2.2, h.aa, h.bb, Real.sqrt_sq h.a_nonneg]
    have : (120 : ℝ) * (Real.pi / 180) = Real.pi - Real.pi / 3 := by ring
    rw [this, Real.cos_pi_sub, Real.cos_pi_div_three]
    ring
  rw [gram_eq, h.aa, h.bb, h.cc, angle_90 h.alpha, angle_90 h.beta, e]

theorem metric_rhl {conv : Cell ℝ} {a al : ℝ} (h : HasParams conv a a a al al al) :
    ∃ w, conv * conv.transpose = !![a ^ 2, w, w; w, a ^ 2, w; w, w, a ^ 2] := by
  refine ⟨dot (conv 0) (conv 1), ?_⟩
  rw [gram_eq, h.aa, h.bb, h.cc]
  have e1 : dot (conv 0) (conv 2) = dot (conv 0) (conv 1) := by
    rw [h.beta.2.2, h.gamma.2.2, h.bb, h.cc]
  have e2 : dot (conv 1) (conv 2) = dot (conv 0) (conv 1) := by
    rw [h.alpha.2.2, h.gamma.2.2, h.aa, h.bb, h.cc]
  rw [e1, e2]

theorem metric_mb {conv : Cell ℝ} {a b c be : ℝ} (h : HasParams conv a b c 90 be 90) :
    ∃ w, conv * conv.transpose = !![a ^ 2, 0, w; 0, b ^ 2, 0; w, 0, c ^ 2] :=
  ⟨dot (conv 0) (conv 2), by
    rw [gram_eq, h.aa, h.bb, h.cc, angle_90 h.alpha, angle_90 h.gamma]⟩

theorem metric_ma {conv : Cell ℝ} {a b c al : ℝ} (h : HasParams conv a b c al 90 90) :
    ∃ w, conv * conv.transpose = !![a ^ 2, 0, 0; 0, b ^ 2, w; 0, w, c ^ 2] :=
  ⟨dot (conv 1) (conv 2), by
    rw [gram_eq, h.aa, h.bb, h.cc, angle_90 h.beta, angle_90 h.gamma]⟩

macro "sym_check" : tactic => `(tactic|
  (ext i j; fin_cases i <;> fin_cases j <;>
    simp [Matrix.mul_apply, Fin.sum_univ_three] <;> ring))

macro "half_check" : tactic => `(tactic|
  (intro j; fin_cases j <;> simp [Matrix.vecMul, dotProduct, Fin.sum_univ_three] <;> norm_num))

end Wulfric
