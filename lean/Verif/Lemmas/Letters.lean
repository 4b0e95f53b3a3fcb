import Verif.Spec.Letters
import Verif.Lemmas.Trim

/-! # Points with the same letter -/

namespace Wulfric

open Matrix _root_.Spec Wulfric.Spec

/-- In coordinates: an integer symmetry and an integer translation carry `x` into `y`. -/
def Near (r : Cell ℝ) (x y : Vec ℝ) : Prop :=
  ∃ V, LatSym r V ∧ ∃ z : Fin 3 → ℤ, ∀ j, (x ᵥ* V.map (Int.cast : ℤ → ℝ)) j = y j + z j

theorem near_refl (r : Cell ℝ) (x : Vec ℝ) : Near r x x :=
  ⟨_, latSym_one r, 0, fun j => by
    fin_cases j <;> simp [Matrix.vecMul, dotProduct, Fin.sum_univ_three]⟩

/-- The inverse of a symmetry is one, and so is a product of two. -/
theorem LatSym.mul {r : Cell ℝ} {V W : Matrix (Fin 3) (Fin 3) ℤ} (hV : LatSym r V)
    (hW : LatSym r W) : LatSym r (V * W) := by
  refine ⟨by rw [det_mul]; exact hV.1.mul hW.1, ?_⟩
  have e : (V * W).map (Int.cast : ℤ → ℝ) = V.map (Int.cast : ℤ → ℝ) * W.map (Int.cast : ℤ → ℝ) := by
    have : (V * W).map (Int.castRingHom ℝ) =
        V.map (Int.castRingHom ℝ) * W.map (Int.castRingHom ℝ) := Matrix.map_mul
    exact this
  rw [e, transpose_mul]
  calc _ = V.map (Int.cast : ℤ → ℝ) * (W.map (Int.cast : ℤ → ℝ) * (r * r.transpose) *
      (W.map (Int.cast : ℤ → ℝ)).transpose) * (V.map (Int.cast : ℤ → ℝ)).transpose := by
        simp only [Matrix.mul_assoc]
    _ = _ := by rw [hW.2, hV.2]

theorem LatSym.inv {r : Cell ℝ} {V : Matrix (Fin 3) (Fin 3) ℤ} (hV : LatSym r V) :
    LatSym r V⁻¹ := by
  have hu : IsUnit V.det := hV.1
  refine ⟨by rw [← Matrix.isUnit_iff_isUnit_det, Matrix.isUnit_nonsing_inv_iff,
    Matrix.isUnit_iff_isUnit_det]; exact hu, ?_⟩
  have e : V⁻¹.map (Int.cast : ℤ → ℝ) * V.map (Int.cast : ℤ → ℝ) = 1 := by
    have h1 : (V⁻¹ * V).map (Int.castRingHom ℝ) =
        V⁻¹.map (Int.castRingHom ℝ) * V.map (Int.castRingHom ℝ) := Matrix.map_mul
    rw [Matrix.nonsing_inv_mul V hu] at h1
    have h2 : (1 : Matrix (Fin 3) (Fin 3) ℤ).map (Int.castRingHom ℝ) = 1 := by simp
    rw [h2] at h1
    exact h1.symm
  have e' : (V.map (Int.cast : ℤ → ℝ)).transpose * (V⁻¹.map (Int.cast : ℤ → ℝ)).transpose = 1 := by
    rw [← transpose_mul, e, transpose_one]
  conv_lhs => rw [← hV.2]
  calc _ = (V⁻¹.map (Int.cast : ℤ → ℝ) * V.map (Int.cast : ℤ → ℝ)) * (r * r.transpose) *
      ((V.map (Int.cast : ℤ → ℝ)).transpose * (V⁻¹.map (Int.cast : ℤ → ℝ)).transpose) := by
        simp only [Matrix.mul_assoc]
    _ = _ := by rw [e, e', Matrix.one_mul, Matrix.mul_one]

theorem LatSym.neg {r : Cell ℝ} {V : Matrix (Fin 3) (Fin 3) ℤ} (hV : LatSym r V) :
    LatSym r (-V) := by
  have e : (-V).map (Int.cast : ℤ → ℝ) = -(V.map (Int.cast : ℤ → ℝ)) := by
    ext i j; simp
  refine ⟨by rw [det_neg]; simpa using hV.1, ?_⟩
  rw [e, transpose_neg, Matrix.neg_mul, Matrix.neg_mul, Matrix.mul_neg, neg_neg]
  exact hV.2

theorem latSym_neg_one (r : Cell ℝ) : LatSym r !![-1, 0, 0; 0, -1, 0; 0, 0, -1] := by
  have := (latSym_one r).neg
  have e : -(!![1, 0, 0; 0, 1, 0; 0, 0, 1] : Matrix (Fin 3) (Fin 3) ℤ) =
    !![-1, 0, 0; 0, -1, 0; 0, 0, -1] := by decide
  rwa [e] at this

/-- From one point through a common one to another. -/
theorem Near.common {r : Cell ℝ} {x y w : Vec ℝ} (hx : Near r x w) (hy : Near r y w) :
    Near r x y := by
  obtain ⟨V, hV, z, hz⟩ := hx
  obtain ⟨W, hW, u, hu⟩ := hy
  have hdet : IsUnit W.det := hW.1
  refine ⟨V * W⁻¹, hV.mul hW.inv, (z - u) ᵥ* W⁻¹, ?_⟩
  have e1 : (V * W⁻¹).map (Int.cast : ℤ → ℝ) =
      V.map (Int.cast : ℤ → ℝ) * W⁻¹.map (Int.cast : ℤ → ℝ) := by
    have : (V * W⁻¹).map (Int.castRingHom ℝ) =
        V.map (Int.castRingHom ℝ) * W⁻¹.map (Int.castRingHom ℝ) := Matrix.map_mul
    exact this
  have e2 : W.map (Int.cast : ℤ → ℝ) * W⁻¹.map (Int.cast : ℤ → ℝ) = 1 := by
    have h1 : (W * W⁻¹).map (Int.castRingHom ℝ) =
        W.map (Int.castRingHom ℝ) * W⁻¹.map (Int.castRingHom ℝ) := Matrix.map_mul
    rw [Matrix.mul_nonsing_inv W hdet] at h1
    have h2 : (1 : Matrix (Fin 3) (Fin 3) ℤ).map (Int.castRingHom ℝ) = 1 := by simp
    rw [h2] at h1
    exact h1.symm
  have ez : x ᵥ* V.map (Int.cast : ℤ → ℝ) =
      y ᵥ* W.map (Int.cast : ℤ → ℝ) + fun j => ((z - u) j : ℝ) := by
    funext j
    have h1 := hz j
    have h2 := hu j
    simp only [Pi.add_apply, Pi.sub_apply, Int.cast_sub] at h1 h2 ⊢
    linarith
  intro j
  rw [e1, ← Matrix.vecMul_vecMul, ez, Matrix.add_vecMul, Matrix.vecMul_vecMul, e2,
    Matrix.vecMul_one]
  simp only [Pi.add_apply, Matrix.vecMul, dotProduct, Matrix.map_apply, Int.cast_sum, Int.cast_mul]

theorem Near.equivalent {r : Cell ℝ} (hr : IsUnit r.det) {x y : Vec ℝ} (h : Near r x y) :
    EquivalentVectors r (x ᵥ* r) (y ᵥ* r) := by
  obtain ⟨V, hV, z, hz⟩ := h
  refine ⟨_, hV.symmetry hr, z, ?_⟩
  have e1 : (x ᵥ* r) ᵥ* (r⁻¹ * (V.map (Int.cast : ℤ → ℝ) * r)) =
      (x ᵥ* V.map (Int.cast : ℤ → ℝ)) ᵥ* r := by
    rw [Matrix.vecMul_vecMul, Matrix.vecMul_vecMul, ← Matrix.mul_assoc,
      Matrix.mul_nonsing_inv r hr, Matrix.one_mul]
  have e2 : x ᵥ* V.map (Int.cast : ℤ → ℝ) = y + fun j => (z j : ℝ) := funext hz
  rw [e1, e2, Matrix.add_vecMul, add_sub_cancel_left]
  funext j
  simp only [Matrix.vecMul, dotProduct]

theorem Near.neg_left {r : Cell ℝ} {x y : Vec ℝ} (h : Near r x y) : Near r (-x) y := by
  obtain ⟨V, hV, z, hz⟩ := h
  refine ⟨-V, hV.neg, z, fun j => ?_⟩
  have e : (-V).map (Int.cast : ℤ → ℝ) = -(V.map (Int.cast : ℤ → ℝ)) := by
    ext i j; simp
  rw [e, Matrix.vecMul_neg, Matrix.neg_vecMul, neg_neg]
  exact hz j

theorem Near.symm {r : Cell ℝ} {x y : Vec ℝ} (h : Near r x y) : Near r y x :=
  (near_refl r y).common h

/-- Any two points of the table with the same letter are equivalent. -/
def LetterTable (r : Cell ℝ) (raw : PyDict String (Vec ℝ)) : Prop :=
  ∀ x ∈ raw, ∀ y ∈ raw, letter x.1 = letter y.1 → Near r x.2 y.2

/-- Names with the same letter have the same number. -/
def lettersCheck (keys : List String) (cls : List ℕ) : Bool :=
  ((keys.map letter).zip cls).all fun p => ((keys.map letter).zip cls).all fun q =>
    decide (p.1 = q.1 → p.2 = q.2)

theorem letters_of {r : Cell ℝ} {raw : PyDict String (Vec ℝ)} (cls : List ℕ)
    (reps : List (Vec ℝ)) (hk : lettersCheck raw.keys cls = true)
    (he : List.Forall₂ (fun (x : String × Vec ℝ) (i : ℕ) => Near r x.2 (reps.getD i 0)) raw cls) :
    LetterTable r raw := by
  have key : ∀ x ∈ raw, ∃ i, (letter x.1, i) ∈ (raw.keys.map letter).zip cls ∧
      Near r x.2 (reps.getD i 0) := by
    intro x hx
    clear hk
    induction he with
    | nil => simp at hx
    | cons h1 h2 ih =>
      rename_i x' i l l'
      rcases List.mem_cons.1 hx with rfl | hx
      · exact ⟨i, by simp [PyDict.keys], h1⟩
      · obtain ⟨i, k1, k2⟩ := ih hx
        exact ⟨i, by
          simp only [PyDict.keys, List.map_cons, List.zip_cons_cons] at k1 ⊢
          exact List.mem_cons_of_mem _ k1, k2⟩
  intro x hx y hy hxy
  obtain ⟨i, h1, h2⟩ := key x hx
  obtain ⟨j, h3, h4⟩ := key y hy
  have := List.all_eq_true.1 (List.all_eq_true.1 hk _ h1) _ h3
  have e : i = j := (of_decide_eq_true this) hxy
  subst e
  exact h2.common h4

macro "near_check" : tactic => `(tactic|
  (intro j; fin_cases j <;> simp [Matrix.vecMul, dotProduct, Fin.sum_univ_three] <;> ring))

end Wulfric
