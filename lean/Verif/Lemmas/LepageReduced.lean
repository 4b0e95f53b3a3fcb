import Verif.Lemmas.LepageNiggli
import Verif.Props.C61_NiggliUnique

/-! # Which Niggli form an orthogonal lattice has -/

set_option linter.unusedSectionVars false
set_option linter.unusedVariables false

namespace Wulfric

open Matrix _root_.Spec

/-- The conditions for scalar products that are not positive. -/
theorem niggli_obtuse {A B C xi eta zeta : ℝ} (hA : 0 < A) (ab : A ≤ B) (bc : B ≤ C) (x : xi ≤ 0)
    (y : eta ≤ 0) (z : zeta ≤ 0) (t1 : A = B → eta ≤ xi) (t2 : B = C → zeta ≤ eta) (x1 : -B ≤ xi)
    (y1 : -A ≤ eta) (z1 : -A ≤ zeta) (s : 0 ≤ xi + eta + zeta + A + B)
    (x2 : xi = -B → zeta = 0) (y2 : eta = -A → zeta = 0) (z2 : zeta = -A → eta = 0)
    (s2 : xi + eta + zeta + A + B = 0 → 2 * (A + eta) + zeta ≤ 0) :
    NiggliNumbers A B C xi eta zeta where
  ab := ab
  bc := bc
  ab_tie h := by rw [abs_of_nonpos x, abs_of_nonpos y]; linarith [t1 h]
  bc_tie h := by rw [abs_of_nonpos y, abs_of_nonpos z]; linarith [t2 h]
  type := Or.inr ⟨x, y, z⟩
  xi_le := by rw [abs_of_nonpos x]; linarith
  eta_le := by rw [abs_of_nonpos y]; linarith
  zeta_le := by rw [abs_of_nonpos z]; linarith
  sum_nonneg := s
  xi_eq h := by linarith
  eta_eq h := by linarith
  zeta_eq h := by linarith
  xi_eq_neg := x2
  eta_eq_neg := y2
  zeta_eq_neg := z2
  sum_tie := s2

/-- The conditions for positive scalar products. -/
theorem niggli_acute {A B C xi eta zeta : ℝ} (hA : 0 < A) (ab : A ≤ B) (bc : B ≤ C) (x : 0 < xi)
    (y : 0 < eta) (z : 0 < zeta) (t1 : A = B → xi ≤ eta) (t2 : B = C → eta ≤ zeta) (x1 : xi ≤ B)
    (y1 : eta ≤ A) (z1 : zeta ≤ A) (x2 : xi = B → zeta ≤ 2 * eta) (y2 : eta = A → zeta ≤ 2 * xi)
    (z2 : zeta = A → eta ≤ 2 * xi) : NiggliNumbers A B C xi eta zeta where
  ab := ab
  bc := bc
  ab_tie h := by rw [abs_of_pos x, abs_of_pos y]; exact t1 h
  bc_tie h := by rw [abs_of_pos y, abs_of_pos z]; exact t2 h
  type := Or.inl ⟨x, y, z⟩
  xi_le := by rw [abs_of_pos x]; exact x1
  eta_le := by rw [abs_of_pos y]; exact y1
  zeta_le := by rw [abs_of_pos z]; exact z1
  sum_nonneg := by linarith
  xi_eq := x2
  eta_eq := y2
  zeta_eq := z2
  xi_eq_neg h := by linarith
  eta_eq_neg h := by linarith
  zeta_eq_neg h := by linarith
  sum_tie h := by linarith

/-- The scalar product of two rows of the cell, in the squares of the edges. -/
noncomputable def formDot (m : Matrix (Fin 3) (Fin 3) ℤ) (X Y Z : ℝ) (i j : Fin 3) : ℝ :=
  (m i 0 * m j 0 * X + m i 1 * m j 1 * Y + m i 2 * m j 2 * Z) / 4

theorem niggli_form {e : Cell ℝ} {l : Fin 3 → ℝ} (hb : Box e l) {m : Matrix (Fin 3) (Fin 3) ℤ}
    (h : NiggliNumbers (formDot m (l 0 ^ 2) (l 1 ^ 2) (l 2 ^ 2) 0 0)
      (formDot m (l 0 ^ 2) (l 1 ^ 2) (l 2 ^ 2) 1 1) (formDot m (l 0 ^ 2) (l 1 ^ 2) (l 2 ^ 2) 2 2)
      (2 * formDot m (l 0 ^ 2) (l 1 ^ 2) (l 2 ^ 2) 1 2) (2 * formDot m (l 0 ^ 2) (l 1 ^ 2) (l 2 ^ 2) 0 2)
      (2 * formDot m (l 0 ^ 2) (l 1 ^ 2) (l 2 ^ 2) 0 1)) : IsNiggli (halfCell m e) := by
  unfold IsNiggli
  simp only [half_dot hb]
  exact h

/-- The Niggli conditions of a form, from the squares of the edges. -/
def FormNiggli (m : Matrix (Fin 3) (Fin 3) ℤ) (X Y Z : ℝ) : Prop :=
  NiggliNumbers (formDot m X Y Z 0 0) (formDot m X Y Z 1 1) (formDot m X Y Z 2 2)
    (2 * formDot m X Y Z 1 2) (2 * formDot m X Y Z 0 2) (2 * formDot m X Y Z 0 1)

section

variable {X Y Z : ℝ} (x : 0 < X) (y : 0 < Y) (z : 0 < Z)

include x y z

theorem fn_ORC1 (h : X ≤ Y) (k : Y ≤ Z) : FormNiggli matORC1 X Y Z := by
  unfold FormNiggli
  apply niggli_obtuse <;> simp [formDot, matORC1] <;> grind

theorem fn_ORCI1 (h : X ≤ Y) (k : Y ≤ Z) (c : 3 * Y < X + Z) : FormNiggli matORCI1 X Y Z := by
  unfold FormNiggli
  apply niggli_obtuse <;> simp [formDot, matORCI1] <;> grind

theorem fn_ORCI2 (h : X ≤ Y) (k : Y ≤ Z) (c : X + Z ≤ 3 * Y) (d : 3 * X ≤ Y + Z) :
    FormNiggli matORCI2 X Y Z := by
  unfold FormNiggli
  apply niggli_acute <;> simp [formDot, matORCI2] <;> grind

theorem fn_ORCI3 (h : X ≤ Y) (k : Y ≤ Z) (c : Y + Z < 3 * X) : FormNiggli matORCI3 X Y Z := by
  unfold FormNiggli
  apply niggli_obtuse <;> simp [formDot, matORCI3] <;> grind

theorem fn_ORCF1 (h : X ≤ Y) (k : Y < Z) (c : Y < 3 * X) : FormNiggli matORCF1 X Y Z := by
  unfold FormNiggli
  apply niggli_obtuse <;> simp [formDot, matORCF1] <;> grind

theorem fn_ORCF2 (h : X ≤ Y) (k : Y ≤ Z) (c : 3 * X ≤ Y) : FormNiggli matORCF2 X Y Z := by
  unfold FormNiggli
  apply niggli_acute <;> simp [formDot, matORCF2] <;> grind

theorem fn_ORCC1 (h : X ≤ Y) (c : Y ≤ 3 * X) (k : X + Y ≤ 4 * Z) : FormNiggli matORCC1 X Y Z := by
  unfold FormNiggli
  apply niggli_obtuse <;> simp [formDot, matORCC1] <;> grind

theorem fn_ORCC2 (h : X ≤ Y) (c : Y ≤ 3 * X) (k : 4 * Z < X + Y) : FormNiggli matORCC2 X Y Z := by
  unfold FormNiggli
  apply niggli_obtuse <;> simp [formDot, matORCC2] <;> grind

theorem fn_ORCC3 (h : X ≤ Y) (c : 3 * X ≤ Y) (k : X + Y ≤ 4 * Z) : FormNiggli matORCC3 X Y Z := by
  unfold FormNiggli
  apply niggli_obtuse <;> simp [formDot, matORCC3] <;> grind

theorem fn_ORCC4 (h : X ≤ Y) (c : 3 * X ≤ Y) (k : 4 * Z < X + Y) (j : X ≤ Z) :
    FormNiggli matORCC4 X Y Z := by
  unfold FormNiggli
  apply niggli_obtuse <;> simp [formDot, matORCC4] <;> grind

theorem fn_ORCC5 (h : X ≤ Y) (c : 3 * X ≤ Y) (j : Z < X) : FormNiggli matORCC5 X Y Z := by
  unfold FormNiggli
  apply niggli_obtuse <;> simp [formDot, matORCC5] <;> grind

omit y in
theorem fn_TET1 (h : X ≤ Z) : FormNiggli matTET1 X X Z := by
  unfold FormNiggli
  apply niggli_obtuse <;> simp [formDot, matTET1] <;> grind

omit y in
theorem fn_TET2 (h : Z ≤ X) : FormNiggli matTET2 X X Z := by
  unfold FormNiggli
  apply niggli_obtuse <;> simp [formDot, matTET2] <;> grind

omit y in
theorem fn_BCT1 (h : 3 * Z ≤ 2 * X) : FormNiggli matBCT1 X X Z := by
  unfold FormNiggli
  apply niggli_acute <;> simp [formDot, matBCT1] <;> grind

omit y in
theorem fn_BCT2 (h : 2 * X < Z) : FormNiggli matBCT2 X X Z := by
  unfold FormNiggli
  apply niggli_obtuse <;> simp [formDot, matBCT2] <;> grind

omit y in
theorem fn_BCT3 (h : 2 * X < 3 * Z) (k : Z ≤ X) : FormNiggli matBCT3 X X Z := by
  unfold FormNiggli
  apply niggli_obtuse <;> simp [formDot, matBCT3] <;> grind

omit y in
theorem fn_BCT4 (h : X ≤ Z) (k : Z < 2 * X) : FormNiggli matBCT4 X X Z := by
  unfold FormNiggli
  apply niggli_obtuse <;> simp [formDot, matBCT4] <;> grind

end

end Wulfric
