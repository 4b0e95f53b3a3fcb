import Verif.Spec.Places
import Verif.Lemmas.ZoneForm

/-!
# The place of a point in coordinates

The equations of `Spec.Where` for the coordinates of a point in the basis of the reciprocal cell.
-/

namespace Wulfric

open Matrix _root_.Spec

/-- The place of the point with the coordinates `x, y, z`, for the quadratic form. -/
def WhereForm (q11 q22 q33 q12 q13 q23 x y z : ℝ) : Option Where → Prop
  | none => True
  | some .origin => x = 0 ∧ y = 0 ∧ z = 0
  | some (.half g) => x = g.1 / 2 ∧ y = g.2.1 / 2 ∧ z = g.2.2 / 2
  | some (.edge g h) => zoneForm q11 q22 q33 q12 q13 q23 x y z g.1 g.2.1 g.2.2 = 0 ∧
      zoneForm q11 q22 q33 q12 q13 q23 x y z h.1 h.2.1 h.2.2 = 0 ∧
      x * (g.2.1 * h.2.2 - g.2.2 * h.2.1) + y * (g.2.2 * h.1 - g.1 * h.2.2) +
        z * (g.1 * h.2.1 - g.2.1 * h.1) = 0
  | some (.vertex g h k) => zoneForm q11 q22 q33 q12 q13 q23 x y z g.1 g.2.1 g.2.2 = 0 ∧
      zoneForm q11 q22 q33 q12 q13 q23 x y z h.1 h.2.1 h.2.2 = 0 ∧
      zoneForm q11 q22 q33 q12 q13 q23 x y z k.1 k.2.1 k.2.2 = 0
  | some (.between g h k g' h' k') => ∃ x1 y1 z1 x2 y2 z2,
      (zoneForm q11 q22 q33 q12 q13 q23 x1 y1 z1 g.1 g.2.1 g.2.2 = 0 ∧
        zoneForm q11 q22 q33 q12 q13 q23 x1 y1 z1 h.1 h.2.1 h.2.2 = 0 ∧
        zoneForm q11 q22 q33 q12 q13 q23 x1 y1 z1 k.1 k.2.1 k.2.2 = 0) ∧
      (zoneForm q11 q22 q33 q12 q13 q23 x2 y2 z2 g'.1 g'.2.1 g'.2.2 = 0 ∧
        zoneForm q11 q22 q33 q12 q13 q23 x2 y2 z2 h'.1 h'.2.1 h'.2.2 = 0 ∧
        zoneForm q11 q22 q33 q12 q13 q23 x2 y2 z2 k'.1 k'.2.1 k'.2.2 = 0) ∧
      2 * x = x1 + x2 ∧ 2 * y = y1 + y2 ∧ 2 * z = z1 + z2

/-- A point of a table is the one of the list, at its place. -/
def GoodWhere (q11 q22 q33 q12 q13 q23 : ℝ) (p : String × Vec ℝ) (w : String × Option Where) :
    Prop :=
  p.1 = w.1 ∧ ∃ x y z, p.2 = ![x, y, z] ∧ WhereForm q11 q22 q33 q12 q13 q23 x y z w.2

section
variable {q11 q22 q33 q12 q13 q23 x y z : ℝ} {g1 g2 g3 h1 h2 h3 k1 k2 k3 : ℤ}

theorem none_at : WhereForm q11 q22 q33 q12 q13 q23 x y z none := trivial

theorem origin_at : WhereForm q11 q22 q33 q12 q13 q23 0 0 0 (some .origin) := ⟨rfl, rfl, rfl⟩

theorem half_at (e1 : x = (g1 : ℝ) / 2) (e2 : y = (g2 : ℝ) / 2) (e3 : z = (g3 : ℝ) / 2) :
    WhereForm q11 q22 q33 q12 q13 q23 x y z (some (.half (g1, g2, g3))) := ⟨e1, e2, e3⟩

theorem edge_at (e1 : zoneForm q11 q22 q33 q12 q13 q23 x y z g1 g2 g3 = 0)
    (e2 : zoneForm q11 q22 q33 q12 q13 q23 x y z h1 h2 h3 = 0)
    (e3 : x * ((g2 : ℝ) * h3 - g3 * h2) + y * (g3 * h1 - g1 * h3) + z * (g1 * h2 - g2 * h1) = 0) :
    WhereForm q11 q22 q33 q12 q13 q23 x y z (some (.edge (g1, g2, g3) (h1, h2, h3))) :=
  ⟨e1, e2, e3⟩

theorem vertex_at (e1 : zoneForm q11 q22 q33 q12 q13 q23 x y z g1 g2 g3 = 0)
    (e2 : zoneForm q11 q22 q33 q12 q13 q23 x y z h1 h2 h3 = 0)
    (e3 : zoneForm q11 q22 q33 q12 q13 q23 x y z k1 k2 k3 = 0) :
    WhereForm q11 q22 q33 q12 q13 q23 x y z
      (some (.vertex (g1, g2, g3) (h1, h2, h3) (k1, k2, k3))) :=
  ⟨e1, e2, e3⟩

theorem between_at {g1' g2' g3' h1' h2' h3' k1' k2' k3' : ℤ} (x1 y1 z1 x2 y2 z2 : ℝ)
    (e1 : zoneForm q11 q22 q33 q12 q13 q23 x1 y1 z1 g1 g2 g3 = 0)
    (e2 : zoneForm q11 q22 q33 q12 q13 q23 x1 y1 z1 h1 h2 h3 = 0)
    (e3 : zoneForm q11 q22 q33 q12 q13 q23 x1 y1 z1 k1 k2 k3 = 0)
    (e4 : zoneForm q11 q22 q33 q12 q13 q23 x2 y2 z2 g1' g2' g3' = 0)
    (e5 : zoneForm q11 q22 q33 q12 q13 q23 x2 y2 z2 h1' h2' h3' = 0)
    (e6 : zoneForm q11 q22 q33 q12 q13 q23 x2 y2 z2 k1' k2' k3' = 0)
    (e7 : 2 * x = x1 + x2) (e8 : 2 * y = y1 + y2) (e9 : 2 * z = z1 + z2) :
    WhereForm q11 q22 q33 q12 q13 q23 x y z (some (.between (g1, g2, g3) (h1, h2, h3)
      (k1, k2, k3) (g1', g2', g3') (h1', h2', h3') (k1', k2', k3'))) :=
  ⟨x1, y1, z1, x2, y2, z2, ⟨e1, e2, e3⟩, ⟨e4, e5, e6⟩, e7, e8, e9⟩

end

/-- Closes the equations of the places. -/
macro "wz" : tactic => `(tactic| (
  try simp only [zoneForm]
  push_cast
  first | ring1 | (subst_vars; field_simp; ring1) | (subst_vars; field_simp; done)))

/-- The place of a point of the tables in the reciprocal lattice. -/
def PlacedAt (r : Cell ℝ) (p : String × Vec ℝ) (w : String × Option Where) : Prop :=
  p.1 = w.1 ∧ ∀ u, w.2 = some u → u.At r (vecMat p.2 r)

theorem coords_entry (r : Cell ℝ) (x y z : ℝ) (j : Fin 3) :
    (![x, y, z] ᵥ* r) j = x * r 0 j + y * r 1 j + z * r 2 j := by
  simp [Matrix.vecMul, dotProduct, Fin.sum_univ_three]

theorem equidistant_of_form {r : Cell ℝ} {s q11 q22 q33 q12 q13 q23 x y z : ℝ}
    (h11 : dot (r 0) (r 0) = s * q11) (h22 : dot (r 1) (r 1) = s * q22)
    (h33 : dot (r 2) (r 2) = s * q33) (h12 : dot (r 0) (r 1) = s * q12)
    (h13 : dot (r 0) (r 2) = s * q13) (h23 : dot (r 1) (r 2) = s * q23) (n : ℤ × ℤ × ℤ)
    (h : zoneForm q11 q22 q33 q12 q13 q23 x y z n.1 n.2.1 n.2.2 = 0) :
    Equidistant r n (![x, y, z] ᵥ* r) := by
  unfold Equidistant zoneForm at *
  simp only [dot, Pi.sub_apply, coords_entry, gvec] at *
  linear_combination -s * h - (n.1 ^ 2 - 2 * x * n.1) * h11 -
    (n.2.1 ^ 2 - 2 * y * n.2.1) * h22 - (n.2.2 ^ 2 - 2 * z * n.2.2) * h33 -
    (2 * n.1 * n.2.1 - 2 * x * n.2.1 - 2 * y * n.1) * h12 -
    (2 * n.1 * n.2.2 - 2 * x * n.2.2 - 2 * z * n.1) * h13 -
    (2 * n.2.1 * n.2.2 - 2 * y * n.2.2 - 2 * z * n.2.1) * h23

theorem HasForm.placed {p r : Cell ℝ} {q11 q22 q33 q12 q13 q23 : ℝ}
    (h : HasForm p q11 q22 q33 q12 q13 q23) (hr : getReciprocal p = .ok r)
    {x : String × Vec ℝ} {w : String × Option Where}
    (hx : GoodWhere q11 q22 q33 q12 q13 q23 x w) : PlacedAt r x w := by
  obtain ⟨s, -, h11, h22, h33, h12, h13, h23⟩ := h.dots hr
  obtain ⟨e, a, b, c, e', hx⟩ := hx
  refine ⟨e, fun u hu => ?_⟩
  rw [hu] at hx
  rw [vecMat_row, e']
  have key : ∀ (a b c : ℝ) (n : ℤ × ℤ × ℤ),
      zoneForm q11 q22 q33 q12 q13 q23 a b c n.1 n.2.1 n.2.2 = 0 →
      Equidistant r n (![a, b, c] ᵥ* r) := fun a b c n =>
    equidistant_of_form h11 h22 h33 h12 h13 h23 n
  cases u with
  | origin =>
    obtain ⟨rfl, rfl, rfl⟩ := hx
    funext j
    rw [coords_entry]
    simp
  | half g =>
    obtain ⟨rfl, rfl, rfl⟩ := hx
    funext j
    rw [coords_entry]
    simp only [Pi.smul_apply, gvec, smul_eq_mul]
    ring
  | edge g h =>
    refine ⟨key _ _ _ _ hx.1, key _ _ _ _ hx.2.1, ?_⟩
    have e : (Matrix.of ![![a, b, c] ᵥ* r, gvec r g, gvec r h]) =
        !![a, b, c; (g.1 : ℝ), g.2.1, g.2.2; h.1, h.2.1, h.2.2] * r := by
      ext i j
      fin_cases i <;>
        simp [Matrix.mul_apply, Fin.sum_univ_three, gvec, Matrix.vecMul, dotProduct]
    rw [e, det_mul, det_fin_three]
    simp only [of_apply, cons_val]
    linear_combination r.det * hx.2.2
  | vertex g h k => exact ⟨key _ _ _ _ hx.1, key _ _ _ _ hx.2.1, key _ _ _ _ hx.2.2⟩
  | between g h k g' h' k' =>
    obtain ⟨x1, y1, z1, x2, y2, z2, ⟨e1, e2, e3⟩, ⟨e4, e5, e6⟩, e7, e8, e9⟩ := hx
    refine ⟨![x1, y1, z1] ᵥ* r, ![x2, y2, z2] ᵥ* r,
      ⟨key _ _ _ _ e1, key _ _ _ _ e2, key _ _ _ _ e3⟩,
      ⟨key _ _ _ _ e4, key _ _ _ _ e5, key _ _ _ _ e6⟩, ?_⟩
    funext j
    simp only [Pi.smul_apply, Pi.add_apply, coords_entry, smul_eq_mul]
    linear_combination (r 0 j / 2) * e7 + (r 1 j / 2) * e8 + (r 2 j / 2) * e9

theorem HasForm.allPlaced {p r : Cell ℝ} {q11 q22 q33 q12 q13 q23 : ℝ}
    (h : HasForm p q11 q22 q33 q12 q13 q23) (hr : getReciprocal p = .ok r)
    {raw : PyDict String (Vec ℝ)} {l : List (String × Option Where)}
    (hx : List.Forall₂ (GoodWhere q11 q22 q33 q12 q13 q23) raw l) :
    List.Forall₂ (PlacedAt r) raw l :=
  hx.imp fun _ _ e => h.placed hr e

end Wulfric
