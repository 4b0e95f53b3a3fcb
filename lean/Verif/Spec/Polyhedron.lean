import Verif.Spec.Voronoi
import Mathlib.Analysis.Convex.Extreme
import Mathlib.LinearAlgebra.AffineSpace.FiniteDimensional
import Mathlib.Topology.MetricSpace.Bounded
import Mathlib.Data.Sym.Sym2

/-! # Specification: edges of a convex body, Voronoi diagrams -/

namespace Spec

/-- An edge of a convex body: a segment of positive length that is a face of it (no segment of the
body with an inner point on the edge leaves the edge). -/
def Edge (W s : Set (Fin 3 → ℝ)) : Prop :=
  ∃ u v, u ≠ v ∧ s = segment ℝ u v ∧ IsExtreme ℝ W s

/-- The points of space that are at least as close to `c` as to all points of the list. -/
def nearest (P : List (Fin 3 → ℝ)) (c : Fin 3 → ℝ) : Set (Fin 3 → ℝ) :=
  {x | ∀ p ∈ P, dot (fun i => x i - c i) (fun i => x i - c i) ≤
    dot (fun i => x i - p i) (fun i => x i - p i)}

/-- The segment between two vertices given by their indices. -/
def SegmentOf (vertices : List (Fin 3 → ℝ)) (a b : ℤ) (s : Set (Fin 3 → ℝ)) : Prop :=
  ∃ u v, 0 ≤ a ∧ 0 ≤ b ∧ vertices[a.toNat]? = some u ∧ vertices[b.toNat]? = some v ∧
    s = segment ℝ u v

/-- What the documentation of the Voronoi routine says about the ridges around the point with the
index `centre`. A ridge belongs to two of the points; `rv` lists the indices of its vertices around
the ridge, with `-1` among them if the ridge is not bounded. -/
structure VoronoiAround (P : List (Fin 3 → ℝ)) (centre : ℕ) (vertices : List (Fin 3 → ℝ))
    (ridges : List (List ℤ × (ℤ × ℤ))) : Prop where
  /-- no vertex is given twice -/
  distinct : vertices.Nodup
  /-- every index is the index of a vertex, or -1 -/
  indices : ∀ r ∈ ridges, ∀ v ∈ r.1, v = -1 ∨ (0 ≤ v ∧ v < vertices.length)
  /-- the vertices of a bounded ridge are listed around the common face of its two points -/
  sides : ∀ r ∈ ridges, -1 ∉ r.1 → (r.2.1 = centre ∨ r.2.2 = centre) →
    ∃ c q, ∃ k : ℕ, P[centre]? = some c ∧ P[k]? = some q ∧ k ≠ centre ∧
      (r.2 = ((centre : ℤ), (k : ℤ)) ∨ r.2 = ((k : ℤ), (centre : ℤ))) ∧ 3 ≤ r.1.length ∧
      ∀ s, Edge (nearest P c ∩ nearest P q) s ↔
        ∃ (j : ℕ) (a b : ℤ), r.1[j]? = some a ∧ r.1[(j + 1) % r.1.length]? = some b ∧
          SegmentOf vertices a b s
  /-- there is a ridge for every bounded common face with a positive area -/
  complete : ∀ c q, ∀ k : ℕ, P[centre]? = some c → P[k]? = some q → k ≠ centre →
    ¬ Collinear ℝ (nearest P c ∩ nearest P q) →
    Bornology.IsBounded (nearest P c ∩ nearest P q) →
    ∃ r ∈ ridges, (r.2 = ((centre : ℤ), (k : ℤ)) ∨ r.2 = ((k : ℤ), (centre : ℤ))) ∧ -1 ∉ r.1

/-- A drawing of the edges of a body: a list of points and a list of pairs of numbers of points. -/
structure WireFrame (W : Set (Fin 3 → ℝ)) (points : List (Fin 3 → ℝ)) (edges : List (ℕ × ℕ)) :
    Prop where
  /-- no point is given twice -/
  distinct : points.Nodup
  /-- every point is an end of an edge -/
  used : ∀ k, k < points.length → ∃ e ∈ edges, e.1 = k ∨ e.2 = k
  /-- every pair is an edge of the body -/
  sound : ∀ e ∈ edges, ∃ u v, points[e.1]? = some u ∧ points[e.2]? = some v ∧
    Edge W (segment ℝ u v)
  /-- every edge of the body is there -/
  complete : ∀ s, Edge W s → ∃ e ∈ edges, ∃ u v, points[e.1]? = some u ∧
    points[e.2]? = some v ∧ s = segment ℝ u v
  /-- only once -/
  once : (edges.map fun e => s(e.1, e.2)).Nodup

end Spec
