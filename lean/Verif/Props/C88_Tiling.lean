import Verif.Lemmas.ZoneVolume

/-! # C88: the points returned for the Wigner-Seitz cell and the Brillouin zone are the corners of a
body that fills space -/

namespace Wulfric
open Matrix _root_.Spec

/-- What a user may expect of the points returned for the cell of a lattice with the volume `V`. -/
structure ZoneCorners (vs : List (Fin 3 → ℝ)) (L : Set (Fin 3 → ℝ)) (V : ℝ) : Prop where
  /-- the points of space nearest to the origin are those between the points of the list -/
  hull : convexHull ℝ {v | v ∈ vs} = region L
  /-- all points of the list are corners: none is between others -/
  corners : {v | v ∈ vs} = (convexHull ℝ {v | v ∈ vs}).extremePoints ℝ
  /-- no corner is given twice -/
  distinct : vs.Nodup
  /-- the copies of the body at the lattice points fill space without overlap -/
  tiles : Tiles (convexHull ℝ {v | v ∈ vs}) L
  /-- its volume -/
  volume : MeasureTheory.volume (convexHull ℝ {v | v ∈ vs}) = ENNReal.ofReal V
  /-- the origin is the centre -/
  symmetric : ∀ v ∈ vs, -v ∈ vs

/-- A drawing of the edges of the Wigner-Seitz cell has its corners as points. -/
theorem zoneCorners_of_wireFrame (cell : Cell ℝ) (hdet : cell.det ≠ 0)
    (henough : region (resultPoints (getLatticePoints cell (fun _ => 10))) = wignerSeitz cell)
    (vs : List (Vec ℝ)) (edges : List (ℕ × ℕ)) (hw : WireFrame (wignerSeitz cell) vs edges) :
    ZoneCorners vs (latticePoints cell) |cell.det| := by
  obtain ⟨P, hP, -⟩ := C20_centre cell 10
  have hcut : wignerSeitz cell = cut P := by
    rw [← henough, show getLatticePoints cell (fun _ => 10) = .flat P from hP]
    exact region_eq_cut P
  have hmem (v : Vec ℝ) : v ∈ P ↔ ∃ m : Fin 3 → ℤ, (∀ i, |m i| ≤ ((10 : ℕ) : ℤ)) ∧
      v = specPoint cell false m := by
    have := mem_resultPoints cell 10 v
    rw [hP] at this
    exact this
  have haxis (s : ℤ) (hs : |s| ≤ 1) (j : Fin 3) : (fun k => (s : ℝ) * cell j k) ∈ P := by
    rw [← specPoint_axis, hmem]
    refine ⟨_, fun i => ?_, rfl⟩
    unfold axisIndex
    split
    · exact hs.trans (by norm_num)
    · norm_num
  have hplus (j : Fin 3) : cell j ∈ P ∧ (fun k => -cell j k) ∈ P := by
    have h1 := haxis 1 (by norm_num) j
    have h2 := haxis (-1) (by norm_num) j
    simp only [Int.cast_one, one_mul, Int.cast_neg, neg_mul] at h1 h2
    exact ⟨h1, h2⟩
  have hbd := cut_bounded cell hdet P hplus
  have hhull : convexHull ℝ {v | v ∈ vs} = wignerSeitz cell := by
    rw [hcut]; exact wireFrame_hull hbd (hcut ▸ hw)
  have hcorn : {v | v ∈ vs} = (wignerSeitz cell).extremePoints ℝ := by
    rw [hcut]; exact wireFrame_corners hbd (hcut ▸ hw)
  have hneg {x : Vec ℝ} (hx : x ∈ wignerSeitz cell) : -x ∈ wignerSeitz cell := by
    rw [mem_wignerSeitz] at *
    intro p hp
    have h1 := hx (0 - p) (lattice_sub (lattice_zero cell) hp)
    have e1 : dot x (0 - p) = dot (-x) p := by simp [dot]
    have e2 : dot (0 - p) (0 - p) = dot p p := by simp [dot]
    rwa [e1, e2] at h1
  refine ⟨hhull, by rw [hhull]; exact hcorn, hw.distinct, by rw [hhull]; exact ws_tiles cell hdet,
    ?_, fun v hv => ?_⟩
  · rw [hhull]
    exact tiles_volume cell hdet _ (ws_closed cell) (ws_convex cell) (ws_tiles cell hdet)
  · have h1 : v ∈ (wignerSeitz cell).extremePoints ℝ := hcorn ▸ hv
    have h2 : -v ∈ (wignerSeitz cell).extremePoints ℝ := by
      refine ⟨hneg h1.1, fun y hy z hz hyz => ?_⟩
      obtain ⟨a, b, ha, hb, hab, he⟩ := hyz
      have h3 := h1.2 (hneg hy) (hneg hz) ⟨a, b, ha, hb, hab, by
        rw [smul_neg, smul_neg, ← neg_add, he, neg_neg]⟩
      rw [← h3, neg_neg]
    have : -v ∈ {v | v ∈ vs} := by rw [hcorn]; exact h2
    exact this

/-- C88: `get_wigner_seitz_cell` returns the corners of the Wigner-Seitz cell, each once. The body
between them is the set of the points of space nearest to the origin. Its copies at the lattice
points fill space without overlap, and its volume is the volume of the cell, as given by
`get_volume`. -/
theorem C88_wigner_seitz (lib : PlotLib) (horder : ∀ l, (lib.order l).Perm l) (cell : Cell ℝ)
    (hdet : cell.det ≠ 0)
    (henough : region (resultPoints (getLatticePoints cell (fun _ => 10))) = wignerSeitz cell)
    (hlib : ∀ P, getLatticePoints cell (fun _ => 10) = .flat P →
      VoronoiAnswer lib P (index000 10)) :
    ∃ vs edges V, getWignerSeitzCell lib cell = .ok (vs, edges) ∧
      getVolume (.one cell) = .ok V ∧ 0 < V ∧ ZoneCorners vs (latticePoints cell) V := by
  obtain ⟨vs, edges, hok, hw⟩ := C67_wigner_seitz lib horder cell hdet henough hlib
  exact ⟨vs, edges, _, hok, rfl, abs_pos.2 hdet, zoneCorners_of_wireFrame cell hdet henough vs edges hw⟩

/-- C88: in particular for a Niggli-reduced cell. -/
theorem C88_reduced (lib : PlotLib) (horder : ∀ l, (lib.order l).Perm l) (cell : Cell ℝ)
    (hdet : cell.det ≠ 0) (h : IsNiggli cell)
    (hlib : ∀ P, getLatticePoints cell (fun _ => 10) = .flat P →
      VoronoiAnswer lib P (index000 10)) :
    ∃ vs edges V, getWignerSeitzCell lib cell = .ok (vs, edges) ∧
      getVolume (.one cell) = .ok V ∧ 0 < V ∧ ZoneCorners vs (latticePoints cell) V :=
  C88_wigner_seitz lib horder cell hdet (C52_reduced cell h 10 (by norm_num)) hlib

/-- C88: `get_brillouin_zone` of a Niggli-reduced cell returns the corners of the Brillouin zone.
The zone fills reciprocal space by the translations of the reciprocal lattice, and its volume times
the volume of the cell is `(2π)³`. -/
theorem C88_brillouin (lib : PlotLib) (horder : ∀ l, (lib.order l).Perm l) (cell : Cell ℝ)
    (hdet : cell.det ≠ 0) (h : IsNiggli cell)
    (hlib : ∀ r P, IsDual r cell → getLatticePoints r (fun _ => 10) = .flat P →
      VoronoiAnswer lib P (index000 10)) :
    ∃ r vs edges V, IsDual r cell ∧ getBrillouinZone lib cell = .ok (vs, edges) ∧
      getVolume (.one cell) = .ok V ∧ 0 < V ∧
      ZoneCorners vs (latticePoints r) ((2 * Real.pi) ^ 3 / V) := by
  obtain ⟨r, hr, hd, -⟩ := C02_dual_unique cell hdet
  have hrdet : r.det ≠ 0 := by
    obtain ⟨r', h1, h2, -⟩ := C03_involution cell hdet
    rw [hr] at h1
    cases h1
    exact h2
  obtain ⟨vs, edges, hok, hw⟩ := C67_wigner_seitz lib horder r hrdet (C52_brillouin cell r h hr)
    (fun P hP => hlib r P hd hP)
  have hz := zoneCorners_of_wireFrame r hrdet (C52_brillouin cell r h hr) vs edges hw
  have hV : |r.det| = (2 * Real.pi) ^ 3 / |cell.det| := by
    rw [eq_div_iff (abs_pos.2 hdet).ne', ← abs_mul, (C03_volume cell r hr).1,
      abs_of_pos (by positivity)]
  refine ⟨r, vs, edges, _, hd, ?_, rfl, abs_pos.2 hdet, hV ▸ hz⟩
  unfold getBrillouinZone
  simp only [bind, Except.bind, hr]
  exact hok

/-- C88: two cells of the same lattice give the same corners and the same edges, in some order. -/
theorem C88_same_lattice (lib lib' : PlotLib) (horder : ∀ l, (lib.order l).Perm l)
    (horder' : ∀ l, (lib'.order l).Perm l) (c d : Cell ℝ) (hc : c.det ≠ 0) (hd : d.det ≠ 0)
    (hs : SameLattice c d)
    (hce : region (resultPoints (getLatticePoints c (fun _ => 10))) = wignerSeitz c)
    (hde : region (resultPoints (getLatticePoints d (fun _ => 10))) = wignerSeitz d)
    (hclib : ∀ P, getLatticePoints c (fun _ => 10) = .flat P → VoronoiAnswer lib P (index000 10))
    (hdlib : ∀ P, getLatticePoints d (fun _ => 10) = .flat P → VoronoiAnswer lib' P (index000 10)) :
    ∃ vs edges vs' edges', getWignerSeitzCell lib c = .ok (vs, edges) ∧
      getWignerSeitzCell lib' d = .ok (vs', edges') ∧ vs.Perm vs' ∧
      (∀ s, (∃ e ∈ edges, ∃ u v, vs[e.1]? = some u ∧ vs[e.2]? = some v ∧ s = segment ℝ u v) ↔
        ∃ e ∈ edges', ∃ u v, vs'[e.1]? = some u ∧ vs'[e.2]? = some v ∧ s = segment ℝ u v) := by
  obtain ⟨vs, edges, hok, hw⟩ := C67_wigner_seitz lib horder c hc hce hclib
  obtain ⟨vs', edges', hok', hw'⟩ := C67_wigner_seitz lib' horder' d hd hde hdlib
  have h1 := zoneCorners_of_wireFrame c hc hce vs edges hw
  have h2 := zoneCorners_of_wireFrame d hd hde vs' edges' hw'
  have hws : wignerSeitz d = wignerSeitz c := by
    unfold wignerSeitz
    rw [show latticePoints d = latticePoints c from hs.symm]
  have hedge {W : Set (Vec ℝ)} {vs : List (Vec ℝ)} {edges : List (ℕ × ℕ)} (hw : WireFrame W vs edges)
      (s : Set (Vec ℝ)) : (∃ e ∈ edges, ∃ u v, vs[e.1]? = some u ∧ vs[e.2]? = some v ∧
        s = segment ℝ u v) ↔ Edge W s := by
    refine ⟨?_, hw.complete s⟩
    rintro ⟨e, he, u, v, hu, hv, rfl⟩
    obtain ⟨u', v', hu', hv', h⟩ := hw.sound e he
    rw [hu] at hu'
    rw [hv] at hv'
    cases hu'
    cases hv'
    exact h
  refine ⟨vs, edges, vs', edges', hok, hok', ?_, ?_⟩
  · rw [List.perm_ext_iff_of_nodup h1.distinct h2.distinct]
    have e : {v | v ∈ vs} = {v | v ∈ vs'} := by
      rw [h1.corners, h1.hull, h2.corners, h2.hull, show latticePoints c = latticePoints d from hs]
    exact fun v => Set.ext_iff.1 e v
  · intro s
    rw [hedge hw, hedge hw', hws]

end Wulfric
