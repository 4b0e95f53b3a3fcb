import Verif.Spec.Tiling
import Verif.Props.C67_ZoneEdges
import Verif.Lemmas.ZoneHull
import Mathlib.Algebra.Module.ZLattice.Basic
import Mathlib.Analysis.Convex.Measure

/-! # The Wigner-Seitz cell fills space; its volume -/

namespace Wulfric
open Matrix _root_.Spec

theorem mem_wignerSeitz (cell : Cell ℝ) (x : Vec ℝ) :
    x ∈ wignerSeitz cell ↔ ∀ p ∈ latticePoints cell, 2 * dot x p ≤ dot p p :=
  forall₂_congr fun p _ => region_iff x p

theorem lattice_sub {cell : Cell ℝ} {p q : Vec ℝ} (hp : p ∈ latticePoints cell)
    (hq : q ∈ latticePoints cell) : p - q ∈ latticePoints cell := by
  obtain ⟨n, rfl⟩ := hp
  obtain ⟨m, rfl⟩ := hq
  refine ⟨n - m, ?_⟩
  ext j
  simp only [Pi.sub_apply, Fin.sum_univ_three, Int.cast_sub]
  ring

theorem lattice_zero (cell : Cell ℝ) : (0 : Vec ℝ) ∈ latticePoints cell := ⟨0, by ext j; simp⟩

theorem ws_covers (cell : Cell ℝ) (hdet : cell.det ≠ 0) (x : Vec ℝ) :
    ∃ p ∈ latticePoints cell, x - p ∈ wignerSeitz cell := by
  have hdual : Dual cell (cell⁻¹)ᵀ := by
    intro i j
    have h : cell * cell⁻¹ = 1 := Matrix.mul_nonsing_inv _ (Ne.isUnit hdet)
    have := congrFun (congrFun h i) j
    rw [Matrix.mul_apply, Fin.sum_univ_three, Matrix.one_apply] at this
    simpa only [dot, Matrix.transpose_apply] using this
  obtain ⟨m, hm⟩ := exists_nearest hdual x
  have hp : specPoint cell false m ∈ latticePoints cell := by rw [latticePoints_eq]; exact ⟨m, rfl⟩
  refine ⟨_, hp, fun q hq => ?_⟩
  have hpq : specPoint cell false m + q ∈ latticePoints cell := by
    have := lattice_sub hp (lattice_sub (lattice_zero cell) hq)
    simpa using this
  rw [latticePoints_eq] at hpq
  obtain ⟨k, hk⟩ := hpq
  have := hm k
  unfold distSq at this
  rw [← hk] at this
  have e : (fun i => (x - specPoint cell false m) i - q i) =
      fun i => x i - (specPoint cell false m + q) i := by
    ext i
    simp only [Pi.sub_apply, Pi.add_apply]
    ring
  rw [e]
  exact this

/-- A point in two copies is on the plane between them. -/
theorem ws_plane {cell : Cell ℝ} {x p : Vec ℝ} (hp : p ∈ latticePoints cell)
    (h1 : x ∈ wignerSeitz cell) (h2 : x - p ∈ wignerSeitz cell) : 2 * dot x p = dot p p := by
  have h3 := (mem_wignerSeitz cell x).1 h1 p hp
  have h4 := (mem_wignerSeitz cell _).1 h2 (0 - p) (lattice_sub (lattice_zero cell) hp)
  have e1 : dot (x - p) (0 - p) = dot p p - dot x p := by simp [dot]; ring
  have e2 : dot (0 - p) (0 - p) = dot p p := by simp [dot]
  rw [e1, e2] at h4
  linarith

theorem ws_inner {cell : Cell ℝ} {x p : Vec ℝ} (hp : p ∈ latticePoints cell) (hp0 : p ≠ 0)
    (hx : x ∈ interior (wignerSeitz cell)) : 2 * dot x p < dot p p := by
  have hc : Continuous fun t : ℝ => x + t • p := by fun_prop
  have hn : (fun t : ℝ => x + t • p) ⁻¹' interior (wignerSeitz cell) ∈ nhds (0 : ℝ) :=
    (isOpen_interior.preimage hc).mem_nhds (by simpa using hx)
  obtain ⟨ε, hε, hb⟩ := Metric.mem_nhds_iff.1 hn
  have hmem : x + (ε / 2) • p ∈ wignerSeitz cell :=
    interior_subset (hb (by simp [abs_of_pos hε, hε]))
  have h := (mem_wignerSeitz cell _).1 hmem p hp
  rw [dot_add_smul] at h
  nlinarith [mul_pos (half_pos hε) (dot_pos hp0)]

theorem ws_tiles (cell : Cell ℝ) (hdet : cell.det ≠ 0) :
    Tiles (wignerSeitz cell) (latticePoints cell) := by
  refine ⟨ws_covers cell hdet, fun p hp q hq hpq x hx hxq => ?_⟩
  have hm := lattice_sub hq hp
  have h1 := ws_inner hm (sub_ne_zero.2 hpq.symm) hx
  have h2 := ws_plane (x := x - p) hm (interior_subset hx) (by
    rw [show x - p - (q - p) = x - q by abel]; exact hxq)
  linarith

theorem ws_convex (cell : Cell ℝ) : Convex ℝ (wignerSeitz cell) := by
  intro x hx y hy a b ha hb hab
  rw [mem_wignerSeitz] at *
  intro p hp
  have h1 := mul_le_mul_of_nonneg_left (hx p hp) ha
  have h2 := mul_le_mul_of_nonneg_left (hy p hp) hb
  have h3 : a * dot p p + b * dot p p = dot p p := by rw [← add_mul, hab, one_mul]
  rw [dot_lin]
  linarith

theorem ws_closed (cell : Cell ℝ) : IsClosed (wignerSeitz cell) := by
  have : wignerSeitz cell = ⋂ p ∈ latticePoints cell, {x | 2 * dot x p ≤ dot p p} := by
    ext x
    rw [mem_wignerSeitz]
    simp
  rw [this]
  exact isClosed_biInter fun p _ =>
    isClosed_le (continuous_const.mul (dot_continuous p)) continuous_const

/-- A closed convex body that fills space by the translations of a lattice has the volume of its
cell. -/
theorem tiles_volume (cell : Cell ℝ) (hdet : cell.det ≠ 0) (W : Set (Vec ℝ)) (hcl : IsClosed W)
    (hconv : Convex ℝ W) (ht : Tiles W (latticePoints cell)) :
    MeasureTheory.volume W = ENNReal.ofReal |cell.det| := by
  have hli : LinearIndependent ℝ cell :=
    Matrix.linearIndependent_rows_iff_isUnit.2 ((Matrix.isUnit_iff_isUnit_det _).2 (Ne.isUnit hdet))
  let b := basisOfLinearIndependentOfCardEqFinrank hli (by simp)
  have hb : (b : Fin 3 → Vec ℝ) = cell := coe_basisOfLinearIndependentOfCardEqFinrank hli _
  have hmem (v : Vec ℝ) : v ∈ Submodule.span ℤ (Set.range b) ↔ v ∈ latticePoints cell := by
    rw [Submodule.mem_span_range_iff_exists_fun, hb]
    unfold latticePoints
    simp only [Set.mem_ofPred_eq]
    constructor
    · rintro ⟨c, rfl⟩
      refine ⟨c, ?_⟩
      ext j
      simp [Finset.sum_apply]
    · rintro ⟨c, rfl⟩
      refine ⟨c, ?_⟩
      ext j
      simp [Finset.sum_apply]
  have hcount : Countable (Submodule.span ℤ (Set.range b)).toAddSubgroup := by
    refine Set.Countable.to_subtype ((Set.countable_range
      fun n : Fin 3 → ℤ => (fun j => ∑ i, (n i : ℝ) * cell i j : Vec ℝ)).mono fun v hv => ?_)
    obtain ⟨n, hn⟩ := (hmem v).1 hv
    exact ⟨n, hn.symm⟩
  have hd := ZSpan.isAddFundamentalDomain' b (MeasureTheory.volume (α := Vec ℝ))
  have hW : MeasureTheory.IsAddFundamentalDomain (Submodule.span ℤ (Set.range b)).toAddSubgroup W
      MeasureTheory.volume := by
    refine MeasureTheory.IsAddFundamentalDomain.mk'' hcl.measurableSet.nullMeasurableSet
      (Filter.Eventually.of_forall fun x => ?_) (fun g hg => ?_) fun g => ?_
    · obtain ⟨p, hp, hx⟩ := ht.covers x
      refine ⟨⟨-p, ?_⟩, ?_⟩
      · exact Submodule.neg_mem _ ((hmem p).2 hp)
      · change -p + x ∈ W
        rw [neg_add_eq_sub]
        exact hx
    · refine MeasureTheory.measure_mono_null (t := frontier W) ?_ (hconv.addHaar_frontier _)
      rintro x ⟨hx1, hx2⟩
      obtain ⟨y, hy, rfl⟩ := hx1
      refine ⟨subset_closure hx2, fun hin => ?_⟩
      have hgL : (g : Vec ℝ) ∈ latticePoints cell := (hmem _).1 g.2
      refine ht.apart 0 (lattice_zero cell) g hgL (fun e => hg (Subtype.ext e.symm))
        ((g : Vec ℝ) + y) ?_ ?_
      · rw [sub_zero]
        exact hin
      · simpa using hy
    · exact (MeasureTheory.measurePreserving_add_left MeasureTheory.volume
        (g : Vec ℝ)).quasiMeasurePreserving
  rw [hW.measure_eq hd, ZSpan.volume_fundamentalDomain, hb]
  rfl

end Wulfric
