import Verif.Spec.Polyhedron
import Mathlib.Tactic.Linarith
import Mathlib.Tactic.FieldSimp
import Mathlib.Tactic.Module
import Mathlib.Analysis.Convex.Segment

/-! # Edges and facets of the region of finitely many points -/

namespace Wulfric
open _root_.Spec

/-- The region cut out by a list of points. -/
def cut (P : List (Fin 3 → ℝ)) : Set (Fin 3 → ℝ) := {x | ∀ p ∈ P, 2 * dot x p ≤ dot p p}

/-- The part of it in the plane of one of them. -/
def facet (P : List (Fin 3 → ℝ)) (p : Fin 3 → ℝ) : Set (Fin 3 → ℝ) :=
  {x | x ∈ cut P ∧ 2 * dot x p = dot p p}

theorem dot_lin (a b : ℝ) (x y p : Fin 3 → ℝ) :
    dot (a • x + b • y) p = a * dot x p + b * dot y p := by
  unfold dot
  simp only [Pi.add_apply, Pi.smul_apply, smul_eq_mul]
  ring

theorem dot_add_smul (m d p : Fin 3 → ℝ) (δ : ℝ) : dot (m + δ • d) p = dot m p + δ * dot d p := by
  unfold dot
  simp only [Pi.add_apply, Pi.smul_apply, smul_eq_mul]
  ring

theorem dot_pos {p : Fin 3 → ℝ} (h : p ≠ 0) : 0 < dot p p := by
  have h0 : 0 ≤ dot p p := by
    unfold dot
    nlinarith [mul_self_nonneg (p 0), mul_self_nonneg (p 1), mul_self_nonneg (p 2)]
  refine lt_of_le_of_ne h0 fun e => h ?_
  unfold dot at e
  have h1 : p 0 = 0 := by
    nlinarith [mul_self_nonneg (p 0), mul_self_nonneg (p 1), mul_self_nonneg (p 2)]
  have h2 : p 1 = 0 := by
    nlinarith [mul_self_nonneg (p 0), mul_self_nonneg (p 1), mul_self_nonneg (p 2)]
  have h3 : p 2 = 0 := by
    nlinarith [mul_self_nonneg (p 0), mul_self_nonneg (p 1), mul_self_nonneg (p 2)]
  ext i
  fin_cases i
  · exact h1
  · exact h2
  · exact h3

/-- A facet is a face. -/
theorem facet_extreme (P : List (Fin 3 → ℝ)) (p : Fin 3 → ℝ) (hp : p ∈ P) :
    IsExtreme ℝ (cut P) (facet P p) := by
  refine ⟨fun x hx => hx.1, fun x hx y hy z hz hzo => ⟨hx, ?_⟩⟩
  obtain ⟨a, b, ha, hb, hab, rfl⟩ := hzo
  have h1 := hx p hp
  have h2 := hy p hp
  have h3 := hz.2
  rw [dot_lin] at h3
  by_contra hne
  have h4 : 2 * dot x p < dot p p := lt_of_le_of_ne h1 hne
  have h5 := mul_lt_mul_of_pos_left h4 ha
  have h6 := mul_le_mul_of_nonneg_left h2 hb.le
  have h7 : a * dot p p + b * dot p p = dot p p := by rw [← add_mul, hab, one_mul]
  linarith

/-- One may go a little way from a point along a direction that no active plane forbids. -/
theorem small_step (P : List (Fin 3 → ℝ)) (m d : Fin 3 → ℝ) (hm : m ∈ cut P)
    (hd : ∀ p ∈ P, 2 * dot m p = dot p p → dot d p ≤ 0) :
    ∃ δ : ℝ, 0 < δ ∧ ∀ ε, 0 ≤ ε → ε ≤ δ → m + ε • d ∈ cut P := by
  induction P with
  | nil => exact ⟨1, one_pos, fun ε _ _ p hp => by simp at hp⟩
  | cons p P ih =>
    obtain ⟨δ, hδ, h⟩ := ih (fun q hq => hm q (by simp [hq])) (fun q hq => hd q (by simp [hq]))
    have hmp := hm p (by simp)
    rcases eq_or_lt_of_le hmp with he | hlt
    · refine ⟨δ, hδ, fun ε h0 h1 q hq => ?_⟩
      rcases List.mem_cons.1 hq with rfl | hq
      · have := hd q (by simp) he
        rw [dot_add_smul]
        nlinarith [mul_nonneg h0 (neg_nonneg.2 this)]
      · exact h ε h0 h1 q hq
    · have hpos : 0 < |dot d p| + 1 := by positivity
      refine ⟨min δ ((dot p p - 2 * dot m p) / (2 * (|dot d p| + 1))),
        lt_min hδ (by apply div_pos <;> linarith), fun ε h0 h1 q hq => ?_⟩
      rcases List.mem_cons.1 hq with rfl | hq
      · have h2 := h1.trans (min_le_right _ _)
        rw [le_div_iff₀ (by linarith)] at h2
        rw [dot_add_smul]
        have h3 : ε * dot d q ≤ ε * (|dot d q| + 1) :=
          mul_le_mul_of_nonneg_left (by linarith [le_abs_self (dot d q)]) h0
        nlinarith
      · exact h ε h0 (h1.trans (min_le_left _ _)) q hq

/-- The points of a segment. -/
theorem mem_seg {u v x : Fin 3 → ℝ} (h : x ∈ segment ℝ u v) : ∃ t : ℝ, 0 ≤ t ∧ t ≤ 1 ∧ x = u + t • (v - u) := by
  obtain ⟨a, b, ha, hb, hab, rfl⟩ := h
  refine ⟨b, hb, by linarith, ?_⟩
  have : a = 1 - b := by linarith
  subst this
  module

/-- An inner point of an edge that can be moved both ways along a direction: the direction is that
of the edge. -/
theorem edge_direction {W : Set (Fin 3 → ℝ)} {u v m d : Fin 3 → ℝ}
    (hs : IsExtreme ℝ W (segment ℝ u v)) (hm : m ∈ segment ℝ u v) (h1 : m + d ∈ W)
    (h2 : m + (-1 : ℝ) • d ∈ W) : ∃ t : ℝ, d = t • (v - u) := by
  have hmem := hs.left_mem_of_mem_openSegment h1 h2 hm
    ⟨1 / 2, 1 / 2, by norm_num, by norm_num, by norm_num, by module⟩
  obtain ⟨t, -, -, ht⟩ := mem_seg hm
  obtain ⟨t', -, -, ht'⟩ := mem_seg hmem
  refine ⟨t' - t, ?_⟩
  have : d = (m + d) - m := by module
  rw [this, ht', ht]
  module

/-- Cross product. -/
def cr (a b : Fin 3 → ℝ) : Fin 3 → ℝ :=
  ![a 1 * b 2 - a 2 * b 1, a 2 * b 0 - a 0 * b 2, a 0 * b 1 - a 1 * b 0]

theorem dot_cr_left (a b : Fin 3 → ℝ) : dot a (cr a b) = 0 := by
  simp [dot, cr]; ring

theorem dot_cr_right (a b : Fin 3 → ℝ) : dot b (cr a b) = 0 := by
  simp [dot, cr]; ring

/-- Vectors with no cross product are parallel. -/
theorem cr_eq_zero {a b : Fin 3 → ℝ} (ha : a ≠ 0) (h : cr a b = 0) : ∃ t : ℝ, b = t • a := by
  have h0 : a 1 * b 2 - a 2 * b 1 = 0 := by simpa [cr] using congrFun h 0
  have h1 : a 2 * b 0 - a 0 * b 2 = 0 := by simpa [cr] using congrFun h 1
  have h2 : a 0 * b 1 - a 1 * b 0 = 0 := by simpa [cr] using congrFun h 2
  have hp := dot_pos ha
  refine ⟨dot a b / dot a a, ?_⟩
  ext i
  simp only [Pi.smul_apply, smul_eq_mul]
  rw [div_mul_eq_mul_div, eq_div_iff hp.ne']
  unfold dot
  fin_cases i <;> simp
  · linear_combination a 1 * (-h2) + a 2 * h1
  · linear_combination a 0 * h2 - a 2 * h0
  · linear_combination a 1 * h0 - a 0 * h1

theorem dot_comm3 (a b : Fin 3 → ℝ) : dot a b = dot b a := by unfold dot; ring

theorem dot_smul_left (t : ℝ) (a b : Fin 3 → ℝ) : dot (t • a) b = t * dot a b := by
  simp [dot]; ring

/-- Three points of a set that are not on a line. -/
theorem not_collinear_of {S : Set (Fin 3 → ℝ)} {m e d : Fin 3 → ℝ} {ε δ : ℝ} (hε : ε ≠ 0)
    (hδ : δ ≠ 0) (he : e ≠ 0) (hd : ¬ ∃ t : ℝ, d = t • e) (h0 : m ∈ S) (h1 : m + ε • e ∈ S)
    (h2 : m + δ • d ∈ S) : ¬ Collinear ℝ S := by
  intro hc
  obtain ⟨w, hw⟩ := (collinear_iff_of_mem h0).1 hc
  obtain ⟨r, hr⟩ := hw _ h1
  obtain ⟨s, hs⟩ := hw _ h2
  have hr' : ε • e = r • w := by
    have : m + ε • e = r • w + m := hr
    rw [add_comm] at this
    exact add_right_cancel this
  have hs' : δ • d = s • w := by
    have : m + δ • d = s • w + m := hs
    rw [add_comm] at this
    exact add_right_cancel this
  have hr0 : r ≠ 0 := by
    rintro rfl
    rw [zero_smul] at hr'
    exact he ((smul_eq_zero.1 hr').resolve_left hε)
  apply hd
  refine ⟨δ⁻¹ * s * r⁻¹ * ε, ?_⟩
  have : d = δ⁻¹ • (δ • d) := by rw [smul_smul, inv_mul_cancel₀ hδ, one_smul]
  rw [this, hs', mul_smul, hr', smul_smul, smul_smul, mul_assoc, mul_assoc, inv_mul_cancel₀ hr0,
    mul_one]

/-- The smallest of finitely many positive quotients. -/
theorem exists_min_on {α : Type} (l : List α) (f : α → ℝ) (h : l ≠ []) :
    ∃ a ∈ l, ∀ b ∈ l, f a ≤ f b := by
  induction l with
  | nil => exact absurd rfl h
  | cons x l ih =>
    by_cases hl : l = []
    · subst hl
      exact ⟨x, by simp, by simp⟩
    · obtain ⟨a, ha, hmin⟩ := ih hl
      rcases le_total (f x) (f a) with hxa | hxa
      · refine ⟨x, by simp, fun b hb => ?_⟩
        rcases List.mem_cons.1 hb with rfl | hb
        · exact le_rfl
        · exact hxa.trans (hmin b hb)
      · refine ⟨a, by simp [ha], fun b hb => ?_⟩
        rcases List.mem_cons.1 hb with rfl | hb
        · exact hxa
        · exact hmin b hb

/-- Every edge is in a facet with a positive area. -/
theorem edge_in_facet (P : List (Fin 3 → ℝ)) (s : Set (Fin 3 → ℝ)) (hs : Edge (cut P) s) :
    ∃ p ∈ P, p ≠ 0 ∧ s ⊆ facet P p ∧ ¬ Collinear ℝ (facet P p) := by
  classical
  obtain ⟨u, v, huv, rfl, hext⟩ := hs
  have hu : u ∈ cut P := hext.subset (left_mem_segment ℝ u v)
  have hv : v ∈ cut P := hext.subset (right_mem_segment ℝ u v)
  obtain ⟨m, hmdef⟩ : ∃ m : Fin 3 → ℝ, m = (1 / 2 : ℝ) • u + (1 / 2 : ℝ) • v := ⟨_, rfl⟩
  obtain ⟨e, hedef⟩ : ∃ e : Fin 3 → ℝ, e = v - u := ⟨_, rfl⟩
  have he0 : e ≠ 0 := by rw [hedef]; exact sub_ne_zero.2 huv.symm
  have hmseg : m ∈ segment ℝ u v := ⟨1 / 2, 1 / 2, by norm_num, by norm_num, by norm_num, hmdef.symm⟩
  have hm : m ∈ cut P := hext.subset hmseg
  -- the active planes contain the edge
  have hact : ∀ p ∈ P, 2 * dot m p = dot p p → 2 * dot u p = dot p p ∧ 2 * dot v p = dot p p := by
    intro p hp h
    rw [hmdef, dot_lin] at h
    have h1 := hu p hp
    have h2 := hv p hp
    constructor <;> linarith
  have hacte : ∀ p ∈ P, 2 * dot m p = dot p p → dot e p = 0 := by
    intro p hp h
    obtain ⟨h1, h2⟩ := hact p hp h
    have : dot e p = dot v p - dot u p := by rw [hedef]; unfold dot; simp; ring
    rw [this]
    linarith
  have hsub : ∀ p ∈ P, 2 * dot m p = dot p p → segment ℝ u v ⊆ facet P p := by
    rintro p hp h x hx
    refine ⟨hext.subset hx, ?_⟩
    obtain ⟨h1, h2⟩ := hact p hp h
    obtain ⟨a, b, -, -, hab, rfl⟩ := hx
    rw [dot_lin]
    linear_combination a * h1 + b * h2 + dot p p * hab
  obtain ⟨I, hI⟩ : ∃ I : List (Fin 3 → ℝ), I = P.filter fun p => 2 * dot m p = dot p p ∧ p ≠ 0 :=
    ⟨_, rfl⟩
  have memI : ∀ p, p ∈ I ↔ p ∈ P ∧ 2 * dot m p = dot p p ∧ p ≠ 0 := by
    intro p; rw [hI]; simp
  -- there is an active plane
  have hne : ∃ p0, p0 ∈ I := by
    by_contra hno
    push Not at hno
    have free : ∀ d : Fin 3 → ℝ, ∃ t : ℝ, d = t • (v - u) := by
      intro d
      have hz (d : Fin 3 → ℝ) : ∀ p ∈ P, 2 * dot m p = dot p p → dot d p ≤ 0 := by
        intro p hp h
        by_cases hp0 : p = 0
        · subst hp0; simp [dot]
        · exact absurd ((memI p).2 ⟨hp, h, hp0⟩) (hno p)
      obtain ⟨δ1, hδ1, h1⟩ := small_step P m d hm (hz d)
      obtain ⟨δ2, hδ2, h2⟩ := small_step P m ((-1 : ℝ) • d) hm (hz _)
      have hmin : 0 < min δ1 δ2 := lt_min hδ1 hδ2
      obtain ⟨t, ht⟩ := edge_direction (d := (min δ1 δ2) • d) hext hmseg
        (h1 _ hmin.le (min_le_left _ _))
        (by
          have := h2 _ hmin.le (min_le_right _ _)
          rwa [smul_comm] at this)
      refine ⟨(min δ1 δ2)⁻¹ * t, ?_⟩
      rw [mul_smul, ← ht, smul_smul, inv_mul_cancel₀ hmin.ne', one_smul]
    -- three directions cannot all be parallel
    obtain ⟨t0, h0⟩ := free ![1, 0, 0]
    obtain ⟨t1, h1⟩ := free ![0, 1, 0]
    have a0 : (1 : ℝ) = t0 * (v - u) 0 := by simpa using congrFun h0 0
    have a1 : (0 : ℝ) = t0 * (v - u) 1 := by simpa using congrFun h0 1
    have b1 : (1 : ℝ) = t1 * (v - u) 1 := by simpa using congrFun h1 1
    have : t0 ≠ 0 := by rintro rfl; simp at a0
    have : (v - u) 1 = 0 := by
      rcases mul_eq_zero.1 a1.symm with h | h
      · exact absurd h this
      · exact h
    rw [this, mul_zero] at b1
    exact one_ne_zero b1
  obtain ⟨p0, hp0⟩ := hne
  obtain ⟨hp0P, hp0a, hp0n⟩ := (memI p0).1 hp0
  have hpos (p : Fin 3 → ℝ) (hp : p ∈ I) : 0 < dot m p := by
    obtain ⟨-, h1, h2⟩ := (memI p).1 hp
    have := dot_pos h2
    linarith
  -- the edge does not point to the origin
  have hc0 : cr e m ≠ 0 := by
    intro h
    obtain ⟨t, ht⟩ := cr_eq_zero he0 h
    have h1 := hpos p0 hp0
    rw [ht, dot_smul_left, hacte p0 hp0P hp0a, mul_zero] at h1
    exact lt_irrefl _ h1
  have hcc := dot_pos hc0
  -- a direction that leaves the region
  obtain ⟨w, hw1, hw2⟩ : ∃ w : Fin 3 → ℝ, 0 < dot w p0 ∧ dot w (cr e m) ≠ 0 := by
    have hpp := dot_pos hp0n
    rcases le_total 0 (dot p0 (cr e m)) with h | h
    · refine ⟨p0 + (1 : ℝ) • cr e m, ?_, ?_⟩
      · rw [dot_add_smul, dot_comm3 (cr e m)]; linarith
      · rw [dot_add_smul]; linarith
    · refine ⟨p0 + (-1 : ℝ) • cr e m, ?_, ?_⟩
      · rw [dot_add_smul, dot_comm3 (cr e m)]; linarith
      · rw [dot_add_smul]; linarith
  -- the first active plane met on the way from the origin's direction to it
  obtain ⟨J, hJ⟩ : ∃ J : List (Fin 3 → ℝ), J = I.filter fun p => 0 < dot w p := ⟨_, rfl⟩
  have memJ : ∀ p, p ∈ J ↔ p ∈ I ∧ 0 < dot w p := by intro p; rw [hJ]; simp
  obtain ⟨p1, hp1, hmin⟩ := exists_min_on J (fun p => dot m p / (dot w p + dot m p))
    (List.ne_nil_of_mem ((memJ p0).2 ⟨hp0, hw1⟩))
  obtain ⟨hp1I, hp1w⟩ := (memJ p1).1 hp1
  obtain ⟨hp1P, hp1a, hp1n⟩ := (memI p1).1 hp1I
  have hm1 := hpos p1 hp1I
  obtain ⟨t, ht⟩ : ∃ t : ℝ, t = dot m p1 / (dot w p1 + dot m p1) := ⟨_, rfl⟩
  have ht0 : 0 < t := by rw [ht]; positivity
  have ht1 : t ≤ 1 := by rw [ht, div_le_one (by positivity)]; linarith
  obtain ⟨d, hd⟩ : ∃ d : Fin 3 → ℝ, d = (-(1 - t)) • m + t • w := ⟨_, rfl⟩
  have hdp (p : Fin 3 → ℝ) : dot d p = -(1 - t) * dot m p + t * dot w p := by rw [hd, dot_lin]
  have hd1 : dot d p1 = 0 := by
    rw [hdp, ht]
    field_simp
    ring
  have hdI : ∀ p ∈ P, 2 * dot m p = dot p p → dot d p ≤ 0 := by
    intro p hp h
    by_cases hp0 : p = 0
    · subst hp0; simp [dot]
    have hpI := (memI p).2 ⟨hp, h, hp0⟩
    have hmp := hpos p hpI
    rw [hdp]
    by_cases hwp : 0 < dot w p
    · have := hmin p ((memJ p).2 ⟨hpI, hwp⟩)
      rw [← ht, le_div_iff₀ (by linarith)] at this
      linarith
    · push Not at hwp
      nlinarith [mul_nonneg (sub_nonneg.2 ht1) hmp.le, mul_nonneg ht0.le (neg_nonneg.2 hwp)]
  have hdn : ¬ ∃ r : ℝ, d = r • e := by
    rintro ⟨r, hr⟩
    have h1 : dot d (cr e m) = 0 := by rw [hr, dot_smul_left, dot_cr_left, mul_zero]
    rw [hdp, dot_cr_right, mul_zero, zero_add] at h1
    rcases mul_eq_zero.1 h1 with h | h
    · exact ht0.ne' h
    · exact hw2 h
  obtain ⟨δ, hδ, hstep⟩ := small_step P m d hm hdI
  refine ⟨p1, hp1P, hp1n, hsub p1 hp1P hp1a, ?_⟩
  refine not_collinear_of (m := m) (e := e) (d := d) (ε := 1 / 2) (δ := δ) (by norm_num) hδ.ne' he0
    hdn ⟨hm, hp1a⟩ ?_ ⟨hstep δ hδ.le le_rfl, ?_⟩
  · have : m + (1 / 2 : ℝ) • e = v := by rw [hmdef, hedef]; module
    rw [this]
    exact hsub p1 hp1P hp1a (right_mem_segment ℝ u v)
  · rw [dot_add_smul, hd1, mul_zero, add_zero]
    exact hp1a

/-- The edges of the region are the edges of its facets. -/
theorem edge_iff (P : List (Fin 3 → ℝ)) (s : Set (Fin 3 → ℝ)) :
    Edge (cut P) s ↔ ∃ p ∈ P, p ≠ 0 ∧ ¬ Collinear ℝ (facet P p) ∧ Edge (facet P p) s := by
  constructor
  · intro h
    obtain ⟨p, hp, hp0, hsub, hc⟩ := edge_in_facet P s h
    obtain ⟨u, v, huv, e, hext⟩ := h
    exact ⟨p, hp, hp0, hc, u, v, huv, e, hext.mono (fun x hx => hx.1) hsub⟩
  · rintro ⟨p, hp, -, -, u, v, huv, e, hext⟩
    exact ⟨u, v, huv, e, (facet_extreme P p hp).trans hext⟩

/-- The segment determines its ends. -/
theorem segment_ends {u v u' v' : Fin 3 → ℝ} (huv : u ≠ v) (h : segment ℝ u v = segment ℝ u' v') :
    (u = u' ∧ v = v') ∨ (u = v' ∧ v = u') := by
  obtain ⟨a, ha0, ha1, ha⟩ := mem_seg (h ▸ left_mem_segment ℝ u' v' : u' ∈ segment ℝ u v)
  obtain ⟨b, hb0, hb1, hb⟩ := mem_seg (h ▸ right_mem_segment ℝ u' v' : v' ∈ segment ℝ u v)
  obtain ⟨c, hc0, hc1, hc⟩ := mem_seg (h ▸ left_mem_segment ℝ u v : u ∈ segment ℝ u' v')
  obtain ⟨d, hd0, hd1, hd⟩ := mem_seg (h ▸ right_mem_segment ℝ u v : v ∈ segment ℝ u' v')
  have hw : v - u ≠ 0 := sub_ne_zero.2 huv.symm
  have e1 : (a + c * (b - a)) • (v - u) = 0 := by
    have : u + (a + c * (b - a)) • (v - u) = u := by
      conv_rhs => rw [hc, ha, hb]
      module
    simpa using this
  have e2 : (a + d * (b - a) - 1) • (v - u) = 0 := by
    have : u + (a + d * (b - a)) • (v - u) = v := by
      conv_rhs => rw [hd, ha, hb]
      module
    have h' : (a + d * (b - a)) • (v - u) = v - u := by
      rw [← sub_eq_iff_eq_add'.2 this.symm]
    rw [sub_smul, h', one_smul, sub_self]
  have f1 := (smul_eq_zero.1 e1).resolve_right hw
  have f2 := (smul_eq_zero.1 e2).resolve_right hw
  have g1 : (1 - c) * a = 0 := by nlinarith [mul_nonneg (sub_nonneg.2 hc1) ha0, mul_nonneg hc0 hb0]
  have g2 : c * b = 0 := by nlinarith [mul_nonneg (sub_nonneg.2 hc1) ha0, mul_nonneg hc0 hb0]
  have g3 : (1 - d) * (1 - a) = 0 := by
    nlinarith [mul_nonneg (sub_nonneg.2 hd1) (sub_nonneg.2 ha1), mul_nonneg hd0 (sub_nonneg.2 hb1)]
  have g4 : d * (1 - b) = 0 := by
    nlinarith [mul_nonneg (sub_nonneg.2 hd1) (sub_nonneg.2 ha1), mul_nonneg hd0 (sub_nonneg.2 hb1)]
  rcases mul_eq_zero.1 g1 with h1 | h1
  · have hb' : b = 0 := by
      rcases mul_eq_zero.1 g2 with h2 | h2
      · exfalso; linarith
      · exact h2
    have ha' : a = 1 := by
      rcases mul_eq_zero.1 g4 with h4 | h4
      · rcases mul_eq_zero.1 g3 with h3 | h3
        · exfalso; linarith
        · linarith
      · exfalso; linarith
    right
    rw [ha', one_smul] at ha
    rw [hb', zero_smul, add_zero] at hb
    exact ⟨hb.symm, by rw [ha]; module⟩
  · have hb' : b = 1 := by
      rcases mul_eq_zero.1 g3 with h3 | h3
      · rcases mul_eq_zero.1 g4 with h4 | h4
        · exfalso; linarith
        · linarith
      · exfalso; linarith
    left
    rw [h1, zero_smul, add_zero] at ha
    rw [hb', one_smul] at hb
    exact ⟨ha.symm, by rw [hb]; module⟩

/-- There is a facet with a positive area: the one of the shortest of the points. -/
theorem exists_facet (P : List (Fin 3 → ℝ)) (hP : ∃ p ∈ P, p ≠ 0) :
    ∃ p ∈ P, p ≠ 0 ∧ ¬ Collinear ℝ (facet P p) := by
  classical
  obtain ⟨q, hq, hq0⟩ := hP
  obtain ⟨p, hp, hmin⟩ := exists_min_on (P.filter fun p => p ≠ 0) (fun p => dot p p)
    (List.ne_nil_of_mem (List.mem_filter.2 ⟨hq, by simpa using hq0⟩))
  obtain ⟨hpP, hp0⟩ := List.mem_filter.1 hp
  have hp0 : p ≠ 0 := by simpa using hp0
  have hpp := dot_pos hp0
  have cs (h : Fin 3 → ℝ) : dot p h * dot p h ≤ dot p p * dot h h := by
    unfold dot
    nlinarith [mul_self_nonneg (p 0 * h 1 - p 1 * h 0), mul_self_nonneg (p 0 * h 2 - p 2 * h 0),
      mul_self_nonneg (p 1 * h 2 - p 2 * h 1)]
  have hle : ∀ h ∈ P, h ≠ 0 → dot p p ≤ dot h h := fun h hh h0 =>
    hmin h (List.mem_filter.2 ⟨hh, by simpa using h0⟩)
  have hmid : (1 / 2 : ℝ) • p ∈ cut P := by
    intro h hh
    rw [dot_smul_left]
    by_cases h0 : h = 0
    · subst h0; simp [dot]
    have h1 := hle h hh h0
    by_contra hlt
    push Not at hlt
    have h2 := cs h
    have h3 := dot_pos h0
    nlinarith
  have hact : ∀ h ∈ P, 2 * dot ((1 / 2 : ℝ) • p) h = dot h h → h = 0 ∨ h = p := by
    intro h hh he
    by_cases h0 : h = 0
    · exact .inl h0
    right
    rw [dot_smul_left] at he
    have h1 := hle h hh h0
    have h2 : dot p h = dot h h := by linarith
    have h4 := dot_pos h0
    have h3 : dot p p = dot h h := by
      have := cs h
      rw [h2] at this
      have : dot h h ≤ dot p p := le_of_mul_le_mul_right this h4
      linarith
    have h5 : dot (h - p) (h - p) = 0 := by
      have : dot (h - p) (h - p) = dot h h - 2 * dot p h + dot p p := by
        unfold dot; simp; ring
      rw [this, h3, h2]; ring
    by_contra hne
    exact (dot_pos (sub_ne_zero.2 hne)).ne' h5
  -- two directions in the plane
  have hdir (d : Fin 3 → ℝ) (hd : dot d p = 0) : ∃ δ : ℝ, 0 < δ ∧ (1 / 2 : ℝ) • p + δ • d ∈ facet P p := by
    obtain ⟨δ, hδ, h⟩ := small_step P _ d hmid (by
      intro h hh he
      rcases hact h hh he with rfl | rfl
      · simp [dot]
      · exact hd.le)
    refine ⟨δ, hδ, h δ hδ.le le_rfl, ?_⟩
    rw [dot_add_smul, hd, dot_smul_left]
    ring
  obtain ⟨e, he0, hep⟩ : ∃ e : Fin 3 → ℝ, e ≠ 0 ∧ dot e p = 0 := by
    by_cases h : p 0 = 0 ∧ p 1 = 0
    · refine ⟨![1, 0, 0], fun e => by simpa using congrFun e 0, by simp [dot, h.1]⟩
    · refine ⟨![-p 1, p 0, 0], fun e => h ⟨by simpa using congrFun e 1, by simpa using congrFun e 0⟩,
        by simp [dot]; ring⟩
  obtain ⟨ε, hε, h1⟩ := hdir e hep
  obtain ⟨δ, hδ, h2⟩ := hdir (cr e p) (by rw [dot_comm3]; exact dot_cr_right e p)
  refine ⟨p, hpP, hp0, not_collinear_of hε.ne' hδ.ne' he0 ?_ ⟨hmid, by rw [dot_smul_left]; ring⟩ h1 h2⟩
  rintro ⟨t, ht⟩
  have h3 : dot (cr e p) (cr e p) = 0 := by
    conv_lhs => rw [ht]
    rw [dot_smul_left, ← ht, dot_cr_left, mul_zero]
  have h4 : cr e p = 0 := by
    by_contra h
    exact (dot_pos h).ne' h3
  obtain ⟨r, hr⟩ := cr_eq_zero he0 h4
  rw [hr, dot_comm3, dot_smul_left] at hep
  rcases mul_eq_zero.1 hep with h | h
  · rw [h, zero_smul] at hr
    exact hp0 hr
  · exact (dot_pos he0).ne' h

end Wulfric
