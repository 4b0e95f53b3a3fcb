import Verif.Props.C52_Criterion
import Verif.Props.C21_VoronoiEdges
import Verif.Props.C64_Figure
import Verif.Lemmas.Polyhedron
import Mathlib.Analysis.Normed.Group.Bounded
import Mathlib.Analysis.Normed.Group.Constructions

/-! # C67: the edges of the Wigner-Seitz cell and of the Brillouin zone -/

namespace Wulfric
open Matrix _root_.Spec

/-- The Voronoi routine does what its documentation says for the given points, around one of
them. -/
def VoronoiAnswer (lib : PlotLib) (P : List (Vec ℝ)) (centre : ℕ) : Prop :=
  ∃ vor, lib.voronoi P = .ok vor ∧ vor.ridgeVertices.length = vor.ridgePoints.length ∧
    VoronoiAround P centre vor.vertices (vor.ridgeVertices.zip vor.ridgePoints)

theorem nearest_zero (P : List (Vec ℝ)) : nearest P 0 = cut P := by
  ext x
  unfold nearest cut
  simp only [Set.mem_setOf_eq]
  refine forall₂_congr fun p _ => ?_
  rw [← region_iff]
  simp only [Pi.zero_apply, sub_zero]

theorem nearest_inter (P : List (Vec ℝ)) (p : Vec ℝ) (h0 : (0 : Vec ℝ) ∈ P) (hp : p ∈ P) :
    nearest P 0 ∩ nearest P p = facet P p := by
  have e (x q : Vec ℝ) : dot (fun i => x i - q i) (fun i => x i - q i) =
      dot x x - 2 * dot x q + dot q q := by unfold dot; ring
  rw [nearest_zero]
  ext x
  constructor
  · rintro ⟨h1, h2⟩
    refine ⟨h1, le_antisymm (h1 p hp) ?_⟩
    have := h2 0 h0
    rw [e, e] at this
    have z1 : dot x 0 = 0 := by simp [dot]
    have z2 : dot (0 : Vec ℝ) 0 = 0 := by simp [dot]
    rw [z1, z2] at this
    linarith
  · rintro ⟨h1, h2⟩
    refine ⟨h1, fun q hq => ?_⟩
    have := h1 q hq
    rw [e, e]
    linarith

theorem region_eq_cut (P : List (Vec ℝ)) : region {v | v ∈ P} = cut P := by
  ext x
  unfold region cut
  simp only [Set.mem_setOf_eq]
  exact forall₂_congr fun p _ => region_iff x p

/-- The region cut out by the planes of three independent vectors and their opposites is bounded. -/
theorem cut_bounded (cell : Cell ℝ) (hdet : cell.det ≠ 0) (P : List (Vec ℝ))
    (hP : ∀ j, cell j ∈ P ∧ (fun k => -cell j k) ∈ P) : Bornology.IsBounded (cut P) := by
  rw [isBounded_iff_forall_norm_le]
  obtain ⟨d, hd⟩ : ∃ d : Cell ℝ, d = cell⁻¹ := ⟨_, rfl⟩
  have hinv : d * cell = 1 := by rw [hd]; exact Matrix.nonsing_inv_mul _ (Ne.isUnit hdet)
  refine ⟨∑ i, ∑ j, |d i j| * dot (cell j) (cell j), fun x hx => ?_⟩
  have hb (j : Fin 3) : |dot x (cell j)| ≤ dot (cell j) (cell j) := by
    have h1 := hx _ (hP j).1
    have h2 := hx _ (hP j).2
    have h3 : 0 ≤ dot (cell j) (cell j) := dot_self_nonneg3 _
    have e1 : dot x (fun k => -cell j k) = -dot x (cell j) := by unfold dot; ring
    have e2 : dot (fun k => -cell j k) (fun k => -cell j k) = dot (cell j) (cell j) := by
      unfold dot; ring
    rw [e1, e2] at h2
    rw [abs_le]
    constructor <;> linarith
  have hterm (i j : Fin 3) : 0 ≤ |d i j| * dot (cell j) (cell j) :=
    mul_nonneg (abs_nonneg _) (dot_self_nonneg3 _)
  have hxi (i : Fin 3) : x i = ∑ j, d i j * dot x (cell j) := by
    have := congrFun (congrArg (fun m : Cell ℝ => m *ᵥ x) hinv) i
    simp only [Matrix.one_mulVec, ← Matrix.mulVec_mulVec] at this
    rw [← this]
    simp only [Matrix.mulVec, dotProduct, Fin.sum_univ_three, dot]
    ring
  rw [pi_norm_le_iff_of_nonneg (Finset.sum_nonneg fun i _ => Finset.sum_nonneg fun j _ => hterm i j)]
  intro i
  rw [Real.norm_eq_abs, hxi i]
  calc |∑ j, d i j * dot x (cell j)| ≤ ∑ j, |d i j * dot x (cell j)| := Finset.abs_sum_le_sum_abs _ _
    _ ≤ ∑ j, |d i j| * dot (cell j) (cell j) := Finset.sum_le_sum fun j _ => by
      rw [abs_mul]
      exact mul_le_mul_of_nonneg_left (hb j) (abs_nonneg _)
    _ ≤ _ := Finset.single_le_sum
      (f := fun i => ∑ j, |d i j| * dot (cell j) (cell j))
      (fun i _ => Finset.sum_nonneg fun j _ => hterm i j) (Finset.mem_univ i)

/-- The selection of the edges, from the properties of the Voronoi diagram. -/
theorem voronoi_wireFrame (order : List (ℤ × ℤ) → List (ℤ × ℤ)) (horder : ∀ l, (order l).Perm l)
    (P : List (Vec ℝ)) (centre : ℕ) (hc : P[centre]? = some 0) (hnd : P.Nodup)
    (hne : ∃ p ∈ P, p ≠ 0) (hbd : Bornology.IsBounded (cut P)) (vor : VoronoiData (Vec ℝ))
    (hlen : vor.ridgeVertices.length = vor.ridgePoints.length)
    (hvor : VoronoiAround P centre vor.vertices (vor.ridgeVertices.zip vor.ridgePoints)) :
    ∃ vs edges, voronoiCell order centre vor = .ok (vs, edges) ∧ WireFrame (cut P) vs edges := by
  have h0 : (0 : Vec ℝ) ∈ P := List.mem_of_getElem? hc
  have hvalid : ∀ rv ∈ vor.ridgeVertices, ∀ v ∈ rv, v = -1 ∨ (0 ≤ v ∧ v < vor.vertices.length) := by
    intro rv hrv v hv
    obtain ⟨i, hi, rfl⟩ := List.mem_iff_getElem.1 hrv
    refine hvor.indices (vor.ridgeVertices[i], vor.ridgePoints[i]'(hlen ▸ hi)) ?_ v hv
    rw [List.mem_iff_getElem]
    exact ⟨i, by simp [hlen ▸ hi, hi], by simp⟩
  -- a facet with an area has a ridge
  have hridge : ∀ p ∈ P, p ≠ 0 → ¬ Collinear ℝ (facet P p) →
      ∃ r ∈ vor.ridgeVertices.zip vor.ridgePoints, -1 ∉ r.1 ∧
        (r.2.1 = centre ∨ r.2.2 = centre) ∧ 3 ≤ r.1.length ∧
        ∀ s, Edge (facet P p) s ↔ ∃ (j : ℕ) (a b : ℤ), r.1[j]? = some a ∧
          r.1[(j + 1) % r.1.length]? = some b ∧ SegmentOf vor.vertices a b s := by
    intro p hp hp0 hcol
    obtain ⟨k, hk⟩ := List.mem_iff_getElem?.1 hp
    have hkc : k ≠ centre := by
      rintro rfl
      rw [hc] at hk
      simp only [Option.some.injEq] at hk
      exact hp0 hk.symm
    have hint := nearest_inter P p h0 hp
    obtain ⟨r, hr, hrp, hm1⟩ := hvor.complete 0 p k hc hk hkc (by rw [hint]; exact hcol)
      (by rw [hint]; exact hbd.subset fun x hx => hx.1)
    have hcent : r.2.1 = centre ∨ r.2.2 = centre := by
      rcases hrp with e | e <;> rw [e] <;> simp
    obtain ⟨c, q, k', hcc, hq, -, hrp', h3, hs⟩ := hvor.sides r hr hm1 hcent
    rw [hc] at hcc
    simp only [Option.some.injEq] at hcc
    subst hcc
    have hkk : k' = k := by
      rcases hrp with e | e <;> rcases hrp' with e' | e' <;> rw [e] at e' <;>
        simp only [Prod.mk.injEq, Nat.cast_inj] at e' <;> omega
    subst hkk
    rw [hk] at hq
    simp only [Option.some.injEq] at hq
    subst hq
    rw [hint] at hs
    exact ⟨r, hr, hm1, hcent, h3, hs⟩
  -- and every ridge is a facet
  have hfacet : ∀ r ∈ vor.ridgeVertices.zip vor.ridgePoints, -1 ∉ r.1 →
      (r.2.1 = centre ∨ r.2.2 = centre) → ∃ p ∈ P, ∀ s, Edge (facet P p) s ↔
        ∃ (j : ℕ) (a b : ℤ), r.1[j]? = some a ∧ r.1[(j + 1) % r.1.length]? = some b ∧
          SegmentOf vor.vertices a b s := by
    intro r hr hm1 hcent
    obtain ⟨c, q, k, hcc, hq, -, -, -, hs⟩ := hvor.sides r hr hm1 hcent
    rw [hc] at hcc
    simp only [Option.some.injEq] at hcc
    subst hcc
    have hqP := List.mem_of_getElem? hq
    rw [nearest_inter P q h0 hqP] at hs
    exact ⟨q, hqP, hs⟩
  have hface : ∃ s, IsFaceSide (centre : ℤ) vor s := by
    obtain ⟨p, hp, hp0, hcol⟩ := exists_facet P hne
    obtain ⟨r, hr, hm1, hcent, h3, -⟩ := hridge p hp hp0 hcol
    refine ⟨s(r.1[0], r.1[1]), r.1, r.2, hr, fun v hv e => hm1 (e ▸ hv), hcent, 0, _, _,
      List.getElem?_eq_getElem _, ?_, rfl⟩
    rw [Nat.mod_eq_of_lt (by omega)]
    exact List.getElem?_eq_getElem _
  obtain ⟨⟨vs, edges⟩, hok⟩ := C21_answers order horder centre vor hface hvalid
  obtain ⟨ids, hids, hidl, hidv, hlt, hused, honce, hside⟩ :=
    C21_wellformed order horder centre vor vs edges hok
  refine ⟨vs, edges, hok, ?_, hused, ?_, ?_, honce⟩
  · rw [List.nodup_iff_getElem?_ne_getElem?]
    intro i j hij hj heq
    have hi' : i < ids.length := by omega
    have hj' : j < ids.length := by omega
    obtain ⟨n1, e1⟩ := hidv i _ (List.getElem?_eq_getElem hi')
    obtain ⟨n2, e2⟩ := hidv j _ (List.getElem?_eq_getElem hj')
    rw [e1, e2] at heq
    have hb : ids[j].toNat < vor.vertices.length := by
      by_contra hge
      rw [List.getElem?_eq_none (by omega : vor.vertices.length ≤ ids[j].toNat)] at e2
      rw [List.getElem?_eq_none_iff] at e2
      omega
    have ha : ids[i].toNat < vor.vertices.length := by
      by_contra hge
      rw [List.getElem?_eq_none (by omega : vor.vertices.length ≤ ids[i].toNat),
        List.getElem?_eq_getElem hb] at heq
      simp at heq
    rw [List.getElem?_eq_getElem ha, List.getElem?_eq_getElem hb, Option.some.injEq] at heq
    have := (List.Nodup.getElem_inj_iff hvor.distinct).1 heq
    have : ids[i] = ids[j] := by omega
    have := (List.Nodup.getElem_inj_iff hids).1 this
    omega
  · intro e he
    obtain ⟨l1, l2⟩ := hlt e he
    have i1 : e.1 < ids.length := by omega
    have i2 : e.2 < ids.length := by omega
    obtain ⟨n1, v1⟩ := hidv e.1 _ (List.getElem?_eq_getElem i1)
    obtain ⟨n2, v2⟩ := hidv e.2 _ (List.getElem?_eq_getElem i2)
    refine ⟨vs[e.1], vs[e.2], List.getElem?_eq_getElem l1, List.getElem?_eq_getElem l2, ?_⟩
    rw [List.getElem?_eq_getElem l1] at v1
    rw [List.getElem?_eq_getElem l2] at v2
    obtain ⟨rv, rp, hr, hm1, hcent, j, a, b, ha, hb, hs⟩ := (hside s(ids[e.1], ids[e.2])).2
      ⟨e, he, _, _, List.getElem?_eq_getElem i1, List.getElem?_eq_getElem i2, rfl⟩
    obtain ⟨p, hp, hpe⟩ := hfacet (rv, rp) hr (fun hin => hm1 _ hin rfl) hcent
    have hseg : SegmentOf vor.vertices a b (segment ℝ vs[e.1] vs[e.2]) := by
      rcases Sym2.eq_iff.1 hs with ⟨h1, h2⟩ | ⟨h1, h2⟩
      · rw [← h1, ← h2]
        exact ⟨_, _, n1, n2, v1.symm, v2.symm, rfl⟩
      · rw [← h1, ← h2]
        exact ⟨_, _, n2, n1, v2.symm, v1.symm, segment_symm ℝ _ _⟩
    obtain ⟨u, v, huv, hse, hext⟩ := (hpe _).2 ⟨j, a, b, ha, hb, hseg⟩
    exact ⟨u, v, huv, hse, (facet_extreme P p hp).trans hext⟩
  · intro s hs
    obtain ⟨p, hp, hp0, hcol, hps⟩ := (edge_iff P s).1 hs
    obtain ⟨r, hr, hm1, hcent, -, hrs⟩ := hridge p hp hp0 hcol
    obtain ⟨j, a, b, ha, hb, u, v, na, nb, hu, hv, hsuv⟩ := (hrs s).1 hps
    obtain ⟨e, he, a', b', ha', hb', hab⟩ := (hside s(a, b)).1
      ⟨r.1, r.2, hr, fun v hv e => hm1 (e ▸ hv), hcent, j, a, b, ha, hb, rfl⟩
    obtain ⟨-, v1⟩ := hidv _ _ ha'
    obtain ⟨-, v2⟩ := hidv _ _ hb'
    rcases Sym2.eq_iff.1 hab with ⟨h1, h2⟩ | ⟨h1, h2⟩
    · subst h1 h2
      exact ⟨e, he, u, v, v1.trans hu, v2.trans hv, hsuv⟩
    · subst h1 h2
      exact ⟨e, he, v, u, v1.trans hv, v2.trans hu, hsuv.trans (segment_symm ℝ _ _)⟩

/-- C67: `get_wigner_seitz_cell` returns exactly the edges of the Wigner-Seitz cell of the infinite
lattice, each once, for every cell for which the points with indices up to 10 are enough
(`C52_reduced`, `C52_criterion`). -/
theorem C67_wigner_seitz (lib : PlotLib) (horder : ∀ l, (lib.order l).Perm l) (cell : Cell ℝ)
    (hdet : cell.det ≠ 0)
    (henough : region (resultPoints (getLatticePoints cell (fun _ => 10))) = wignerSeitz cell)
    (hlib : ∀ P, getLatticePoints cell (fun _ => 10) = .flat P →
      VoronoiAnswer lib P (index000 10)) :
    ∃ vs edges, getWignerSeitzCell lib cell = .ok (vs, edges) ∧
      WireFrame (wignerSeitz cell) vs edges := by
  obtain ⟨P, hP, hcentre⟩ := C20_centre cell 10
  have hnd : P.Nodup := by
    obtain ⟨l, hl, h⟩ := C19_nodup cell (fun _ => 10) false (.inr hdet)
    rw [hP] at hl
    cases hl
    exact h
  have hmem (v : Vec ℝ) : v ∈ P ↔ ∃ m : Fin 3 → ℤ, (∀ i, |m i| ≤ ((10 : ℕ) : ℤ)) ∧
      v = specPoint cell false m := by
    have := mem_resultPoints cell 10 v
    rw [hP] at this
    exact this
  have haxis (s : ℤ) (hs : |s| ≤ 1) (j : Fin 3) : (fun k => (s : ℝ) * cell j k) ∈ P := by
    rw [← specPoint_axis, hmem]
    refine ⟨_, fun i => ?_, rfl⟩
    unfold axisIndex
    split
    · exact hs.trans (by norm_num)
    · norm_num
  have hplus (j : Fin 3) : cell j ∈ P ∧ (fun k => -cell j k) ∈ P := by
    have h1 := haxis 1 (by norm_num) j
    have h2 := haxis (-1) (by norm_num) j
    simp only [Int.cast_one, one_mul, Int.cast_neg, neg_mul] at h1 h2
    exact ⟨h1, h2⟩
  have hcell0 : cell 0 ≠ 0 := fun e => hdet (Matrix.det_eq_zero_of_row_eq_zero 0 (fun j => congrFun e j))
  obtain ⟨vor, hvor, hlen, haround⟩ := hlib P hP
  obtain ⟨vs, edges, hok, hw⟩ := voronoi_wireFrame lib.order horder P (index000 10) hcentre hnd
    ⟨_, (hplus 0).1, hcell0⟩ (cut_bounded cell hdet P hplus) vor hlen haround
  refine ⟨vs, edges, ?_, ?_⟩
  · unfold getWignerSeitzCell
    rw [show getLatticePoints cell (fun _ => 10) = .flat P from hP]
    simp only [bind, Except.bind, hvor]
    exact hok
  · rw [← henough, show getLatticePoints cell (fun _ => 10) = .flat P from hP]
    exact (region_eq_cut P).symm ▸ hw

/-- C67: in particular for a Niggli-reduced cell. -/
theorem C67_reduced (lib : PlotLib) (horder : ∀ l, (lib.order l).Perm l) (cell : Cell ℝ)
    (hdet : cell.det ≠ 0) (h : IsNiggli cell)
    (hlib : ∀ P, getLatticePoints cell (fun _ => 10) = .flat P →
      VoronoiAnswer lib P (index000 10)) :
    ∃ vs edges, getWignerSeitzCell lib cell = .ok (vs, edges) ∧
      WireFrame (wignerSeitz cell) vs edges :=
  C67_wigner_seitz lib horder cell hdet (C52_reduced cell h 10 (by norm_num)) hlib

/-- C67: `get_brillouin_zone` of a Niggli-reduced cell returns exactly the edges of the Brillouin
zone: of the points of reciprocal space that are nearer to the origin than to every other point of
the reciprocal lattice. -/
theorem C67_brillouin (lib : PlotLib) (horder : ∀ l, (lib.order l).Perm l) (cell : Cell ℝ)
    (hdet : cell.det ≠ 0) (h : IsNiggli cell)
    (hlib : ∀ r P, IsDual r cell → getLatticePoints r (fun _ => 10) = .flat P →
      VoronoiAnswer lib P (index000 10)) :
    ∃ r vs edges, IsDual r cell ∧ getBrillouinZone lib cell = .ok (vs, edges) ∧
      WireFrame (wignerSeitz r) vs edges := by
  obtain ⟨r, hr, hd, -⟩ := C02_dual_unique cell hdet
  have hrdet : r.det ≠ 0 := by
    obtain ⟨r', h1, h2, -⟩ := C03_involution cell hdet
    rw [hr] at h1
    cases h1
    exact h2
  obtain ⟨vs, edges, hok, hw⟩ := C67_wigner_seitz lib horder r hrdet (C52_brillouin cell r h hr)
    (fun P hP => hlib r P hd hP)
  refine ⟨r, vs, edges, hd, ?_, hw⟩
  unfold getBrillouinZone
  simp only [bind, Except.bind, hr]
  exact hok

/-- C67: a cell that is not too skew (the sum is 1 for an orthogonal cell) need not be reduced. -/
theorem C67_not_skew (lib : PlotLib) (horder : ∀ l, (lib.order l).Perm l) (cell dual : Cell ℝ)
    (h : Dual cell dual)
    (hskew : ∀ i, |dot (dual i) (dual 0)| * dot (cell 0) (cell 0) +
      |dot (dual i) (dual 1)| * dot (cell 1) (cell 1) +
      |dot (dual i) (dual 2)| * dot (cell 2) (cell 2) ≤ 10)
    (hlib : ∀ P, getLatticePoints cell (fun _ => 10) = .flat P →
      VoronoiAnswer lib P (index000 10)) :
    ∃ vs edges, getWignerSeitzCell lib cell = .ok (vs, edges) ∧
      WireFrame (wignerSeitz cell) vs edges := by
  refine C67_wigner_seitz lib horder cell ?_
    (C52_criterion cell dual h 10 (by norm_num) (by exact_mod_cast hskew)) hlib
  intro hdet
  have := congrArg Matrix.det (dual_mul h)
  rw [Matrix.det_mul, hdet, zero_mul, Matrix.det_one] at this
  exact zero_ne_one this

theorem forall₂_partners {α β : Type} {R : α → β → Prop} {as : List α} {bs : List β}
    (h : List.Forall₂ R as bs) : (∀ a ∈ as, ∃ b ∈ bs, R a b) ∧ ∀ b ∈ bs, ∃ a ∈ as, R a b := by
  induction h with
  | nil => simp
  | cons hr _ ih =>
    constructor
    · intro a ha
      rcases List.mem_cons.1 ha with rfl | ha
      · exact ⟨_, by simp, hr⟩
      · obtain ⟨b, hb, hab⟩ := ih.1 a ha
        exact ⟨b, by simp [hb], hab⟩
    · intro b hb
      rcases List.mem_cons.1 hb with rfl | hb
      · exact ⟨_, by simp, hr⟩
      · obtain ⟨a, ha, hab⟩ := ih.2 b hb
        exact ⟨a, by simp [ha], hab⟩

/-- C67: hence the picture of the Wigner-Seitz cell consists of the edges of the Wigner-Seitz cell,
shifted: every line drawn is one, and every one is drawn. -/
theorem C67_drawn (lib : PlotLib) (horder : ∀ l, (lib.order l).Perm l) (cell : Cell ℝ)
    (hdet : cell.det ≠ 0)
    (henough : region (resultPoints (getLatticePoints cell (fun _ => 10))) = wignerSeitz cell)
    (hlib : ∀ P, getLatticePoints cell (fun _ => 10) = .flat P →
      VoronoiAnswer lib P (index000 10)) (e : Engine) (s : Style) (shift : Vec ℝ) (name : String) :
    (e.call lib s (.wignerSeitz cell shift false name)).2 = .ok () ∧
    ∃ lines, (e.call lib s (.wignerSeitz cell shift false name)).1.traces = e.traces ++ lines ∧
      (∀ t ∈ lines, t.kind = .lines ∧ ∃ p q, t.points = [fun j => shift j + p j, fun j => shift j + q j] ∧
        Edge (wignerSeitz cell) (segment ℝ p q)) ∧
      (∀ d, Edge (wignerSeitz cell) d → ∃ t ∈ lines, ∃ p q,
        t.points = [fun j => shift j + p j, fun j => shift j + q j] ∧ d = segment ℝ p q) := by
  obtain ⟨vs, edges, hok, hw⟩ := C67_wigner_seitz lib horder cell hdet henough hlib
  obtain ⟨h1, vectors, lines, h2, h3, h4⟩ :=
    (C64_wigner_seitz lib horder e s cell shift false name).1 vs edges hok
  simp only [Bool.false_eq_true, if_false] at h3
  subst h3
  refine ⟨h1, lines, by simpa using h2, fun t ht => ?_, fun d hd => ?_⟩
  · obtain ⟨edge, hedge, hk, p, q, hp, hq, hpts⟩ := (forall₂_partners h4).1 t ht
    obtain ⟨u, v, hu, hv, huv⟩ := hw.sound edge hedge
    rw [hp] at hu
    rw [hq] at hv
    cases hu
    cases hv
    exact ⟨hk, p, q, hpts, huv⟩
  · obtain ⟨edge, hedge, u, v, hu, hv, hduv⟩ := hw.complete d hd
    obtain ⟨t, ht, -, p, q, hp, hq, hpts⟩ := (forall₂_partners h4).2 edge hedge
    rw [hu] at hp
    rw [hv] at hq
    cases hp
    cases hq
    exact ⟨t, ht, u, v, hpts, hduv⟩

/-- C67: and the picture of the Brillouin zone of a Niggli-reduced cell of its edges. -/
theorem C67_drawn_brillouin (lib : PlotLib) (horder : ∀ l, (lib.order l).Perm l) (cell : Cell ℝ)
    (hdet : cell.det ≠ 0) (h : IsNiggli cell)
    (hlib : ∀ r P, IsDual r cell → getLatticePoints r (fun _ => 10) = .flat P →
      VoronoiAnswer lib P (index000 10)) (e : Engine) (s : Style) (shift : Vec ℝ) (name : String) :
    ∃ r, IsDual r cell ∧
    (e.call lib s (.brillouinZone cell shift false name)).2 = .ok () ∧
    ∃ lines, (e.call lib s (.brillouinZone cell shift false name)).1.traces = e.traces ++ lines ∧
      (∀ t ∈ lines, t.kind = .lines ∧ ∃ p q, t.points = [fun j => shift j + p j, fun j => shift j + q j] ∧
        Edge (wignerSeitz r) (segment ℝ p q)) ∧
      (∀ d, Edge (wignerSeitz r) d → ∃ t ∈ lines, ∃ p q,
        t.points = [fun j => shift j + p j, fun j => shift j + q j] ∧ d = segment ℝ p q) := by
  obtain ⟨r, hr, hd, -⟩ := C02_dual_unique cell hdet
  have hrdet : r.det ≠ 0 := by
    obtain ⟨r', h1, h2, -⟩ := C03_involution cell hdet
    rw [hr] at h1
    cases h1
    exact h2
  have he : e.call lib s (.brillouinZone cell shift false name) =
      e.call lib s (.wignerSeitz r shift false name) := by
    simp only [Engine.call, Engine.plotBrillouinZone, hr]
  rw [he]
  exact ⟨r, hd, C67_drawn lib horder r hrdet (C52_brillouin cell r h hr)
    (fun P hP => hlib r P hd hP) e s shift name⟩

end Wulfric
