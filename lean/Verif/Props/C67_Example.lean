import Verif.Props.C67_ZoneEdges
import Mathlib.Tactic.IntervalCases

/-! # C67: the hypothesis about the Voronoi routine for the simple cubic lattice -/

namespace Wulfric
open Matrix _root_.Spec

/-- The point with the coordinate `a` along `i`, `b` along `j` and `c` along the third axis. -/
noncomputable def mk3 (i j : Fin 3) (a b c : ℝ) : Vec ℝ := fun l => if l = i then a else if l = j then b else c

/-- A square with the side 1 in the plane `x i = a`. -/
def square (i j k : Fin 3) (a : ℝ) : Set (Vec ℝ) :=
  {x | x i = a ∧ |x j| ≤ 1 / 2 ∧ |x k| ≤ 1 / 2}

theorem mk3_eta {i j k : Fin 3} (hij : i ≠ j) (hik : i ≠ k) (hjk : j ≠ k) (x : Vec ℝ) :
    x = mk3 i j (x i) (x j) (x k) := by
  funext l
  unfold mk3
  split
  · subst_vars; rfl
  · split
    · subst_vars; rfl
    · have : l = k := by
        revert i j k l; decide
      rw [this]

theorem mk3_i (i j : Fin 3) (a b c : ℝ) : mk3 i j a b c i = a := by simp [mk3]
theorem mk3_j {i j : Fin 3} (hij : i ≠ j) (a b c : ℝ) : mk3 i j a b c j = b := by
  simp [mk3, hij.symm]
theorem mk3_k {i j k : Fin 3} (hik : i ≠ k) (hjk : j ≠ k) (a b c : ℝ) : mk3 i j a b c k = c := by
  simp [mk3, hik.symm, hjk.symm]

theorem mk3_swap {i j k : Fin 3} (hij : i ≠ j) (hik : i ≠ k) (hjk : j ≠ k) (a b c : ℝ) :
    mk3 i j a b c = mk3 i k a c b := by
  rw [mk3_eta hij hik hjk (mk3 i k a c b), mk3_i, mk3_j hik, mk3_k hij hjk.symm]

/-- A side of the square is an edge of it. -/
theorem square_side {i j k : Fin 3} (hij : i ≠ j) (hik : i ≠ k) (hjk : j ≠ k) (a t : ℝ)
    (ht : t = 1 / 2 ∨ t = -(1 / 2)) :
    Edge (square i j k a) (segment ℝ (mk3 i j a t (-(1 / 2))) (mk3 i j a t (1 / 2))) := by
  have hchar (x : Vec ℝ) : x ∈ segment ℝ (mk3 i j a t (-(1 / 2))) (mk3 i j a t (1 / 2)) ↔
      x i = a ∧ x j = t ∧ |x k| ≤ 1 / 2 := by
    constructor
    · intro hx
      obtain ⟨r, h0, h1, rfl⟩ := mem_seg hx
      simp only [Pi.add_apply, Pi.smul_apply, Pi.sub_apply, smul_eq_mul, mk3_i, mk3_j hij,
        mk3_k hik hjk]
      refine ⟨by ring, by ring, ?_⟩
      rw [abs_le]
      constructor <;> linarith
    · rintro ⟨h1, h2, h3⟩
      rw [abs_le] at h3
      refine ⟨1 / 2 - x k, 1 / 2 + x k, by linarith, by linarith, by ring, ?_⟩
      rw [mk3_eta hij hik hjk ((1 / 2 - x k) • mk3 i j a t (-(1 / 2)) +
        (1 / 2 + x k) • mk3 i j a t (1 / 2)), mk3_eta hij hik hjk x]
      simp only [Pi.add_apply, Pi.smul_apply, smul_eq_mul, mk3_i, mk3_j hij, mk3_k hik hjk]
      rw [h1, h2]
      congr 1 <;> ring
  refine ⟨_, _, ?_, rfl, ?_⟩
  · intro e
    have := congrFun e k
    rw [mk3_k hik hjk, mk3_k hik hjk] at this
    norm_num at this
  · refine ⟨fun x hx => ?_, fun x hx y hy z hz hzo => ?_⟩
    · obtain ⟨h1, h2, h3⟩ := (hchar x).1 hx
      refine ⟨h1, ?_, h3⟩
      rw [h2, abs_le]
      rcases ht with rfl | rfl <;> constructor <;> norm_num
    · rw [hchar] at hz ⊢
      refine ⟨hx.1, ?_, hx.2.2⟩
      obtain ⟨p, q, hp, hq, hpq, rfl⟩ := hzo
      have h2 := hz.2.1
      simp only [Pi.add_apply, Pi.smul_apply, smul_eq_mul] at h2
      have hx2 := abs_le.1 hx.2.1
      have hy2 := abs_le.1 hy.2.1
      have hq' : q = 1 - p := by linarith
      subst hq'
      rcases ht with rfl | rfl
      · nlinarith
      · nlinarith

/-- An edge of the square on a side is the side. -/
theorem side_of_edge {i j k : Fin 3} (hij : i ≠ j) (hik : i ≠ k) (hjk : j ≠ k) (a t : ℝ)
    (ht : t = 1 / 2 ∨ t = -(1 / 2)) (u v : Vec ℝ) (huv : u ≠ v)
    (hext : IsExtreme ℝ (square i j k a) (segment ℝ u v)) (hu : u j = t) (hv : v j = t) :
    segment ℝ u v = segment ℝ (mk3 i j a t (-(1 / 2))) (mk3 i j a t (1 / 2)) := by
  obtain ⟨hui, -, huk⟩ := hext.subset (left_mem_segment ℝ u v)
  obtain ⟨hvi, -, hvk⟩ := hext.subset (right_mem_segment ℝ u v)
  have hA : mk3 i j a t (-(1 / 2)) ∈ square i j k a := by
    refine ⟨mk3_i .., ?_, ?_⟩
    · rw [mk3_j hij]; rcases ht with rfl | rfl <;> norm_num
    · rw [mk3_k hik hjk]; norm_num
  have hB : mk3 i j a t (1 / 2) ∈ square i j k a := by
    refine ⟨mk3_i .., ?_, ?_⟩
    · rw [mk3_j hij]; rcases ht with rfl | rfl <;> norm_num
    · rw [mk3_k hik hjk]; norm_num
  have hk : u k ≠ v k := by
    intro e
    apply huv
    rw [mk3_eta hij hik hjk u, mk3_eta hij hik hjk v, hui, hvi, hu, hv, e]
  rw [abs_le] at huk hvk
  obtain ⟨m, hm⟩ : ∃ m : ℝ, m = (u k + v k) / 2 := ⟨_, rfl⟩
  have hm1 : -(1 / 2) < m ∧ m < 1 / 2 := by
    rcases lt_or_gt_of_ne hk with h | h <;> constructor <;> linarith
  have hmem : mk3 i j a t m ∈ segment ℝ u v := by
    refine ⟨1 / 2, 1 / 2, by norm_num, by norm_num, by norm_num, ?_⟩
    rw [mk3_eta hij hik hjk ((1 / 2 : ℝ) • u + (1 / 2 : ℝ) • v)]
    simp only [Pi.add_apply, Pi.smul_apply, smul_eq_mul, hui, hvi, hu, hv]
    congr 1
    · ring
    · ring
    · rw [hm]; ring
  have hopen : mk3 i j a t m ∈ openSegment ℝ (mk3 i j a t (-(1 / 2))) (mk3 i j a t (1 / 2)) := by
    refine ⟨1 / 2 - m, 1 / 2 + m, by linarith, by linarith, by ring, ?_⟩
    rw [mk3_eta hij hik hjk ((1 / 2 - m) • mk3 i j a t (-(1 / 2)) +
        (1 / 2 + m) • mk3 i j a t (1 / 2))]
    simp only [Pi.add_apply, Pi.smul_apply, smul_eq_mul, mk3_i, mk3_j hij, mk3_k hik hjk]
    congr 1 <;> ring
  have h1 := hext.left_mem_of_mem_openSegment hA hB hmem hopen
  have h2 := hext.right_mem_of_mem_openSegment hA hB hmem hopen
  apply Set.Subset.antisymm
  · intro x hx
    have hsq := hext.subset hx
    obtain ⟨r, h0, h1, rfl⟩ := mem_seg hx
    have hj : (u + r • (v - u)) j = t := by
      simp only [Pi.add_apply, Pi.smul_apply, Pi.sub_apply, smul_eq_mul, hu, hv]; ring
    obtain ⟨c, hc⟩ : ∃ c, c = (u + r • (v - u)) k := ⟨_, rfl⟩
    have hck := abs_le.1 hsq.2.2
    rw [← hc] at hck
    refine ⟨1 / 2 - c, 1 / 2 + c, by linarith, by linarith, by ring, ?_⟩
    rw [mk3_eta hij hik hjk (u + r • (v - u)), hsq.1, hj, ← hc,
      mk3_eta hij hik hjk ((1 / 2 - c) • mk3 i j a t (-(1 / 2)) +
        (1 / 2 + c) • mk3 i j a t (1 / 2))]
    simp only [Pi.add_apply, Pi.smul_apply, smul_eq_mul, mk3_i, mk3_j hij, mk3_k hik hjk]
    congr 1 <;> ring
  · exact (convex_segment u v).segment_subset h1 h2

/-- A square has four edges. -/
theorem square_edges {i j k : Fin 3} (hij : i ≠ j) (hik : i ≠ k) (hjk : j ≠ k) (a : ℝ)
    (s : Set (Vec ℝ)) : Edge (square i j k a) s ↔
      s = segment ℝ (mk3 i j a (-(1 / 2)) (-(1 / 2))) (mk3 i j a (-(1 / 2)) (1 / 2)) ∨
      s = segment ℝ (mk3 i j a (-(1 / 2)) (1 / 2)) (mk3 i j a (1 / 2) (1 / 2)) ∨
      s = segment ℝ (mk3 i j a (1 / 2) (1 / 2)) (mk3 i j a (1 / 2) (-(1 / 2))) ∨
      s = segment ℝ (mk3 i j a (1 / 2) (-(1 / 2))) (mk3 i j a (-(1 / 2)) (-(1 / 2))) := by
  have hswap : square i j k a = square i k j a := by
    ext x; simp only [square, Set.mem_setOf_eq]; tauto
  constructor
  · rintro ⟨u, v, huv, rfl, hext⟩
    obtain ⟨hui, huj, huk⟩ := hext.subset (left_mem_segment ℝ u v)
    obtain ⟨hvi, hvj, hvk⟩ := hext.subset (right_mem_segment ℝ u v)
    rw [abs_le] at huj huk hvj hvk
    -- the middle is on a side
    by_cases hj1 : u j = 1 / 2 ∧ v j = 1 / 2
    · right; right; left
      rw [side_of_edge hij hik hjk a (1 / 2) (.inl rfl) u v huv hext hj1.1 hj1.2, segment_symm]
    by_cases hj2 : u j = -(1 / 2) ∧ v j = -(1 / 2)
    · left
      exact side_of_edge hij hik hjk a (-(1 / 2)) (.inr rfl) u v huv hext hj2.1 hj2.2
    by_cases hk1 : u k = 1 / 2 ∧ v k = 1 / 2
    · right; left
      rw [side_of_edge hik hij hjk.symm a (1 / 2) (.inl rfl) u v huv (hswap ▸ hext) hk1.1 hk1.2,
        mk3_swap hij hik hjk, mk3_swap hij hik hjk a (1 / 2)]
    by_cases hk2 : u k = -(1 / 2) ∧ v k = -(1 / 2)
    · right; right; right
      rw [side_of_edge hik hij hjk.symm a (-(1 / 2)) (.inr rfl) u v huv (hswap ▸ hext) hk2.1 hk2.2,
        mk3_swap hij hik hjk, mk3_swap hij hik hjk a (-(1 / 2)), segment_symm]
    exfalso
    obtain ⟨m, hm⟩ : ∃ m : Vec ℝ, m = (1 / 2 : ℝ) • u + (1 / 2 : ℝ) • v := ⟨_, rfl⟩
    have hmi : m i = a := by
      rw [hm]; simp only [Pi.add_apply, Pi.smul_apply, smul_eq_mul, hui, hvi]; ring
    have hmj : m j = (u j + v j) / 2 := by
      rw [hm]; simp only [Pi.add_apply, Pi.smul_apply, smul_eq_mul]; ring
    have hmk : m k = (u k + v k) / 2 := by
      rw [hm]; simp only [Pi.add_apply, Pi.smul_apply, smul_eq_mul]; ring
    have hmem : m ∈ segment ℝ u v := ⟨1 / 2, 1 / 2, by norm_num, by norm_num, by norm_num, hm.symm⟩
    have sj : -(1 / 2) < m j ∧ m j < 1 / 2 := by
      rw [hmj]
      constructor
      · by_contra h; exact hj2 ⟨by linarith, by linarith⟩
      · by_contra h; exact hj1 ⟨by linarith, by linarith⟩
    have sk : -(1 / 2) < m k ∧ m k < 1 / 2 := by
      rw [hmk]
      constructor
      · by_contra h; exact hk2 ⟨by linarith, by linarith⟩
      · by_contra h; exact hk1 ⟨by linarith, by linarith⟩
    have move (l : Fin 3) (hl : l ≠ i) (hlt : -(1 / 2) < m l ∧ m l < 1 / 2) :
        ∃ ε : ℝ, 0 < ε ∧ ∃ t : ℝ, (fun n => if n = l then ε else 0) = t • (v - u) := by
      obtain ⟨ε, he, h1, h2⟩ : ∃ ε : ℝ, 0 < ε ∧ m l + ε ≤ 1 / 2 ∧ -(1 / 2) ≤ m l - ε := by
        refine ⟨min (1 / 2 - m l) (m l + 1 / 2), lt_min (by linarith) (by linarith), ?_, ?_⟩
        · linarith [min_le_left (1 / 2 - m l) (m l + 1 / 2)]
        · linarith [min_le_right (1 / 2 - m l) (m l + 1 / 2)]
      refine ⟨ε, he, edge_direction hext hmem ?_ ?_⟩
      · refine ⟨by simp [hl.symm, hmi], ?_, ?_⟩ <;>
        · simp only [Pi.add_apply, abs_le]
          split
          · subst_vars; constructor <;> linarith
          · constructor <;> linarith
      · refine ⟨by simp [hl.symm, hmi], ?_, ?_⟩ <;>
        · simp only [Pi.add_apply, Pi.smul_apply, smul_eq_mul, abs_le]
          split
          · subst_vars; constructor <;> linarith
          · constructor <;> linarith
    obtain ⟨ε, he, t, ht⟩ := move j hij.symm sj
    obtain ⟨δ, hd, r, hr⟩ := move k hik.symm sk
    have a1 := congrFun ht j
    have a2 := congrFun ht k
    have b1 := congrFun hr j
    have b2 := congrFun hr k
    simp only [Pi.smul_apply, Pi.sub_apply, smul_eq_mul, if_true, if_neg hjk, if_neg hjk.symm] at a1 a2 b1 b2
    rcases mul_eq_zero.1 a2.symm with h | h
    · rw [h] at a1; linarith
    · rw [h] at b2; linarith
  · rintro (rfl | rfl | rfl | rfl)
    · exact square_side hij hik hjk a _ (.inr rfl)
    · rw [hswap, mk3_swap hij hik hjk, mk3_swap hij hik hjk a (1 / 2)]
      exact square_side hik hij hjk.symm a _ (.inl rfl)
    · rw [segment_symm]
      exact square_side hij hik hjk a _ (.inl rfl)
    · rw [segment_symm, hswap, mk3_swap hij hik hjk, mk3_swap hij hik hjk a (1 / 2)]
      exact square_side hik hij hjk.symm a _ (.inr rfl)

/-- The pairs of neighbours in a list of four. -/
theorem four_sides (R : ℤ → ℤ → Prop) (p q r t : ℤ) :
    (∃ (j : ℕ) (a b : ℤ), [p, q, r, t][j]? = some a ∧
      [p, q, r, t][(j + 1) % [p, q, r, t].length]? = some b ∧ R a b) ↔
      R p q ∨ R q r ∨ R r t ∨ R t p := by
  constructor
  · rintro ⟨j, a, b, ha, hb, h⟩
    have hj : j < 4 := by
      by_contra hge
      rw [List.getElem?_eq_none (by simpa using hge)] at ha
      simp at ha
    interval_cases j <;> simp at ha hb <;> subst ha <;> subst hb <;> simp [h]
  · rintro (h | h | h | h)
    · exact ⟨0, p, q, by simp, by simp, h⟩
    · exact ⟨1, q, r, by simp, by simp, h⟩
    · exact ⟨2, r, t, by simp, by simp, h⟩
    · exact ⟨3, t, p, by simp, by simp, h⟩

theorem segmentOf_iff {vertices : List (Vec ℝ)} {a b : ℤ} {u v : Vec ℝ} (ha : 0 ≤ a) (hb : 0 ≤ b)
    (hu : vertices[a.toNat]? = some u) (hv : vertices[b.toNat]? = some v) (s : Set (Vec ℝ)) :
    SegmentOf vertices a b s ↔ s = segment ℝ u v := by
  constructor
  · rintro ⟨u', v', -, -, hu', hv', h⟩
    rw [hu] at hu'
    rw [hv] at hv'
    cases hu'
    cases hv'
    exact h
  · exact fun h => ⟨u, v, ha, hb, hu, hv, h⟩

theorem ridge_square {i j k : Fin 3} (hij : i ≠ j) (hik : i ≠ k) (hjk : j ≠ k) (a : ℝ)
    (vertices : List (Vec ℝ)) (p q r t : ℤ) (hp : 0 ≤ p) (hq : 0 ≤ q) (hr : 0 ≤ r) (ht : 0 ≤ t)
    (vp : vertices[p.toNat]? = some (mk3 i j a (-(1 / 2)) (-(1 / 2))))
    (vq : vertices[q.toNat]? = some (mk3 i j a (-(1 / 2)) (1 / 2)))
    (vr : vertices[r.toNat]? = some (mk3 i j a (1 / 2) (1 / 2)))
    (vt : vertices[t.toNat]? = some (mk3 i j a (1 / 2) (-(1 / 2)))) (s : Set (Vec ℝ)) :
    Edge (square i j k a) s ↔ ∃ (n : ℕ) (a b : ℤ), [p, q, r, t][n]? = some a ∧
      [p, q, r, t][(n + 1) % [p, q, r, t].length]? = some b ∧ SegmentOf vertices a b s := by
  rw [square_edges hij hik hjk, four_sides (fun a b => SegmentOf vertices a b s),
    segmentOf_iff hp hq vp vq, segmentOf_iff hq hr vq vr, segmentOf_iff hr ht vr vt,
    segmentOf_iff ht hp vt vp]

/-! ### The diagram -/

/-- The corners of the cube. -/
noncomputable def cubeVertices : List (Vec ℝ) :=
  [![-(1 / 2), -(1 / 2), -(1 / 2)], ![-(1 / 2), -(1 / 2), 1 / 2], ![-(1 / 2), 1 / 2, -(1 / 2)],
    ![-(1 / 2), 1 / 2, 1 / 2], ![1 / 2, -(1 / 2), -(1 / 2)], ![1 / 2, -(1 / 2), 1 / 2],
    ![1 / 2, 1 / 2, -(1 / 2)], ![1 / 2, 1 / 2, 1 / 2]]

/-- The ridges around the origin of the simple cubic lattice, and one that is not bounded. -/
noncomputable def cubeVoronoi : VoronoiData (Vec ℝ) where
  ridgeVertices := [[0, 1, 3, 2], [4, 5, 7, 6], [0, 1, 5, 4], [2, 3, 7, 6], [0, 2, 6, 4],
    [1, 3, 7, 5], [-1, 0, 1]]
  ridgePoints := [(4630, 4189), (5071, 4630), (4630, 4609), (4651, 4630), (4630, 4629),
    (4631, 4630), (0, 1)]
  vertices := cubeVertices

theorem specPoint_one (m : Fin 3 → ℤ) : specPoint (1 : Cell ℝ) false m = fun i => (m i : ℝ) := by
  funext i
  match i with
  | 0 => simp [specPoint]
  | 1 => simp [specPoint]
  | 2 => simp [specPoint]

/-- The index of a lattice point in the list. -/
theorem cubic_index (P : List (Vec ℝ)) (hP : getLatticePoints (1 : Cell ℝ) (fun _ => 10) = .flat P)
    (m : Fin 3 → ℤ) (hm : ∀ i, |m i| ≤ 10) :
    P[(((m 0 + 10) * 21 + (m 1 + 10)) * 21 + (m 2 + 10)).toNat]? = some (fun i => (m i : ℝ)) := by
  obtain ⟨l, hl, -, h⟩ := C19_flat (1 : Cell ℝ) (fun _ => 10) false
  rw [show getLatticePoints (1 : Cell ℝ) (fun _ => 10) false true = .flat P from hP] at hl
  cases hl
  have h0 := abs_le.1 (hm 0)
  have h1 := abs_le.1 (hm 1)
  have h2 := abs_le.1 (hm 2)
  have := h (m 0 + 10).toNat (m 1 + 10).toNat (m 2 + 10).toNat (by omega) (by omega) (by omega)
  have e : (((m 0 + 10) * 21 + (m 1 + 10)) * 21 + (m 2 + 10)).toNat =
      ((m 0 + 10).toNat * (2 * 10 + 1) + (m 1 + 10).toNat) * (2 * 10 + 1) + (m 2 + 10).toNat := by
    omega
  rw [e, this]
  congr 1
  funext i
  have e0 : (((m 0 + 10).toNat : ℤ) - (10 : ℕ)) = m 0 := by omega
  have e1 : (((m 1 + 10).toNat : ℤ) - (10 : ℕ)) = m 1 := by omega
  have e2 : (((m 2 + 10).toNat : ℤ) - (10 : ℕ)) = m 2 := by omega
  rw [e0, e1, e2, specPoint_one]
  match i with
  | 0 => rfl
  | 1 => rfl
  | 2 => rfl

theorem cubic_points (P : List (Vec ℝ)) (hP : getLatticePoints (1 : Cell ℝ) (fun _ => 10) = .flat P)
    (v : Vec ℝ) : v ∈ P ↔ ∃ m : Fin 3 → ℤ, (∀ i, |m i| ≤ 10) ∧ v = fun i => (m i : ℝ) := by
  have := mem_resultPoints (1 : Cell ℝ) 10 v
  rw [hP] at this
  refine this.trans ?_
  refine exists_congr fun m => and_congr Iff.rfl ?_
  rw [specPoint_one]

/-- The lattice points cut out the cube. -/
theorem cubic_cut (P : List (Vec ℝ)) (hP : getLatticePoints (1 : Cell ℝ) (fun _ => 10) = .flat P) :
    cut P = {x | ∀ i, |x i| ≤ 1 / 2} := by
  ext x
  constructor
  · intro h i
    have key (s : ℤ) (hs : |s| ≤ 1) := h (fun l => ((axisIndex s i l : ℤ) : ℝ))
      ((cubic_points P hP _).2 ⟨axisIndex s i, fun l => by
        unfold axisIndex; split
        · exact hs.trans (by norm_num)
        · norm_num, rfl⟩)
    have h1 := key 1 (by norm_num)
    have h2 := key (-1) (by norm_num)
    rw [abs_le]
    fin_cases i <;> simp [dot, axisIndex] at h1 h2 ⊢ <;> constructor <;> linarith
  · intro h p hp
    obtain ⟨m, -, rfl⟩ := (cubic_points P hP p).1 hp
    have key (i : Fin 3) : 2 * (x i * m i) ≤ (m i : ℝ) * m i := by
      have h1 := abs_le.1 (h i)
      have h2 : |(m i : ℝ)| ≤ (m i : ℝ) * m i := by
        have : |m i| ≤ m i * m i := by
          rw [← abs_mul_abs_self (m i)]
          rcases eq_or_lt_of_le (abs_nonneg (m i)) with h0 | h0
          · rw [← h0]; norm_num
          · nlinarith
        exact_mod_cast this
      have h3 : x i * m i ≤ |x i| * |(m i : ℝ)| := by rw [← abs_mul]; exact le_abs_self _
      nlinarith [h i, abs_nonneg (m i : ℝ)]
    unfold dot
    simp only
    linarith [key 0, key 1, key 2]

/-- The facets: all coordinates of the lattice point that are not zero are those of the facet. -/
theorem cubic_facet (P : List (Vec ℝ))
    (hP : getLatticePoints (1 : Cell ℝ) (fun _ => 10) = .flat P) (m : Fin 3 → ℤ) (x : Vec ℝ)
    (hx : x ∈ facet P (fun i => (m i : ℝ))) (i : Fin 3) :
    |x i| ≤ 1 / 2 ∧ |m i| ≤ 1 ∧ (m i ≠ 0 → x i = m i / 2) := by
  obtain ⟨h1, h2⟩ := hx
  rw [cubic_cut P hP] at h1
  have habs (i : Fin 3) : |(m i : ℝ)| ≤ (m i : ℝ) * m i := by
    have : |m i| ≤ m i * m i := by
      rw [← abs_mul_abs_self (m i)]
      rcases eq_or_lt_of_le (abs_nonneg (m i)) with h0 | h0
      · rw [← h0]; norm_num
      · nlinarith
    exact_mod_cast this
  have key (i : Fin 3) : 2 * (x i * m i) ≤ |(m i : ℝ)| := by
    have h3 : x i * m i ≤ |x i| * |(m i : ℝ)| := by rw [← abs_mul]; exact le_abs_self _
    nlinarith [h1 i, abs_nonneg (m i : ℝ)]
  have heq (i : Fin 3) : 2 * (x i * m i) = (m i : ℝ) * m i ∧ |(m i : ℝ)| = (m i : ℝ) * m i := by
    unfold dot at h2
    simp only at h2
    have k0 := key 0
    have k1 := key 1
    have k2 := key 2
    have a0 := habs 0
    have a1 := habs 1
    have a2 := habs 2
    match i with
    | 0 => constructor <;> linarith
    | 1 => constructor <;> linarith
    | 2 => constructor <;> linarith
  refine ⟨h1 i, ?_, fun hne => ?_⟩
  · have : |m i| = m i * m i := by exact_mod_cast (heq i).2
    rw [← abs_mul_abs_self (m i)] at this
    have h0 := abs_nonneg (m i)
    nlinarith
  · have hne' : (m i : ℝ) ≠ 0 := by exact_mod_cast hne
    have := (heq i).1
    field_simp
    apply mul_right_cancel₀ hne'
    linarith

/-- Only the six nearest lattice points have facets with an area. -/
theorem cubic_axis (P : List (Vec ℝ)) (hP : getLatticePoints (1 : Cell ℝ) (fun _ => 10) = .flat P)
    (m : Fin 3 → ℤ) (hcol : ¬ Collinear ℝ (facet P (fun i => (m i : ℝ)))) (h0 : m ≠ 0) :
    ∃ i, ∃ s : ℤ, (s = 1 ∨ s = -1) ∧ m = axisIndex s i := by
  have hne : (facet P (fun i => (m i : ℝ))).Nonempty := by
    rw [Set.nonempty_iff_ne_empty]
    intro e
    rw [e] at hcol
    exact hcol (collinear_empty ℝ _)
  obtain ⟨x0, hx0⟩ := hne
  have hle (i : Fin 3) := (cubic_facet P hP m x0 hx0 i).2.1
  have two (i j k : Fin 3) (hij : i ≠ j) (hik : i ≠ k) (hjk : j ≠ k) (hi : m i ≠ 0) : m j = 0 := by
    by_contra hj
    apply hcol
    rw [collinear_iff_of_mem hx0]
    refine ⟨fun l => if l = k then 1 else 0, fun x hx => ⟨x k - x0 k, ?_⟩⟩
    funext l
    have e1 := (cubic_facet P hP m x hx i).2.2 hi
    have e2 := (cubic_facet P hP m x0 hx0 i).2.2 hi
    have e3 := (cubic_facet P hP m x hx j).2.2 hj
    have e4 := (cubic_facet P hP m x0 hx0 j).2.2 hj
    simp only [vadd_eq_add, Pi.add_apply, Pi.smul_apply, smul_eq_mul]
    by_cases hl : l = k
    · subst hl; simp
    · rw [if_neg hl]
      have : l = i ∨ l = j := by
        clear e1 e2 e3 e4 hx hx0 hi hj hle h0 hcol
        revert i j k l; decide
      rcases this with rfl | rfl
      · rw [e1, e2]; ring
      · rw [e3, e4]; ring
  have fin (i j k : Fin 3) (hij : i ≠ j) (hik : i ≠ k) (hjk : j ≠ k) (hi : m i ≠ 0) :
      ∃ i, ∃ s : ℤ, (s = 1 ∨ s = -1) ∧ m = axisIndex s i := by
    refine ⟨i, m i, ?_, ?_⟩
    · have := abs_le.1 (hle i)
      omega
    · funext l
      unfold axisIndex
      by_cases hl : l = i
      · subst hl; simp
      · rw [if_neg hl]
        have : l = j ∨ l = k := by
          clear hi hle hx0 h0 hcol two
          revert i j k l; decide
        rcases this with rfl | rfl
        · exact two i l k hij hik hjk hi
        · exact two i l j hik hij hjk.symm hi
  by_cases c0 : m 0 = 0
  · by_cases c1 : m 1 = 0
    · by_cases c2 : m 2 = 0
      · exact absurd (funext fun i => by match i with | 0 => exact c0 | 1 => exact c1 | 2 => exact c2) h0
      · exact fin 2 0 1 (by decide) (by decide) (by decide) c2
    · exact fin 1 0 2 (by decide) (by decide) (by decide) c1
  · exact fin 0 1 2 (by decide) (by decide) (by decide) c0

theorem cubic_square (P : List (Vec ℝ))
    (hP : getLatticePoints (1 : Cell ℝ) (fun _ => 10) = .flat P) (i j k : Fin 3) (hij : i ≠ j)
    (hik : i ≠ k) (hjk : j ≠ k) (s : ℤ) (hs : s = 1 ∨ s = -1) :
    facet P (fun l => ((axisIndex s i l : ℤ) : ℝ)) = square i j k ((s : ℝ) / 2) := by
  ext x
  constructor
  · intro hx
    refine ⟨?_, (cubic_facet P hP _ x hx j).1, (cubic_facet P hP _ x hx k).1⟩
    have := (cubic_facet P hP _ x hx i).2.2
    unfold axisIndex at this
    rw [if_pos rfl] at this
    exact this (by omega)
  · rintro ⟨h1, h2, h3⟩
    refine ⟨?_, ?_⟩
    · rw [cubic_cut P hP]
      intro l
      by_cases hl : l = i
      · rw [hl, h1]
        rcases hs with rfl | rfl <;> norm_num [abs_div]
      · have : l = j ∨ l = k := by
          clear h1 h2 h3
          revert i j k l; decide
        rcases this with rfl | rfl
        · exact h2
        · exact h3
    · have e (y : Vec ℝ) : dot y (fun l => ((axisIndex s i l : ℤ) : ℝ)) = y i * s := by
        match i with
        | 0 => simp [dot, axisIndex]
        | 1 => simp [dot, axisIndex]
        | 2 => simp [dot, axisIndex]
      rw [e, e, h1]
      have : (axisIndex s i i : ℤ) = s := by simp [axisIndex]
      rw [this]
      ring

/-- A ridge of the cube, with all that is asked of it. -/
theorem cubic_ridge (P : List (Vec ℝ)) (hP : getLatticePoints (1 : Cell ℝ) (fun _ => 10) = .flat P)
    (i j k : Fin 3) (hij : i ≠ j) (hik : i ≠ k) (hjk : j ≠ k) (s : ℤ) (hs : s = 1 ∨ s = -1) (a : ℝ)
    (ha : a = s / 2) (n : ℕ)
    (hn : n = (((axisIndex s i 0 + 10) * 21 + (axisIndex s i 1 + 10)) * 21 +
      (axisIndex s i 2 + 10)).toNat) (hne : n ≠ 4630) (rp : ℤ × ℤ)
    (hrp : rp = (((4630 : ℕ) : ℤ), (n : ℤ)) ∨ rp = ((n : ℤ), ((4630 : ℕ) : ℤ)))
    (p q r t : ℤ) (hp : 0 ≤ p) (hq : 0 ≤ q) (hr : 0 ≤ r) (ht : 0 ≤ t)
    (vp : cubeVertices[p.toNat]? = some (mk3 i j a (-(1 / 2)) (-(1 / 2))))
    (vq : cubeVertices[q.toNat]? = some (mk3 i j a (-(1 / 2)) (1 / 2)))
    (vr : cubeVertices[r.toNat]? = some (mk3 i j a (1 / 2) (1 / 2)))
    (vt : cubeVertices[t.toNat]? = some (mk3 i j a (1 / 2) (-(1 / 2)))) :
    ∃ c d, ∃ k : ℕ, P[4630]? = some c ∧ P[k]? = some d ∧ k ≠ 4630 ∧
      (rp = (((4630 : ℕ) : ℤ), (k : ℤ)) ∨ rp = ((k : ℤ), ((4630 : ℕ) : ℤ))) ∧ 3 ≤ [p, q, r, t].length ∧
      ∀ s, Edge (nearest P c ∩ nearest P d) s ↔
        ∃ (j : ℕ) (a b : ℤ), [p, q, r, t][j]? = some a ∧
          [p, q, r, t][(j + 1) % [p, q, r, t].length]? = some b ∧ SegmentOf cubeVertices a b s := by
  have hm (l : Fin 3) : |axisIndex s i l| ≤ 10 := by
    unfold axisIndex
    split
    · rcases hs with rfl | rfl <;> norm_num
    · norm_num
  have hi := cubic_index P hP (axisIndex s i) hm
  have h0 := cubic_index P hP 0 (by simp)
  simp only [Pi.zero_apply, Int.cast_zero] at h0
  rw [← hn] at hi
  refine ⟨0, _, n, h0, hi, hne, hrp, by simp, fun u => ?_⟩
  rw [nearest_inter P _ (List.mem_of_getElem? h0) (List.mem_of_getElem? hi),
    cubic_square P hP i j k hij hik hjk s hs, ← ha]
  exact ridge_square hij hik hjk a cubeVertices p q r t hp hq hr ht vp vq vr vt u

/-- The hypothesis about the Voronoi routine is met for the simple cubic lattice by the diagram with
the six squares. -/
theorem cubic_around (P : List (Vec ℝ))
    (hP : getLatticePoints (1 : Cell ℝ) (fun _ => 10) = .flat P) :
    VoronoiAround P (index000 10) cubeVoronoi.vertices
      (cubeVoronoi.ridgeVertices.zip cubeVoronoi.ridgePoints) := by
  have hc : index000 10 = 4630 := by decide
  rw [hc]
  have hv (l : List (Vec ℝ)) (v w : Vec ℝ) (h : v 0 = w 0 ∧ v 1 = w 1 ∧ v 2 = w 2) :
      some v = some w := by
    congr 1
    funext i
    match i with
    | 0 => exact h.1
    | 1 => exact h.2.1
    | 2 => exact h.2.2
  refine ⟨?_, ?_, ?_, ?_⟩
  · simp only [cubeVoronoi, cubeVertices]
    have key (a b c a' b' c' : ℝ) (h : a ≠ a' ∨ b ≠ b' ∨ c ≠ c') : (![a, b, c] : Vec ℝ) ≠ ![a', b', c'] := by
      intro e
      have e0 := congrFun e 0
      have e1 := congrFun e 1
      have e2 := congrFun e 2
      simp at e0 e1 e2
      tauto
    simp only [List.nodup_cons, List.mem_cons, List.not_mem_nil, or_false, not_or, not_false_eq_true,
      List.nodup_nil, and_true]
    refine ⟨⟨?_, ?_, ?_, ?_, ?_, ?_, ?_⟩, ⟨?_, ?_, ?_, ?_, ?_, ?_⟩, ⟨?_, ?_, ?_, ?_, ?_⟩, ⟨?_, ?_, ?_, ?_⟩,
      ⟨?_, ?_, ?_⟩, ⟨?_, ?_⟩, ?_⟩ <;> (apply key; norm_num)
  · simp [cubeVoronoi, cubeVertices]
  · intro r hr hm1 hcent
    simp only [cubeVoronoi, List.zip_cons_cons, List.zip_nil_right, List.mem_cons, List.not_mem_nil,
      or_false] at hr
    rcases hr with rfl | rfl | rfl | rfl | rfl | rfl | rfl
    · exact cubic_ridge P hP 0 1 2 (by decide) (by decide) (by decide) (-1) (.inr rfl) (-(1 / 2))
        (by norm_num) 4189 (by decide) (by decide) _ (by norm_num) 0 1 3 2 (by decide) (by decide)
        (by decide) (by decide) (hv [] _ _ (by simp [mk3])) (hv [] _ _ (by simp [mk3]))
        (hv [] _ _ (by simp [mk3])) (hv [] _ _ (by simp [mk3]))
    · exact cubic_ridge P hP 0 1 2 (by decide) (by decide) (by decide) 1 (.inl rfl) (1 / 2)
        (by norm_num) 5071 (by decide) (by decide) _ (by norm_num) 4 5 7 6 (by decide) (by decide)
        (by decide) (by decide) (hv [] _ _ (by simp [mk3])) (hv [] _ _ (by simp [mk3]))
        (hv [] _ _ (by simp [mk3])) (hv [] _ _ (by simp [mk3]))
    · exact cubic_ridge P hP 1 0 2 (by decide) (by decide) (by decide) (-1) (.inr rfl) (-(1 / 2))
        (by norm_num) 4609 (by decide) (by decide) _ (by norm_num) 0 1 5 4 (by decide) (by decide)
        (by decide) (by decide) (hv [] _ _ (by simp [mk3])) (hv [] _ _ (by simp [mk3]))
        (hv [] _ _ (by simp [mk3])) (hv [] _ _ (by simp [mk3]))
    · exact cubic_ridge P hP 1 0 2 (by decide) (by decide) (by decide) 1 (.inl rfl) (1 / 2)
        (by norm_num) 4651 (by decide) (by decide) _ (by norm_num) 2 3 7 6 (by decide) (by decide)
        (by decide) (by decide) (hv [] _ _ (by simp [mk3])) (hv [] _ _ (by simp [mk3]))
        (hv [] _ _ (by simp [mk3])) (hv [] _ _ (by simp [mk3]))
    · exact cubic_ridge P hP 2 0 1 (by decide) (by decide) (by decide) (-1) (.inr rfl) (-(1 / 2))
        (by norm_num) 4629 (by decide) (by decide) _ (by norm_num) 0 2 6 4 (by decide) (by decide)
        (by decide) (by decide) (hv [] _ _ (by simp [mk3])) (hv [] _ _ (by simp [mk3]))
        (hv [] _ _ (by simp [mk3])) (hv [] _ _ (by simp [mk3]))
    · exact cubic_ridge P hP 2 0 1 (by decide) (by decide) (by decide) 1 (.inl rfl) (1 / 2)
        (by norm_num) 4631 (by decide) (by decide) _ (by norm_num) 1 3 7 5 (by decide) (by decide)
        (by decide) (by decide) (hv [] _ _ (by simp [mk3])) (hv [] _ _ (by simp [mk3]))
        (hv [] _ _ (by simp [mk3])) (hv [] _ _ (by simp [mk3]))
    · simp at hm1
  · intro c q k hcc hk hne hcol _
    have h0 := cubic_index P hP 0 (by simp)
    simp only [Pi.zero_apply, Int.cast_zero] at h0
    have h0' : P[4630]? = some (fun _ => (0 : ℝ)) := h0
    rw [h0'] at hcc
    cases hcc
    have hq := List.mem_of_getElem? hk
    have hnd : P.Nodup := by
      obtain ⟨l, hl, h⟩ := C19_nodup (1 : Cell ℝ) (fun _ => 10) false (.inr (by simp))
      rw [hP] at hl
      cases hl
      exact h
    have index_eq {a b : ℕ} {x : Vec ℝ} (ha : P[a]? = some x) (hb : P[b]? = some x) : a = b := by
      obtain ⟨la, ea⟩ := List.getElem?_eq_some_iff.1 ha
      obtain ⟨lb, eb⟩ := List.getElem?_eq_some_iff.1 hb
      exact (List.Nodup.getElem_inj_iff hnd).1 (ea.trans eb.symm)
    obtain ⟨m, hm, rfl⟩ := (cubic_points P hP q).1 hq
    have hkm := index_eq hk (cubic_index P hP m hm)
    have hint := nearest_inter P _ (List.mem_of_getElem? h0') hq
    have hcol' : ¬ Collinear ℝ (facet P fun i => (m i : ℝ)) := by
      rw [← hint]; exact hcol
    obtain ⟨i, s, hs, rfl⟩ := cubic_axis P hP m hcol' (by
      rintro rfl
      exact hne (hkm.trans rfl))
    subst hkm
    simp only [cubeVoronoi, List.zip_cons_cons, List.zip_nil_right]
    rcases hs with rfl | rfl
    · match i with
      | 0 => exact ⟨([4, 5, 7, 6], (5071, 4630)), by simp, by decide, by decide⟩
      | 1 => exact ⟨([2, 3, 7, 6], (4651, 4630)), by simp, by decide, by decide⟩
      | 2 => exact ⟨([1, 3, 7, 5], (4631, 4630)), by simp, by decide, by decide⟩
    · match i with
      | 0 => exact ⟨([0, 1, 3, 2], (4630, 4189)), by simp, by decide, by decide⟩
      | 1 => exact ⟨([0, 1, 5, 4], (4630, 4609)), by simp, by decide, by decide⟩
      | 2 => exact ⟨([0, 2, 6, 4], (4630, 4629)), by simp, by decide, by decide⟩

/-- C67: for the simple cubic lattice with that diagram the result is the cube with its twelve
edges. -/
example : ∃ (lib : PlotLib) (vs : List (Vec ℝ)) (edges : List (ℕ × ℕ)),
    (∀ l, (lib.order l).Perm l) ∧
    (∀ P, getLatticePoints (1 : Cell ℝ) (fun _ => 10) = .flat P →
      VoronoiAnswer lib P (index000 10)) ∧
    getWignerSeitzCell lib 1 = .ok (vs, edges) ∧ WireFrame (wignerSeitz 1) vs edges := by
  have hn : IsNiggli (1 : Cell ℝ) := by
    constructor <;> simp [dot]
  have hlib : ∀ P, getLatticePoints (1 : Cell ℝ) (fun _ => 10) = .flat P →
      VoronoiAnswer ⟨id, id, fun _ => .ok cubeVoronoi⟩ P (index000 10) :=
    fun P hP => ⟨cubeVoronoi, rfl, rfl, cubic_around P hP⟩
  obtain ⟨vs, edges, h1, h2⟩ := C67_reduced ⟨id, id, fun _ => .ok cubeVoronoi⟩
    (fun l => List.Perm.refl _) 1 (by simp) hn hlib
  exact ⟨_, vs, edges, fun l => List.Perm.refl _, hlib, h1, h2⟩

/-- C67: and for the Brillouin zone of the cell `2π · 1`, whose reciprocal cell is the unit cell. -/
example : ∃ (lib : PlotLib) (r : Cell ℝ) (vs : List (Vec ℝ)) (edges : List (ℕ × ℕ)),
    IsDual r ((2 * Real.pi) • (1 : Cell ℝ)) ∧
    getBrillouinZone lib ((2 * Real.pi) • 1) = .ok (vs, edges) ∧
    WireFrame (wignerSeitz r) vs edges := by
  have hpi : 0 < 2 * Real.pi := by positivity
  have hn : IsNiggli ((2 * Real.pi) • (1 : Cell ℝ)) := by
    constructor <;> simp [dot]
    all_goals nlinarith
  have hdual : ∀ r : Cell ℝ, IsDual r ((2 * Real.pi) • (1 : Cell ℝ)) → r = 1 := by
    intro r hr
    ext i j
    have := hr i j
    match j with
    | 0 => simp [dot] at this; simp only [Matrix.one_apply]; split at this <;> simp_all
    | 1 => simp [dot] at this; simp only [Matrix.one_apply]; split at this <;> simp_all
    | 2 => simp [dot] at this; simp only [Matrix.one_apply]; split at this <;> simp_all
  obtain ⟨r, vs, edges, h1, h2, h3⟩ := C67_brillouin ⟨id, id, fun _ => .ok cubeVoronoi⟩
    (fun l => List.Perm.refl _) ((2 * Real.pi) • 1)
    (by rw [Matrix.det_smul, Matrix.det_one]; positivity) hn
    (fun r P hr hP => by
      rw [hdual r hr] at hP
      exact ⟨cubeVoronoi, rfl, rfl, cubic_around P hP⟩)
  exact ⟨_, r, vs, edges, h1, h2, h3⟩

/-- C52: the criterion holds for a cell that is not reduced. -/
example : Dual !![1, 0, 0; 1, 1, 0; 0, 0, 1] !![1, -1, 0; 0, 1, 0; 0, 0, 1] ∧
    (∀ i, |dot ((!![1, -1, 0; 0, 1, 0; 0, 0, 1] : Cell ℝ) i) (!![1, -1, 0; 0, 1, 0; 0, 0, 1] 0)| *
        dot ((!![1, 0, 0; 1, 1, 0; 0, 0, 1] : Cell ℝ) 0) (!![1, 0, 0; 1, 1, 0; 0, 0, 1] 0) +
      |dot ((!![1, -1, 0; 0, 1, 0; 0, 0, 1] : Cell ℝ) i) (!![1, -1, 0; 0, 1, 0; 0, 0, 1] 1)| *
        dot ((!![1, 0, 0; 1, 1, 0; 0, 0, 1] : Cell ℝ) 1) (!![1, 0, 0; 1, 1, 0; 0, 0, 1] 1) +
      |dot ((!![1, -1, 0; 0, 1, 0; 0, 0, 1] : Cell ℝ) i) (!![1, -1, 0; 0, 1, 0; 0, 0, 1] 2)| *
        dot ((!![1, 0, 0; 1, 1, 0; 0, 0, 1] : Cell ℝ) 2) (!![1, 0, 0; 1, 1, 0; 0, 0, 1] 2) ≤ 10) ∧
    ¬ IsNiggli (!![1, 0, 0; 1, 1, 0; 0, 0, 1] : Cell ℝ) := by
  refine ⟨?_, ?_, fun h => ?_⟩
  · intro i j
    match i, j with
    | 0, 0 | 0, 1 | 0, 2 | 1, 0 | 1, 1 | 1, 2 | 2, 0 | 2, 1 | 2, 2 => simp [dot]
  · intro i
    match i with
    | 0 | 1 | 2 => simp [dot] <;> norm_num
  · have := h.zeta_le
    simp [dot] at this

end Wulfric
