import Verif.Lemmas.Stability
import Verif.Props.C84_Places

/-! # The points are continuous functions of the reciprocal lattice -/

namespace Wulfric

open Matrix _root_.Spec Wulfric.Spec Filter Topology

/-- Solutions of linear equations are continuous. -/
theorem solution_close {M : Cell ℝ → Cell ℝ} {b : Cell ℝ → Vec ℝ} {r₀ : Cell ℝ}
    (hM : ContinuousAt M r₀) (hb : ContinuousAt b r₀) (hd : (M r₀).det ≠ 0) {δ : ℝ} (hδ : 0 < δ) :
    ∀ᶠ r in 𝓝 r₀, ∀ v v₀ : Vec ℝ, M r *ᵥ v = b r → M r₀ *ᵥ v₀ = b r₀ → ∀ i, |v i - v₀ i| < δ := by
  have hf : ContinuousAt (fun r => (M r)⁻¹ *ᵥ b r) r₀ := by
    have hinv : ContinuousAt (fun r => (M r)⁻¹) r₀ := (continuousAt_inv hd).comp hM
    rw [continuousAt_pi]
    intro i
    simp only [Matrix.mulVec, dotProduct, Fin.sum_univ_three]
    have e : ∀ j, ContinuousAt (fun r => (M r)⁻¹ i j) r₀ := fun j =>
      (continuous_entry i j).continuousAt.comp hinv
    have e' : ∀ j, ContinuousAt (fun r => b r j) r₀ := fun j => (continuousAt_pi.1 hb) j
    exact (((e 0).mul (e' 0)).add ((e 1).mul (e' 1))).add ((e 2).mul (e' 2))
  have hdet : ∀ᶠ r in 𝓝 r₀, (M r).det ≠ 0 := hM.eventually (eventually_det hd)
  have hclose : ∀ᶠ r in 𝓝 r₀, dist ((M r)⁻¹ *ᵥ b r) ((M r₀)⁻¹ *ᵥ b r₀) < δ :=
    hf.eventually (Metric.ball_mem_nhds _ hδ)
  filter_upwards [hdet, hclose] with r h1 h2 v v₀ e1 e2 i
  have s : ∀ {A : Cell ℝ} {u w : Vec ℝ}, A.det ≠ 0 → A *ᵥ u = w → u = A⁻¹ *ᵥ w := by
    intro A u w hA e
    rw [← e, Matrix.mulVec_mulVec, nonsing_inv_mul _ (isUnit_iff_ne_zero.2 hA), one_mulVec]
  rw [dist_pi_lt_iff hδ] at h2
  rw [s h1 e1, s hd e2, ← Real.dist_eq]
  exact h2 i

theorem continuous_gvec (n : ℤ × ℤ × ℤ) (j : Fin 3) : Continuous fun r : Cell ℝ => gvec r n j := by
  unfold gvec
  exact ((continuous_const.mul (continuous_entry 0 j)).add
    (continuous_const.mul (continuous_entry 1 j))).add (continuous_const.mul (continuous_entry 2 j))

theorem continuous_gdot (n : ℤ × ℤ × ℤ) :
    Continuous fun r : Cell ℝ => dot (gvec r n) (gvec r n) / 2 := by
  unfold dot
  exact ((((continuous_gvec n 0).mul (continuous_gvec n 0)).add
    ((continuous_gvec n 1).mul (continuous_gvec n 1))).add
    ((continuous_gvec n 2).mul (continuous_gvec n 2))).div_const 2

/-- The rows of a matrix are continuous. -/
theorem continuous_rows {f g h : Cell ℝ → Vec ℝ} (hf : ∀ j, Continuous fun r => f r j)
    (hg : ∀ j, Continuous fun r => g r j) (hh : ∀ j, Continuous fun r => h r j) :
    Continuous fun r : Cell ℝ => (Matrix.of ![f r, g r, h r] : Cell ℝ) := by
  apply continuous_matrix
  intro i j
  fin_cases i
  · exact hf j
  · exact hg j
  · exact hh j

theorem equidistant_dot {r : Cell ℝ} {n : ℤ × ℤ × ℤ} {v : Vec ℝ} (h : Equidistant r n v) :
    dot (gvec r n) v = dot (gvec r n) (gvec r n) / 2 := by
  unfold Equidistant at h
  simp only [dot, Pi.sub_apply] at *
  linear_combination (1 / 2 : ℝ) * h

theorem corner_close {r₀ : Cell ℝ} (hd : r₀.det ≠ 0) {g h k : ℤ × ℤ × ℤ}
    (hi : k.1 * (g.2.1 * h.2.2 - g.2.2 * h.2.1) + k.2.1 * (g.2.2 * h.1 - g.1 * h.2.2) +
        k.2.2 * (g.1 * h.2.1 - g.2.1 * h.1) ≠ 0) {δ : ℝ} (hδ : 0 < δ) :
    ∀ᶠ r in 𝓝 r₀, ∀ v v₀ : Vec ℝ,
      (Equidistant r g v ∧ Equidistant r h v ∧ Equidistant r k v) →
      (Equidistant r₀ g v₀ ∧ Equidistant r₀ h v₀ ∧ Equidistant r₀ k v₀) →
      ∀ i, |v i - v₀ i| < δ := by
  have hb : Continuous fun r : Cell ℝ => (![dot (gvec r g) (gvec r g) / 2,
      dot (gvec r h) (gvec r h) / 2, dot (gvec r k) (gvec r k) / 2] : Vec ℝ) := by
    refine continuous_pi fun i => ?_
    fin_cases i
    · exact continuous_gdot g
    · exact continuous_gdot h
    · exact continuous_gdot k
  have hs : ∀ (r : Cell ℝ) (v : Vec ℝ),
      (Equidistant r g v ∧ Equidistant r h v ∧ Equidistant r k v) →
      (Matrix.of ![gvec r g, gvec r h, gvec r k] : Cell ℝ) *ᵥ v =
        ![dot (gvec r g) (gvec r g) / 2,
          dot (gvec r h) (gvec r h) / 2, dot (gvec r k) (gvec r k) / 2] := by
    intro r v e
    have e1 := equidistant_dot e.1
    have e2 := equidistant_dot e.2.1
    have e3 := equidistant_dot e.2.2
    funext i
    fin_cases i
    · simpa [Matrix.mulVec, dotProduct, dot, Fin.sum_univ_three] using e1
    · simpa [Matrix.mulVec, dotProduct, dot, Fin.sum_univ_three] using e2
    · simpa [Matrix.mulVec, dotProduct, dot, Fin.sum_univ_three] using e3
  filter_upwards [solution_close (continuous_rows (continuous_gvec g) (continuous_gvec h)
    (continuous_gvec k)).continuousAt hb.continuousAt
    (by rw [rows_det]; exact mul_ne_zero (Int.cast_ne_zero.2 hi) hd) hδ] with r hr v v₀ e e₀
  exact hr v v₀ (hs r v e) (hs r₀ v₀ e₀)

/-- The vector product. -/
def vecProduct (u v : Vec ℝ) : Vec ℝ :=
  ![u 1 * v 2 - u 2 * v 1, u 2 * v 0 - u 0 * v 2, u 0 * v 1 - u 1 * v 0]

theorem edge_close {r₀ : Cell ℝ} (hd : r₀.det ≠ 0) {g h : ℤ × ℤ × ℤ}
    (hi : (g.2.1 * h.2.2 - g.2.2 * h.2.1, g.2.2 * h.1 - g.1 * h.2.2,
      g.1 * h.2.1 - g.2.1 * h.1) ≠ ((0, 0, 0) : ℤ × ℤ × ℤ)) {δ : ℝ} (hδ : 0 < δ) :
    ∀ᶠ r in 𝓝 r₀, ∀ v v₀ : Vec ℝ, (Where.edge g h).At r v → (Where.edge g h).At r₀ v₀ →
      ∀ i, |v i - v₀ i| < δ := by
  have hx : ∀ j, Continuous fun r : Cell ℝ => vecProduct (gvec r g) (gvec r h) j := by
    intro j
    have a := continuous_gvec g
    have b := continuous_gvec h
    unfold vecProduct
    fin_cases j
    · exact ((a 1).mul (b 2)).sub ((a 2).mul (b 1))
    · exact ((a 2).mul (b 0)).sub ((a 0).mul (b 2))
    · exact ((a 0).mul (b 1)).sub ((a 1).mul (b 0))
  have hb : Continuous fun r : Cell ℝ => (![dot (gvec r g) (gvec r g) / 2,
      dot (gvec r h) (gvec r h) / 2, 0] : Vec ℝ) := by
    refine continuous_pi fun i => ?_
    fin_cases i
    · exact continuous_gdot g
    · exact continuous_gdot h
    · exact continuous_const
  have hs : ∀ (r : Cell ℝ) (v : Vec ℝ), (Where.edge g h).At r v →
      (Matrix.of ![gvec r g, gvec r h, vecProduct (gvec r g) (gvec r h)] : Cell ℝ) *ᵥ v =
        ![dot (gvec r g) (gvec r g) / 2, dot (gvec r h) (gvec r h) / 2, 0] := by
    intro r v e
    have e1 := equidistant_dot e.1
    have e2 := equidistant_dot e.2.1
    have e3 := e.2.2
    rw [det_fin_three] at e3
    simp only [of_apply, cons_val] at e3
    funext i
    fin_cases i
    · simpa [Matrix.mulVec, dotProduct, dot, Fin.sum_univ_three] using e1
    · simpa [Matrix.mulVec, dotProduct, dot, Fin.sum_univ_three] using e2
    · simp only [Matrix.mulVec, dotProduct, Fin.sum_univ_three, of_apply, vecProduct]
      show (gvec r g 1 * gvec r h 2 - gvec r g 2 * gvec r h 1) * v 0 +
        (gvec r g 2 * gvec r h 0 - gvec r g 0 * gvec r h 2) * v 1 +
        (gvec r g 0 * gvec r h 1 - gvec r g 1 * gvec r h 0) * v 2 = 0
      linear_combination e3
  have hdet : (Matrix.of ![gvec r₀ g, gvec r₀ h, vecProduct (gvec r₀ g) (gvec r₀ h)] :
      Cell ℝ).det ≠ 0 := by
    obtain ⟨k, hk⟩ := third_vector hi
    have h1 : (Matrix.of ![gvec r₀ g, gvec r₀ h, gvec r₀ k]).det ≠ 0 := by
      rw [rows_det]
      exact mul_ne_zero (Int.cast_ne_zero.2 hk) hd
    have h2 : (Matrix.of ![gvec r₀ g, gvec r₀ h, vecProduct (gvec r₀ g) (gvec r₀ h)] :
        Cell ℝ).det = dot (vecProduct (gvec r₀ g) (gvec r₀ h))
          (vecProduct (gvec r₀ g) (gvec r₀ h)) := by
      rw [det_fin_three]
      simp only [of_apply, cons_val, dot, vecProduct]
      ring
    have h3 : (Matrix.of ![gvec r₀ g, gvec r₀ h, gvec r₀ k]).det =
        dot (vecProduct (gvec r₀ g) (gvec r₀ h)) (gvec r₀ k) := by
      rw [det_fin_three]
      simp only [of_apply, cons_val, dot, vecProduct]
      ring
    rw [h2]
    intro h0
    apply h1
    rw [h3]
    simp only [dot] at h0 ⊢
    have p0 := mul_self_nonneg (vecProduct (gvec r₀ g) (gvec r₀ h) 0)
    have p1 := mul_self_nonneg (vecProduct (gvec r₀ g) (gvec r₀ h) 1)
    have p2 := mul_self_nonneg (vecProduct (gvec r₀ g) (gvec r₀ h) 2)
    rw [mul_self_eq_zero.1 (by linarith : vecProduct (gvec r₀ g) (gvec r₀ h) 0 *
        vecProduct (gvec r₀ g) (gvec r₀ h) 0 = 0),
      mul_self_eq_zero.1 (by linarith : vecProduct (gvec r₀ g) (gvec r₀ h) 1 *
        vecProduct (gvec r₀ g) (gvec r₀ h) 1 = 0),
      mul_self_eq_zero.1 (by linarith : vecProduct (gvec r₀ g) (gvec r₀ h) 2 *
        vecProduct (gvec r₀ g) (gvec r₀ h) 2 = 0)]
    ring
  filter_upwards [solution_close (continuous_rows (continuous_gvec g) (continuous_gvec h)
    hx).continuousAt hb.continuousAt hdet hδ] with r hr v v₀ e e₀
  exact hr v v₀ (hs r v e) (hs r₀ v₀ e₀)

theorem place_close {r₀ : Cell ℝ} (hd : r₀.det ≠ 0) {u : Where} (hu : independent u = true) {δ : ℝ}
    (hδ : 0 < δ) : ∀ᶠ r in 𝓝 r₀, ∀ v v₀ : Vec ℝ, u.At r v → u.At r₀ v₀ →
      ∀ i, |v i - v₀ i| < δ := by
  cases u with
  | origin =>
    refine .of_forall fun r v v₀ e e₀ i => ?_
    rw [show v = 0 from e, show v₀ = 0 from e₀, sub_self, abs_zero]
    exact hδ
  | half g =>
    have hc : Continuous fun r : Cell ℝ => ((1 / 2 : ℝ) • gvec r g : Vec ℝ) :=
      continuous_pi fun j => (continuous_gvec g j).const_smul _
    have := hc.continuousAt (x := r₀)
    filter_upwards [this.eventually (Metric.ball_mem_nhds _ hδ)] with r hr v v₀ e e₀ i
    have hr : dist ((1 / 2 : ℝ) • gvec r g) ((1 / 2 : ℝ) • gvec r₀ g) < δ := hr
    rw [dist_pi_lt_iff hδ] at hr
    rw [show v = _ from e, show v₀ = _ from e₀, ← Real.dist_eq]
    exact hr i
  | edge g h => exact edge_close hd (by simpa only [independent, bne_iff_ne] using hu) hδ
  | vertex g h k => exact corner_close hd (by simpa only [independent, bne_iff_ne] using hu) hδ
  | between g h k g' h' k' =>
    simp only [independent, Bool.and_eq_true, bne_iff_ne] at hu
    filter_upwards [corner_close hd hu.1 hδ, corner_close hd hu.2 hδ] with r h1 h2 v v₀ e e₀ i
    obtain ⟨x, y, hx, hy, rfl⟩ := e
    obtain ⟨x', y', hx', hy', rfl⟩ := e₀
    have a := abs_lt.1 (h1 x x' hx hx' i)
    have b := abs_lt.1 (h2 y y' hy hy' i)
    simp only [Pi.smul_apply, Pi.add_apply, smul_eq_mul]
    rw [abs_lt]
    constructor <;> linarith

theorem list_close {r₀ : Cell ℝ} (hd : r₀.det ≠ 0) {s : String} {l : List (String × Option Where)}
    (hl : (s, l) ∈ hpkotPlaces ++ scPlaces) {δ : ℝ} (hδ : 0 < δ) :
    ∀ᶠ r in 𝓝 r₀, ∀ n u, (n, some u) ∈ l → ∀ v v₀ : Vec ℝ, u.At r v → u.At r₀ v₀ →
      ∀ i, |v i - v₀ i| < δ := by
  have hin := lists_independent _ hl
  dsimp only at hin
  clear hl
  induction l with
  | nil => exact .of_forall fun r n u h => by cases h
  | cons p l ih =>
    have ih := ih fun q hq => hin q (List.mem_cons_of_mem _ hq)
    obtain ⟨m, w⟩ := p
    cases w with
    | none =>
      filter_upwards [ih] with r hr n u h
      rcases List.mem_cons.1 h with h | h
      · cases h
      · exact hr n u h
    | some w =>
      filter_upwards [ih, place_close hd (hin _ List.mem_cons_self w rfl) hδ] with r hr hr' n u h
      rcases List.mem_cons.1 h with h | h
      · cases h
        exact hr'
      · exact hr n u h

/-! ## The names -/

theorem keys_of_table {cell rprim : Cell ℝ} {kpath path : String}
    {raw pts : PyDict String (Vec ℝ)} {inv t rel : Bool} (hg : GoodTable kpath raw)
    (h : (do
        let points ← allCoordinates cell rprim rel raw
        extendPath inv t kpath points) = Except.ok (path, pts)) :
    pts.keys = if inv = true ∨ t = true then raw.keys
      else raw.keys ++ (raw.keys.filter (· ≠ "GAMMA")).map (· ++ "_P") := by
  cases he : allCoordinates cell rprim rel raw with
  | error _ => simp [he, Bind.bind, Except.bind] at h
  | ok e =>
  simp only [he, Bind.bind, Except.bind] at h
  obtain ⟨k1, -⟩ := allCoordinates_ok he
  by_cases hi : inv = true ∨ t = true
  · rw [extend_same hi] at h
    cases h
    rw [if_pos hi, k1]
  · rw [if_neg hi]
    rw [not_or, Bool.not_eq_true, Bool.not_eq_true] at hi
    rw [hi.1, hi.2] at h
    obtain ⟨p, path', e', hp, he', -, e2, -⟩ := extend_spec hg k1
    rw [he'] at h
    cases h
    rw [e2, k1]

theorem path_of_table {cell cell' r r' : Cell ℝ} {kpath path path' : String}
    {raw raw' pts pts' : PyDict String (Vec ℝ)} {inv t rel : Bool}
    (h : (do
        let points ← allCoordinates cell r rel raw
        extendPath inv t kpath points) = Except.ok (path, pts))
    (h' : (do
        let points ← allCoordinates cell' r' rel raw'
        extendPath inv t kpath points) = Except.ok (path', pts')) : path' = path := by
  cases he : allCoordinates cell r rel raw with
  | error _ => simp [he, Bind.bind, Except.bind] at h
  | ok e =>
  cases he' : allCoordinates cell' r' rel raw' with
  | error _ => simp [he', Bind.bind, Except.bind] at h'
  | ok e' =>
  simp only [he, he', Bind.bind, Except.bind] at h h'
  unfold extendPath at h h'
  split_ifs at h h'
  · cases hq : getPathAsList kpath with
    | error _ => simp [hq, Bind.bind, Except.bind] at h
    | ok q =>
      simp only [hq, Bind.bind, Except.bind, pure, Except.pure] at h h'
      cases h
      cases h'
      rfl
  · cases h
    cases h'
    rfl

theorem place_names_plain : ∀ e ∈ hpkotPlaces ++ scPlaces, ∀ p ∈ e.2, ∀ q ∈ e.2, p.1 ≠ q.1 ++ "_P" := by
  decide +kernel

theorem entry_unique {l : List (String × Option Where)} (hn : (l.map Prod.fst).Nodup) {n : String}
    {p q : Option Where} (hp : (n, p) ∈ l) (hq : (n, q) ∈ l) : p = q := by
  induction l with
  | nil => cases hp
  | cons x l ih =>
    rw [List.map_cons, List.nodup_cons] at hn
    rcases List.mem_cons.1 hp with h1 | h1 <;> rcases List.mem_cons.1 hq with h2 | h2
    · rw [← h1] at h2
      exact (Prod.mk.inj h2).2.symm
    · exact absurd (List.mem_map_of_mem h2) (by rw [← h1] at hn; exact hn.1)
    · exact absurd (List.mem_map_of_mem h1) (by rw [← h2] at hn; exact hn.1)
    · exact ih hn.2 h1 h2

theorem append_P_inj {a b : String} (h : a ++ "_P" = b ++ "_P") : a = b := by
  have := congrArg String.toList h
  rw [String.toList_append, String.toList_append] at this
  exact String.toList_injective (List.append_cancel_right this)

theorem keys_of_placed {q : Cell ℝ} {raw : PyDict String (Vec ℝ)}
    {l : List (String × Option Where)} (hl : List.Forall₂ (PlacedAt q) raw l) :
    raw.keys = l.map Prod.fst := by
  induction hl with
  | nil => rfl
  | cons h0 _ ih => exact congrArg₂ List.cons h0.1 ih

theorem points_close {cell cell₀ r r₀ : Cell ℝ} {kpath path path₀ s : String}
    {raw raw₀ pts pts₀ : PyDict String (Vec ℝ)} {inv t : Bool} (hg : GoodTable kpath raw)
    (h : (do
        let points ← allCoordinates cell r false raw
        extendPath inv t kpath points) = Except.ok (path, pts))
    (hg₀ : GoodTable kpath raw₀)
    (h₀ : (do
        let points ← allCoordinates cell₀ r₀ false raw₀
        extendPath inv t kpath points) = Except.ok (path₀, pts₀))
    {l : List (String × Option Where)} (hs : (s, l) ∈ hpkotPlaces ++ scPlaces)
    (hl : List.Forall₂ (PlacedAt r) raw l) (hl₀ : List.Forall₂ (PlacedAt r₀) raw₀ l) {δ : ℝ}
    (hclose : ∀ n u, (n, some u) ∈ l → ∀ v v₀ : Vec ℝ, u.At r v → u.At r₀ v₀ →
      ∀ i, |v i - v₀ i| < δ) :
    path = path₀ ∧ pts.keys = pts₀.keys ∧ ∀ k v v₀, pts.get? k = some v → pts₀.get? k = some v₀ →
      (∀ n, (n, none) ∈ l → k ≠ n ∧ k ≠ n ++ "_P") → ∀ i, |v i - v₀ i| < δ := by
  have hnodup := C84_lists.2.2.1 _ hs
  have hplain := place_names_plain _ hs
  dsimp only at hnodup hplain
  refine ⟨path_of_table h₀ h, ?_, ?_⟩
  · rw [keys_of_table hg h, keys_of_table hg₀ h₀, keys_of_placed hl, keys_of_placed hl₀]
  · intro k v v₀ hv hv₀ hk i
    obtain ⟨x, hx, h1⟩ := points_of_table hg h k v hv
    obtain ⟨⟨n, p⟩, hy, e1, e2⟩ := forall₂_partner hl hx
    obtain ⟨x₀, hx₀, h1₀⟩ := points_of_table hg₀ h₀ k v₀ hv₀
    obtain ⟨⟨n₀, p₀⟩, hy₀, e1₀, e2₀⟩ := forall₂_partner hl₀ hx₀
    dsimp only at e1 e2 e1₀ e2₀
    rw [e1] at h1
    rw [e1₀] at h1₀
    rcases h1 with ⟨hk1, rfl⟩ | ⟨-, hk1, rfl⟩ <;> rcases h1₀ with ⟨hk2, rfl⟩ | ⟨-, hk2, rfl⟩
    · obtain rfl : n = n₀ := hk1.symm.trans hk2
      obtain rfl := entry_unique hnodup hy hy₀
      cases p with
      | none => exact absurd hk1 (hk n hy).1
      | some u => exact hclose n u hy _ _ (e2 u rfl) (e2₀ u rfl) i
    · exact absurd (hk1.symm.trans hk2) (hplain _ hy _ hy₀)
    · exact absurd (hk2.symm.trans hk1) (hplain _ hy₀ _ hy)
    · obtain rfl : n = n₀ := append_P_inj (hk1.symm.trans hk2)
      obtain rfl := entry_unique hnodup hy hy₀
      cases p with
      | none => exact absurd hk1 (hk n hy).2
      | some u =>
        have := hclose n u hy _ _ (e2 u rfl) (e2₀ u rfl) i
        rwa [Pi.neg_apply, Pi.neg_apply, neg_sub_neg, abs_sub_comm]

end Wulfric
