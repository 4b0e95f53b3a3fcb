import Verif.Lemmas.Polyhedron
import Mathlib.Analysis.Convex.KreinMilman
import Mathlib.Analysis.Convex.Topology
import Mathlib.Analysis.Normed.Module.FiniteDimension
import Mathlib.Topology.Algebra.Module.FiniteDimension

/-! # The region of finitely many points is the hull of the ends of its edges -/

namespace Wulfric
open _root_.Spec

theorem dot_continuous (p : Fin 3 → ℝ) : Continuous fun x : Fin 3 → ℝ => dot x p := by
  unfold dot
  fun_prop

theorem cut_closed (P : List (Fin 3 → ℝ)) : IsClosed (cut P) := by
  have : cut P = ⋂ p ∈ P, {x | 2 * dot x p ≤ dot p p} := by ext x; simp [cut]
  rw [this]
  exact isClosed_biInter fun p _ =>
    isClosed_le (continuous_const.mul (dot_continuous p)) continuous_const

theorem cut_convex (P : List (Fin 3 → ℝ)) : Convex ℝ (cut P) := by
  intro x hx y hy a b ha hb hab p hp
  have h1 := mul_le_mul_of_nonneg_left (hx p hp) ha
  have h2 := mul_le_mul_of_nonneg_left (hy p hp) hb
  have h3 : a * dot p p + b * dot p p = dot p p := by rw [← add_mul, hab, one_mul]
  rw [dot_lin]
  linarith

theorem cut_compact {P : List (Fin 3 → ℝ)} (hbd : Bornology.IsBounded (cut P)) :
    IsCompact (cut P) := Metric.isCompact_of_isClosed_isBounded (cut_closed P) hbd

/-- At a corner the active planes meet in one point. -/
theorem corner_active {P : List (Fin 3 → ℝ)} {x : Fin 3 → ℝ} (hx : x ∈ (cut P).extremePoints ℝ)
    (d : Fin 3 → ℝ) (hd : ∀ p ∈ P, 2 * dot x p = dot p p → dot d p = 0) : d = 0 := by
  obtain ⟨δ, hδ, h1⟩ := small_step P x d hx.1 fun p hp ha => (hd p hp ha).le
  obtain ⟨δ', hδ', h2⟩ := small_step P x (-d) hx.1 fun p hp ha => by
    have : dot (-d) p = -dot d p := by simp [dot]; ring
    rw [this, hd p hp ha, neg_zero]
  obtain ⟨ε, hε, hε1, hε2⟩ : ∃ ε, 0 < ε ∧ ε ≤ δ ∧ ε ≤ δ' :=
    ⟨min δ δ', lt_min hδ hδ', min_le_left _ _, min_le_right _ _⟩
  have := hx.2 (h1 ε hε.le hε1) (h2 ε hε.le hε2)
    ⟨1 / 2, 1 / 2, by norm_num, by norm_num, by norm_num, by module⟩
  have h3 : ε • d = 0 := by simpa using this
  exact (smul_eq_zero.1 h3).resolve_left hε.ne'

/-- Sum of the scalar products with the points of a list. -/
noncomputable def total (A : List (Fin 3 → ℝ)) (d : Fin 3 → ℝ) : ℝ := (A.map fun p => dot d p).sum

theorem total_lin (A : List (Fin 3 → ℝ)) (a b : ℝ) (x y : Fin 3 → ℝ) :
    total A (a • x + b • y) = a * total A x + b * total A y := by
  unfold total
  induction A with
  | nil => simp
  | cons p A ih =>
    rw [List.map_cons, List.sum_cons, ih]
    simp only [List.map_cons, List.sum_cons, dot_lin]
    ring

theorem total_continuous (A : List (Fin 3 → ℝ)) : Continuous (total A) := by
  unfold total
  induction A with
  | nil => simpa using continuous_const
  | cons p A ih => exact (dot_continuous p).add ih

theorem total_le {A : List (Fin 3 → ℝ)} {d : Fin 3 → ℝ} (h : ∀ p ∈ A, dot d p ≤ 0) :
    total A d ≤ 0 ∧ ∀ p ∈ A, total A d ≤ dot d p := by
  unfold total
  induction A with
  | nil => simp
  | cons q A ih =>
    obtain ⟨h1, h2⟩ := ih fun p hp => h p (by simp [hp])
    have hq := h q (by simp)
    simp only [List.map_cons, List.sum_cons]
    refine ⟨by linarith, fun p hp => ?_⟩
    rcases List.mem_cons.1 hp with rfl | hp
    · linarith
    · linarith [h2 p hp]

/-- The directions into a pointed cone, normalised. -/
def slice (A : List (Fin 3 → ℝ)) : Set (Fin 3 → ℝ) :=
  {d | (∀ p ∈ A, dot d p ≤ 0) ∧ total A d = -1}

theorem slice_compact (A : List (Fin 3 → ℝ)) (hA : ∀ d, (∀ p ∈ A, dot d p = 0) → d = 0) :
    IsCompact (slice A) := by
  have hcl : IsClosed (slice A) := by
    have : slice A = (⋂ p ∈ A, {x | dot x p ≤ 0}) ∩ {x | total A x = -1} := by
      ext x; simp [slice]
    rw [this]
    exact (isClosed_biInter fun p _ => isClosed_le (dot_continuous p) continuous_const).inter
      (isClosed_eq (total_continuous A) continuous_const)
  refine Metric.isCompact_of_isClosed_isBounded hcl ?_
  let f : (Fin 3 → ℝ) →ₗ[ℝ] (Fin A.length → ℝ) :=
    { toFun := fun d i => dot d (A.get i)
      map_add' := fun x y => by
        ext i
        have := dot_lin 1 1 x y (A.get i)
        simpa using this
      map_smul' := fun t x => by
        ext i
        simp only [dot_smul_left, RingHom.id_apply, Pi.smul_apply, smul_eq_mul] }
  have hker : LinearMap.ker f = ⊥ := by
    rw [LinearMap.ker_eq_bot']
    intro d hd
    refine hA d fun p hp => ?_
    obtain ⟨i, hi⟩ := List.get_of_mem hp
    have := congrFun hd i
    rw [← hi]
    exact this
  obtain ⟨K, -, hK⟩ := f.exists_antilipschitzWith hker
  have hb : Bornology.IsBounded (f '' slice A) := by
    rw [isBounded_iff_forall_norm_le]
    refine ⟨1, ?_⟩
    rintro _ ⟨d, ⟨h1, h2⟩, rfl⟩
    rw [pi_norm_le_iff_of_nonneg zero_le_one]
    intro i
    have h3 := h1 (A.get i) (List.get_mem _ _)
    have h4 := (total_le h1).2 (A.get i) (List.get_mem _ _)
    change ‖dot d (A.get i)‖ ≤ 1
    rw [Real.norm_eq_abs, abs_le]
    constructor <;> linarith
  exact (hK.isBounded_preimage hb).subset (Set.subset_preimage_image _ _)

/-- Every corner is the end of an edge. -/
theorem corner_edge {P : List (Fin 3 → ℝ)} (hbd : Bornology.IsBounded (cut P)) {x : Fin 3 → ℝ}
    (hx : x ∈ (cut P).extremePoints ℝ) : ∃ y, x ≠ y ∧ IsExtreme ℝ (cut P) (segment ℝ x y) := by
  classical
  obtain ⟨A, hAdef⟩ : ∃ A, A = P.filter fun p => decide (2 * dot x p = dot p p) := ⟨_, rfl⟩
  have hA (p) : p ∈ A ↔ p ∈ P ∧ 2 * dot x p = dot p p := by rw [hAdef]; simp
  have hind (d : Fin 3 → ℝ) (h : ∀ p ∈ A, dot d p = 0) : d = 0 :=
    corner_active hx d fun p hp ha => h p ((hA p).2 ⟨hp, ha⟩)
  have hzero {d : Fin 3 → ℝ} (h : ∀ p ∈ A, dot d p ≤ 0) (h0 : total A d = 0) : d = 0 :=
    hind d fun p hp => le_antisymm (h p hp) (h0 ▸ (total_le h).2 p hp)
  -- the direction to the origin
  have hneg (p) (hp : p ∈ A) : dot (-x) p ≤ 0 := by
    have h1 := ((hA p).1 hp).2
    have h2 : 0 ≤ dot p p := by
      unfold dot
      nlinarith [mul_self_nonneg (p 0), mul_self_nonneg (p 1), mul_self_nonneg (p 2)]
    have h3 : dot (-x) p = -dot x p := by simp [dot]; ring
    linarith
  have hx0 : x ≠ 0 := by
    intro e
    have h1 : ∀ p ∈ A, p = 0 := by
      intro p hp
      have h2 := ((hA p).1 hp).2
      by_contra hne
      have h3 := dot_pos hne
      have h4 : dot x p = 0 := by rw [e]; simp [dot]
      linarith
    have h2 := hind (fun _ => 1) fun p hp => by rw [h1 p hp]; simp [dot]
    have := congrFun h2 0
    simp at this
  have hne : (slice A).Nonempty := by
    have ht : total A (-x) < 0 := by
      refine lt_of_le_of_ne (total_le hneg).1 fun e => hx0 ?_
      have := hzero hneg e
      simpa using this
    refine ⟨(-(total A (-x)))⁻¹ • (-x), fun p hp => ?_, ?_⟩
    · rw [dot_smul_left]
      exact mul_nonpos_of_nonneg_of_nonpos (inv_nonneg.2 (by linarith)) (hneg p hp)
    · have := total_lin A (-(total A (-x)))⁻¹ 0 (-x) 0
      rw [zero_smul, add_zero, zero_mul, add_zero] at this
      rw [this, ← neg_inv, neg_mul, inv_mul_cancel₀ ht.ne]
  obtain ⟨d, hd⟩ := (slice_compact A hind).extremePoints_nonempty hne
  have hd1 := hd.1.1
  have hd2 := hd.1.2
  have hd0 : d ≠ 0 := by
    rintro rfl
    have := total_lin A 0 0 0 0
    simp at this
    linarith
  -- how far one can go
  obtain ⟨δ, hδ, hstep⟩ := small_step P x d hx.1 fun p hp ha => hd1 p ((hA p).2 ⟨hp, ha⟩)
  obtain ⟨T, hT⟩ : ∃ T : Set ℝ, T = {t | 0 ≤ t ∧ x + t • d ∈ cut P} := ⟨_, rfl⟩
  have hTne : T.Nonempty := ⟨0, by rw [hT]; exact ⟨le_rfl, by simpa using hx.1⟩⟩
  have hcont : Continuous fun t : ℝ => x + t • d := by fun_prop
  have hTcl : IsClosed T := by
    have : T = Set.Ici 0 ∩ (fun t : ℝ => x + t • d) ⁻¹' cut P := by rw [hT]; rfl
    rw [this]
    exact isClosed_Ici.inter ((cut_closed P).preimage hcont)
  have hTbd : Bornology.IsBounded T := by
    obtain ⟨C, hC⟩ := isBounded_iff_forall_norm_le.1 hbd
    rw [isBounded_iff_forall_norm_le]
    have hdn : 0 < ‖d‖ := norm_pos_iff.2 hd0
    refine ⟨(C + ‖x‖) / ‖d‖, fun t ht => ?_⟩
    rw [hT] at ht
    rw [le_div_iff₀ hdn, ← norm_smul]
    calc ‖t • d‖ = ‖(x + t • d) - x‖ := by congr 1; module
      _ ≤ ‖x + t • d‖ + ‖x‖ := norm_sub_le _ _
      _ ≤ _ := by linarith [hC _ ht.2]
  obtain ⟨τ, hτ, hmax⟩ := (Metric.isCompact_of_isClosed_isBounded hTcl hTbd).exists_isMaxOn hTne
    (f := fun t => t) continuous_id.continuousOn
  have hle {t : ℝ} (h0 : 0 ≤ t) (h1 : x + t • d ∈ cut P) : t ≤ τ :=
    hmax (show t ∈ T by rw [hT]; exact ⟨h0, h1⟩)
  have hτpos : 0 < τ := lt_of_lt_of_le hδ (hle hδ.le (hstep δ hδ.le le_rfl))
  rw [hT] at hτ
  have hin {t : ℝ} (h0 : 0 ≤ t) (h1 : x + t • d ∈ cut P) : x + t • d ∈ segment ℝ x (x + τ • d) := by
    have := hle h0 h1
    refine ⟨1 - t / τ, t / τ, by rw [sub_nonneg, div_le_one hτpos]; exact this, by positivity,
      by ring, ?_⟩
    rw [smul_add, smul_smul, div_mul_cancel₀ _ hτpos.ne', ← add_assoc, ← add_smul]
    simp
  refine ⟨x + τ • d, ?_, (cut_convex P).segment_subset hx.1 hτ.2, ?_⟩
  · intro e
    have : τ • d = 0 := by simpa using e
    exact (smul_eq_zero.1 this).elim hτpos.ne' hd0
  intro y hy z hz w hw hwo
  obtain ⟨a, b, ha, hb, hab, rfl⟩ := hwo
  obtain ⟨s', hs0, hs1, hs⟩ := mem_seg hw
  obtain ⟨s, hsdef⟩ : ∃ s, s = s' * τ := ⟨_, rfl⟩
  have hs : a • y + b • z = x + s • d := by rw [hs, hsdef]; module
  have hs0 : 0 ≤ s := hsdef ▸ mul_nonneg hs0 hτpos.le
  have hcone {y : Fin 3 → ℝ} (hy : y ∈ cut P) (p) (hp : p ∈ A) : dot (y - x) p ≤ 0 := by
    obtain ⟨h1, h2⟩ := (hA p).1 hp
    have h3 := hy p h1
    have h4 : dot (y - x) p = dot y p - dot x p := by simp [dot]; ring
    linarith
  have hsum : a • (y - x) + b • (z - x) = s • d := by
    have : s • d = (a • y + b • z) - (a + b) • x := by rw [hs, hab, one_smul]; module
    rw [this]; module
  have htot : a * total A (y - x) + b * total A (z - x) = -s := by
    rw [← total_lin, hsum]
    have := total_lin A s 0 d 0
    rw [zero_smul, add_zero, zero_mul, add_zero] at this
    rw [this, hd2]; ring
  have hy' := (total_le (hcone hy)).1
  have hz' := (total_le (hcone hz)).1
  rcases eq_or_lt_of_le hy' with e | hα
  · have := hzero (hcone hy) e
    rw [sub_eq_zero.1 this]
    exact left_mem_segment ℝ _ _
  obtain ⟨α, hαdef⟩ : ∃ α, α = -total A (y - x) := ⟨_, rfl⟩
  have hα : 0 < α := by linarith
  rcases eq_or_lt_of_le hz' with e | hβ
  · have h0 := hzero (hcone hz) e
    rw [h0, smul_zero, add_zero] at hsum
    have hyx : y = x + (s / a) • d := by
      have : y - x = (s / a) • d := by
        rw [div_eq_inv_mul, mul_smul, ← hsum, smul_smul, inv_mul_cancel₀ ha.ne', one_smul]
      rw [← this]; module
    rw [hyx] at hy ⊢
    exact hin (div_nonneg hs0 ha.le) hy
  · obtain ⟨β, hβdef⟩ : ∃ β, β = -total A (z - x) := ⟨_, rfl⟩
    have hβ : 0 < β := by linarith
    have hsαβ : a * α + b * β = s := by rw [hαdef, hβdef]; linarith
    have hspos : 0 < s := by rw [← hsαβ]; positivity
    have hmem {v : Fin 3 → ℝ} {γ : ℝ} (hv : v ∈ cut P) (hγ : γ = -total A (v - x)) (h0 : 0 < γ) :
        γ⁻¹ • (v - x) ∈ slice A := by
      refine ⟨fun p hp => ?_, ?_⟩
      · rw [dot_smul_left]
        exact mul_nonpos_of_nonneg_of_nonpos (inv_nonneg.2 h0.le) (hcone hv p hp)
      · have := total_lin A γ⁻¹ 0 (v - x) 0
        rw [zero_smul, add_zero, zero_mul, add_zero] at this
        rw [this, show total A (v - x) = -γ by linarith, mul_neg, inv_mul_cancel₀ h0.ne']
    have hopen : d ∈ openSegment ℝ (α⁻¹ • (y - x)) (β⁻¹ • (z - x)) := by
      refine ⟨a * α / s, b * β / s, by positivity, by positivity, ?_, ?_⟩
      · rw [← add_div, hsαβ, div_self hspos.ne']
      · rw [smul_smul, smul_smul]
        have e1 : a * α / s * α⁻¹ = s⁻¹ * a := by field_simp
        have e2 : b * β / s * β⁻¹ = s⁻¹ * b := by field_simp
        rw [e1, e2, mul_smul, mul_smul, ← smul_add, hsum, smul_smul, inv_mul_cancel₀ hspos.ne',
          one_smul]
    have hyd := hd.2 (hmem hy hαdef hα) (hmem hz hβdef hβ) hopen
    have hyx : y = x + α • d := by
      rw [← hyd, smul_smul, mul_inv_cancel₀ hα.ne', one_smul]; module
    rw [hyx] at hy ⊢
    exact hin hα.le hy

/-- The ends of an edge are corners. -/
theorem edge_end_corner {W : Set (Fin 3 → ℝ)} {u v : Fin 3 → ℝ} (huv : u ≠ v)
    (h : IsExtreme ℝ W (segment ℝ u v)) : u ∈ W.extremePoints ℝ := by
  rw [← isExtreme_singleton]
  refine h.trans (isExtreme_singleton.2 ⟨left_mem_segment ℝ u v, ?_⟩)
  intro y hy z hz hu
  obtain ⟨s, hs0, hs1, rfl⟩ := mem_seg hy
  obtain ⟨t, ht0, ht1, rfl⟩ := mem_seg hz
  obtain ⟨a, b, ha, hb, hab, he⟩ := hu
  have h1 : (a * s + b * t) • (v - u) = 0 := by
    have : u + (a * s + b * t) • (v - u) = u := by
      obtain rfl : b = 1 - a := by linarith
      conv_rhs => rw [← he]
      module
    simpa using this
  have h2 := (smul_eq_zero.1 h1).resolve_right (sub_ne_zero.2 huv.symm)
  have h3 : s = 0 := by
    have := mul_nonneg ha.le hs0
    have := mul_nonneg hb.le ht0
    have : a * s = 0 := by linarith
    exact (mul_eq_zero.1 this).resolve_left ha.ne'
  rw [h3, zero_smul, add_zero]

/-- The points of the drawing of the edges are the corners. -/
theorem wireFrame_corners {P vs : List (Fin 3 → ℝ)} {edges : List (ℕ × ℕ)}
    (hbd : Bornology.IsBounded (cut P)) (hw : WireFrame (cut P) vs edges) :
    {v | v ∈ vs} = (cut P).extremePoints ℝ := by
  ext x
  constructor
  · intro hx
    obtain ⟨k, hk, hkx⟩ := List.mem_iff_getElem.1 (show x ∈ vs from hx)
    obtain ⟨e, he, hek⟩ := hw.used k hk
    obtain ⟨u, v, hu, hv, a, b, hab, hse, hext⟩ := hw.sound e he
    have huv : u ≠ v := by
      rintro rfl
      rw [segment_same] at hse
      have h1 : a ∈ ({u} : Set (Fin 3 → ℝ)) := hse ▸ left_mem_segment ℝ a b
      have h2 : b ∈ ({u} : Set (Fin 3 → ℝ)) := hse ▸ right_mem_segment ℝ a b
      exact hab (h1.trans h2.symm)
    have hkx' : vs[k]? = some x := by rw [List.getElem?_eq_getElem hk, hkx]
    rcases hek with rfl | rfl
    · rw [hu] at hkx'
      cases hkx'
      exact edge_end_corner huv hext
    · rw [hv] at hkx'
      cases hkx'
      exact edge_end_corner huv.symm (segment_symm ℝ u x ▸ hext)
  · intro hx
    obtain ⟨y, hxy, hext⟩ := corner_edge hbd hx
    obtain ⟨e, he, u, v, hu, hv, hs⟩ := hw.complete _ ⟨x, y, hxy, rfl, hext⟩
    rcases segment_ends hxy hs with ⟨rfl, -⟩ | ⟨rfl, -⟩
    · exact List.mem_of_getElem? hu
    · exact List.mem_of_getElem? hv

/-- The body is the hull of the points of the drawing of its edges. -/
theorem wireFrame_hull {P vs : List (Fin 3 → ℝ)} {edges : List (ℕ × ℕ)}
    (hbd : Bornology.IsBounded (cut P)) (hw : WireFrame (cut P) vs edges) :
    convexHull ℝ {v | v ∈ vs} = cut P := by
  have h := closure_convexHull_extremePoints (cut_compact hbd) (cut_convex P)
  rw [← wireFrame_corners hbd hw] at h
  rw [← h]
  exact ((List.finite_toSet vs).isClosed_convexHull ℝ).closure_eq.symm

end Wulfric
