import Verif.Lemmas.LepageOne

/-! # One twofold axis: the shortest vectors of the perpendicular plane -/

namespace Wulfric

open Matrix _root_.Spec

theorem intMat_neg (x : Fin 3 → ℤ) (c : Cell ℝ) : intMat (-x) c = -intMat x c := by
  funext j
  simp [intMat, vecMat]
  ring

theorem norm_neg_int (x : Fin 3 → ℤ) (c : Cell ℝ) : npNorm (intMat (-x) c) = npNorm (intMat x c) := by
  rw [intMat_neg]
  unfold npNorm npDot
  congr 1
  simp

theorem parallelogram (p q : Fin 3 → ℤ) (c : Cell ℝ) :
    npNorm (intMat (p + q) c) ^ 2 + npNorm (intMat (p - q) c) ^ 2 =
      2 * npNorm (intMat p c) ^ 2 + 2 * npNorm (intMat q c) ^ 2 := by
  simp only [npNorm_sq, dot, intMat, vecMat, Pi.add_apply, Pi.sub_apply, Int.cast_add, Int.cast_sub]
  ring

theorem pair_sublist {α : Type} {l : List α} (hn : l.Nodup) {a b : α} (ha : a ∈ l) (hb : b ∈ l)
    (hab : a ≠ b) : [a, b].Sublist l ∨ [b, a].Sublist l := by
  induction l with
  | nil => simp at ha
  | cons x l ih =>
    rcases List.mem_cons.1 ha with rfl | ha'
    · rcases List.mem_cons.1 hb with rfl | hb'
      · exact absurd rfl hab
      · exact Or.inl (List.Sublist.cons_cons _ (List.singleton_sublist.2 hb'))
    · rcases List.mem_cons.1 hb with rfl | hb'
      · exact Or.inr (List.Sublist.cons_cons _ (List.singleton_sublist.2 ha'))
      · rcases ih (List.nodup_cons.1 hn).2 ha' hb' with h | h
        · exact Or.inl (h.cons _)
        · exact Or.inr (h.cons _)

theorem not_pair {α : Type} {l : List α} {a b : α} (hn : (a :: l).Nodup) (h : [b, a].Sublist (a :: l)) :
    False := by
  have hn' := List.nodup_cons.1 hn
  cases h with
  | cons _ h => exact hn'.1 (h.subset (by simp))
  | cons_cons _ h => exact hn'.1 (h.subset (by simp))

theorem sublist_skip {α : Type} {l m : List α} {a x : α} (h : (a :: m).Sublist (x :: l)) (hne : a ≠ x) :
    (a :: m).Sublist l := by
  rcases List.sublist_cons_iff.1 h with h | ⟨r, e, h⟩
  · exact h
  · exact absurd (List.cons.inj e).1 hne

/-- The first and the third of the perpendicular vectors, sorted by length, span the plane. -/
theorem first_third' {c : Cell ℝ} (hpos : ∀ x : Fin 3 → ℤ, x ≠ 0 → 0 < npNorm (intMat x c))
    {h : Fin 3 → ℤ} (hneg : (plane h).map (fun x => -x) = (plane h).reverse) (hnd : (plane h).Nodup)
    (hlen : 3 ≤ (plane h).length)
    (hpairs : ∀ x ∈ plane h, ∀ y ∈ plane h,
      y = x ∨ y = -x ∨ crossZ x y = h ∨ crossZ x y = -h ∨ diagonals h x y = true) :
    ∃ x y z rest, (plane h).mergeSort
        (fun u w => decide (npNorm (intMat u c) ≤ npNorm (intMat w c))) = x :: y :: z :: rest ∧
      (crossZ x z = h ∨ crossZ x z = -h) := by
  have plane_neg_mem : ∀ {x : Fin 3 → ℤ}, x ∈ plane h → -x ∈ plane h := by
    intro x hx
    have : -x ∈ (plane h).map fun x => -x := List.mem_map.2 ⟨x, hx, rfl⟩
    rwa [hneg, List.mem_reverse] at this
  set le : (Fin 3 → ℤ) → (Fin 3 → ℤ) → Bool :=
    fun u w => decide (npNorm (intMat u c) ≤ npNorm (intMat w c)) with hle
  have trans : ∀ a b d, le a b = true → le b d = true → le a d = true := by
    intro a b d h1 h2
    simp only [hle, decide_eq_true_eq] at *
    exact h1.trans h2
  have total : ∀ a b, (le a b || le b a) = true := by
    intro a b
    simp only [hle, Bool.or_eq_true, decide_eq_true_eq]
    exact le_total _ _
  have hs := List.pairwise_mergeSort trans total (plane h)
  have hperm := List.mergeSort_perm (plane h) le
  have hsub : ∀ a b, [a, b].Sublist (plane h) → npNorm (intMat a c) ≤ npNorm (intMat b c) →
      [a, b].Sublist ((plane h).mergeSort le) := by
    intro a b hab hn
    apply List.sublist_mergeSort trans total _ hab
    simp only [List.pairwise_cons, List.mem_singleton, forall_eq, List.not_mem_nil, false_imp_iff,
      implies_true, List.Pairwise.nil, and_true]
    simp only [hle, decide_eq_true_eq]
    exact hn
  set s := (plane h).mergeSort le with hsdef
  have hnds : s.Nodup := hperm.nodup_iff.2 hnd
  have hslen : 3 ≤ s.length := by rw [hperm.length_eq]; exact hlen
  obtain ⟨x, y, z, rest, hxyz⟩ : ∃ x y z rest, s = x :: y :: z :: rest := by
    match s, hslen with
    | x :: y :: z :: rest, _ => exact ⟨x, y, z, rest, rfl⟩
  refine ⟨x, y, z, rest, hxyz, ?_⟩
  have hmem : ∀ a, a ∈ s ↔ a ∈ plane h := fun a => hperm.mem_iff
  have hx : x ∈ plane h := (hmem x).1 (by rw [hxyz]; simp)
  have hy : y ∈ plane h := (hmem y).1 (by rw [hxyz]; simp)
  have hz : z ∈ plane h := (hmem z).1 (by rw [hxyz]; simp)
  rw [hxyz] at hs hnds hsub hmem
  simp only [List.pairwise_cons, List.mem_cons, hle, decide_eq_true_eq] at hs
  obtain ⟨hs1, hs2, hs3, -⟩ := hs
  have nd := hnds
  simp only [List.nodup_cons, List.mem_cons, not_or] at nd
  obtain ⟨⟨nxy, nxz, nxr⟩, ⟨nyz, nyr⟩, nzr, -⟩ := nd
  have nx0 : ∀ {w}, w ∈ plane h → w ≠ 0 := by
    intro w hw
    simp only [plane, List.mem_filter, Bool.and_eq_true, decide_eq_true_eq] at hw
    exact hw.2.1
  have nself : ∀ {w}, w ∈ plane h → w ≠ -w := by
    intro w hw e
    apply nx0 hw
    funext i
    have := congrFun e i
    simp only [Pi.neg_apply] at this
    simp only [Pi.zero_apply]
    omega
  rcases hpairs x hx z hz with e | e | e | e | e
  · exact absurd e.symm nxz
  · -- the third vector is opposite to the first one: the sort is stable
    exfalso
    have nrm : npNorm (intMat z c) = npNorm (intMat x c) := by rw [e, norm_neg_int]
    have nyx : npNorm (intMat y c) = npNorm (intMat x c) :=
      le_antisymm (nrm ▸ hs2 z (Or.inl rfl)) (hs1 y (Or.inl rfl))
    have hxy : [x, y].Sublist (plane h) := by
      rcases pair_sublist hnd hx hy nxy with g | g
      · exact g
      · exact absurd (hsub y x g nyx.le) (fun g' => not_pair hnds g')
    have h2 : [-y, -x].Sublist (plane h) := by
      have := (hxy.map fun x => -x)
      rw [hneg] at this
      have := this.reverse
      rw [List.reverse_reverse] at this
      simpa using this
    have h3 := hsub (-y) (-x) h2 (by rw [norm_neg_int, norm_neg_int, nyx])
    have hny : -y ∈ rest := by
      have : -y ∈ x :: y :: z :: rest := (hmem _).2 (plane_neg_mem hy)
      simp only [List.mem_cons] at this
      rcases this with g | g | g | g
      · exact absurd (by rw [e, ← g, neg_neg] : z = y).symm nyz
      · exact absurd g.symm (nself hy)
      · rw [e] at g
        exact absurd (neg_injective g).symm nxy
      · exact g
    have hn2 := (List.nodup_cons.1 (List.nodup_cons.1 hnds).2).2
    have h4 : [-y, -x].Sublist (z :: rest) := by
      refine sublist_skip (sublist_skip h3 ?_) (nself hy).symm
      intro g
      exact nxr (g ▸ hny)
    rw [← e] at h4
    exact not_pair hn2 h4
  · exact Or.inl e
  · exact Or.inr e
  · -- the diagonals are not shorter than the sides
    exfalso
    simp only [diagonals, List.any_eq_true, Bool.and_eq_true, decide_eq_true_eq, List.all_cons,
      List.all_nil, ne_eq, Bool.and_true] at e
    obtain ⟨p, hp, q, hq, ⟨exp, ezp⟩, ⟨p1, p2, q1, q2⟩, p3, p4, q3, q4⟩ := e
    have side : ∀ w ∈ plane h, ¬ w = x → ¬ -w = x → ¬ w = z → ¬ -w = z →
        npNorm (intMat z c) ≤ npNorm (intMat w c) := by
      intro w hw w1 w2 w3 w4
      have a := (hmem w).2 hw
      have b := (hmem (-w)).2 (plane_neg_mem hw)
      simp only [List.mem_cons] at a b
      rcases a with a | a | a | a
      · exact absurd a w1
      · rcases b with b | b | b | b
        · exact absurd b w2
        · exact absurd (a.trans b.symm) (nself hw)
        · exact absurd b w4
        · rw [← norm_neg_int w]; exact hs3 _ b
      · exact absurd a w3
      · exact hs3 _ a
    have hp' := side p hp p1 p2 p3 p4
    have hq' := side q hq q1 q2 q3 q4
    have hxz := hs1 z (Or.inr (Or.inl rfl))
    have hz0 := hpos z (nx0 hz)
    have hx0 := hpos x (nx0 hx)
    have := parallelogram p q c
    rw [← exp, ← ezp] at this
    nlinarith

theorem first_third {c : Cell ℝ} (hpos : ∀ x : Fin 3 → ℤ, x ≠ 0 → 0 < npNorm (intMat x c))
    {h : Fin 3 → ℤ} (hh : h ∈ millerIndices 1) (hh0 : h ≠ 0) :
    ∃ x y z rest, (plane h).mergeSort
        (fun u w => decide (npNorm (intMat u c) ≤ npNorm (intMat w c))) = x :: y :: z :: rest ∧
      (crossZ x z = h ∨ crossZ x z = -h) :=
  first_third' hpos (plane_neg h hh).1 (plane_neg h hh).2 (plane_length h hh)
    (plane_pairs h hh hh0)

/-! ### Lines and angles -/

theorem intMat_eq (u : Fin 3 → ℤ) (c : Cell ℝ) : intMat u c = latticeVec c u := by
  funext j; simp [intMat, vecMat, latticeVec, Fin.sum_univ_three]

theorem delta_sameLine {t s : Vec ℝ} (h : SameLine t s) : lepageDelta t s = 0 := by
  have hx := cross_sq t s
  rw [SameLine] at h
  rw [h, sub_self, pow_eq_zero_iff (by norm_num)] at hx
  unfold lepageDelta
  rw [hx]
  simp

theorem delta_atLeast {t s : Vec ℝ} {d : ℝ} (hd0 : 0 ≤ d) (hd : d ≤ 90) (hts : dot t s ≠ 0)
    (h : AngleAtLeast d t s) : d ≤ lepageDelta t s := by
  by_contra hlt
  push Not at hlt
  have hpi := Real.pi_pos
  have hsq : 0 < dot t s ^ 2 := by positivity
  have htt : 0 < dot t t := by
    apply vdot_self_pos; intro e; apply hts; rw [e]; simp [dot]
  have hss : 0 < dot s s := by
    apply vdot_self_pos; intro e; apply hts; rw [e]; simp [dot]
  set x := npNorm (crossProduct t s) / |npDot t s| with hx
  have hx0 : 0 ≤ x := div_nonneg (Real.sqrt_nonneg _) (abs_nonneg _)
  have hcos : Real.cos (Real.arctan x) ^ 2 * (dot t t * dot s s) = dot t s ^ 2 := by
    rw [Real.cos_sq_arctan, hx, div_pow, cross_sq, npDot_eq_dot, sq_abs]
    field_simp
    ring
  have h1 : Real.arctan x < d * (Real.pi / 180) := by
    have e : lepageDelta t s = Real.arctan x * (180 / Real.pi) := rfl
    rw [e] at hlt
    have := mul_lt_mul_of_pos_right hlt (show 0 < Real.pi / 180 by positivity)
    have e2 : Real.arctan x * (180 / Real.pi) * (Real.pi / 180) = Real.arctan x := by field_simp
    rwa [e2] at this
  have h2 : Real.cos (d * (Real.pi / 180)) < Real.cos (Real.arctan x) :=
    Real.cos_lt_cos_of_nonneg_of_le_pi_div_two (Real.arctan_nonneg.2 hx0) (by nlinarith) h1
  have h3 : 0 ≤ Real.cos (d * (Real.pi / 180)) :=
    Real.cos_nonneg_of_neg_pi_div_two_le_of_le (by nlinarith) (by nlinarith)
  have h4 : Real.cos (d * (Real.pi / 180)) ^ 2 < Real.cos (Real.arctan x) ^ 2 :=
    pow_lt_pow_left₀ h2 h3 (by norm_num)
  have h5 : 0 < dot t t * dot s s := mul_pos htt hss
  unfold AngleAtLeast at h
  nlinarith

theorem sameLine_smul {x y : Vec ℝ} (hy : y ≠ 0) (h : SameLine x y) :
    x = (dot x y / dot y y) • y := by
  have hyy := vdot_self_pos hy
  by_contra hne
  have hpos := vdot_self_pos (sub_ne_zero.2 hne)
  have e : dot (x - (dot x y / dot y y) • y) (x - (dot x y / dot y y) • y) =
      dot x x - 2 * (dot x y / dot y y) * dot x y + (dot x y / dot y y) ^ 2 * dot y y := by
    simp only [dot, Pi.sub_apply, Pi.smul_apply, smul_eq_mul]; ring
  rw [e] at hpos
  unfold SameLine at h
  have : dot x x - 2 * (dot x y / dot y y) * dot x y + (dot x y / dot y y) ^ 2 * dot y y =
      (dot x x * dot y y - dot x y ^ 2) / dot y y := by field_simp; ring
  rw [this, h, sub_self, zero_div] at hpos
  exact lt_irrefl _ hpos

theorem smul_sameLine (k m : ℝ) (y : Vec ℝ) : SameLine (k • y) (m • y) := by
  simp only [SameLine, dot, Pi.smul_apply, smul_eq_mul]; ring

theorem parZ_of_smul {x y : Fin 3 → ℤ} {k : ℝ} (h : ∀ i, (x i : ℝ) = k * y i) : parZ x y = true := by
  rw [parZ_iff]
  have a := h 0
  have b := h 1
  have c := h 2
  refine ⟨?_, ?_, ?_⟩
  · have : (x 0 : ℝ) * y 1 = x 1 * y 0 := by rw [a, b]; ring
    exact_mod_cast this
  · have : (x 0 : ℝ) * y 2 = x 2 * y 0 := by rw [a, c]; ring
    exact_mod_cast this
  · have : (x 1 : ℝ) * y 2 = x 2 * y 1 := by rw [b, c]; ring
    exact_mod_cast this

theorem smul_of_parZ {x y : Fin 3 → ℤ} (hy : y ≠ 0) (h : parZ x y = true) :
    ∃ k : ℝ, ∀ i, (x i : ℝ) = k * y i := by
  rw [parZ_iff] at h
  obtain ⟨h1, h2, h3⟩ := h
  have e1 : (x 0 : ℝ) * y 1 = x 1 * y 0 := by exact_mod_cast h1
  have e2 : (x 0 : ℝ) * y 2 = x 2 * y 0 := by exact_mod_cast h2
  have e3 : (x 1 : ℝ) * y 2 = x 2 * y 1 := by exact_mod_cast h3
  obtain ⟨i, hi⟩ := Function.ne_iff.1 hy
  have hi' : (y i : ℝ) ≠ 0 := by exact_mod_cast hi
  refine ⟨x i / y i, fun j => ?_⟩
  rw [div_mul_eq_mul_div, eq_div_iff hi']
  fin_cases i <;> fin_cases j <;> simp <;> linarith

theorem rows_ext {c : Cell ℝ} (hd : c.det ≠ 0) {x y : Vec ℝ} (h : ∀ i, dot (c i) x = dot (c i) y) :
    x = y := by
  have hu : IsUnit c := (Matrix.isUnit_iff_isUnit_det c).2 (isUnit_iff_ne_zero.2 hd)
  apply (Matrix.mulVec_injective_iff_isUnit.2 hu)
  funext i
  simpa [mulVec, dotProduct, Fin.sum_univ_three, dot] using h i

theorem index_ext {c : Cell ℝ} (hd : c.det ≠ 0) {x y : Fin 3 → ℝ}
    (h : ∀ j, ∑ i, x i * c i j = ∑ i, y i * c i j) : x = y := by
  have hu : IsUnit c := (Matrix.isUnit_iff_isUnit_det c).2 (isUnit_iff_ne_zero.2 hd)
  apply (Matrix.vecMul_injective_iff_isUnit.2 hu)
  funext j
  simpa [vecMul, dotProduct] using h j

theorem latticeVec_ne {c : Cell ℝ} (hd : c.det ≠ 0) {x : Fin 3 → ℤ} (hx : x ≠ 0) :
    latticeVec c x ≠ 0 := by
  intro e
  apply hx
  have : (fun i => (x i : ℝ)) = 0 := by
    apply index_ext hd
    intro j
    have := congrFun e j
    simpa [latticeVec] using this
  funext i
  have := congrFun this i
  simpa using this


/-! ### One axis -/

section
variable {c : Cell ℝ} {u h : Fin 3 → ℤ} {lam : ℝ}

theorem dot_normal (hl : ∀ i, dot (c i) (latticeVec c u) = lam * h i) (x : Fin 3 → ℤ) :
    dot (latticeVec c x) (latticeVec c u) = lam * (intDot x h : ℝ) := by
  have h0 := hl 0
  have h1 := hl 1
  have h2 := hl 2
  have e : dot (latticeVec c x) (latticeVec c u) = x 0 * dot (c 0) (latticeVec c u) +
      x 1 * dot (c 1) (latticeVec c u) + x 2 * dot (c 2) (latticeVec c u) := by
    simp only [dot, latticeVec, Fin.sum_univ_three]; ring
  rw [e, h0, h1, h2]
  simp only [intDot, Int.cast_add, Int.cast_mul]
  ring

theorem twofold_scale {d : Vec ℝ} {n : ℝ} (hn : n ≠ 0)
    (h : TwofoldAxis c (fun i => d i / n)) : TwofoldAxis c d := by
  refine ⟨?_, fun x hx => ?_⟩
  · rintro rfl
    apply h.1
    funext i; simp
  · have := h.2 x hx
    rwa [halfTurn_smul hn] at this

theorem dual_row {r : Cell ℝ} (hr : getReciprocal c = .ok r) (x : Fin 3 → ℤ) (i : Fin 3) :
    dot (c i) (latticeVec r x) = 2 * Real.pi * x i := by
  have e := recip_dual hr
  have : dot (c i) (latticeVec r x) = x 0 * dot (r 0) (c i) + x 1 * dot (r 1) (c i) +
      x 2 * dot (r 2) (c i) := by
    simp only [dot, latticeVec, Fin.sum_univ_three]; ring
  rw [this, e 0 i, e 1 i, e 2 i]
  fin_cases i <;> simp <;> ring

/-- The normal of the axis is along the axis. -/
theorem normal_line {r : Cell ℝ} (hd : c.det ≠ 0) (hr : getReciprocal c = .ok r)
    (hl : ∀ i, dot (c i) (latticeVec c u) = lam * h i) :
    (2 * Real.pi) • latticeVec c u = lam • latticeVec r h := by
  apply rows_ext hd
  intro i
  have e1 : dot (c i) ((2 * Real.pi) • latticeVec c u) = 2 * Real.pi * dot (c i) (latticeVec c u) := by
    simp only [dot, Pi.smul_apply, smul_eq_mul]; ring
  have e2 : dot (c i) (lam • latticeVec r h) = lam * dot (c i) (latticeVec r h) := by
    simp only [dot, Pi.smul_apply, smul_eq_mul]; ring
  rw [e1, e2, hl, dual_row hr]
  ring

theorem latticeVec_smul {c : Cell ℝ} {x y : Fin 3 → ℤ} {k : ℝ} (h : ∀ i, (x i : ℝ) = k * y i) :
    latticeVec c x = k • latticeVec c y := by
  funext j
  simp only [latticeVec, Fin.sum_univ_three, Pi.smul_apply, smul_eq_mul, h]
  ring

theorem exact_one {r : Cell ℝ} (hd : c.det ≠ 0) (hr : getReciprocal c = .ok r) (hu : u ≠ 0)
    (hh : h ≠ 0) (hlam : lam ≠ 0) (hl : ∀ i, dot (c i) (latticeVec c u) = lam * h i)
    (honly : ∀ x : Fin 3 → ℤ, (∀ i, |x i| ≤ 2) → TwofoldAxis c (latticeVec c x) →
      SameLine (latticeVec c x) (latticeVec c u)) {x y : Fin 3 → ℤ} (hx : ∀ i, |x i| ≤ 2)
    (hxy : |intDot x y| = 2) :
    SameLine (latticeVec c x) (latticeVec r y) ↔ oneAxis u h x y = true := by
  have hpi : (2 * Real.pi) ≠ 0 := two_pi_ne
  have hb := latticeVec_ne hd hu
  have hxy0 : intDot x y ≠ 0 := by rintro e; rw [e] at hxy; simp at hxy
  have hx0 : x ≠ 0 := by rintro rfl; simp [intDot] at hxy0
  have hxt := latticeVec_ne hd hx0
  rw [oneAxis, Bool.and_eq_true]
  have line := normal_line hd hr hl
  constructor
  · intro hs
    have hdel := delta_sameLine hs
    rw [← intMat_eq, ← intMat_eq] at hdel
    have ht := twofold_of_delta hr hxy hdel
    rw [intMat_eq] at ht
    unfold npNormalize at ht
    have hnz : npNorm (latticeVec c x) ≠ 0 := by
      have := npNorm_sq (latticeVec c x)
      have hp := vdot_self_pos hxt
      intro e
      rw [e] at this
      norm_num at this
      linarith
    have hxb := sameLine_smul hb (honly x hx (twofold_scale hnz ht))
    set k := dot (latticeVec c x) (latticeVec c u) / dot (latticeVec c u) (latticeVec c u)
    have hxu : ∀ i, (x i : ℝ) = k * u i := by
      have : (fun i => (x i : ℝ)) = fun i => k * u i := by
        apply index_ext hd
        intro j
        have := congrFun hxb j
        simp only [latticeVec, Fin.sum_univ_three, Pi.smul_apply, smul_eq_mul] at this ⊢
        rw [this]; ring
      exact fun i => congrFun this i
    refine ⟨parZ_of_smul hxu, ?_⟩
    have hs' : SameLine (latticeVec r y) (latticeVec c x) := by
      unfold SameLine at hs ⊢
      rw [dot_comm', hs, mul_comm]
    have hyx := sameLine_smul hxt hs'
    set m := dot (latticeVec r y) (latticeVec c x) / dot (latticeVec c x) (latticeVec c x)
    apply parZ_of_smul (k := m * k * lam / (2 * Real.pi))
    intro i
    have h1 := dual_row hr y i
    rw [hyx, hxb] at h1
    have e : dot (c i) (m • k • latticeVec c u) = m * k * dot (c i) (latticeVec c u) := by
      simp only [dot, Pi.smul_apply, smul_eq_mul]; ring
    rw [e, hl] at h1
    field_simp
    linear_combination -h1
  · rintro ⟨hxu, hyh⟩
    obtain ⟨k, hk⟩ := smul_of_parZ hu hxu
    obtain ⟨m, hm⟩ := smul_of_parZ hh hyh
    rw [latticeVec_smul hk, latticeVec_smul hm]
    have : latticeVec r h = (2 * Real.pi / lam) • latticeVec c u := by
      have e : latticeVec r h = lam⁻¹ • lam • latticeVec r h := by
        rw [smul_smul, inv_mul_cancel₀ hlam, one_smul]
      rw [e, ← line, smul_smul]
      congr 1
      field_simp
    rw [this, smul_smul]
    exact smul_sameLine _ _ _

theorem mem_miller' {u : Fin 3 → ℤ} : u ∈ millerIndices 2 ↔ ∀ i, |u i| ≤ 2 := by
  rw [mem_miller]
  simp only [abs_le]

theorem det_crossZ (x w z : Fin 3 → ℤ) : (Matrix.of ![x, w, z]).det = -intDot w (crossZ x z) := by
  rw [det_fin_three]
  simp only [intDot, crossZ, of_apply, cons_val_zero, cons_val_one, cons_val]
  ring

theorem length_pos (hd : c.det ≠ 0) (x : Fin 3 → ℤ) (hx : x ≠ 0) : 0 < npNorm (intMat x c) := by
  rw [intMat_eq, npNorm, npDot_eq_dot]
  exact Real.sqrt_pos.2 (vdot_self_pos (latticeVec_ne hd hx))

/-- The perpendicular vectors of the search are those of the plane. -/
theorem perpAxes_plane {tol : ℝ} (h0 : 0 < tol) {w : Fin 3 → ℤ} {mu : ℝ} (hmu : tol ≤ |mu|)
    (hv : ∀ x, dot (latticeVec c x) (latticeVec c w) = mu * (intDot x h : ℝ)) :
    perpAxes w c tol = (plane h).mergeSort
      (fun u w => decide (npNorm (intMat u c) ≤ npNorm (intMat w c))) := by
  unfold perpAxes plane
  congr 1
  apply List.filter_congr
  intro x _
  congr 1
  rw [intMat_eq, intMat_eq, npDot_eq_dot, hv]
  congr 1
  rw [eq_iff_iff]
  constructor
  · intro hlt
    by_contra hne
    have : (1 : ℤ) ≤ |intDot x h| := Int.one_le_abs hne
    have h2 : (1 : ℝ) ≤ |(intDot x h : ℝ)| := by exact_mod_cast this
    rw [abs_mul] at hlt
    nlinarith [abs_nonneg mu]
  · intro e
    rw [e]
    simpa using h0

/-- With one axis only the monoclinic check is left. -/
theorem classify_one (tol : ℝ) (v : Fin 3 → ℤ) :
    classifyAxes c tol (angleMatrix (exactAxes c [v])) (exactAxes c [v]) =
      .ok ((checkMcl (exactAxes c [v]) tol c).getD "TRI") := by
  have hlen : (exactAxes c [v]).length = 1 := rfl
  unfold classifyAxes
  rw [checkCub_short _ (by omega), checkHex_short _ (by omega), checkTet_short _ (by omega)]
  have h4 : checkRhl (angleMatrix (exactAxes c [v])) (exactAxes c [v]) tol = none := by
    unfold checkRhl
    rw [if_neg (by rintro ⟨g, -⟩; omega)]
  have h5 : checkOrc (angleMatrix (exactAxes c [v])) (exactAxes c [v]) tol = .ok none := by
    unfold checkOrc
    rw [if_neg (by omega)]
  rw [h4, h5]
  cases checkMcl (exactAxes c [v]) tol c <;> rfl

theorem classify_third {tol : ℝ} (h0 : 0 < tol) {v : Fin 3 → ℤ} {mu : ℝ} (hmu : tol ≤ |mu|)
    (hv : ∀ x, dot (latticeVec c x) (latticeVec c (halveAxis v)) = mu * (intDot x h : ℝ)) {t : String}
    (hft : ∃ x y z rest, (plane h).mergeSort
        (fun u w => decide (npNorm (intMat u c) ≤ npNorm (intMat w c))) = x :: y :: z :: rest ∧
      (crossZ x z = h ∨ crossZ x z = -h))
    (ht : (|intDot (halveAxis v) h| = 1 ∧ t = "MCL") ∨ (|intDot (halveAxis v) h| = 2 ∧ t = "MCLC")) :
    classifyAxes c tol (angleMatrix (exactAxes c [v])) (exactAxes c [v]) = .ok t := by
  obtain ⟨x, y, z, rest, hs, hcr⟩ := hft
  have hm : checkMcl (exactAxes c [v]) tol c = some t := by
    have hp : perpAxes (halveAxis v) c tol = x :: y :: z :: rest := by
      rw [perpAxes_plane h0 hmu hv, hs]
    have e : exactAxes c [v] = [{ exactAxis c v with U := halveAxis v }] := rfl
    rw [e]
    unfold checkMcl
    simp only [hp]
    have hdet : |(Matrix.of ![x, halveAxis v, z]).det| = |intDot (halveAxis v) h| := by
      rw [det_crossZ, abs_neg]
      rcases hcr with g | g
      · rw [g]
      · rw [g]
        have : intDot (halveAxis v) (-h) = -intDot (halveAxis v) h := by
          simp only [intDot, Pi.neg_apply]; ring
        rw [this, abs_neg]
    rw [hdet]
    rcases ht with ⟨g, rfl⟩ | ⟨g, rfl⟩
    · rw [g]; rfl
    · rw [g]; rfl
  rw [classify_one, hm]
  rfl

/-- Without a third perpendicular vector in the search the lattice is reported as triclinic. -/
theorem classify_short {tol : ℝ} (h0 : 0 < tol) {v : Fin 3 → ℤ} {mu : ℝ} (hmu : tol ≤ |mu|)
    (hv : ∀ x, dot (latticeVec c x) (latticeVec c (halveAxis v)) = mu * (intDot x h : ℝ))
    (hl : (plane h).length ≤ 2) :
    classifyAxes c tol (angleMatrix (exactAxes c [v])) (exactAxes c [v]) = .ok "TRI" := by
  have hm : checkMcl (exactAxes c [v]) tol c = none := by
    have hp := perpAxes_plane h0 hmu hv
    have hlen : (perpAxes (halveAxis v) c tol).length ≤ 2 := by
      rw [hp, List.length_mergeSort]; exact hl
    have e : exactAxes c [v] = [{ exactAxis c v with U := halveAxis v }] := rfl
    rw [e]
    unfold checkMcl
    match hq : perpAxes (halveAxis v) c tol, hlen with
    | [], _ => simp [hq]
    | [_], _ => simp [hq]
    | [_, _], _ => simp [hq]
  rw [classify_one, hm]
  rfl

theorem classify_mono (hd : c.det ≠ 0) {tol : ℝ} (h0 : 0 < tol) (hh1 : h ∈ millerIndices 1)
    (hh : h ≠ 0) {v : Fin 3 → ℤ} {mu : ℝ} (hmu : tol ≤ |mu|)
    (hv : ∀ x, dot (latticeVec c x) (latticeVec c (halveAxis v)) = mu * (intDot x h : ℝ)) {t : String}
    (ht : (|intDot (halveAxis v) h| = 1 ∧ t = "MCL") ∨ (|intDot (halveAxis v) h| = 2 ∧ t = "MCLC")) :
    classifyAxes c tol (angleMatrix (exactAxes c [v])) (exactAxes c [v]) = .ok t :=
  classify_third h0 hmu hv (first_third (length_pos hd) hh1 hh) ht

/-- The deviations of the pairs without pseudosymmetry. -/
theorem gap_one {r : Cell ℝ} {limit : ℝ} (hr : getReciprocal c = .ok r)
    (hl0 : 0 < limit) (hl90 : limit ≤ 90) (hno : NoPseudosymmetry c limit)
    {ex : (Fin 3 → ℤ) → (Fin 3 → ℤ) → Bool}
    (hex : ∀ x y : Fin 3 → ℤ, (∀ i, |x i| ≤ 2) → |intDot x y| = 2 →
      (SameLine (latticeVec c x) (latticeVec r y) ↔ ex x y = true)) :
    ∀ u ∈ millerIndices 2, ∀ h ∈ millerIndices 2, |intDot u h| = 2 →
      (ex u h = true → lepageDelta (intMat u c) (intMat h r) = 0) ∧
      (ex u h = false → limit ≤ lepageDelta (intMat u c) (intMat h r)) := by
  intro x hx y hy hxy
  rw [mem_miller'] at hx hy
  rw [intMat_eq, intMat_eq]
  refine ⟨fun e => delta_sameLine ((hex x y hx hxy).2 e), fun e => ?_⟩
  have hn : ¬ SameLine (latticeVec c x) (latticeVec r y) := by
    rw [hex x y hx hxy, e]; simp
  have hsum : |∑ i, x i * y i| = 2 := by rw [Fin.sum_univ_three]; exact hxy
  apply delta_atLeast hl0.le hl90
  · rw [← intMat_eq, ← intMat_eq, dual_dot hr]
    apply mul_ne_zero two_pi_ne
    have : intDot x y ≠ 0 := by rintro e; rw [e] at hxy; simp at hxy
    exact_mod_cast this
  · exact (hno r (recip_dual hr) x y hx hy hsum).resolve_left hn

end

end Wulfric
