import Verif.Lemmas.LepageLong
import Mathlib.Analysis.SpecialFunctions.Trigonometric.Bounds

/-! # The Le Page algorithm on cells without pseudosymmetry

The deviations follow from the matrix of scalar products; when each of them is either zero or
above the limit, the search reduces to a computation with integers. -/

namespace Wulfric

open Matrix _root_.Spec

/-- The bilinear form of a matrix on integer vectors. -/
noncomputable def quad (g : Cell ℝ) (u v : Fin 3 → ℤ) : ℝ :=
  ∑ i, ∑ j, (u i : ℝ) * g i j * (v j : ℝ)

theorem dot_intMat (c : Cell ℝ) (u v : Fin 3 → ℤ) :
    dot (intMat u c) (intMat v c) = quad (c * c.transpose) u v := by
  simp only [dot, intMat, vecMat, quad, Matrix.mul_apply, Fin.sum_univ_three, transpose_apply]
  ring

theorem recip_lepage {c r k : Cell ℝ} (hr : getReciprocal c = .ok r) (hk : c * c.transpose * k = 1) :
    r * r.transpose = (2 * Real.pi) ^ 2 • k := by
  obtain ⟨hd, rfl⟩ := recip_ok hr
  have hu := isUnit_iff_ne_zero.2 hd
  have hk' : k = c.transpose⁻¹ * c⁻¹ := by
    rw [← Matrix.mul_inv_rev]
    exact (Matrix.inv_eq_right_inv hk).symm
  rw [hk', Matrix.transpose_smul, Matrix.smul_mul, Matrix.mul_smul, smul_smul, transpose_transpose,
    sq, Matrix.transpose_nonsing_inv]

theorem cross_quad {c r k : Cell ℝ} (hr : getReciprocal c = .ok r) (hk : c * c.transpose * k = 1)
    (u h : Fin 3 → ℤ) :
    npNorm (crossProduct (intMat u c) (intMat h r)) ^ 2 =
      (2 * Real.pi) ^ 2 * (quad (c * c.transpose) u u * quad k h h - (intDot u h : ℝ) ^ 2) := by
  rw [cross_sq, dual_dot hr, dot_intMat, dot_intMat, recip_lepage hr hk]
  have : quad ((2 * Real.pi) ^ 2 • k) h h = (2 * Real.pi) ^ 2 * quad k h h := by
    simp only [quad, Matrix.smul_apply, smul_eq_mul, Fin.sum_univ_three]
    ring
  rw [this]
  ring

theorem delta_far {x : ℝ} (h : 1 / 28 ≤ x) : 2 ≤ Real.arctan x * toDegrees := by
  have hpi := Real.pi_pos
  have hpi2 := Real.pi_lt_d2
  have key : Real.pi / 90 ≤ Real.arctan x := by
    set y := Real.pi / 90 with hy
    have hy0 : 0 ≤ y := by positivity
    have hy1 : y ≤ 7 / 200 := by rw [hy]; linarith
    have hy2 : y < Real.pi / 2 := by linarith [Real.pi_gt_three]
    have ht : Real.tan y ≤ 1 / 28 := by
      rw [Real.tan_eq_sin_div_cos]
      have hc : 49 / 50 ≤ Real.cos y := by
        have := Real.one_sub_sq_div_two_le_cos (x := y)
        nlinarith
      rw [div_le_iff₀ (by linarith)]
      have := Real.sin_le hy0
      linarith
    rw [← Real.arctan_tan (by linarith : -(Real.pi / 2) < y) hy2]
    exact Real.arctan_strictMono.monotone (ht.trans h)
  unfold toDegrees
  have e : (2 : ℝ) = Real.pi / 90 * (180 / Real.pi) := by field_simp; norm_num
  rw [e]
  exact mul_le_mul_of_nonneg_right key (by positivity)

theorem delta_quad {c r k : Cell ℝ} (hr : getReciprocal c = .ok r) (hk : c * c.transpose * k = 1)
    {u h : Fin 3 → ℤ} (huh : |intDot u h| = 2) :
    (quad (c * c.transpose) u u * quad k h h = 4 →
      lepageDelta (intMat u c) (intMat h r) = 0) ∧
    (4 + 1 / 196 ≤ quad (c * c.transpose) u u * quad k h h →
      2 ≤ lepageDelta (intMat u c) (intMat h r)) := by
  have hx := cross_quad hr hk u h
  have habs : |(intDot u h : ℝ)| = 2 := by exact_mod_cast congrArg (fun z : ℤ => (z : ℝ)) huh
  have hsq : (intDot u h : ℝ) ^ 2 = 4 := by rw [← sq_abs, habs]; norm_num
  rw [hsq] at hx
  have hpi := Real.pi_pos
  have h0 : 0 ≤ npNorm (crossProduct (intMat u c) (intMat h r)) := Real.sqrt_nonneg _
  have hden : |npDot (intMat u c) (intMat h r)| = 2 * Real.pi * 2 := by
    rw [npDot_eq_dot, dual_dot hr, abs_mul, habs, abs_of_pos (by positivity)]
  unfold lepageDelta
  rw [hden]
  constructor
  · intro e
    rw [e, sub_self, mul_zero] at hx
    rw [pow_eq_zero_iff (by norm_num)] at hx
    rw [hx]
    simp
  · intro e
    apply delta_far
    rw [le_div_iff₀ (by positivity)]
    have h1 : (2 * Real.pi / 14) ^ 2 ≤ npNorm (crossProduct (intMat u c) (intMat h r)) ^ 2 := by
      rw [hx]
      have : (0 : ℝ) < (2 * Real.pi) ^ 2 := by positivity
      nlinarith
    have := (sq_le_sq₀ (by positivity) h0).1 h1
    linarith

/-! ### The list of axes -/

/-- The integer vectors of the potential axes, when `ex` tells which pairs have no deviation. -/
def exactPairs (ex : (Fin 3 → ℤ) → (Fin 3 → ℤ) → Bool) : List (Fin 3 → ℤ) :=
  (millerIndices 2).flatMap fun u => (millerIndices 2).filterMap fun h =>
    bif (intDot u h).natAbs == 2 && ex u h then some u else none

/-- The vectors without a twin behind them. -/
def dropU : List (Fin 3 → ℤ) → List (Fin 3 → ℤ)
  | [] => []
  | u :: rest => if rest.any fun v => sameAxis u v then dropU rest else u :: dropU rest

/-- The axis along `u`, without a deviation. -/
noncomputable def exactAxis (c : Cell ℝ) (u : Fin 3 → ℤ) : LAxis := ⟨u, npNormalize (intMat u c), 0⟩

theorem dropTwins_exact (c : Cell ℝ) (l : List (Fin 3 → ℤ)) :
    dropTwins (l.map (exactAxis c)) =
      (dropU l).map fun u => { exactAxis c u with U := halveAxis u } := by
  induction l with
  | nil => rfl
  | cons u l ih =>
    simp only [List.map_cons, dropTwins, dropU, List.any_map]
    have e : (l.any ((fun b => sameAxis (exactAxis c u).U b.U) ∘ exactAxis c)) =
        l.any fun v => sameAxis u v := rfl
    rw [e, ih]
    split_ifs
    · rfl
    · rfl

theorem lepageAxes_delta {c r : Cell ℝ} {limit : ℝ} (hr : getReciprocal c = .ok r) (hl : 0 < limit)
    (ex : (Fin 3 → ℤ) → (Fin 3 → ℤ) → Bool)
    (gap : ∀ u ∈ millerIndices 2, ∀ h ∈ millerIndices 2, |intDot u h| = 2 →
      (ex u h = true → lepageDelta (intMat u c) (intMat h r) = 0) ∧
      (ex u h = false → limit ≤ lepageDelta (intMat u c) (intMat h r))) :
    lepageAxes c limit =
      .ok ((dropU (exactPairs ex)).map fun u => { exactAxis c u with U := halveAxis u }) := by
  have hp : potentialAxes c r limit = (exactPairs ex).map (exactAxis c) := by
    unfold potentialAxes exactPairs
    rw [List.map_flatMap]
    apply List.flatMap_congr
    intro u hu
    rw [List.map_filterMap]
    apply List.filterMap_congr
    intro h hh
    have hn : (intDot u h).natAbs = 2 ↔ |intDot u h| = 2 := by
      rw [Int.abs_eq_natAbs]; norm_cast
    by_cases hd : |intDot u h| = 2
    · obtain ⟨g1, g2⟩ := gap u hu h hh hd
      cases he : ex u h with
      | true =>
        have e := g1 he
        simp [hd, hn.2 hd, e, hl, exactAxis]
      | false =>
        have e := g2 he
        simp [hd, hn.2 hd, e]
    · have : ((intDot u h).natAbs == 2) = false := by
        rw [beq_eq_false_iff_ne]
        exact fun e => hd (hn.1 e)
      rw [if_neg hd, this]
      rfl
  unfold lepageAxes
  rw [hr]
  simp only [bind, Except.bind, pure, Except.pure]
  rw [hp]
  have hs : sortAxes ((exactPairs ex).map (exactAxis c)) = (exactPairs ex).map (exactAxis c) := by
    unfold sortAxes
    apply List.mergeSort_of_pairwise
    rw [List.pairwise_map]
    apply List.pairwise_of_forall
    intro x y
    simp [exactAxis]
  rw [hs, dropTwins_exact]

/-! ### Angles -/

/-- The angle in degrees whose squared cosine is `p / q`; 1000 for other values. -/
def code (p q : ℤ) : ℕ :=
  if p = q then 0 else if 4 * p = 3 * q then 30 else if 2 * p = q then 45
  else if 4 * p = q then 60 else if p = 0 then 90 else 1000

theorem arccos_code {p q : ℤ} (hq : 0 < q) (h : code p q ≠ 1000) {s : ℝ} (hs : s * q = p) :
    Real.arccos (Real.sqrt s) * toDegrees = code p q := by
  have hq' : (0 : ℝ) < q := by exact_mod_cast hq
  have hpi := Real.pi_pos
  unfold code at h ⊢
  unfold toDegrees
  split_ifs at h ⊢ with h1 h2 h3 h4 h5
  · have : s = 1 := by
      have e : (p : ℝ) = q := by exact_mod_cast h1
      rw [e] at hs
      exact mul_right_cancel₀ hq'.ne' (by rw [hs, one_mul])
    rw [this]; simp
  · have : s = (Real.sqrt 3 / 2) ^ 2 := by
      have e : (4 : ℝ) * p = 3 * q := by exact_mod_cast h2
      have : 4 * (s * q) = 3 * q := by rw [hs, e]
      rw [div_pow, Real.sq_sqrt (by norm_num)]
      have h4 : (4 * s - 3) * q = 0 := by linear_combination this
      rcases mul_eq_zero.1 h4 with h | h
      · linarith
      · exact absurd h hq'.ne'
    rw [this, Real.sqrt_sq (by positivity), ← Real.cos_pi_div_six,
      Real.arccos_cos (by positivity) (by linarith)]
    field_simp; norm_num
  · have : s = (Real.sqrt 2 / 2) ^ 2 := by
      have e : (2 : ℝ) * p = q := by exact_mod_cast h3
      rw [div_pow, Real.sq_sqrt (by norm_num)]
      have h4 : (2 * s - 1) * q = 0 := by linear_combination 2 * hs + e
      rcases mul_eq_zero.1 h4 with h | h
      · linarith
      · exact absurd h hq'.ne'
    rw [this, Real.sqrt_sq (by positivity), ← Real.cos_pi_div_four,
      Real.arccos_cos (by positivity) (by linarith)]
    field_simp; norm_num
  · have : s = (1 / 2) ^ 2 := by
      have e : (4 : ℝ) * p = q := by exact_mod_cast h4
      have h4 : (4 * s - 1) * q = 0 := by linear_combination 4 * hs + e
      rcases mul_eq_zero.1 h4 with h | h
      · linarith
      · exact absurd h hq'.ne'
    rw [this, Real.sqrt_sq (by positivity), ← Real.cos_pi_div_three,
      Real.arccos_cos (by positivity) (by linarith)]
    field_simp; norm_num
  · have : s = 0 := by
      have e : (p : ℝ) = 0 := by exact_mod_cast h5
      rw [e] at hs
      rcases mul_eq_zero.1 hs with h | h
      · exact h
      · exact absurd h hq'.ne'
    rw [this, Real.sqrt_zero, Real.arccos_zero]
    field_simp; norm_num
  · exact absurd rfl h

theorem axisAngle_sqrt {x y : Vec ℝ} (hx : 0 < dot x x) (hy : 0 < dot y y) :
    axisAngle (npNormalize x) (npNormalize y) =
      Real.arccos (Real.sqrt (dot x y ^ 2 / (dot x x * dot y y))) * toDegrees := by
  have nx : npNorm x = Real.sqrt (dot x x) := by rw [npNorm, npDot_eq_dot]
  have ny : npNorm y = Real.sqrt (dot y y) := by rw [npNorm, npDot_eq_dot]
  have px : 0 < npNorm x := by rw [nx]; exact Real.sqrt_pos.2 hx
  have py : 0 < npNorm y := by rw [ny]; exact Real.sqrt_pos.2 hy
  have sx : npNorm x ^ 2 = dot x x := by rw [nx, Real.sq_sqrt hx.le]
  have sy : npNorm y ^ 2 = dot y y := by rw [ny, Real.sq_sqrt hy.le]
  set z := npDot (npNormalize x) (npNormalize y) with hz
  have ez : z = dot x y / (npNorm x * npNorm y) := by
    rw [hz, npDot_eq_dot]
    simp only [dot, npNormalize]
    field_simp
  have ez2 : z ^ 2 = dot x y ^ 2 / (dot x x * dot y y) := by
    rw [ez, div_pow, mul_pow, sx, sy]
  have hle : z ^ 2 ≤ 1 := by
    rw [ez2, div_le_one (by positivity)]
    have := cross_sq x y
    nlinarith [sq_nonneg (npNorm (crossProduct x y))]
  have habs : |z| ≤ 1 := by
    rw [← sq_abs] at hle
    nlinarith [abs_nonneg z]
  obtain ⟨h1, h2⟩ := abs_le.1 habs
  have hc : clip1 z = z := by
    unfold clip1
    rw [max_eq_left h1, min_eq_left h2]
  unfold axisAngle
  rw [hc, ← ez2, Real.sqrt_sq_eq_abs]

/-- The table of angles for the integer form `b`. -/
def codes (b : (Fin 3 → ℤ) → (Fin 3 → ℤ) → ℤ) (l : List (Fin 3 → ℤ)) (i j : ℕ) : ℕ :=
  let u := l.getD i 0
  let v := l.getD j 0
  code (b u v ^ 2) (b u u * b v v)

/-- The form `b` gives the right angles between the vectors of the list: each is positive, and
the squared cosines are those of the cell, and are known. -/
structure Angles (c : Cell ℝ) (b : (Fin 3 → ℤ) → (Fin 3 → ℤ) → ℤ) (l : List (Fin 3 → ℤ)) : Prop where
  pos : ∀ u ∈ l, 0 < b u u
  real : ∀ u ∈ l, 0 < quad (c * c.transpose) u u
  cosine : ∀ u ∈ l, ∀ v ∈ l, quad (c * c.transpose) u v ^ 2 * (b u u * b v v : ℤ) =
    (b u v ^ 2 : ℤ) * (quad (c * c.transpose) u u * quad (c * c.transpose) v v)
  known : ∀ u ∈ l, ∀ v ∈ l, code (b u v ^ 2) (b u u * b v v) ≠ 1000

theorem axisAngle_code {c : Cell ℝ} {b : (Fin 3 → ℤ) → (Fin 3 → ℤ) → ℤ} {l : List (Fin 3 → ℤ)}
    (h : Angles c b l) {u v : Fin 3 → ℤ} (hu : u ∈ l) (hv : v ∈ l) :
    axisAngle (npNormalize (intMat u c)) (npNormalize (intMat v c)) =
      code (b u v ^ 2) (b u u * b v v) := by
  have hx := h.real u hu
  have hy := h.real v hv
  rw [axisAngle_sqrt (by rw [dot_intMat]; exact hx) (by rw [dot_intMat]; exact hy)]
  apply arccos_code (mul_pos (h.pos u hu) (h.pos v hv)) (h.known u hu v hv)
  rw [dot_intMat, dot_intMat, dot_intMat]
  have := h.cosine u hu v hv
  field_simp
  linarith

theorem axisAngle_comm (x y : Vec ℝ) : axisAngle x y = axisAngle y x := by
  unfold axisAngle
  rw [npDot_eq_dot, npDot_eq_dot, dot_comm']

theorem angleMatrix_codes {c : Cell ℝ} {b : (Fin 3 → ℤ) → (Fin 3 → ℤ) → ℤ}
    {l : List (Fin 3 → ℤ)} (h : Angles c b l) {i j : ℕ} (hi : i < l.length) (hj : j < l.length) :
    angleMatrix (l.map fun u => { exactAxis c u with U := halveAxis u }) i j = codes b l i j := by
  have hd : ∀ k < l.length,
      ((l.map fun u => { exactAxis c u with U := halveAxis u }).map LAxis.dir).getD k 0 =
        npNormalize (intMat (l.getD k 0) c) := by
    intro k hk
    simp only [List.getD_eq_getElem?_getD, List.getElem?_map, List.getElem?_eq_getElem hk]
    rfl
  have hm : ∀ k < l.length, l.getD k 0 ∈ l := by
    intro k hk
    simp only [List.getD_eq_getElem?_getD, List.getElem?_eq_getElem hk, Option.getD_some]
    exact List.getElem_mem hk
  simp only [angleMatrix, hd i hi, hd j hj, codes]
  have key := axisAngle_code h (hm i hi) (hm j hj)
  split_ifs with h1 h2
  · exact key
  · rw [axisAngle_comm]; exact key
  · have e : i = j := by omega
    subst e
    rw [key]
    have : code (b (l.getD i 0) (l.getD i 0) ^ 2) (b (l.getD i 0) (l.getD i 0) *
        b (l.getD i 0) (l.getD i 0)) = 0 := by
      unfold code
      rw [if_pos (sq _)]
    rw [this]
    simp

/-! ### Comparison with the targets -/

theorem sortReals_cast (l : List ℕ) :
    sortReals (l.map fun n : ℕ => (n : ℝ)) =
      (l.mergeSort fun a b => decide (a ≤ b)).map fun n : ℕ => (n : ℝ) := by
  unfold sortReals
  rw [List.map_mergeSort]
  intro a _ b _
  simp

theorem sorted_mergeSort (l : List ℕ) :
    (l.mergeSort fun a b => decide (a ≤ b)).Pairwise (· ≤ ·) := by
  have := List.pairwise_mergeSort (le := fun a b : ℕ => decide (a ≤ b))
    (by intro a b c hab hbc; simp only [decide_eq_true_eq] at *; exact le_trans hab hbc)
    (by intro a b; simp only [Bool.or_eq_true, decide_eq_true_eq]; exact le_total _ _) l
  simpa using this

theorem all_close {tol : ℝ} (h0 : 0 < tol) (h1 : tol ≤ 1) (xs ys : List ℕ)
    (hl : xs.length = ys.length) :
    (List.zipWith (fun x y : ℝ => decide (|x - y| < tol)) (xs.map fun n : ℕ => (n : ℝ))
      (ys.map fun n : ℕ => (n : ℝ))).all id = decide (xs = ys) := by
  induction xs generalizing ys with
  | nil => cases ys with
    | nil => rfl
    | cons y ys => simp at hl
  | cons x xs ih => cases ys with
    | nil => simp at hl
    | cons y ys =>
      simp only [List.map_cons, List.zipWith_cons_cons, List.all_cons, id]
      rw [ih ys (by simpa using hl)]
      have e : |(x : ℝ) - y| < tol ↔ x = y := by
        constructor
        · intro h
          have h2 : |(x : ℝ) - y| < 1 := h.trans_le h1
          have h3 : |(x : ℤ) - y| < 1 := by exact_mod_cast h2
          rw [Int.abs_lt_one_iff] at h3
          omega
        · rintro rfl
          simpa using h0
      simp [e]

theorem closeSorted_cast {tol : ℝ} (h0 : 0 < tol) (h1 : tol ≤ 1) (xs ys : List ℕ)
    (hl : xs.length = ys.length) (hs : ys.Pairwise (· ≤ ·)) :
    closeSorted (xs.map fun n : ℕ => (n : ℝ)) (ys.map fun n : ℕ => (n : ℝ)) tol =
      decide (xs.Perm ys) := by
  unfold closeSorted
  rw [sortReals_cast, all_close h0 h1 _ _ (by simpa using hl)]
  congr 1
  rw [eq_iff_iff]
  have hp := List.mergeSort_perm xs fun a b => decide (a ≤ b)
  constructor
  · intro e
    rw [e] at hp
    exact hp.symm
  · intro e
    exact (hp.trans e).eq_of_pairwise (fun a b _ _ h1 h2 => le_antisymm h1 h2)
      (sorted_mergeSort xs) hs

/-- The list of lists of natural numbers as real ones. -/
def castRows (t : List (List ℕ)) : List (List ℝ) := t.map fun l => l.map fun n : ℕ => (n : ℝ)

theorem castRows_flatten (t : List (List ℕ)) :
    (castRows t).flatten = t.flatten.map fun n : ℕ => (n : ℝ) := by
  unfold castRows
  rw [List.map_flatten]

/-- All the entries of the table. -/
def flatCodes (k : ℕ → ℕ → ℕ) (m : ℕ) : List ℕ :=
  (List.range m).flatMap fun i => (List.range m).map fun j => k i j

theorem matchesTarget_cast {tol : ℝ} (h0 : 0 < tol) (h1 : tol ≤ 1) {angles : ℕ → ℕ → ℝ}
    {k : ℕ → ℕ → ℕ} {m : ℕ} (ha : ∀ i < m, ∀ j < m, angles i j = k i j) (t : List (List ℕ))
    (ht : t.length ≤ m) (hl : t.flatten.length = t.length * t.length) :
    matchesTarget angles (castRows t) tol = decide ((flatCodes k t.length).Perm t.flatten) := by
  have e : flattenAngles angles t.length =
      (flatCodes k t.length).map fun n : ℕ => (n : ℝ) := by
    unfold flattenAngles flatCodes
    rw [List.map_flatMap]
    apply List.flatMap_congr
    intro i hi
    rw [List.map_map]
    apply List.map_congr_left
    intro j hj
    exact ha i (by simp at hi; omega) j (by simp at hj; omega)
  have el : (castRows t).length = t.length := by simp [castRows]
  unfold matchesTarget
  rw [el, e, castRows_flatten, sortReals_cast, closeSorted_cast h0 h1 _ _ _ (sorted_mergeSort _)]
  · congr 1
    rw [eq_iff_iff]
    have hp := List.mergeSort_perm t.flatten fun a b => decide (a ≤ b)
    exact ⟨fun h => h.trans hp, fun h => h.trans hp.symm⟩
  · rw [List.length_mergeSort, hl]
    simp [flatCodes, List.length_flatMap]

theorem angleRow_cast {tol : ℝ} (h0 : 0 < tol) (h1 : tol ≤ 1) {angles : ℕ → ℕ → ℝ}
    {k : ℕ → ℕ → ℕ} {m : ℕ} (ha : ∀ i < m, ∀ j < m, angles i j = k i j) (t : List ℕ)
    (ht : t.length ≤ m) (hs : t.Pairwise (· ≤ ·)) {i : ℕ} (hi : i < m) :
    closeSorted (angleRow angles t.length i) (t.map fun n : ℕ => (n : ℝ)) tol =
      decide (((List.range t.length).map fun j => k i j).Perm t) := by
  have e : angleRow angles t.length i =
      ((List.range t.length).map fun j => k i j).map fun n : ℕ => (n : ℝ) := by
    unfold angleRow
    rw [List.map_map]
    apply List.map_congr_left
    intro j hj
    exact ha i hi j (by simp at hj; omega)
  rw [e, closeSorted_cast h0 h1 _ _ (by simp) hs]

/-- The vectors of the axes whose angles with the others are those of the list. -/
def goodRows (b : (Fin 3 → ℤ) → (Fin 3 → ℤ) → ℤ) (l : List (Fin 3 → ℤ)) (t : List ℕ) (good : Bool) :
    List (Fin 3 → ℤ) :=
  ((l.take t.length).zipIdx.filter fun p =>
    decide (((List.range t.length).map fun j => codes b l p.2 j).Perm t) == good).map
      fun p => halveAxis p.1

theorem goodRows_eq {c : Cell ℝ} {b : (Fin 3 → ℤ) → (Fin 3 → ℤ) → ℤ} {l : List (Fin 3 → ℤ)}
    (h : Angles c b l) {tol : ℝ} (h0 : 0 < tol) (h1 : tol ≤ 1) (t : List ℕ)
    (ht : t.length ≤ l.length) (hs : t.Pairwise (· ≤ ·)) (good : Bool) :
    (((l.map fun u => { exactAxis c u with U := halveAxis u }).take t.length).zipIdx.filter
      fun p => closeSorted (angleRow (angleMatrix
        (l.map fun u => { exactAxis c u with U := halveAxis u })) t.length p.2)
          (t.map fun n : ℕ => (n : ℝ)) tol == good).map (fun p => p.1.U) =
      goodRows b l t good := by
  unfold goodRows
  rw [← List.map_take, List.zipIdx_map, List.filter_map, List.map_map]
  have : ∀ p ∈ (l.take t.length).zipIdx,
      ((fun p : LAxis × ℕ => closeSorted (angleRow (angleMatrix
        (l.map fun u => { exactAxis c u with U := halveAxis u })) t.length p.2)
          (t.map fun n : ℕ => (n : ℝ)) tol == good) ∘
        Prod.map (fun u => ({ exactAxis c u with U := halveAxis u } : LAxis)) id) p =
      (decide (((List.range t.length).map fun j => codes b l p.2 j).Perm t) == good) := by
    intro p hp
    have hlt : p.2 < l.length := by
      obtain ⟨_, h2, _⟩ := List.mem_zipIdx hp
      simp only [List.length_take, zero_add] at h2
      omega
    simp only [Function.comp, Prod.map_snd, id]
    rw [angleRow_cast h0 h1 (fun i hi j hj => angleMatrix_codes h hi hj) t ht hs hlt]
  rw [List.filter_congr this]
  rfl

/-- The axes along the vectors of the list. -/
noncomputable def exactAxes (c : Cell ℝ) (l : List (Fin 3 → ℤ)) : List LAxis :=
  l.map fun u => { exactAxis c u with U := halveAxis u }

/-- The angles of the cubic axes. -/
def cubCodes : List (List ℕ) :=
  List.replicate 3 [0, 45, 45, 45, 45, 90, 90, 90, 90] ++
    List.replicate 6 [0, 45, 45, 60, 60, 60, 60, 90, 90]

/-- The angles of the hexagonal axes. -/
def hexCodes : List (List ℕ) :=
  [0, 90, 90, 90, 90, 90, 90] :: List.replicate 6 [0, 30, 30, 60, 60, 90, 90]

/-- The angles of the tetragonal axes. -/
def tetCodes : List (List ℕ) := [0, 90, 90, 90, 90] :: List.replicate 4 [0, 45, 45, 90, 90]

section
variable {c : Cell ℝ} {b : (Fin 3 → ℤ) → (Fin 3 → ℤ) → ℤ} {l : List (Fin 3 → ℤ)} {tol : ℝ}

theorem exactAxes_length : (exactAxes c l).length = l.length := by simp [exactAxes]

theorem exact_match (h : Angles c b l) (h0 : 0 < tol) (h1 : tol ≤ 1) (t : List (List ℕ))
    (ht : t.length ≤ l.length) (hl : t.flatten.length = t.length * t.length) :
    matchesTarget (angleMatrix (exactAxes c l)) (castRows t) tol =
      decide ((flatCodes (codes b l) t.length).Perm t.flatten) :=
  matchesTarget_cast h0 h1 (fun _ hi _ hj => angleMatrix_codes h hi hj) t ht hl

theorem classify_cub (h : Angles c b l) (h0 : 0 < tol) (h1 : tol ≤ 1) (hlen : 9 ≤ l.length)
    (hm : (flatCodes (codes b l) 9).Perm cubCodes.flatten) {r : String} {d : ℤ}
    (hd : absDet (goodRows b l [0, 45, 45, 45, 45, 90, 90, 90, 90] true) = .ok d)
    (hr : cubName d = .ok r) :
    classifyAxes c tol (angleMatrix (exactAxes c l)) (exactAxes c l) = .ok r := by
  have e : cubTarget = castRows cubCodes := by
    simp [cubTarget, castRows, cubCodes, List.replicate]
  have hmt := exact_match h h0 h1 cubCodes (by simpa [cubCodes] using hlen) (by decide)
  have hc : checkCub (angleMatrix (exactAxes c l)) (exactAxes c l) tol = .ok (some r) := by
    unfold checkCub
    rw [if_pos (by rw [exactAxes_length]; exact hlen), e, hmt]
    rw [if_pos (by rw [decide_eq_true_eq]; exact hm)]
    have := goodRows_eq h h0 h1 [0, 45, 45, 45, 45, 90, 90, 90, 90] hlen (by decide) true
    simp only [beq_true, List.map_cons, List.map_nil, Nat.cast_zero, Nat.cast_ofNat,
      List.length_cons, List.length_nil, Nat.reduceAdd] at this
    unfold exactAxes
    rw [this]
    simp only [hd, hr, bind, Except.bind, pure, Except.pure]
  unfold classifyAxes
  rw [hc]
  rfl

theorem checkCub_short (angles : ℕ → ℕ → ℝ) {axes : List LAxis} (h : axes.length < 9) :
    checkCub angles axes tol = .ok none := by
  unfold checkCub
  rw [if_neg (by omega)]

theorem checkHex_short (angles : ℕ → ℕ → ℝ) {axes : List LAxis} (h : axes.length < 7) :
    checkHex angles axes tol = none := by
  unfold checkHex
  rw [if_neg (by omega)]

theorem checkTet_short (angles : ℕ → ℕ → ℝ) {axes : List LAxis} (h : axes.length < 5) :
    checkTet angles axes tol c = .ok none := by
  unfold checkTet
  rw [if_neg (by omega)]

theorem classify_hex (h : Angles c b l) (h0 : 0 < tol) (h1 : tol ≤ 1) (hlen : l.length = 7)
    (hm : (flatCodes (codes b l) 7).Perm hexCodes.flatten) :
    classifyAxes c tol (angleMatrix (exactAxes c l)) (exactAxes c l) = .ok "HEX" := by
  have e : hexTarget = castRows hexCodes := by
    simp [hexTarget, castRows, hexCodes, List.replicate]
  have hmt := exact_match h h0 h1 hexCodes (by simp [hexCodes, hlen]) (by decide)
  have hlen' : (exactAxes c l).length = 7 := by rw [exactAxes_length, hlen]
  have hc : checkHex (angleMatrix (exactAxes c l)) (exactAxes c l) tol = some "HEX" := by
    unfold checkHex
    rw [e, hmt, if_pos]
    exact ⟨by omega, by rw [decide_eq_true_eq]; exact hm⟩
  unfold classifyAxes
  rw [checkCub_short _ (by omega), hc]
  rfl

theorem classify_rhl (h : Angles c b l) (h0 : 0 < tol) (h1 : tol ≤ 1) (hlen : l.length = 3)
    (hm : (flatCodes (codes b l) 3).Perm [0, 60, 60, 0, 60, 60, 0, 60, 60]) :
    classifyAxes c tol (angleMatrix (exactAxes c l)) (exactAxes c l) = .ok "RHL" := by
  have e : rhlTarget = castRows (List.replicate 3 [0, 60, 60]) := by
    simp [rhlTarget, castRows, List.replicate]
  have hmt := exact_match h h0 h1 (List.replicate 3 [0, 60, 60]) (by simp [hlen]) (by decide)
  have hlen' : (exactAxes c l).length = 3 := by rw [exactAxes_length, hlen]
  have hc : checkRhl (angleMatrix (exactAxes c l)) (exactAxes c l) tol = some "RHL" := by
    unfold checkRhl
    rw [e, hmt, if_pos]
    exact ⟨by omega, by rw [decide_eq_true_eq]; exact hm⟩
  unfold classifyAxes
  rw [checkCub_short _ (by omega), checkHex_short _ (by omega), checkTet_short _ (by omega), hc]
  rfl

theorem classify_orc (h : Angles c b l) (h0 : 0 < tol) (h1 : tol ≤ 1) (hlen : l.length = 3)
    (hm : (flatCodes (codes b l) 3).Perm [0, 90, 90, 0, 90, 90, 0, 90, 90]) {r : String} {d : ℤ}
    (hd : absDet (l.map halveAxis) = .ok d) (hr : orcName d (sumRows (l.map halveAxis)) = .ok r) :
    classifyAxes c tol (angleMatrix (exactAxes c l)) (exactAxes c l) = .ok r := by
  have e : rhlTarget = castRows (List.replicate 3 [0, 60, 60]) := by
    simp [rhlTarget, castRows, List.replicate]
  have e' : orcTarget = castRows (List.replicate 3 [0, 90, 90]) := by
    simp [orcTarget, castRows, List.replicate]
  have hmt := exact_match h h0 h1 (List.replicate 3 [0, 60, 60]) (by simp [hlen]) (by decide)
  have hmt' := exact_match h h0 h1 (List.replicate 3 [0, 90, 90]) (by simp [hlen]) (by decide)
  have hlen' : (exactAxes c l).length = 3 := by rw [exactAxes_length, hlen]
  have hn : checkRhl (angleMatrix (exactAxes c l)) (exactAxes c l) tol = none := by
    unfold checkRhl
    rw [e, hmt, if_neg]
    rintro ⟨-, g⟩
    rw [decide_eq_true_eq] at g
    exact absurd (hm.symm.trans g) (by decide)
  have hc : checkOrc (angleMatrix (exactAxes c l)) (exactAxes c l) tol = .ok (some r) := by
    unfold checkOrc
    rw [if_pos (by omega), e', hmt', if_pos (by rw [decide_eq_true_eq]; exact hm)]
    have e3 : ((exactAxes c l).take 3).map LAxis.U = l.map halveAxis := by
      rw [List.take_of_length_le (by omega)]
      unfold exactAxes
      rw [List.map_map]
      rfl
    simp only [e3, hd, hr, bind, Except.bind, pure, Except.pure]
  unfold classifyAxes
  rw [checkCub_short _ (by omega), checkHex_short _ (by omega), checkTet_short _ (by omega), hn, hc]
  rfl

theorem classify_tet (h : Angles c b l) (h0 : 0 < tol) (h1 : tol ≤ 1) (hlen : l.length = 5)
    (hm : (flatCodes (codes b l) 5).Perm tetCodes.flatten) {r : String} {d : ℤ}
    {rows xy z : List (Fin 3 → ℤ)}
    (hz : goodRows b l [0, 90, 90, 90, 90] true = z)
    (hxy : (goodRows b l [0, 90, 90, 90, 90] false).mergeSort
      (fun u v => decide (npNorm (intMat u c) ≤ npNorm (intMat v c))) = xy)
    (hrows : tetRows xy z = .ok rows)
    (hd : absDet rows = .ok d) (hr : tetName d = .ok r) :
    classifyAxes c tol (angleMatrix (exactAxes c l)) (exactAxes c l) = .ok r := by
  have e : tetTarget = castRows tetCodes := by
    simp [tetTarget, castRows, tetCodes, List.replicate]
  have hmt := exact_match h h0 h1 tetCodes (by simp [tetCodes, hlen]) (by decide)
  have hlen' : (exactAxes c l).length = 5 := by rw [exactAxes_length, hlen]
  have hc : checkTet (angleMatrix (exactAxes c l)) (exactAxes c l) tol c = .ok (some r) := by
    unfold checkTet
    rw [if_pos (by omega), e, hmt, if_pos (by rw [decide_eq_true_eq]; exact hm)]
    have g1 := goodRows_eq h h0 h1 [0, 90, 90, 90, 90] (by simp [hlen]) (by decide) true
    have g2 := goodRows_eq h h0 h1 [0, 90, 90, 90, 90] (by simp [hlen]) (by decide) false
    simp only [beq_true, beq_false, List.map_cons, List.map_nil, Nat.cast_zero, Nat.cast_ofNat,
      List.length_cons, List.length_nil, Nat.reduceAdd] at g1 g2
    simp only [exactAxes] at hxy ⊢
    rw [g1, g2, hz, hxy]
    simp only [hrows, hd, hr, bind, Except.bind, pure, Except.pure]
  unfold classifyAxes
  rw [checkCub_short _ (by omega), checkHex_short _ (by omega), hc]
  rfl

theorem worst_exact : worstDelta (exactAxes c l) = 0 := by
  cases l with
  | nil => rfl
  | cons u l =>
    apply le_antisymm
    · rw [worstDelta_le (by simp [exactAxes])]
      intro a ha
      simp only [exactAxes, List.mem_map] at ha
      obtain ⟨v, -, rfl⟩ := ha
      exact le_rfl
    · exact (worstDelta_le (l := exactAxes c (u :: l)) (by simp [exactAxes]) _).1 le_rfl
        { exactAxis c u with U := halveAxis u } (by simp [exactAxes])

end

/-- The result of the search without pseudosymmetry, in terms of the deviations. -/
theorem lepage_delta {niggli : Cell ℝ → Except Err (Cell ℝ)} {cell c r : Cell ℝ} {tol limit : ℝ}
    {noNiggli : Bool} (hc : lepageCell niggli cell noNiggli = .ok c)
    (hrc : getReciprocal c = .ok r) (hl : 0 < limit)
    (ex : (Fin 3 → ℤ) → (Fin 3 → ℤ) → Bool)
    (gap : ∀ u ∈ millerIndices 2, ∀ h ∈ millerIndices 2, |intDot u h| = 2 →
      (ex u h = true → lepageDelta (intMat u c) (intMat h r) = 0) ∧
      (ex u h = false → limit ≤ lepageDelta (intMat u c) (intMat h r)))
    {l : List (Fin 3 → ℤ)} (hL : dropU (exactPairs ex) = l) {t : String}
    (hr : classifyAxes c |tol| (angleMatrix (exactAxes c l)) (exactAxes c l) = .ok t) (fuel : ℕ) :
    lepage niggli (fuel + 1) cell tol noNiggli limit = some (.ok [t]) := by
  have ha := lepageAxes_delta hrc hl ex gap
  rw [hL] at ha
  unfold lepage
  simp only [hc, ha]
  unfold exactAxes at hr
  rw [lepageLoop, hr]
  simp only
  rw [if_neg]
  have := worst_exact (c := c) (l := l)
  unfold exactAxes at this
  rw [this, not_lt]
  exact abs_nonneg tol

/-- The result of the search without pseudosymmetry. -/
theorem lepage_exact {niggli : Cell ℝ → Except Err (Cell ℝ)} {cell c k : Cell ℝ} {tol limit : ℝ}
    {noNiggli : Bool} (hc : lepageCell niggli cell noNiggli = .ok c)
    (hk : c * c.transpose * k = 1) (hl : 0 < limit) (hl2 : limit ≤ 2)
    (ex : (Fin 3 → ℤ) → (Fin 3 → ℤ) → Bool)
    (gap : ∀ u ∈ millerIndices 2, ∀ h ∈ millerIndices 2, |intDot u h| = 2 →
      (ex u h = true → quad (c * c.transpose) u u * quad k h h = 4) ∧
      (ex u h = false → 4 + 1 / 196 ≤ quad (c * c.transpose) u u * quad k h h))
    {l : List (Fin 3 → ℤ)} (hL : dropU (exactPairs ex) = l) {r : String}
    (hr : classifyAxes c |tol| (angleMatrix (exactAxes c l)) (exactAxes c l) = .ok r) (fuel : ℕ) :
    lepage niggli (fuel + 1) cell tol noNiggli limit = some (.ok [r]) := by
  have hd : c.det ≠ 0 := by
    intro e
    have := congrArg Matrix.det hk
    rw [det_mul, det_mul, e] at this
    simp at this
  obtain ⟨rc, hrc, _⟩ := C02_dual_unique c hd
  refine lepage_delta hc hrc hl ex (fun u hu h hh huh => ?_) hL hr fuel
  obtain ⟨g1, g2⟩ := gap u hu h hh huh
  obtain ⟨d1, d2⟩ := delta_quad hrc hk huh
  exact ⟨fun e => d1 (g1 e), fun e => hl2.trans (d2 (g2 e))⟩

end Wulfric
