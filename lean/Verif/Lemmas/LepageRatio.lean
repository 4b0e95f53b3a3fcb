import Verif.Lemmas.LepageNiggli

/-! # Lattices without other axes and without pseudosymmetry -/

namespace Wulfric

open Matrix _root_.Spec

/-- The quotient of the squares of two edges is none of 1, 2, 3, 4 and their inverses. -/
def Incommensurable (X Y : ℝ) : Prop := ∀ n : ℕ, n ≤ 4 → X ≠ n * Y ∧ Y ≠ n * X

theorem half_edge {m n : Matrix (Fin 3) (Fin 3) ℤ} (h : n * m = 2) (e : Cell ℝ) (i : Fin 3) :
    e i ∈ latticePoints (halfCell m e) := by
  refine ⟨n i, ?_⟩
  have hv := half_vec m e (n i)
  have hp : pairU m (n i) = fun k => if i = k then 2 else 0 := by
    funext k
    have := congrFun (congrFun h i) k
    rw [Matrix.mul_apply, Fin.sum_univ_three, Matrix.ofNat_apply] at this
    unfold pairU
    rw [this]
    split <;> rfl
  rw [hp] at hv
  change e i = latticeVec (halfCell m e) (n i)
  rw [hv]
  funext j
  fin_cases i <;> simp [Fin.sum_univ_three]

/-- What a twofold axis of the lattice implies. -/
theorem axis_quotients {e : Cell ℝ} {l : Fin 3 → ℝ} (hb : Box e l)
    {m n : Matrix (Fin 3) (Fin 3) ℤ} (hnm : n * m = 2) {u : Fin 3 → ℤ}
    (hu : TwofoldAxis (halfCell m e) (latticeVec (halfCell m e) u)) (i k : Fin 3) :
    ∃ q : ℤ, (q : ℝ) * ((pairU m u 0 : ℝ) ^ 2 * l 0 ^ 2 + (pairU m u 1 : ℝ) ^ 2 * l 1 ^ 2 +
      (pairU m u 2 : ℝ) ^ 2 * l 2 ^ 2) = 4 * pairU m u i * pairU m u k * l i ^ 2 := by
  obtain ⟨hne, ht⟩ := hu
  obtain ⟨v, hv⟩ := ht _ (half_edge hnm e i)
  have hv : halfTurn (latticeVec (halfCell m e) u) (e i) = latticeVec (halfCell m e) v := hv
  rw [half_vec] at hv hne
  rw [half_vec] at hv
  set d : Fin 3 → ℝ := fun j => ∑ k, (pairU m u k : ℝ) / 2 * e k j with hd
  have dd : dot d d = ((pairU m u 0 : ℝ) ^ 2 * l 0 ^ 2 + (pairU m u 1 : ℝ) ^ 2 * l 1 ^ 2 +
      (pairU m u 2 : ℝ) ^ 2 * l 2 ^ 2) / 4 := by
    rw [hd, hb.lin]; ring
  have row : ∀ k, e k = fun j => ∑ t, (if t = k then (1 : ℝ) else 0) * e t j := by
    intro k; funext j
    fin_cases k <;> simp
  have de : ∀ k, dot (e k) d = pairU m u k / 2 * l k ^ 2 := by
    intro k
    rw [hd, row k, hb.lin]
    fin_cases k <;> simp
  have hdd : 0 < dot d d := vdot_self_pos hne
  have eq := congrArg (dot (e k)) hv
  have l1 : dot (e k) (halfTurn d (e i)) = 2 * (dot (e i) d / dot d d) * dot (e k) d - dot (e k) (e i) := by
    simp only [halfTurn, dot]; ring
  have l2 : dot (e k) (fun j => ∑ t, (pairU m v t : ℝ) / 2 * e t j) = pairU m v k / 2 * l k ^ 2 := by
    rw [row k, hb.lin]
    fin_cases k <;> simp
  rw [l1, l2, de, de] at eq
  have lk : l k ^ 2 ≠ 0 := pow_ne_zero 2 (hb.pos k).ne'
  have ek : dot (e k) (e i) = (if k = i then (1 : ℝ) else 0) * l k ^ 2 := by
    split
    · rename_i h; subst h; rw [hb.self, one_mul]
    · rename_i h; rw [hb.perp _ _ h, zero_mul]
  rw [ek] at eq
  refine ⟨pairU m v k + 2 * (if k = i then 1 else 0), ?_⟩
  have e4 : (pairU m u 0 : ℝ) ^ 2 * l 0 ^ 2 + (pairU m u 1 : ℝ) ^ 2 * l 1 ^ 2 +
      (pairU m u 2 : ℝ) ^ 2 * l 2 ^ 2 = 4 * dot d d := by rw [dd]; ring
  rw [e4]
  have h1 : 2 * (pairU m u i / 2 * l i ^ 2 / dot d d) * (pairU m u k / 2) -
      (if k = i then (1 : ℝ) else 0) = pairU m v k / 2 := by
    apply mul_right_cancel₀ lk
    linarith
  have h2 : (pairU m v k : ℝ) + 2 * (if k = i then 1 else 0) =
      (pairU m u i : ℝ) * l i ^ 2 * pairU m u k / dot d d := by
    field_simp at h1 ⊢
    linarith
  push_cast
  rw [h2]
  field_simp

/-- The combinatorial core: which integers are possible. -/
theorem quotients_core {U V Q X Y p q a b : ℝ} (hQ : 0 < Q)
    (hp : p * Q = 4 * U * U * X) (hq : q * Q = 4 * V * V * Y) (ha : a * Q = 4 * U * V * X)
    (hb : b * Q = 4 * V * U * Y) : a * b = p * q ∧ a * Y = b * X := by
  have Q0 := hQ.ne'
  constructor
  · apply mul_right_cancel₀ (mul_ne_zero Q0 Q0)
    linear_combination (b * Q) * ha + (4 * U * V * X) * hb - (q * Q) * hp - (4 * U * U * X) * hq
  · apply mul_right_cancel₀ Q0
    linear_combination Y * ha - X * hb

/-- Two components with incommensurable edges are not both there. -/
theorem quotients_excl {U V Q X Y : ℝ} {p q a b : ℤ} (hX : 0 < X) (hY : 0 < Y) (hQ : 0 < Q)
    (hp : p * Q = 4 * U * U * X) (hq : q * Q = 4 * V * V * Y) (ha : a * Q = 4 * U * V * X)
    (hb : b * Q = 4 * V * U * Y) (hs : p + q ≤ 4) (hi : Incommensurable X Y) : U = 0 ∨ V = 0 := by
  by_contra hne
  push Not at hne
  obtain ⟨hU, hV⟩ := hne
  obtain ⟨h1, h2⟩ := quotients_core hQ hp hq ha hb
  have hpp : 0 < p := by
    have : (0 : ℝ) < p * Q := by rw [hp]; have := mul_self_pos.2 hU; nlinarith
    exact_mod_cast pos_of_mul_pos_left this hQ.le
  have hqq : 0 < q := by
    have : (0 : ℝ) < q * Q := by rw [hq]; have := mul_self_pos.2 hV; nlinarith
    exact_mod_cast pos_of_mul_pos_left this hQ.le
  have h1' : a * b = p * q := by exact_mod_cast h1
  have ub : p * q ≤ 4 := by nlinarith [sq_nonneg (p - q)]
  have key : ∀ a b : ℤ, 0 < a → 0 < b → a * b ≤ 4 → (a : ℝ) * Y = b * X → a * b ≠ p * q ∨ False := by
    intro a b ha hb hab he
    exfalso
    have ha4 : a ≤ 4 := by nlinarith
    have hb4 : b ≤ 4 := by nlinarith
    have g1 := hi 1 (by norm_num)
    have g2 := hi 2 (by norm_num)
    have g3 := hi 3 (by norm_num)
    have g4 := hi 4 (by norm_num)
    push_cast at g1 g2 g3 g4
    interval_cases a <;> interval_cases b <;> first
      | (norm_num at hab; done)
      | (push_cast at he
         first
           | exact g1.1 (by linarith)
           | exact g2.1 (by linarith)
           | exact g3.1 (by linarith)
           | exact g4.1 (by linarith)
           | exact g2.2 (by linarith)
           | exact g3.2 (by linarith)
           | exact g4.2 (by linarith))
  have hab : 0 < a * b := by rw [h1']; exact mul_pos hpp hqq
  rcases lt_trichotomy a 0 with g | g | g
  · have hb0 : b < 0 := by nlinarith
    have := key (-a) (-b) (by omega) (by omega) (by rw [neg_mul_neg, h1']; exact ub)
      (by push_cast; linarith)
    rcases this with t | t
    · exact t (by rw [neg_mul_neg, h1'])
    · exact t
  · rw [g, zero_mul] at hab; exact absurd hab (lt_irrefl _)
  · have hb0 : 0 < b := by nlinarith
    rcases key a b g hb0 (by rw [h1']; exact ub) h2 with t | t
    · exact t h1'
    · exact t

/-- The axes of a lattice with incommensurable edges are along the edges. -/
theorem axes_of_ratio {e : Cell ℝ} {l : Fin 3 → ℝ} (hb : Box e l)
    {m n : Matrix (Fin 3) (Fin 3) ℤ} (hnm : n * m = 2) (h02 : Incommensurable (l 0 ^ 2) (l 2 ^ 2))
    (h12 : Incommensurable (l 1 ^ 2) (l 2 ^ 2)) {x : Bool}
    (h01 : x = false → Incommensurable (l 0 ^ 2) (l 1 ^ 2)) (hx : x = true → l 0 = l 1) :
    AxesAlong (halfCell m e) (boxAxes x e) := by
  rintro y ⟨u, rfl⟩ ht
  have ht : TwofoldAxis (halfCell m e) (latticeVec (halfCell m e) u) := ht
  have hq := axis_quotients hb hnm ht
  have hne := ht.1
  rw [half_vec] at hne
  change ∃ d ∈ boxAxes x e, SameLine (latticeVec (halfCell m e) u) d
  rw [half_vec]
  generalize pairU m u = U at *
  choose q hq using hq
  have p0 : 0 < l 0 ^ 2 := by have := hb.pos 0; positivity
  have p1 : 0 < l 1 ^ 2 := by have := hb.pos 1; positivity
  have p2 : 0 < l 2 ^ 2 := by have := hb.pos 2; positivity
  set Q : ℝ := (U 0 : ℝ) ^ 2 * l 0 ^ 2 + (U 1 : ℝ) ^ 2 * l 1 ^ 2 + (U 2 : ℝ) ^ 2 * l 2 ^ 2 with hQd
  have hQ : 0 < Q := by
    have := vdot_self_pos hne
    rw [hb.lin] at this
    rw [hQd]; linarith
  have nonneg : ∀ i, 0 ≤ q i i := by
    intro i
    have h := hq i i
    have : (0 : ℝ) ≤ q i i * Q := by
      rw [h]
      have := hb.pos i
      have := mul_self_nonneg (U i : ℝ)
      have h2 := sq_nonneg (l i)
      have := mul_nonneg this h2
      linarith
    exact_mod_cast nonneg_of_mul_nonneg_left this hQ
  have sum : q 0 0 + q 1 1 + q 2 2 = 4 := by
    have a := hq 0 0
    have b := hq 1 1
    have c := hq 2 2
    have : ((q 0 0 : ℝ) + q 1 1 + q 2 2) * Q = 4 * Q := by
      rw [hQd] at *
      linarith
    have := mul_right_cancel₀ hQ.ne' this
    exact_mod_cast this
  have n0 := nonneg 0
  have n1 := nonneg 1
  have n2 := nonneg 2
  have c02 := quotients_excl p0 p2 hQ (hq 0 0) (hq 2 2) (hq 0 2) (hq 2 0) (by omega) h02
  have c12 := quotients_excl p1 p2 hQ (hq 1 1) (hq 2 2) (hq 1 2) (hq 2 1) (by omega) h12
  have line : ∀ (D : Fin 3 → ℝ) (t : ℝ), (∀ k, (U k : ℝ) / 2 = t * D k) →
      SameLine (fun j => ∑ k, (U k : ℝ) / 2 * e k j) (fun j => ∑ k, D k * e k j) := by
    intro D t h
    unfold SameLine
    rw [hb.lin, hb.lin, hb.lin]
    simp only [h]
    ring
  have r0 : e 0 = fun j => ∑ k, (![1, 0, 0] : Fin 3 → ℝ) k * e k j := by
    funext j; simp [Fin.sum_univ_three]
  have r1 : e 1 = fun j => ∑ k, (![0, 1, 0] : Fin 3 → ℝ) k * e k j := by
    funext j; simp [Fin.sum_univ_three]
  have r2 : e 2 = fun j => ∑ k, (![0, 0, 1] : Fin 3 → ℝ) k * e k j := by
    funext j; simp [Fin.sum_univ_three]
  have rp : e 0 + e 1 = fun j => ∑ k, (![1, 1, 0] : Fin 3 → ℝ) k * e k j := by
    funext j; simp [Fin.sum_univ_three]
  have rm : e 0 - e 1 = fun j => ∑ k, (![1, -1, 0] : Fin 3 → ℝ) k * e k j := by
    funext j; simp [Fin.sum_univ_three, sub_eq_add_neg]
  by_cases u2 : (U 2 : ℝ) = 0
  · by_cases u0 : (U 0 : ℝ) = 0
    · refine ⟨e 1, by simp [boxAxes], ?_⟩
      rw [r1]
      refine line _ (U 1 / 2) fun k => ?_
      fin_cases k <;> simp [u0, u2]
    by_cases u1 : (U 1 : ℝ) = 0
    · refine ⟨e 0, by simp [boxAxes], ?_⟩
      rw [r0]
      refine line _ (U 0 / 2) fun k => ?_
      fin_cases k <;> simp [u1, u2]
    cases x
    · exfalso
      rcases quotients_excl p0 p1 hQ (hq 0 0) (hq 1 1) (hq 0 1) (hq 1 0) (by omega) (h01 rfl) with g | g
      · exact u0 g
      · exact u1 g
    have hl := hx rfl
    have z2 : q 2 2 = 0 := by
      have h := hq 2 2
      rw [u2, mul_zero, zero_mul] at h
      exact_mod_cast (mul_eq_zero.1 h).resolve_right hQ.ne'
    obtain ⟨k1, k2⟩ := quotients_core hQ (hq 0 0) (hq 1 1) (hq 0 1) (hq 1 0)
    have hab : q 0 1 = q 1 0 := by
      rw [hl] at k2
      exact_mod_cast mul_right_cancel₀ p1.ne' k2
    have k1' : q 0 1 * q 1 0 = q 0 0 * q 1 1 := by exact_mod_cast k1
    have pos : ∀ i, (U i : ℝ) ≠ 0 → 0 < q i i := by
      intro i hi
      refine lt_of_le_of_ne (nonneg i) fun h => ?_
      have h' := hq i i
      rw [← h, Int.cast_zero, zero_mul] at h'
      have hl := hb.pos i
      have : (0 : ℝ) < 4 * U i * U i * l i ^ 2 := by
        have := mul_self_pos.2 hi
        have h3 := mul_pos this (pow_pos hl 2)
        linarith
      linarith
    have q0 := pos 0 u0
    have q1 := pos 1 u1
    have e0 : q 0 0 = 2 := by
      rw [← hab] at k1'
      have : q 0 0 ≤ 3 := by omega
      have b1 : q 0 1 ≤ 2 := by nlinarith
      have b2 : -2 ≤ q 0 1 := by nlinarith
      have s1 : q 1 1 = 4 - q 0 0 := by omega
      rw [s1] at k1'
      interval_cases hh : q 0 0
      · exfalso; interval_cases g : q 0 1 <;> omega
      · rfl
      · exfalso; interval_cases g : q 0 1 <;> omega
    have e1 : q 1 1 = 2 := by omega
    have hsq : (U 0 : ℝ) ^ 2 = (U 1 : ℝ) ^ 2 := by
      have a := hq 0 0
      have b := hq 1 1
      rw [e0] at a
      rw [e1, ← hl] at b
      have : (U 0 : ℝ) ^ 2 * l 0 ^ 2 = (U 1 : ℝ) ^ 2 * l 0 ^ 2 := by linarith
      exact mul_right_cancel₀ p0.ne' this
    rcases sq_eq_sq_iff_eq_or_eq_neg.1 hsq with g | g
    · refine ⟨e 0 + e 1, by simp [boxAxes], ?_⟩
      rw [rp]
      refine line _ (U 0 / 2) fun k => ?_
      fin_cases k <;> simp [g, u2]
    · refine ⟨e 0 - e 1, by simp [boxAxes], ?_⟩
      rw [rm]
      refine line _ (U 0 / 2) fun k => ?_
      fin_cases k <;> simp [g, u2]
      ring
  · have u0 := c02.resolve_right u2
    have u1 := c12.resolve_right u2
    refine ⟨e 2, by simp [boxAxes], ?_⟩
    rw [r2]
    refine line _ (U 2 / 2) fun k => ?_
    fin_cases k <;> simp [u0, u1]

/-- A lattice with integer scalar products has no pseudosymmetry, when its volume is small. -/
theorem noPseudo_gram {c : Cell ℝ} {N : Matrix (Fin 3) (Fin 3) ℤ}
    (hN : c * c.transpose = N.map (Int.cast : ℤ → ℝ)) {D : ℤ} (hD : N.det = D) (hpos : 0 < D) {d : ℝ}
    (hd : Real.sin (d * (Real.pi / 180)) ^ 2 * (4 * D + 1) ≤ 1) :
    LatticeNoPseudo c d := by
  have hdetN : (N.map (Int.cast : ℤ → ℝ)).det = D := by
    rw [← hD]
    exact (RingHom.map_det (Int.castRingHom ℝ) N).symm
  have hc : c.det ≠ 0 := by
    intro h
    have := congrArg Matrix.det hN
    rw [det_mul, h, zero_mul, hdetN] at this
    have h2 : (0 : ℝ) < D := by exact_mod_cast hpos
    linarith
  obtain ⟨r, hr, hdual, _⟩ := C02_dual_unique c hc
  have hD0 : (D : ℝ) ≠ 0 := by exact_mod_cast hpos.ne'
  have hk : c * c.transpose * ((1 / (D : ℝ)) • N.adjugate.map (Int.cast : ℤ → ℝ)) = 1 := by
    rw [hN, Matrix.mul_smul, ← hdetN]
    have : N.map (Int.cast : ℤ → ℝ) * N.adjugate.map (Int.cast : ℤ → ℝ) =
        (N * N.adjugate).map (Int.cast : ℤ → ℝ) := by
      ext i j; simp [Matrix.mul_apply]
    have ent : ∀ i j, (N * N.adjugate) i j = D * (1 : Matrix (Fin 3) (Fin 3) ℤ) i j := by
      intro i j
      rw [mul_adjugate, hD, Matrix.smul_apply, smul_eq_mul]
    rw [this, hdetN]
    ext i j
    rw [Matrix.smul_apply, map_apply, ent]
    by_cases h : i = j
    · subst h
      rw [Matrix.one_apply_eq, Matrix.one_apply_eq, mul_one, smul_eq_mul]
      field_simp
    · rw [Matrix.one_apply_ne h, Matrix.one_apply_ne h, mul_zero, Int.cast_zero, smul_zero]
  rintro x ⟨u, rfl⟩ y hy hxy
  choose k hk2 using hy
  have mem : ∀ i, c i ∈ latticePoints c := by
    intro i
    refine ⟨fun t => if t = i then 1 else 0, ?_⟩
    funext j
    fin_cases i <;> simp [Fin.sum_univ_three]
  set h : Fin 3 → ℤ := fun i => k (c i) (mem i) with hh
  have hdual : ∀ i j, dot (r i) (c j) = if i = j then 2 * Real.pi else 0 := hdual
  have hyh : y = latticeVec r h := by
    have h3 : ∀ i, dot (c i) y = dot (c i) (latticeVec r h) := by
      intro i
      have e1 : dot (c i) y = 2 * Real.pi * h i := by
        rw [← hk2 (c i) (mem i)]
        simp only [dot]; ring
      have e2 : dot (c i) (latticeVec r h) =
          h 0 * dot (r 0) (c i) + h 1 * dot (r 1) (c i) + h 2 * dot (r 2) (c i) := by
        simp only [dot, latticeVec, Fin.sum_univ_three]; ring
      rw [e1, e2, hdual, hdual, hdual]
      fin_cases i <;> simp <;> ring
    have : c *ᵥ (y - latticeVec r h) = 0 := by
      funext i
      have := h3 i
      simp only [dot] at this
      simp only [mulVec, dotProduct, Fin.sum_univ_three, Pi.sub_apply, Pi.zero_apply]
      linarith
    have h4 := congrArg (fun v => c⁻¹ *ᵥ v) this
    simp only [mulVec_mulVec, mulVec_zero] at h4
    rw [nonsing_inv_mul _ (isUnit_iff_ne_zero.2 hc), one_mulVec] at h4
    exact sub_eq_zero.1 h4
  change |dot (latticeVec c u) y| = _ at hxy
  change SameLine (latticeVec c u) y ∨ AngleAtLeast d (latticeVec c u) y
  clear_value h
  subst hyh
  have hx := cross_quad hr hk u h
  rw [cross_sq, intMat_eq, intMat_eq] at hx
  have hsq : dot (latticeVec c u) (latticeVec r h) ^ 2 = 16 * Real.pi ^ 2 := by
    rw [← sq_abs, hxy]; ring
  have hdd := dual_dot hr u h
  rw [intMat_eq, intMat_eq] at hdd
  have hpi := Real.pi_pos
  have hi4 : (intDot u h : ℝ) ^ 2 = 4 := by
    rw [hdd] at hsq
    have : (4 * Real.pi ^ 2) * (intDot u h : ℝ) ^ 2 = (4 * Real.pi ^ 2) * 4 := by linarith
    exact mul_left_cancel₀ (by positivity) this
  obtain ⟨I, hI⟩ : ∃ I : ℤ, quad (c * c.transpose) u u *
      quad ((1 / (D : ℝ)) • N.adjugate.map (Int.cast : ℤ → ℝ)) h h = I / D := by
    refine ⟨(∑ i, ∑ j, u i * N i j * u j) * (∑ i, ∑ j, h i * N.adjugate i j * h j), ?_⟩
    rw [hN]
    simp only [quad, Fin.sum_univ_three, Matrix.smul_apply, map_apply, smul_eq_mul]
    push_cast
    field_simp
    try ring
  rw [hI, hi4] at hx
  have hDp : (0 : ℝ) < D := by exact_mod_cast hpos
  have nn : 0 ≤ (I : ℝ) / D - 4 := by
    have := npNorm_sq (crossProduct (latticeVec c u) (latticeVec r h))
    have h5 := cross_sq (latticeVec c u) (latticeVec r h)
    have h6 := sq_nonneg (npNorm (crossProduct (latticeVec c u) (latticeVec r h)))
    rw [h5, hx] at h6
    exact nonneg_of_mul_nonneg_right h6 (by positivity)
  have nI : 4 * D ≤ I := by
    have : (4 : ℝ) * D ≤ I := by
      have h7 : (4 : ℝ) ≤ I / D := by linarith
      rwa [le_div_iff₀ hDp] at h7
    exact_mod_cast this
  rcases eq_or_lt_of_le nI with g | g
  · left
    unfold SameLine
    have : (I : ℝ) / D = 4 := by
      rw [← g]; push_cast; field_simp
    rw [this] at hx
    linarith
  · right
    unfold AngleAtLeast
    have h8 : (4 : ℝ) * D + 1 ≤ I := by exact_mod_cast g
    have h9 : (4 * D + 1) / (D : ℝ) ≤ I / D := by gcongr
    have hxy2 : dot (latticeVec c u) (latticeVec c u) * dot (latticeVec r h) (latticeVec r h) =
        (2 * Real.pi) ^ 2 * (I / D) := by
      linarith
    have hcos := Real.sin_sq_add_cos_sq (d * (Real.pi / 180))
    rw [hsq, hxy2]
    have key : 4 ≤ Real.cos (d * (Real.pi / 180)) ^ 2 * ((I : ℝ) / D) := by
      have c0 := sq_nonneg (Real.cos (d * (Real.pi / 180)))
      have a1 := mul_le_mul_of_nonneg_left h9 c0
      refine le_trans ?_ a1
      rw [mul_div_assoc', le_div_iff₀ hDp]
      have : Real.cos (d * (Real.pi / 180)) ^ 2 = 1 - Real.sin (d * (Real.pi / 180)) ^ 2 := by linarith
      rw [this]
      linarith
    have h10 := mul_le_mul_of_nonneg_left key (by positivity : (0 : ℝ) ≤ (2 * Real.pi) ^ 2)
    linarith

end Wulfric
