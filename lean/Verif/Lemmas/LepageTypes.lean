import Verif.Lemmas.LepageTables

/-! # The lattice types of orthogonal lattices, by the Le Page algorithm -/

namespace Wulfric

open Matrix _root_.Spec

section

variable {niggli : Cell ℝ → Except Err (Cell ℝ)} {cell c : Cell ℝ} {tol limit : ℝ} {noNiggli : Bool}
  {l : Fin 3 → ℝ}

theorem cub_classify {m : Matrix (Fin 3) (Fin 3) ℤ} {axes : List (Fin 3 → ℤ)} (h0 : tol ≠ 0)
    (h1 : |tol| ≤ 1) (hlen : 9 ≤ axes.length)
    (hm : (flatCodes (codes (pairB m) axes) 9).Perm cubCodes.flatten) {r : String} {d : ℤ}
    (hd : absDet (goodRows (pairB m) axes [0, 45, 45, 45, 45, 90, 90, 90, 90] true) = .ok d)
    (hr : cubName d = .ok r) (h : Angles c (pairB m) axes) :
    classifyAxes c |tol| (angleMatrix (exactAxes c axes)) (exactAxes c axes) = .ok r :=
  classify_cub h (abs_pos.2 h0) h1 hlen hm hd hr

theorem terms_cub {a : ℝ} (ha : 0 < a) (t : ℕ × ℕ × ℕ × ℕ × ℕ × ℕ) :
    (exactT true true true t = true → terms (fun _ => a) t = 0) ∧
      (exactT true true true t = false → 1 / 49 ≤ terms (fun _ => a) t) := by
  obtain ⟨p, q, p', q', p'', q''⟩ := t
  have key : ∀ p q : ℕ, term a a p q = ((p : ℝ) - q) ^ 2 := by
    intro p q
    unfold term
    rw [div_self ha.ne']
    ring
  have far : ∀ p q : ℕ, p ≠ q → 1 ≤ ((p : ℝ) - q) ^ 2 := by
    intro p q h
    have := int_sq (p := (p : ℤ) - q) (by omega)
    push_cast at this
    exact this
  simp only [exactT, exactTerm, cond_true, terms, key, Bool.and_eq_true, beq_iff_eq,
    Nat.cast_inj]
  constructor
  · rintro ⟨⟨rfl, rfl⟩, rfl⟩
    ring
  · intro h
    have h : ¬ (p = q ∧ p' = q' ∧ p'' = q'') := by
      rintro ⟨rfl, rfl, rfl⟩
      simp at h
    have s1 := sq_nonneg ((p : ℝ) - q)
    have s2 := sq_nonneg ((p' : ℝ) - q')
    have s3 := sq_nonneg ((p'' : ℝ) - q'')
    by_cases e1 : p = q
    · by_cases e2 : p' = q'
      · have := far p'' q'' (fun e3 => h ⟨e1, e2, e3⟩)
        linarith
      · have := far p' q' e2
        linarith
    · have := far p q e1
      linarith

variable (hcell : lepageCell niggli cell noNiggli = .ok c) (h0 : tol ≠ 0) (h1 : |tol| ≤ 1)
  (hl0 : 0 < limit) (hl2 : limit ≤ 2)

include hcell h0 h1 hl0 hl2

theorem lepage_CUB {a : ℝ} (ha : 0 < a)
    (hc : c * c.transpose = edgeCell matP (fun _ => a) * (edgeCell matP fun _ => a).transpose)
    (fuel : ℕ) : lepage niggli (fuel + 1) cell tol noNiggli limit = some (.ok ["CUB"]) := by
  refine edge_lepage hcell hl0 hl2 mat_invP (fun _ => ha) (fun _ _ => by linarith) allowed_P
    (fun _ => rfl) (fun _ => rfl) (fun _ => rfl) (fun t _ => terms_cub ha t) hc drop_CUB
    (by decide +kernel) (cub_classify h0 h1 (by decide) (by decide +kernel) (d := 1) ?_ rfl) fuel
  have : goodRows (pairB matP) axesCUB [0, 45, 45, 45, 45, 90, 90, 90, 90] true =
      [![0, 0, 1], ![0, 1, 0], ![1, 0, 0]] := by decide +kernel
  rw [this]
  simp [absDet, det_fin_three]

theorem lepage_FCC {a : ℝ} (ha : 0 < a)
    (hc : c * c.transpose = edgeCell matF (fun _ => a) * (edgeCell matF fun _ => a).transpose)
    (fuel : ℕ) : lepage niggli (fuel + 1) cell tol noNiggli limit = some (.ok ["FCC"]) := by
  refine edge_lepage hcell hl0 hl2 mat_invF (fun _ => ha) (fun _ _ => by linarith) allowed_F
    (fun _ => rfl) (fun _ => rfl) (fun _ => rfl) (fun t _ => terms_cub ha t) hc drop_FCC
    (by decide +kernel) (cub_classify h0 h1 (by decide) (by decide +kernel) (d := 4) ?_ rfl) fuel
  have : goodRows (pairB matF) axesFCC [0, 45, 45, 45, 45, 90, 90, 90, 90] true =
      [![1, -1, -1], ![1, -1, 1], ![1, 1, -1]] := by decide +kernel
  rw [this]
  simp [absDet, det_fin_three]

theorem lepage_BCC {a : ℝ} (ha : 0 < a)
    (hc : c * c.transpose = edgeCell matI (fun _ => a) * (edgeCell matI fun _ => a).transpose)
    (fuel : ℕ) : lepage niggli (fuel + 1) cell tol noNiggli limit = some (.ok ["BCC"]) := by
  refine edge_lepage hcell hl0 hl2 mat_invI (fun _ => ha) (fun _ _ => by linarith) allowed_I
    (fun _ => rfl) (fun _ => rfl) (fun _ => rfl) (fun t _ => terms_cub ha t) hc drop_BCC
    (by decide +kernel) (cub_classify h0 h1 (by decide) (by decide +kernel) (d := 2) ?_ rfl) fuel
  have : goodRows (pairB matI) axesBCC [0, 45, 45, 45, 45, 90, 90, 90, 90] true =
      [![0, 1, 1], ![1, 0, 1], ![1, 1, 0]] := by decide +kernel
  rw [this]
  simp [absDet, det_fin_three]

/-! ### Orthorhombic lattices -/

omit hcell hl0 hl2 in
theorem orc_classify {m : Matrix (Fin 3) (Fin 3) ℤ} {axes : List (Fin 3 → ℤ)}
    (hlen : axes.length = 3)
    (hm : (flatCodes (codes (pairB m) axes) 3).Perm [0, 90, 90, 0, 90, 90, 0, 90, 90]) {r : String}
    {d : ℤ} (hd : absDet (axes.map halveAxis) = .ok d)
    (hr : orcName d (sumRows (axes.map halveAxis)) = .ok r) (h : Angles c (pairB m) axes) :
    classifyAxes c |tol| (angleMatrix (exactAxes c axes)) (exactAxes c axes) = .ok r :=
  classify_orc h (abs_pos.2 h0) h1 hlen hm hd hr

omit hcell h0 h1 hl0 hl2 in
theorem far_fwd {x y r : ℝ} (hx : 0 < x) (hy : 0 < y) (h : Away 7 r x y) :
    1 / 49 ≤ term x y 1 r := by
  have := term_far (p := 1) (q := r) (k := 7) hx hy (by norm_num) (by rw [one_mul]; exact h)
  norm_num at this ⊢
  exact this

omit hcell h0 h1 hl0 hl2 in
theorem far_bwd {x y r : ℝ} (hx : 0 < x) (hy : 0 < y) (h : Away 7 r x y) :
    1 / 49 ≤ term y x r 1 := by
  have := far_fwd hx hy h
  unfold term at this ⊢
  calc _ ≤ _ := this
    _ = _ := by ring

omit hcell h0 h1 hl0 hl2 in
theorem far_two {x y : ℝ} (hx : 0 < x) (hy : 0 < y) (h : Away 14 1 x y) :
    1 / 49 ≤ term x y 2 2 := by
  have := term_far (p := 2) (q := 2) (k := 7) hx hy (by norm_num) (by
    have e : 2 * x ^ 2 - 2 * y ^ 2 = 2 * (x ^ 2 - 1 * y ^ 2) := by ring
    rw [e, abs_mul, abs_two]
    unfold Away at h
    linarith)
  norm_num at this ⊢
  exact this

theorem lepage_ORC (hl : ∀ i, 0 < l i) (hr : ∀ i j, l i ≤ 7 * l j)
    (hf : ∀ i j, i ≠ j → Away 14 1 (l i) (l j))
    (hc : c * c.transpose = edgeCell matP l * (edgeCell matP l).transpose)
    (fuel : ℕ) : lepage niggli (fuel + 1) cell tol noNiggli limit = some (.ok ["ORC"]) := by
  refine edge_lepage hcell hl0 hl2 mat_invP hl hr allowed_P (x := false) (y := false) (z := false)
    (by simp) (by simp) (by simp) ?_ hc drop_ORC
    (by decide +kernel) (orc_classify h0 h1 (by decide) (by decide +kernel) (d := 1) ?_ (by decide +kernel)) fuel
  · intro t ht
    have g01 := far_two (hl 0) (hl 1) (hf 0 1 (by decide))
    have g02 := far_two (hl 0) (hl 2) (hf 0 2 (by decide))
    have g12 := far_two (hl 1) (hl 2) (hf 1 2 (by decide))
    simp only [tsP, List.mem_cons, List.not_mem_nil, or_false] at ht
    rcases ht with rfl | rfl | rfl | rfl
    · exact ⟨fun _ => by simp [terms, term_zeros], fun h => absurd h (by decide)⟩
    all_goals refine ⟨fun h => absurd h (by decide), fun _ => ?_⟩
    all_goals simp only [terms, Nat.cast_zero, term_zeros, Nat.cast_one, Nat.cast_ofNat]
    all_goals linarith
  · have : axesORC.map halveAxis = [![0, 0, 1], ![0, 1, 0], ![1, 0, 0]] := by decide +kernel
    rw [this]
    simp [absDet, det_fin_three]

theorem lepage_ORCF (hl : ∀ i, 0 < l i) (hr : ∀ i j, l i ≤ 7 * l j)
    (hf : ∀ i j, i ≠ j → Away 14 1 (l i) (l j))
    (hg : ∀ i j k, i ≠ j → i ≠ k → j ≠ k → Away 7 1 (l i) (l j) ∨ Away 7 2 (l i) (l k) ∨
      Away 7 2 (l j) (l k))
    (hc : c * c.transpose = edgeCell matF l * (edgeCell matF l).transpose)
    (fuel : ℕ) : lepage niggli (fuel + 1) cell tol noNiggli limit = some (.ok ["ORCF"]) := by
  refine edge_lepage hcell hl0 hl2 mat_invF hl hr allowed_F (x := false) (y := false) (z := false)
    (by simp) (by simp) (by simp) ?_ hc drop_ORCF
    (by decide +kernel) (orc_classify h0 h1 (by decide) (by decide +kernel) (d := 4) ?_ (by decide +kernel)) fuel
  · intro t ht
    have g01 := far_two (hl 0) (hl 1) (hf 0 1 (by decide))
    have g02 := far_two (hl 0) (hl 2) (hf 0 2 (by decide))
    have g12 := far_two (hl 1) (hl 2) (hf 1 2 (by decide))
    simp only [tsF, List.mem_cons, List.not_mem_nil, or_false] at ht
    rcases ht with rfl | rfl | rfl | rfl | rfl | rfl | rfl
    · exact ⟨fun _ => by simp [terms, term_zeros], fun h => absurd h (by decide)⟩
    all_goals refine ⟨fun h => absurd h (by decide), fun _ => ?_⟩
    all_goals simp only [terms, Nat.cast_zero, term_zeros, Nat.cast_one, Nat.cast_ofNat]
    · linarith
    · linarith
    · linarith
    · have p0 := term_nonneg (l 0) (l 1) 1 1
      have p1 := term_nonneg (l 0) (l 2) 1 2
      have p2 := term_nonneg (l 1) (l 2) 1 2
      rcases hg 0 1 2 (by decide) (by decide) (by decide) with h | h | h
      · have := far_fwd (hl 0) (hl 1) h
        norm_num at this
        linarith
      · have := far_fwd (hl 0) (hl 2) h
        norm_num at this
        linarith
      · have := far_fwd (hl 1) (hl 2) h
        norm_num at this
        linarith
    · have p0 := term_nonneg (l 0) (l 1) 1 2
      have p1 := term_nonneg (l 0) (l 2) 1 1
      have p2 := term_nonneg (l 1) (l 2) 2 1
      rcases hg 0 2 1 (by decide) (by decide) (by decide) with h | h | h
      · have := far_fwd (hl 0) (hl 2) h
        norm_num at this
        linarith
      · have := far_fwd (hl 0) (hl 1) h
        norm_num at this
        linarith
      · have := far_bwd (hl 2) (hl 1) h
        norm_num at this
        linarith
    · have p0 := term_nonneg (l 0) (l 1) 2 1
      have p1 := term_nonneg (l 0) (l 2) 2 1
      have p2 := term_nonneg (l 1) (l 2) 1 1
      rcases hg 1 2 0 (by decide) (by decide) (by decide) with h | h | h
      · have := far_fwd (hl 1) (hl 2) h
        norm_num at this
        linarith
      · have := far_bwd (hl 1) (hl 0) h
        norm_num at this
        linarith
      · have := far_bwd (hl 2) (hl 0) h
        norm_num at this
        linarith
  · have : axesORCF.map halveAxis = [![1, -1, -1], ![1, -1, 1], ![1, 1, -1]] := by decide +kernel
    rw [this]
    simp [absDet, det_fin_three]

theorem lepage_ORCI (hl : ∀ i, 0 < l i) (hr : ∀ i j, l i ≤ 7 * l j)
    (hf : ∀ i j, i ≠ j → Away 14 1 (l i) (l j))
    (hg : ∀ i j k, i ≠ j → i ≠ k → j ≠ k → Away 7 1 (l i) (l j) ∨ Away 7 2 (l k) (l i) ∨
      Away 7 2 (l k) (l j))
    (hc : c * c.transpose = edgeCell matI l * (edgeCell matI l).transpose)
    (fuel : ℕ) : lepage niggli (fuel + 1) cell tol noNiggli limit = some (.ok ["ORCI"]) := by
  refine edge_lepage hcell hl0 hl2 mat_invI hl hr allowed_I (x := false) (y := false) (z := false)
    (by simp) (by simp) (by simp) ?_ hc drop_ORCI
    (by decide +kernel) (orc_classify h0 h1 (by decide) (by decide +kernel) (d := 2) ?_ (by decide +kernel)) fuel
  · intro t ht
    have g01 := far_two (hl 0) (hl 1) (hf 0 1 (by decide))
    have g02 := far_two (hl 0) (hl 2) (hf 0 2 (by decide))
    have g12 := far_two (hl 1) (hl 2) (hf 1 2 (by decide))
    simp only [tsI, List.mem_cons, List.not_mem_nil, or_false] at ht
    rcases ht with rfl | rfl | rfl | rfl | rfl | rfl | rfl
    · exact ⟨fun _ => by simp [terms, term_zeros], fun h => absurd h (by decide)⟩
    all_goals refine ⟨fun h => absurd h (by decide), fun _ => ?_⟩
    all_goals simp only [terms, Nat.cast_zero, term_zeros, Nat.cast_one, Nat.cast_ofNat]
    · linarith
    · linarith
    · linarith
    · have p0 := term_nonneg (l 0) (l 1) 1 1
      have p1 := term_nonneg (l 0) (l 2) 2 1
      have p2 := term_nonneg (l 1) (l 2) 2 1
      rcases hg 0 1 2 (by decide) (by decide) (by decide) with h | h | h
      · have := far_fwd (hl 0) (hl 1) h
        norm_num at this
        linarith
      · have := far_bwd (hl 2) (hl 0) h
        norm_num at this
        linarith
      · have := far_bwd (hl 2) (hl 1) h
        norm_num at this
        linarith
    · have p0 := term_nonneg (l 0) (l 1) 2 1
      have p1 := term_nonneg (l 0) (l 2) 1 1
      have p2 := term_nonneg (l 1) (l 2) 1 2
      rcases hg 0 2 1 (by decide) (by decide) (by decide) with h | h | h
      · have := far_fwd (hl 0) (hl 2) h
        norm_num at this
        linarith
      · have := far_bwd (hl 1) (hl 0) h
        norm_num at this
        linarith
      · have := far_fwd (hl 1) (hl 2) h
        norm_num at this
        linarith
    · have p0 := term_nonneg (l 0) (l 1) 1 2
      have p1 := term_nonneg (l 0) (l 2) 1 2
      have p2 := term_nonneg (l 1) (l 2) 1 1
      rcases hg 1 2 0 (by decide) (by decide) (by decide) with h | h | h
      · have := far_fwd (hl 1) (hl 2) h
        norm_num at this
        linarith
      · have := far_fwd (hl 0) (hl 1) h
        norm_num at this
        linarith
      · have := far_fwd (hl 0) (hl 2) h
        norm_num at this
        linarith
  · have : axesORCI.map halveAxis = [![0, 1, 1], ![1, 0, 1], ![1, 1, 0]] := by decide +kernel
    rw [this]
    simp [absDet, det_fin_three]

theorem lepage_ORCC (hl : ∀ i, 0 < l i) (hr : ∀ i j, l i ≤ 7 * l j)
    (hf : Away 14 1 (l 0) (l 1)) (h3 : Away 7 3 (l 0) (l 1)) (h3' : Away 7 3 (l 1) (l 0))
    (hg : Away 7 1 (l 0) (l 1) ∨ Away 7 2 (l 0) (l 2) ∨ Away 7 2 (l 1) (l 2))
    (hc : c * c.transpose = edgeCell matC l * (edgeCell matC l).transpose)
    (fuel : ℕ) : lepage niggli (fuel + 1) cell tol noNiggli limit = some (.ok ["ORCC"]) := by
  refine edge_lepage hcell hl0 hl2 mat_invC hl hr allowed_C (x := false) (y := false) (z := false)
    (by simp) (by simp) (by simp) ?_ hc drop_ORCC
    (by decide +kernel) (orc_classify h0 h1 (by decide) (by decide +kernel) (d := 2) ?_ (by decide +kernel)) fuel
  · intro t ht
    have g01 := far_two (hl 0) (hl 1) hf
    have g13 := far_fwd (hl 0) (hl 1) h3
    have g31 := far_bwd (hl 1) (hl 0) h3'
    simp only [tsC, List.mem_cons, List.not_mem_nil, or_false] at ht
    rcases ht with rfl | rfl | rfl | rfl | rfl
    · exact ⟨fun _ => by simp [terms, term_zeros], fun h => absurd h (by decide)⟩
    all_goals refine ⟨fun h => absurd h (by decide), fun _ => ?_⟩
    all_goals simp only [terms, Nat.cast_zero, term_zeros, Nat.cast_one, Nat.cast_ofNat]
    · linarith
    · linarith
    · linarith
    · have p0 := term_nonneg (l 0) (l 1) 1 1
      have p1 := term_nonneg (l 0) (l 2) 1 2
      have p2 := term_nonneg (l 1) (l 2) 1 2
      rcases hg with h | h | h
      · have := far_fwd (hl 0) (hl 1) h
        norm_num at this
        linarith
      · have := far_fwd (hl 0) (hl 2) h
        norm_num at this
        linarith
      · have := far_fwd (hl 1) (hl 2) h
        norm_num at this
        linarith
  · have : axesORCC.map halveAxis = [![0, 0, 1], ![1, -1, 0], ![1, 1, 0]] := by decide +kernel
    rw [this]
    simp [absDet, det_fin_three]

/-! ### Tetragonal lattices -/

omit hcell h0 h1 hl0 hl2 in
theorem norm_le {m : Matrix (Fin 3) (Fin 3) ℤ} (hl : ∀ i, 0 < l i) (he : l 0 = l 1)
    (hc : c * c.transpose = edgeCell m l * (edgeCell m l).transpose) {u v : Fin 3 → ℤ}
    (hu : pairU m u 2 = 0) (hv : pairU m v 2 = 0) :
    decide (npNorm (intMat u c) ≤ npNorm (intMat v c)) = decide (pairB m u u ≤ pairB m v v) := by
  have key : ∀ w, pairU m w 2 = 0 → npNorm (intMat w c) = Real.sqrt (l 0 ^ 2 / 4 * pairB m w w) := by
    intro w hw
    unfold npNorm
    rw [npDot_eq_dot, dot_intMat, hc, edge_quad, ← he]
    unfold pairB
    rw [hw]
    congr 1
    push_cast
    ring
  have hp : 0 < l 0 ^ 2 / 4 := by have := hl 0; positivity
  have hb : (0 : ℝ) ≤ pairB m v v := by
    unfold pairB
    push_cast
    nlinarith [sq_nonneg (pairU m v 0 : ℝ), sq_nonneg (pairU m v 1 : ℝ),
      sq_nonneg (pairU m v 2 : ℝ)]
  congr 1
  rw [key u hu, key v hv, Real.sqrt_le_sqrt_iff (by positivity), eq_iff_iff]
  constructor
  · intro h
    have := le_of_mul_le_mul_left h hp
    exact_mod_cast this
  · intro h
    have : (pairB m u u : ℝ) ≤ pairB m v v := by exact_mod_cast h
    exact mul_le_mul_of_nonneg_left this hp.le

omit hcell hl0 hl2 in
theorem tet_classify {m : Matrix (Fin 3) (Fin 3) ℤ} {axes xy z rows : List (Fin 3 → ℤ)}
    (hlen : axes.length = 5)
    (hm : (flatCodes (codes (pairB m) axes) 5).Perm tetCodes.flatten) {r : String}
    (hz : goodRows (pairB m) axes [0, 90, 90, 90, 90] true = z)
    (hxy : (goodRows (pairB m) axes [0, 90, 90, 90, 90] false).mergeSort
      (fun u v => decide (npNorm (intMat u c) ≤ npNorm (intMat v c))) = xy)
    (hrows : tetRows xy z = .ok rows)
    {d : ℤ} (hd : absDet rows = .ok d)
    (hr : tetName d = .ok r) (h : Angles c (pairB m) axes) :
    classifyAxes c |tol| (angleMatrix (exactAxes c axes)) (exactAxes c axes) = .ok r :=
  classify_tet h (abs_pos.2 h0) h1 hlen hm hz hxy hrows hd hr

omit hcell h0 h1 hl0 hl2 in
theorem mergeSort_inner {α : Type*} {le : α → α → Bool} {a b c d : α} (h1 : le a b = true)
    (h2 : le c d = false) (h3 : le a d = true) (h4 : le b d = false) (h5 : le b c = true) :
    [a, b, c, d].mergeSort le = [a, d, b, c] := by
  simp [List.mergeSort, List.MergeSort.Internal.splitInTwo, h1, h2, h3, h4, h5]

omit hcell h0 h1 hl0 hl2 in
theorem mergeSort_alternate {α : Type*} {le : α → α → Bool} {a b c d : α} (h1 : le a b = true)
    (h2 : le c d = true) (h3 : le a c = true) (h4 : le b c = false) (h5 : le b d = true) :
    [a, b, c, d].mergeSort le = [a, c, b, d] := by
  simp [List.mergeSort, List.MergeSort.Internal.splitInTwo, h1, h2, h3, h4, h5]

theorem lepage_TET (hl : ∀ i, 0 < l i) (hr : ∀ i j, l i ≤ 7 * l j) (he : l 0 = l 1)
    (hf : Away 14 1 (l 0) (l 2))
    (hc : c * c.transpose = edgeCell matP l * (edgeCell matP l).transpose)
    (fuel : ℕ) : lepage niggli (fuel + 1) cell tol noNiggli limit = some (.ok ["TET"]) := by
  refine edge_lepage hcell hl0 hl2 mat_invP hl hr allowed_P (x := true) (y := false) (z := false)
    (fun _ => he) (by simp) (by simp) ?_ hc drop_TET
    (by decide +kernel) (tet_classify h0 h1 (by decide) (by decide +kernel)
      (z := [![0, 0, 1]]) (xy := [![0, 1, 0], ![1, 0, 0], ![1, -1, 0], ![1, 1, 0]])
      (by decide +kernel) ?_ rfl (d := 1) (by simp [absDet, det_fin_three]) rfl) fuel
  · intro t ht
    have g02 := far_two (hl 0) (hl 2) hf
    have g12 := g02
    rw [he] at g12
    simp only [tsP, List.mem_cons, List.not_mem_nil, or_false] at ht
    rcases ht with rfl | rfl | rfl | rfl
    · exact ⟨fun _ => by simp [terms, term_zeros], fun h => absurd h (by decide)⟩
    · refine ⟨fun _ => ?_, fun h => absurd h (by decide)⟩
      simp [terms, term_zeros, he, term_equal (hl 1)]
    all_goals refine ⟨fun h => absurd h (by decide), fun _ => ?_⟩
    all_goals simp only [terms, Nat.cast_zero, term_zeros, Nat.cast_one, Nat.cast_ofNat]
    all_goals linarith
  · have : goodRows (pairB matP) axesTET [0, 90, 90, 90, 90] false =
        [![0, 1, 0], ![1, -1, 0], ![1, 1, 0], ![1, 0, 0]] := by decide +kernel
    rw [this]
    apply mergeSort_inner
    all_goals rw [norm_le (c := c) (m := matP) hl he hc rfl rfl]; decide

theorem lepage_BCT (hl : ∀ i, 0 < l i) (hr : ∀ i j, l i ≤ 7 * l j) (he : l 0 = l 1)
    (hf : Away 14 1 (l 0) (l 2)) (hg : Away 7 2 (l 2) (l 0))
    (hc : c * c.transpose = edgeCell matI l * (edgeCell matI l).transpose)
    (fuel : ℕ) : lepage niggli (fuel + 1) cell tol noNiggli limit = some (.ok ["BCT"]) := by
  refine edge_lepage hcell hl0 hl2 mat_invI hl hr allowed_I (x := true) (y := false) (z := false)
    (fun _ => he) (by simp) (by simp) ?_ hc drop_BCT
    (by decide +kernel) (tet_classify h0 h1 (by decide) (by decide +kernel)
      (z := [![1, 1, 0]]) (xy := [![0, 1, 1], ![1, 0, 1], ![1, -1, 0], ![1, 1, 2]])
      (by decide +kernel) ?_ rfl (d := 2) (by simp [absDet, det_fin_three]) rfl) fuel
  · intro t ht
    have g02 := far_two (hl 0) (hl 2) hf
    have g12 := g02
    rw [he] at g12
    have k02 := far_bwd (hl 2) (hl 0) hg
    have k01 : term (l 0) (l 1) 1 2 = 1 := by
      rw [he]; unfold term; rw [div_self (hl 1).ne']; norm_num
    have k10 : term (l 0) (l 1) 2 1 = 1 := by
      rw [he]; unfold term; rw [div_self (hl 1).ne']; norm_num
    have p := term_nonneg (l 0) (l 1)
    have p' := term_nonneg (l 0) (l 2)
    have p'' := term_nonneg (l 1) (l 2)
    simp only [tsI, List.mem_cons, List.not_mem_nil, or_false] at ht
    rcases ht with rfl | rfl | rfl | rfl | rfl | rfl | rfl
    · exact ⟨fun _ => by simp [terms, term_zeros], fun h => absurd h (by decide)⟩
    · refine ⟨fun _ => ?_, fun h => absurd h (by decide)⟩
      simp [terms, term_zeros, he, term_equal (hl 1)]
    all_goals refine ⟨fun h => absurd h (by decide), fun _ => ?_⟩
    all_goals simp only [terms, Nat.cast_zero, term_zeros, Nat.cast_one, Nat.cast_ofNat]
    · linarith
    · linarith
    · linarith [p 1 1, p'' 2 1]
    · linarith [p' 1 1, p'' 1 2]
    · linarith [p' 1 2, p'' 1 1]
  · have : goodRows (pairB matI) axesBCT [0, 90, 90, 90, 90] false =
        [![0, 1, 1], ![1, -1, 0], ![1, 0, 1], ![1, 1, 2]] := by decide +kernel
    rw [this]
    apply mergeSort_alternate
    all_goals rw [norm_le (c := c) (m := matI) hl he hc rfl rfl]; decide

end

end Wulfric
