import Verif.Props.C51_Examples
import Verif.Props.C92_LepageLattice

/-!
# C92: lattices that meet the hypotheses
-/

namespace Wulfric

open Matrix _root_.Spec

/-- A sufficient condition for the twofold axes of an orthorhombic lattice to be along the edges:
the squares of the lengths are not in the ratio 1, 2, 3 or 4. -/
theorem C92_axes_orthorhombic {e : Cell ℝ} {x y z : ℝ} (hx : 0 < x) (hy : 0 < y) (hz : 0 < z)
    (he : HasParams e x y z 90 90 90) (hxy : Incommensurable (x ^ 2) (y ^ 2))
    (hxz : Incommensurable (x ^ 2) (z ^ 2)) (hyz : Incommensurable (y ^ 2) (z ^ 2)) (c : Cell ℝ)
    (hc : c ∈ [e, faceCentred e, bodyCentred e, baseCentred e]) : AxesAlong c [e 0, e 1, e 2] := by
  have hb := box_of_params hx hy hz he
  simp only [List.mem_cons, List.not_mem_nil, or_false] at hc
  rcases hc with rfl | rfl | rfl | rfl
  · have := axes_of_ratio hb (m := matP) (n := invP) (by decide +kernel) (x := false) hxz hyz
      (fun _ => hxy) (by simp)
    rwa [half_P] at this
  · have := axes_of_ratio hb (m := matF) (n := invF) (by decide +kernel) (x := false) hxz hyz
      (fun _ => hxy) (by simp)
    rwa [half_F] at this
  · have := axes_of_ratio hb (m := matI) (n := invI) (by decide +kernel) (x := false) hxz hyz
      (fun _ => hxy) (by simp)
    rwa [half_I] at this
  · have := axes_of_ratio hb (m := matC) (n := invC) (by decide +kernel) (x := false) hxz hyz
      (fun _ => hxy) (by simp)
    rwa [half_C] at this

/-- The same for tetragonal lattices. -/
theorem C92_axes_tetragonal {e : Cell ℝ} {x z : ℝ} (hx : 0 < x) (hz : 0 < z)
    (he : HasParams e x x z 90 90 90) (hxz : Incommensurable (x ^ 2) (z ^ 2)) (c : Cell ℝ)
    (hc : c ∈ [e, bodyCentred e]) : AxesAlong c [e 0, e 1, e 2, e 0 + e 1, e 0 - e 1] := by
  have hb := box_of_params hx hx hz he
  simp only [List.mem_cons, List.not_mem_nil, or_false] at hc
  rcases hc with rfl | rfl
  · have := axes_of_ratio hb (m := matP) (n := invP) (by decide +kernel) (x := true) hxz hxz
      (by simp) (fun _ => rfl)
    rwa [half_P] at this
  · have := axes_of_ratio hb (m := matI) (n := invI) (by decide +kernel) (x := true) hxz hxz
      (by simp) (fun _ => rfl)
    rwa [half_I] at this

/-- A sufficient condition for the absence of pseudosymmetry within two degrees: the scalar products
of the basis are integers and the square of the volume is at most 200. -/
theorem C92_no_pseudo {c : Cell ℝ} {N : Matrix (Fin 3) (Fin 3) ℤ}
    (hN : ∀ i j, dot (c i) (c j) = N i j) (h0 : 0 < N.det) (h1 : N.det ≤ 200) :
    LatticeNoPseudo c 2 := by
  refine noPseudo_gram (N := N) ?_ rfl h0 ?_
  · ext i j
    rw [gram_apply, hN, map_apply]
  · have p := Real.pi_pos
    have p2 := Real.pi_lt_d2
    have s : Real.sin (2 * (Real.pi / 180)) ≤ 2 * (Real.pi / 180) := Real.sin_le (by positivity)
    have s0 : 0 ≤ Real.sin (2 * (Real.pi / 180)) :=
      Real.sin_nonneg_of_nonneg_of_le_pi (by positivity) (by linarith)
    have s1 : Real.sin (2 * (Real.pi / 180)) ≤ 35 / 1000 := by linarith
    have h2 : (N.det : ℝ) ≤ 200 := by exact_mod_cast h1
    have h3 : (0 : ℝ) < N.det := by exact_mod_cast h0
    have s2 : Real.sin (2 * (Real.pi / 180)) ^ 2 ≤ (35 / 1000) ^ 2 := by gcongr
    calc Real.sin (2 * (Real.pi / 180)) ^ 2 * (4 * N.det + 1)
        ≤ (35 / 1000) ^ 2 * (4 * 200 + 1) := by gcongr
      _ ≤ 1 := by norm_num

theorem half_int {e : Cell ℝ} {l : Fin 3 → ℝ} (hb : Box e l) {m N : Matrix (Fin 3) (Fin 3) ℤ}
    {X : Fin 3 → ℤ} (hl : ∀ i, l i ^ 2 = X i)
    (h : ∀ i j, m i 0 * m j 0 * X 0 + m i 1 * m j 1 * X 1 + m i 2 * m j 2 * X 2 = 4 * N i j)
    (i j : Fin 3) : dot (halfCell m e i) (halfCell m e j) = N i j := by
  rw [half_dot hb, hl, hl, hl]
  have := congrArg (fun z : ℤ => (z : ℝ)) (h i j)
  push_cast at this
  linarith

theorem incommensurable_nat {a b : ℕ} (h : ∀ n ≤ 4, a ≠ n * b ∧ b ≠ n * a) :
    Incommensurable (a : ℝ) b := by
  intro n hn
  obtain ⟨h1, h2⟩ := h n hn
  exact ⟨by exact_mod_cast h1, by exact_mod_cast h2⟩

/-- The rectangular cell with the given squares of the lengths. -/
noncomputable def sqrtBox (x y z : ℝ) : Cell ℝ := scORC (Real.sqrt x) (Real.sqrt y) (Real.sqrt z)

theorem sqrtBox_params {x y z : ℝ} : HasParams (sqrtBox x y z) (Real.sqrt x) (Real.sqrt y)
    (Real.sqrt z) 90 90 90 :=
  hasParams_box (Real.sqrt_nonneg _) (Real.sqrt_nonneg _) (Real.sqrt_nonneg _)

/-- The result for every basis of a lattice: the reduction with exact comparisons and a large
limit, the default tolerances. -/
def AlwaysReported (s : Cell ℝ) (t : String) : Prop :=
  ∀ cell, SameLattice cell s → ∃ N : ℕ, ∀ m : ℤ, (N : ℤ) ≤ m → ∀ fuel,
    lepage (fun c => niggliCore c 0 0 m) (fuel + 1) cell (1 / 10000) false 2 = some (.ok [t])

theorem always {s : Cell ℝ} {t : String} (hd : s.det ≠ 0)
    (h : ∀ (niggli : Cell ℝ → Except Err (Cell ℝ)) (cell : Cell ℝ), SameLattice cell s →
      cell.det ≠ 0 → Reduces niggli cell → ∀ fuel,
      lepage niggli (fuel + 1) cell (1 / 10000) false 2 = some (.ok [t])) : AlwaysReported s t := by
  intro cell hs
  have hc : cell.det ≠ 0 := by
    intro h0
    have := hs.symm.abs_det
    rw [h0, abs_zero] at this
    exact hd (abs_eq_zero.1 this.symm)
  obtain ⟨δ, hδ, N, k⟩ := C92_small_tolerance cell hc
  exact ⟨N, fun m hm fuel => h _ _ hs hc (k 0 0 le_rfl hδ le_rfl hδ m hm) fuel⟩

theorem box_sqrt {x y z : ℝ} (hx : 0 < x) (hy : 0 < y) (hz : 0 < z) :
    Box (sqrtBox x y z) ![Real.sqrt x, Real.sqrt y, Real.sqrt z] :=
  box_of_params (Real.sqrt_pos.2 hx) (Real.sqrt_pos.2 hy) (Real.sqrt_pos.2 hz) sqrtBox_params

theorem sqrt_squares {x y z : ℕ} (i : Fin 3) :
    (![Real.sqrt x, Real.sqrt y, Real.sqrt z] : Fin 3 → ℝ) i ^ 2 =
      ((![(x : ℤ), y, z] : Fin 3 → ℤ) i : ℝ) := by
  fin_cases i <;> simp [Real.sq_sqrt]

/-- Non-vacuity of `C92_orthorhombic`, `C92_base_centred` and `C92_tetragonal`: rectangular
lattices with small integer squares of the lengths are recognised from every basis. -/
theorem C92_example_rectangular :
    AlwaysReported (sqrtBox 2 3 5) "ORC" ∧
    AlwaysReported (faceCentred (sqrtBox 8 12 20)) "ORCF" ∧
    AlwaysReported (bodyCentred (sqrtBox 4 6 10)) "ORCI" ∧
    AlwaysReported (baseCentred (sqrtBox 6 10 4)) "ORCC" ∧
    AlwaysReported (sqrtBox 2 2 5) "TET" ∧
    AlwaysReported (bodyCentred (sqrtBox 6 6 4)) "BCT" := by
  have t0 : (1 / 10000 : ℝ) ≠ 0 := by norm_num
  have t1 : |(1 / 10000 : ℝ)| ≤ 1 := by rw [abs_of_pos] <;> norm_num
  have inc : ∀ a b : ℕ, (∀ n ≤ 4, a ≠ n * b ∧ b ≠ n * a) →
      Incommensurable (Real.sqrt a ^ 2) (Real.sqrt b ^ 2) := by
    intro a b h
    rw [Real.sq_sqrt (Nat.cast_nonneg a), Real.sq_sqrt (Nat.cast_nonneg b)]
    exact incommensurable_nat h
  have sp : ∀ a : ℕ, 0 < a → 0 < Real.sqrt a := fun a h => Real.sqrt_pos.2 (by exact_mod_cast h)
  have sl : ∀ a b : ℕ, a < b → Real.sqrt a < Real.sqrt b := fun a b h =>
    Real.sqrt_lt_sqrt (Nat.cast_nonneg a) (by exact_mod_cast h)
  have bx : ∀ x y z : ℕ, 0 < x → 0 < y → 0 < z →
      Box (sqrtBox x y z) ![Real.sqrt x, Real.sqrt y, Real.sqrt z] := fun x y z hx hy hz =>
    box_sqrt (by exact_mod_cast hx) (by exact_mod_cast hy) (by exact_mod_cast hz)
  refine ⟨?_, ?_, ?_, ?_, ?_, ?_⟩
  · have hb := bx 2 3 5 (by norm_num) (by norm_num) (by norm_num)
    have hno : LatticeNoPseudo (sqrtBox (2 : ℕ) (3 : ℕ) (5 : ℕ)) 2 := by
      rw [← half_P (sqrtBox (2 : ℕ) (3 : ℕ) (5 : ℕ))]
      exact C92_no_pseudo (N := !![2, 0, 0; 0, 3, 0; 0, 0, 5])
        (half_int hb sqrt_squares (by decide +kernel)) (by decide +kernel) (by decide +kernel)
    have hax := C92_axes_orthorhombic (sp 2 (by norm_num)) (sp 3 (by norm_num)) (sp 5 (by norm_num))
      sqrtBox_params (inc 2 3 (by decide)) (inc 2 5 (by decide)) (inc 3 5 (by decide)) _
      (List.mem_cons_self ..)
    have hd := half_det hb mat_invP
    rw [half_P] at hd
    exact_mod_cast always hd fun niggli cell hs _ hred fuel =>
      (C92_orthorhombic t0 t1 (by norm_num) (by norm_num) (sp 2 (by norm_num)) (sl 2 3 (by norm_num))
        (sl 3 5 (by norm_num)) sqrtBox_params hred ((latticeNoPseudo_congr hs).2 hno)
        ((axesAlong_congr hs).2 hax) fuel).1 hs
  · have hb := bx 8 12 20 (by norm_num) (by norm_num) (by norm_num)
    have hno : LatticeNoPseudo (faceCentred (sqrtBox (8 : ℕ) (12 : ℕ) (20 : ℕ))) 2 := by
      rw [← half_F (sqrtBox (8 : ℕ) (12 : ℕ) (20 : ℕ))]
      exact C92_no_pseudo (N := !![8, 5, 3; 5, 7, 2; 3, 2, 5])
        (half_int hb sqrt_squares (by decide +kernel)) (by decide +kernel) (by decide +kernel)
    have hax := C92_axes_orthorhombic (sp 8 (by norm_num)) (sp 12 (by norm_num)) (sp 20 (by norm_num))
      sqrtBox_params (inc 8 12 (by decide)) (inc 8 20 (by decide)) (inc 12 20 (by decide))
      (faceCentred (sqrtBox (8 : ℕ) (12 : ℕ) (20 : ℕ))) (by simp)
    have hd := half_det hb mat_invF
    rw [half_F] at hd
    exact_mod_cast always hd fun niggli cell hs _ hred fuel =>
      (C92_orthorhombic t0 t1 (by norm_num) (by norm_num) (sp 8 (by norm_num)) (sl 8 12 (by norm_num))
        (sl 12 20 (by norm_num)) sqrtBox_params hred ((latticeNoPseudo_congr hs).2 hno)
        ((axesAlong_congr hs).2 hax) fuel).2.1 hs
  · have hb := bx 4 6 10 (by norm_num) (by norm_num) (by norm_num)
    have hno : LatticeNoPseudo (bodyCentred (sqrtBox (4 : ℕ) (6 : ℕ) (10 : ℕ))) 2 := by
      rw [← half_I (sqrtBox (4 : ℕ) (6 : ℕ) (10 : ℕ))]
      exact C92_no_pseudo (N := !![5, 0, -2; 0, 5, -3; -2, -3, 5])
        (half_int hb sqrt_squares (by decide +kernel)) (by decide +kernel) (by decide +kernel)
    have hax := C92_axes_orthorhombic (sp 4 (by norm_num)) (sp 6 (by norm_num)) (sp 10 (by norm_num))
      sqrtBox_params (inc 4 6 (by decide)) (inc 4 10 (by decide)) (inc 6 10 (by decide))
      (bodyCentred (sqrtBox (4 : ℕ) (6 : ℕ) (10 : ℕ))) (by simp)
    have hd := half_det hb mat_invI
    rw [half_I] at hd
    exact_mod_cast always hd fun niggli cell hs _ hred fuel =>
      (C92_orthorhombic t0 t1 (by norm_num) (by norm_num) (sp 4 (by norm_num)) (sl 4 6 (by norm_num))
        (sl 6 10 (by norm_num)) sqrtBox_params hred ((latticeNoPseudo_congr hs).2 hno)
        ((axesAlong_congr hs).2 hax) fuel).2.2 hs
  · have hb := bx 6 10 4 (by norm_num) (by norm_num) (by norm_num)
    have hno : LatticeNoPseudo (baseCentred (sqrtBox (6 : ℕ) (10 : ℕ) (4 : ℕ))) 2 := by
      rw [← half_C (sqrtBox (6 : ℕ) (10 : ℕ) (4 : ℕ))]
      exact C92_no_pseudo (N := !![4, -1, 0; -1, 4, 0; 0, 0, 4])
        (half_int hb sqrt_squares (by decide +kernel)) (by decide +kernel) (by decide +kernel)
    have hax := C92_axes_orthorhombic (sp 6 (by norm_num)) (sp 10 (by norm_num)) (sp 4 (by norm_num))
      sqrtBox_params (inc 6 10 (by decide)) (inc 6 4 (by decide)) (inc 10 4 (by decide))
      (baseCentred (sqrtBox (6 : ℕ) (10 : ℕ) (4 : ℕ))) (by simp)
    have hd := half_det hb mat_invC
    rw [half_C] at hd
    exact_mod_cast always hd fun niggli cell hs _ hred fuel =>
      C92_base_centred t0 t1 (by norm_num) (by norm_num) (sp 6 (by norm_num)) (sl 6 10 (by norm_num))
        (sp 4 (by norm_num)) sqrtBox_params hred ((latticeNoPseudo_congr hs).2 hno)
        ((axesAlong_congr hs).2 hax) fuel hs
  · have hb := bx 2 2 5 (by norm_num) (by norm_num) (by norm_num)
    have hno : LatticeNoPseudo (sqrtBox (2 : ℕ) (2 : ℕ) (5 : ℕ)) 2 := by
      rw [← half_P (sqrtBox (2 : ℕ) (2 : ℕ) (5 : ℕ))]
      exact C92_no_pseudo (N := !![2, 0, 0; 0, 2, 0; 0, 0, 5])
        (half_int hb sqrt_squares (by decide +kernel)) (by decide +kernel) (by decide +kernel)
    have hax := C92_axes_tetragonal (sp 2 (by norm_num)) (sp 5 (by norm_num)) sqrtBox_params
      (inc 2 5 (by decide)) _ (List.mem_cons_self ..)
    have hd := half_det hb mat_invP
    rw [half_P] at hd
    exact_mod_cast always hd fun niggli cell hs _ hred fuel =>
      (C92_tetragonal t0 t1 (by norm_num) (by norm_num) (sp 2 (by norm_num)) (sp 5 (by norm_num))
        sqrtBox_params hred ((latticeNoPseudo_congr hs).2 hno)
        ((axesAlong_congr hs).2 hax) fuel).1 hs
  · have hb := bx 6 6 4 (by norm_num) (by norm_num) (by norm_num)
    have hno : LatticeNoPseudo (bodyCentred (sqrtBox (6 : ℕ) (6 : ℕ) (4 : ℕ))) 2 := by
      rw [← half_I (sqrtBox (6 : ℕ) (6 : ℕ) (4 : ℕ))]
      exact C92_no_pseudo (N := !![4, -2, -1; -2, 4, -1; -1, -1, 4])
        (half_int hb sqrt_squares (by decide +kernel)) (by decide +kernel) (by decide +kernel)
    have hax := C92_axes_tetragonal (sp 6 (by norm_num)) (sp 4 (by norm_num)) sqrtBox_params
      (inc 6 4 (by decide)) (bodyCentred (sqrtBox (6 : ℕ) (6 : ℕ) (4 : ℕ))) (by simp)
    have hd := half_det hb mat_invI
    rw [half_I] at hd
    exact_mod_cast always hd fun niggli cell hs _ hred fuel =>
      (C92_tetragonal t0 t1 (by norm_num) (by norm_num) (sp 6 (by norm_num)) (sp 4 (by norm_num))
        sqrtBox_params hred ((latticeNoPseudo_congr hs).2 hno)
        ((axesAlong_congr hs).2 hax) fuel).2 hs (by
          rw [Real.sq_sqrt (Nat.cast_nonneg _), Real.sq_sqrt (Nat.cast_nonneg _)]; norm_num)

/-- A half turn keeps the lengths. -/
theorem halfTurn_length {d : Fin 3 → ℝ} (hd : d ≠ 0) (x : Fin 3 → ℝ) :
    dot (halfTurn d x) (halfTurn d x) = dot x x := by
  have hp := vdot_self_pos hd
  have e : dot (halfTurn d x) (halfTurn d x) =
      4 * (dot x d / dot d d) ^ 2 * dot d d - 4 * (dot x d / dot d d) * dot x d + dot x x := by
    simp only [halfTurn, dot]; ring
  rw [e]
  field_simp
  ring

/-- A vector reversed by the half turn is perpendicular to the axis; a vector that is kept is along
the axis. -/
theorem halfTurn_sign {d x : Fin 3 → ℝ} (hd : d ≠ 0) :
    (halfTurn d x = -x → dot x d = 0) ∧
      (halfTurn d x = x → x = (dot x d / dot d d) • d) := by
  have hp := vdot_self_pos hd
  constructor
  · intro h
    have := congrArg (fun v => dot v d) h
    have e : dot (halfTurn d x) d = 2 * (dot x d / dot d d) * dot d d - dot x d := by
      simp only [halfTurn, dot]; ring
    have e2 : dot (-x) d = -dot x d := by simp only [dot, Pi.neg_apply]; ring
    simp only [e, e2] at this
    rw [mul_assoc, div_mul_cancel₀ _ hp.ne'] at this
    linarith
  · intro h
    funext i
    have := congrFun h i
    simp only [halfTurn] at this
    simp only [Pi.smul_apply, smul_eq_mul]
    linarith

/-- Two vectors kept up to the sign, neither parallel nor perpendicular: both are reversed. -/
theorem halfTurn_pair {d v w : Fin 3 → ℝ} (hd : d ≠ 0)
    (hv : halfTurn d v = -v ∨ halfTurn d v = v) (hw : halfTurn d w = -w ∨ halfTurn d w = w)
    (h0 : dot v w ≠ 0) (h1 : dot v w ^ 2 ≠ dot v v * dot w w) : dot v d = 0 ∧ dot w d = 0 := by
  have sm : ∀ (k : ℝ) (x y : Fin 3 → ℝ), dot (k • x) y = k * dot x y := by
    intro k x y; simp only [dot, Pi.smul_apply, smul_eq_mul]; ring
  have sm' : ∀ (k : ℝ) (x y : Fin 3 → ℝ), dot y (k • x) = k * dot y x := by
    intro k x y; simp only [dot, Pi.smul_apply, smul_eq_mul]; ring
  rcases hv with hv | hv <;> rcases hw with hw | hw
  · exact ⟨(halfTurn_sign hd).1 hv, (halfTurn_sign hd).1 hw⟩
  · have a := (halfTurn_sign hd).1 hv
    have b := (halfTurn_sign hd).2 hw
    exact absurd (by rw [b, sm', a, mul_zero]) h0
  · have a := (halfTurn_sign hd).2 hv
    have b : dot d w = 0 := by
      rw [show dot d w = dot w d by simp only [dot]; ring]; exact (halfTurn_sign hd).1 hw
    exact absurd (by rw [a, sm, b, mul_zero]) h0
  · have a := (halfTurn_sign hd).2 hv
    have b := (halfTurn_sign hd).2 hw
    exfalso
    apply h1
    rw [a, b]
    simp only [sm, sm']
    ring

/-- The image of a row under a twofold axis: a lattice vector of the same length. -/
theorem axis_image {c : Cell ℝ} {d : Fin 3 → ℝ} (h : TwofoldAxis c d) (i : Fin 3) :
    ∃ n : Fin 3 → ℤ, halfTurn d (c i) = latticeVec c n ∧
      dot (latticeVec c n) (latticeVec c n) = dot (c i) (c i) := by
  obtain ⟨hd, ht⟩ := h
  have mem : c i ∈ latticePoints c := by
    refine ⟨fun t => if t = i then 1 else 0, ?_⟩
    funext j
    fin_cases i <;> simp
  obtain ⟨n, hn⟩ := ht _ mem
  have hn : halfTurn d (c i) = latticeVec c n := hn
  exact ⟨n, hn, by rw [← hn, halfTurn_length hd]⟩

/-- A triclinic cell. -/
def triCell : Cell ℝ := !![1, -1, -1; -2, -1, 0; 1, -1, 3]

/-- A monoclinic cell. -/
def mclCell : Cell ℝ := !![2, 0, 1; 0, 1, 0; -2, 0, 3]

theorem tri_form (n : Fin 3 → ℤ) : dot (latticeVec triCell n) (latticeVec triCell n) =
    ((n 0 - n 1) ^ 2 + (n 0 - n 2) ^ 2 + (n 1 - n 2) ^ 2 + n 0 ^ 2 + 3 * n 1 ^ 2 + 9 * n 2 ^ 2 : ℤ) := by
  simp [dot, latticeVec, triCell, Fin.sum_univ_three]
  ring

theorem abs_le_three {x : ℤ} (h : x ^ 2 < 16) : x ∈ Finset.Icc (-3 : ℤ) 3 := by
  rw [Finset.mem_Icc]
  constructor <;> nlinarith

theorem tri_short {x y z : ℤ} {i : Fin 3}
    (h : (x - y) ^ 2 + (x - z) ^ 2 + (y - z) ^ 2 + x ^ 2 + 3 * y ^ 2 + 9 * z ^ 2 =
      (![3, 5, 11] : Fin 3 → ℤ) i) :
    (![x, y, z] : Fin 3 → ℤ) = (1 : Matrix (Fin 3) (Fin 3) ℤ) i ∨
      (![x, y, z] : Fin 3 → ℤ) = (-1 : Matrix (Fin 3) (Fin 3) ℤ) i := by
  have hN : (![3, 5, 11] : Fin 3 → ℤ) i ≤ 11 := by fin_cases i <;> simp
  have q0 := sq_nonneg (x - y)
  have q1 := sq_nonneg (x - z)
  have q2 := sq_nonneg (y - z)
  have q3 := sq_nonneg x
  have q4 := sq_nonneg y
  have q5 := sq_nonneg z
  have key : ∀ i : Fin 3, ∀ x ∈ Finset.Icc (-3 : ℤ) 3, ∀ y ∈ Finset.Icc (-3 : ℤ) 3,
      ∀ z ∈ Finset.Icc (-3 : ℤ) 3,
      (x - y) ^ 2 + (x - z) ^ 2 + (y - z) ^ 2 + x ^ 2 + 3 * y ^ 2 + 9 * z ^ 2 =
        (![3, 5, 11] : Fin 3 → ℤ) i →
      (![x, y, z] : Fin 3 → ℤ) = (1 : Matrix (Fin 3) (Fin 3) ℤ) i ∨
        (![x, y, z] : Fin 3 → ℤ) = (-1 : Matrix (Fin 3) (Fin 3) ℤ) i := by
    decide +kernel
  exact key i x (abs_le_three (by linarith)) y (abs_le_three (by linarith)) z
    (abs_le_three (by linarith)) h

theorem mcl_short {x y z : ℤ} {i : Fin 3} (hi : i ≠ 1)
    (h : (x - z) ^ 2 + 4 * x ^ 2 + y ^ 2 + 12 * z ^ 2 = (![5, 1, 13] : Fin 3 → ℤ) i) :
    (![x, y, z] : Fin 3 → ℤ) = (1 : Matrix (Fin 3) (Fin 3) ℤ) i ∨
      (![x, y, z] : Fin 3 → ℤ) = (-1 : Matrix (Fin 3) (Fin 3) ℤ) i := by
  have hN : (![5, 1, 13] : Fin 3 → ℤ) i ≤ 13 := by fin_cases i <;> simp
  have q0 := sq_nonneg (x - z)
  have q3 := sq_nonneg x
  have q4 := sq_nonneg y
  have q5 := sq_nonneg z
  have key : ∀ i : Fin 3, i ≠ 1 → ∀ x ∈ Finset.Icc (-3 : ℤ) 3, ∀ y ∈ Finset.Icc (-3 : ℤ) 3,
      ∀ z ∈ Finset.Icc (-3 : ℤ) 3,
      (x - z) ^ 2 + 4 * x ^ 2 + y ^ 2 + 12 * z ^ 2 = (![5, 1, 13] : Fin 3 → ℤ) i →
      (![x, y, z] : Fin 3 → ℤ) = (1 : Matrix (Fin 3) (Fin 3) ℤ) i ∨
        (![x, y, z] : Fin 3 → ℤ) = (-1 : Matrix (Fin 3) (Fin 3) ℤ) i := by
    decide +kernel
  exact key i hi x (abs_le_three (by linarith)) y (abs_le_three (by linarith)) z
    (abs_le_three (by linarith)) h

theorem short_sign {c : Cell ℝ} {n : Fin 3 → ℤ} {i : Fin 3}
    (h : ![n 0, n 1, n 2] = (1 : Matrix (Fin 3) (Fin 3) ℤ) i ∨
      ![n 0, n 1, n 2] = (-1 : Matrix (Fin 3) (Fin 3) ℤ) i) :
    latticeVec c n = -c i ∨ latticeVec c n = c i := by
  have hn3 : n = ![n 0, n 1, n 2] := by funext t; fin_cases t <;> rfl
  rw [← hn3] at h
  rcases h with h | h
  · right
    rw [h]
    funext j
    fin_cases i <;> simp [latticeVec, Matrix.one_apply]
  · left
    rw [h]
    funext j
    fin_cases i <;> simp [latticeVec, Matrix.one_apply]

theorem tri_axes : AxesAlong triCell [] := by
  rintro d - hax
  exfalso
  have hd := hax.1
  have neg : ∀ i, halfTurn d (triCell i) = -triCell i ∨ halfTurn d (triCell i) = triCell i := by
    intro i
    obtain ⟨n, hn, hq⟩ := axis_image hax i
    rw [hn]
    rw [tri_form] at hq
    have hN : ∃ N : ℤ, dot (triCell i) (triCell i) = N ∧ N = ![3, 5, 11] i := by
      fin_cases i
      · exact ⟨3, by simp [dot, triCell]; norm_num, rfl⟩
      · exact ⟨5, by simp [dot, triCell]; norm_num, rfl⟩
      · exact ⟨11, by simp [dot, triCell]; norm_num, rfl⟩
    obtain ⟨N, h1, h2⟩ := hN
    rw [h1] at hq
    have hq : (n 0 - n 1) ^ 2 + (n 0 - n 2) ^ 2 + (n 1 - n 2) ^ 2 + n 0 ^ 2 + 3 * n 1 ^ 2 +
        9 * n 2 ^ 2 = N := by exact_mod_cast hq
    subst h2
    exact short_sign (tri_short hq)
  have d01 : dot (triCell 0) (triCell 1) = -1 := by simp [dot, triCell]; norm_num
  have d12 : dot (triCell 1) (triCell 2) = -1 := by simp [dot, triCell]; norm_num
  have n0 : dot (triCell 0) (triCell 0) = 3 := by simp [dot, triCell]; norm_num
  have n1 : dot (triCell 1) (triCell 1) = 5 := by simp [dot, triCell]; norm_num
  have n2 : dot (triCell 2) (triCell 2) = 11 := by simp [dot, triCell]; norm_num
  obtain ⟨h0, h1⟩ := halfTurn_pair hd (neg 0) (neg 1) (by rw [d01]; norm_num)
    (by rw [d01, n0, n1]; norm_num)
  obtain ⟨-, h2⟩ := halfTurn_pair hd (neg 1) (neg 2) (by rw [d12]; norm_num)
    (by rw [d12, n1, n2]; norm_num)
  simp [dot, triCell] at h0 h1 h2
  apply hd
  funext i
  fin_cases i <;> simp <;> linarith

theorem mcl_form (n : Fin 3 → ℤ) : dot (latticeVec mclCell n) (latticeVec mclCell n) =
    ((n 0 - n 2) ^ 2 + 4 * n 0 ^ 2 + n 1 ^ 2 + 12 * n 2 ^ 2 : ℤ) := by
  simp [dot, latticeVec, mclCell, Fin.sum_univ_three]
  ring

theorem mcl_axes : AxesAlong mclCell [mclCell 1] := by
  rintro d - hax
  have hd := hax.1
  have neg : ∀ i, i ≠ 1 → halfTurn d (mclCell i) = -mclCell i ∨ halfTurn d (mclCell i) = mclCell i := by
    intro i hi
    obtain ⟨n, hn, hq⟩ := axis_image hax i
    rw [hn]
    rw [mcl_form] at hq
    have hN : ∃ N : ℤ, dot (mclCell i) (mclCell i) = N ∧ N = ![5, 1, 13] i := by
      fin_cases i
      · exact ⟨5, by simp [dot, mclCell]; norm_num, rfl⟩
      · exact ⟨1, by simp [dot, mclCell], rfl⟩
      · exact ⟨13, by simp [dot, mclCell]; norm_num, rfl⟩
    obtain ⟨N, h1, h2⟩ := hN
    rw [h1] at hq
    have hq : (n 0 - n 2) ^ 2 + 4 * n 0 ^ 2 + n 1 ^ 2 + 12 * n 2 ^ 2 = N := by exact_mod_cast hq
    subst h2
    exact short_sign (mcl_short hi hq)
  have d02 : dot (mclCell 0) (mclCell 2) = -1 := by simp [dot, mclCell]; norm_num
  have n0 : dot (mclCell 0) (mclCell 0) = 5 := by simp [dot, mclCell]; norm_num
  have n2 : dot (mclCell 2) (mclCell 2) = 13 := by simp [dot, mclCell]; norm_num
  obtain ⟨h0, h2⟩ := halfTurn_pair hd (neg 0 (by decide)) (neg 2 (by decide)) (by rw [d02]; norm_num)
    (by rw [d02, n0, n2]; norm_num)
  simp [dot, mclCell] at h0 h2
  have e0 : d 0 = 0 := by linarith
  have e2 : d 2 = 0 := by linarith
  refine ⟨_, List.mem_singleton_self _, ?_⟩
  simp [SameLine, dot, mclCell, e0, e2]
  ring

theorem int_det {c : Cell ℝ} {m : Matrix (Fin 3) (Fin 3) ℤ} (h : c = m.map (Int.cast : ℤ → ℝ))
    (hm : m.det ≠ 0) : c.det ≠ 0 := by
  rw [h, show m.map (Int.cast : ℤ → ℝ) = (Int.castRingHom ℝ).mapMatrix m from rfl, ← RingHom.map_det]
  simpa using hm

theorem int_gram {c : Cell ℝ} {m : Matrix (Fin 3) (Fin 3) ℤ} (h : c = m.map (Int.cast : ℤ → ℝ))
    (i j : Fin 3) : dot (c i) (c j) = (m * mᵀ) i j := by
  simp [h, dot, Matrix.mul_apply, Fin.sum_univ_three]

/-- Non-vacuity of `C92_triclinic` and `C92_monoclinic`. -/
theorem C92_example_oblique :
    AlwaysReported triCell "TRI" ∧ AlwaysReported mclCell "MCL" := by
  have t0 : (1 / 10000 : ℝ) ≠ 0 := by norm_num
  have t1 : |(1 / 10000 : ℝ)| ≤ 1 := by rw [abs_of_pos] <;> norm_num
  have ht : triCell = (!![1, -1, -1; -2, -1, 0; 1, -1, 3] : Matrix (Fin 3) (Fin 3) ℤ).map
      (Int.cast : ℤ → ℝ) := by
    ext i j; fin_cases i <;> fin_cases j <;> simp [triCell]
  have hm : mclCell = (!![2, 0, 1; 0, 1, 0; -2, 0, 3] : Matrix (Fin 3) (Fin 3) ℤ).map
      (Int.cast : ℤ → ℝ) := by
    ext i j; fin_cases i <;> fin_cases j <;> simp [mclCell]
  constructor
  · exact always (int_det ht (by decide +kernel)) fun niggli cell hs hd hred fuel =>
      C92_triclinic (by norm_num) (by norm_num) hd hred
        ((latticeNoPseudo_congr hs).2 (C92_no_pseudo (int_gram ht) (by decide +kernel)
          (by decide +kernel))) ((axesAlong_congr hs).2 tri_axes) fuel
  · refine always (int_det hm (by decide +kernel)) fun niggli cell hs hd hred fuel =>
      C92_monoclinic (p := mclCell 0) (b := mclCell 1) (q := mclCell 2) t0 (by norm_num)
        (by norm_num) hd ?_ ?_ ?_ ?_ ?_ ?_ hred
        ((latticeNoPseudo_congr hs).2 (C92_no_pseudo (int_gram hm) (by decide +kernel)
          (by decide +kernel))) ((axesAlong_congr hs).2 mcl_axes) ?_ fuel
    · rwa [show Matrix.of ![mclCell 0, mclCell 1, mclCell 2] = mclCell by
        ext i j; fin_cases i <;> rfl]
    all_goals simp [dot, mclCell]
    all_goals norm_num

theorem hex_det {a c : ℝ} (ha : 0 < a) (hc : 0 < c) : (scHEX a c).det ≠ 0 := by
  have : (scHEX a c).det = a ^ 2 * c * Real.sqrt 3 / 2 := by
    simp [scHEX, Matrix.det_fin_three]
    ring
  rw [this]
  positivity

/-- Non-vacuity of `C92_cubic`, `C92_hexagonal` and `C92_rhombohedral`. -/
theorem C92_example_symmetric :
    AlwaysReported (sqrtBox 1 1 1) "CUB" ∧
    AlwaysReported (faceCentred (sqrtBox 1 1 1)) "FCC" ∧
    AlwaysReported (bodyCentred (sqrtBox 1 1 1)) "BCC" ∧
    AlwaysReported (scHEX 1 2) "HEX" ∧
    ∃ cell, scRHL 1 (Real.arccos (1 / 4) * (180 / Real.pi)) = .ok cell ∧
      AlwaysReported cell "RHL" := by
  have t0 : (1 / 10000 : ℝ) ≠ 0 := by norm_num
  have t1 : |(1 / 10000 : ℝ)| ≤ 1 := by rw [abs_of_pos] <;> norm_num
  have hp := Real.pi_pos
  have hb := box_sqrt (x := 1) (y := 1) (z := 1) (by norm_num) (by norm_num) (by norm_num)
  have hs0 : 0 < Real.sqrt 1 := by simp
  have dP := half_det hb mat_invP
  have dF := half_det hb mat_invF
  have dI := half_det hb mat_invI
  rw [half_P] at dP
  rw [half_F] at dF
  rw [half_I] at dI
  have cub := fun niggli cell => C92_cubic (niggli := niggli) (cell := cell) t0 t1
    (limit := 2) (by norm_num) (by norm_num) hs0 (sqrtBox_params (x := 1) (y := 1) (z := 1))
  refine ⟨always dP fun niggli cell hs _ hred fuel => (cub niggli cell hred fuel).1 hs,
    always dF fun niggli cell hs _ hred fuel => (cub niggli cell hred fuel).2.1 hs,
    always dI fun niggli cell hs _ hred fuel => (cub niggli cell hred fuel).2.2 hs,
    always (hex_det (by norm_num) (by norm_num)) fun niggli cell hs _ hred fuel =>
      C92_hexagonal t0 t1 (by norm_num) (by norm_num) (by norm_num) (by norm_num) (by norm_num)
        (hasParams_hex (by norm_num) (by norm_num)) hred hs fuel, ?_⟩
  set al := Real.arccos (1 / 4) * (180 / Real.pi) with hal
  have e : al * (Real.pi / 180) = Real.arccos (1 / 4) := by
    rw [hal]; field_simp
  have hcos : Real.cos (al * (Real.pi / 180)) = 1 / 4 := by
    rw [e, Real.cos_arccos (by norm_num) (by norm_num)]
  have a0 : 0 < Real.arccos (1 / 4) := Real.arccos_pos.2 (by norm_num)
  have a1 : Real.arccos (1 / 4) < Real.pi / 2 := Real.arccos_lt_pi_div_two.2 (by norm_num)
  have al0 : 0 < al := by rw [hal]; positivity
  have al1 : al < 120 := by
    have : al * (Real.pi / 180) < Real.pi / 2 := e ▸ a1
    nlinarith
  obtain ⟨cell, h1, h2, h3⟩ := C51_rhombohedral 1 al zero_le_one al0 al1
  exact ⟨cell, h1, always (h3 one_pos) fun niggli c hs _ hred fuel =>
    C92_rhombohedral t0 t1 (by norm_num) (by norm_num) one_pos h2 hcos (by norm_num) (by norm_num)
      (by norm_num) (by norm_num) (by norm_num) hred hs fuel⟩

end Wulfric
