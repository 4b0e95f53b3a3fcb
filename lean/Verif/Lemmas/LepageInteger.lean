import Verif.Lemmas.LepageMono

/-! # The Le Page search for cells with integer coordinates (in some unit) -/

namespace Wulfric

open Matrix _root_.Spec

/-- The cell with the integer coordinates `m` in the unit of length `s`. -/
def intCell (s : ℝ) (m : Matrix (Fin 3) (Fin 3) ℤ) : Cell ℝ := fun i j => s * (m i j : ℝ)

/-- The vector with the indices `u`. -/
def rowZ (m : Matrix (Fin 3) (Fin 3) ℤ) (u : Fin 3 → ℤ) : Fin 3 → ℤ :=
  ![u 0 * m 0 0 + u 1 * m 1 0 + u 2 * m 2 0, u 0 * m 0 1 + u 1 * m 1 1 + u 2 * m 2 1,
    u 0 * m 0 2 + u 1 * m 1 2 + u 2 * m 2 2]

/-- The rows of the reciprocal cell times the volume. -/
def cofZ (m : Matrix (Fin 3) (Fin 3) ℤ) : Matrix (Fin 3) (Fin 3) ℤ :=
  ![crossZ (m 1) (m 2), crossZ (m 2) (m 0), crossZ (m 0) (m 1)]

/-- The volume of the cell. -/
def volZ (m : Matrix (Fin 3) (Fin 3) ℤ) : ℤ := intDot (m 0) (crossZ (m 1) (m 2))

/-- No pseudosymmetry within 2 degrees. -/
def clearZ (m : Matrix (Fin 3) (Fin 3) ℤ) : Bool :=
  (millerIndices 2).all fun u =>
    let t := rowZ m u
    let tt := intDot t t
    (millerIndices 2).all fun h =>
      bif (intDot u h).natAbs == 2 then
        let q := tt * intDot (rowZ (cofZ m) h) (rowZ (cofZ m) h)
        (q == 4 * volZ m ^ 2) || decide (785 * 4 * volZ m ^ 2 ≤ 784 * q)
      else true

/-- The vectors along twofold axes have the property. -/
def twofoldZ (m : Matrix (Fin 3) (Fin 3) ℤ) (p : (Fin 3 → ℤ) → Bool) : Bool :=
  (millerIndices 2).all fun u =>
    let t := rowZ m u
    let tt := intDot t t
    decide (u = 0) || p u ||
      decide (∃ i j, ¬ tt ∣ 2 * intDot (m i) t * u j)

section
variable {s : ℝ} {m : Matrix (Fin 3) (Fin 3) ℤ}

theorem lat_int (u : Fin 3 → ℤ) (j : Fin 3) : latticeVec (intCell s m) u j = s * (rowZ m u j : ℝ) := by
  fin_cases j <;> simp [latticeVec, intCell, rowZ, Fin.sum_univ_three] <;> ring

theorem dot_int (u v : Fin 3 → ℤ) : dot (latticeVec (intCell s m) u) (latticeVec (intCell s m) v) =
    s ^ 2 * (intDot (rowZ m u) (rowZ m v) : ℝ) := by
  simp only [dot, lat_int, intDot, Int.cast_add, Int.cast_mul]; ring

theorem dot_row (i : Fin 3) (v : Fin 3 → ℤ) : dot (intCell s m i) (latticeVec (intCell s m) v) =
    s ^ 2 * (intDot (m i) (rowZ m v) : ℝ) := by
  simp only [dot, lat_int, intDot, Int.cast_add, Int.cast_mul, intCell]; ring

theorem det_int : (intCell s m).det = s ^ 3 * (volZ m : ℝ) := by
  rw [det_fin_three]
  simp only [intCell, volZ, intDot, crossZ, cons_val_zero, cons_val_one, cons_val]
  push_cast
  ring

theorem recip_int (hs : s ≠ 0) (hv : volZ m ≠ 0) {r : Cell ℝ}
    (hr : ∀ i j, dot (r i) (intCell s m j) = if i = j then 2 * Real.pi else 0) (i j : Fin 3) :
    r i j = 2 * Real.pi / (s * volZ m) * (cofZ m i j : ℝ) := by
  have hv' : (volZ m : ℝ) ≠ 0 := by exact_mod_cast hv
  have hd : (intCell s m).det ≠ 0 := by
    rw [det_int]
    exact mul_ne_zero (pow_ne_zero 3 hs) hv'
  have : r i = fun j => 2 * Real.pi / (s * volZ m) * (cofZ m i j : ℝ) := by
    apply rows_ext hd
    intro k
    rw [dot_comm', hr]
    have hc : intDot (m k) (cofZ m i) = if i = k then volZ m else 0 := by
      fin_cases i <;> fin_cases k <;>
        simp [intDot, cofZ, crossZ, volZ] <;> ring
    have e : dot (intCell s m k) (fun j => 2 * Real.pi / (s * volZ m) * (cofZ m i j : ℝ)) =
        2 * Real.pi / volZ m * (intDot (m k) (cofZ m i) : ℝ) := by
      simp only [dot, intCell, intDot, Int.cast_add, Int.cast_mul]
      field_simp
    rw [e, hc]
    split_ifs
    · field_simp
    · simp
  exact congrFun this j

theorem cos_two : (784 / 785 : ℝ) ≤ Real.cos (2 * (Real.pi / 180)) ^ 2 := by
  have h1 := Real.one_sub_sq_div_two_le_cos (x := 2 * (Real.pi / 180))
  have hp := Real.pi_lt_d2
  have hp0 := Real.pi_pos
  have h2 : (0.99938 : ℝ) ≤ Real.cos (2 * (Real.pi / 180)) := by
    refine le_trans ?_ h1
    nlinarith
  nlinarith

theorem noPseudo_int (hs : 0 < s) (hv : volZ m ≠ 0) (h : clearZ m = true) :
    NoPseudosymmetry (intCell s m) 2 := by
  intro r hr u k hu hk huk
  have hv' : (volZ m : ℝ) ≠ 0 := by exact_mod_cast hv
  have hpi := Real.pi_pos
  have huk' : |intDot u k| = 2 := by rw [Fin.sum_univ_three] at huk; exact huk
  unfold clearZ at h
  rw [List.all_eq_true] at h
  have h1 := h u (mem_miller'.2 hu)
  simp only [List.all_eq_true] at h1
  have h2 := h1 k (mem_miller'.2 hk)
  have hn : ((intDot u k).natAbs == 2) = true := by
    rw [beq_iff_eq]; exact natAbs_of_abs huk'
  rw [hn, cond_true, Bool.or_eq_true, beq_iff_eq, decide_eq_true_eq] at h2
  have hrk : ∀ j, latticeVec r k j = 2 * Real.pi / (s * volZ m) * (rowZ (cofZ m) k j : ℝ) := by
    intro j
    simp only [latticeVec, recip_int hs.ne' hv hr, Fin.sum_univ_three]
    fin_cases j <;> simp [rowZ] <;> ring
  have hdot : dot (latticeVec (intCell s m) u) (latticeVec r k) = 2 * Real.pi * (intDot u k : ℝ) := by
    have e : intDot (rowZ m u) (rowZ (cofZ m) k) = volZ m * intDot u k := by
      simp [intDot, rowZ, cofZ, crossZ, volZ]; ring
    have e' : (intDot (rowZ m u) (rowZ (cofZ m) k) : ℝ) = volZ m * intDot u k := by
      exact_mod_cast e
    simp only [dot, lat_int, hrk]
    simp only [intDot, Int.cast_add, Int.cast_mul] at e'
    field_simp
    simp only [intDot, Int.cast_add, Int.cast_mul]
    linear_combination e'
  have hsq : (intDot u k : ℝ) ^ 2 = 4 := by
    have : |(intDot u k : ℝ)| = 2 := by exact_mod_cast congrArg (fun z : ℤ => (z : ℝ)) huk'
    rw [← sq_abs, this]; norm_num
  have hd2 : dot (latticeVec (intCell s m) u) (latticeVec r k) ^ 2 = (2 * Real.pi) ^ 2 * 4 := by
    rw [hdot, mul_pow, hsq]
  have hq : dot (latticeVec (intCell s m) u) (latticeVec (intCell s m) u) *
      dot (latticeVec r k) (latticeVec r k) = (2 * Real.pi) ^ 2 / (volZ m : ℝ) ^ 2 *
        ((intDot (rowZ m u) (rowZ m u) * intDot (rowZ (cofZ m) k) (rowZ (cofZ m) k) : ℤ) : ℝ) := by
    rw [dot_int]
    have : dot (latticeVec r k) (latticeVec r k) = (2 * Real.pi / (s * volZ m)) ^ 2 *
        (intDot (rowZ (cofZ m) k) (rowZ (cofZ m) k) : ℝ) := by
      simp only [dot, hrk, intDot, Int.cast_add, Int.cast_mul]; ring
    rw [this]
    push_cast
    field_simp
  rcases h2 with h2 | h2
  · left
    unfold SameLine
    rw [hd2, hq, h2]
    push_cast
    field_simp
  · right
    unfold AngleAtLeast
    rw [hd2, hq]
    have h3 : (785 * 4 * (volZ m : ℝ) ^ 2) ≤ 784 * ((intDot (rowZ m u) (rowZ m u) *
        intDot (rowZ (cofZ m) k) (rowZ (cofZ m) k) : ℤ) : ℝ) := by exact_mod_cast h2
    set q := ((intDot (rowZ m u) (rowZ m u) *
        intDot (rowZ (cofZ m) k) (rowZ (cofZ m) k) : ℤ) : ℝ)
    have hvv : 0 < (volZ m : ℝ) ^ 2 := by positivity
    have hc := cos_two
    have hq0 : 0 ≤ q := by nlinarith
    have h4 : (4 : ℝ) ≤ 784 / 785 * (q / (volZ m : ℝ) ^ 2) := by
      rw [mul_div_assoc', le_div_iff₀ hvv]
      linarith
    have h5 : 784 / 785 * (q / (volZ m : ℝ) ^ 2) ≤
        Real.cos (2 * (Real.pi / 180)) ^ 2 * (q / (volZ m : ℝ) ^ 2) :=
      mul_le_mul_of_nonneg_right hc (by positivity)
    have h6 : (2 * Real.pi) ^ 2 * 4 ≤ (2 * Real.pi) ^ 2 *
        (Real.cos (2 * (Real.pi / 180)) ^ 2 * (q / (volZ m : ℝ) ^ 2)) :=
      mul_le_mul_of_nonneg_left (h4.trans h5) (by positivity)
    calc (2 * Real.pi) ^ 2 * 4 ≤ _ := h6
      _ = _ := by ring

theorem twofold_int (hs : 0 < s) (hv : volZ m ≠ 0) {p : (Fin 3 → ℤ) → Bool}
    (h : twofoldZ m p = true) {u : Fin 3 → ℤ} (hu : ∀ i, |u i| ≤ 2)
    (ht : TwofoldAxis (intCell s m) (latticeVec (intCell s m) u)) : p u = true := by
  have hv' : (volZ m : ℝ) ≠ 0 := by exact_mod_cast hv
  have hd : (intCell s m).det ≠ 0 := by
    rw [det_int]
    exact mul_ne_zero (pow_ne_zero 3 hs.ne') hv'
  unfold twofoldZ at h
  rw [List.all_eq_true] at h
  have h1 := h u (mem_miller'.2 hu)
  simp only [Bool.or_eq_true, decide_eq_true_eq] at h1
  have hu0 : u ≠ 0 := by
    rintro rfl
    apply ht.1
    funext j; simp [latticeVec]
  rcases h1 with (h1 | h1) | ⟨i, j, hij⟩
  · exact absurd h1 hu0
  · exact h1
  · exfalso
    apply hij
    have hi : intCell s m i ∈ latticePoints (intCell s m) := by
      refine ⟨fun k => if k = i then 1 else 0, ?_⟩
      funext l
      fin_cases i <;> simp [Fin.sum_univ_three]
    obtain ⟨n, hn⟩ := ht.2 _ hi
    have htt := vdot_self_pos (latticeVec_ne hd hu0)
    rw [dot_int] at htt
    have htz : (intDot (rowZ m u) (rowZ m u) : ℝ) ≠ 0 := by
      intro e; rw [e, mul_zero] at htt; exact lt_irrefl _ htt
    have hco : (fun k => (n k : ℝ) + if k = i then 1 else 0) = fun k =>
        2 * ((intDot (m i) (rowZ m u) : ℝ) / intDot (rowZ m u) (rowZ m u)) * u k := by
      apply index_ext hd
      intro l
      have := congrFun hn l
      simp only [halfTurn, dot_row, dot_int] at this
      have e : s ^ 2 * (intDot (m i) (rowZ m u) : ℝ) / (s ^ 2 * intDot (rowZ m u) (rowZ m u)) =
          (intDot (m i) (rowZ m u) : ℝ) / intDot (rowZ m u) (rowZ m u) := by
        field_simp
      rw [e] at this
      simp only [latticeVec, Fin.sum_univ_three] at this ⊢
      fin_cases i <;> simp at this ⊢ <;> linear_combination -this
    have hj := congrFun hco j
    refine ⟨n j + if j = i then 1 else 0, ?_⟩
    have : (intDot (rowZ m u) (rowZ m u) : ℝ) * ((n j : ℝ) + if j = i then 1 else 0) =
        2 * intDot (m i) (rowZ m u) * u j := by
      rw [hj]; field_simp
    have h3 : (intDot (rowZ m u) (rowZ m u) : ℤ) * (n j + if j = i then 1 else 0) =
        2 * intDot (m i) (rowZ m u) * u j := by
      have : ((intDot (rowZ m u) (rowZ m u) * (n j + if j = i then 1 else 0) : ℤ) : ℝ) =
        ((2 * intDot (m i) (rowZ m u) * u j : ℤ) : ℝ) := by
        push_cast
        exact this
      exact_mod_cast this
    exact h3.symm

end

/-- A primitive monoclinic cell. -/
def mclZ : Matrix (Fin 3) (Fin 3) ℤ := !![3, 0, 0; 0, 1, 0; 1, 0, 2]

/-- Another cell of the same lattice: the axis is the difference of two vectors. -/
def mclZ' : Matrix (Fin 3) (Fin 3) ℤ := !![3, 0, 0; 1, 0, 2; 1, 1, 2]

/-- A primitive cell of a centred monoclinic lattice. -/
def mclcZ : Matrix (Fin 3) (Fin 3) ℤ := !![2, 1, 0; -2, 1, 0; 1, 0, 2]

/-- A triclinic cell. -/
def triZ : Matrix (Fin 3) (Fin 3) ℤ := !![3, 0, 0; 1, 2, 0; 3, 3, 1]

theorem mclZ_clear : clearZ mclZ = true := by decide +kernel
theorem mclZ'_clear : clearZ mclZ' = true := by decide +kernel
theorem mclcZ_clear : clearZ mclcZ = true := by decide +kernel
theorem triZ_clear : clearZ triZ = true := by decide +kernel
theorem mclZ_axes : twofoldZ mclZ (fun u => parZ u ![0, 1, 0]) = true := by decide +kernel
theorem mclZ'_axes : twofoldZ mclZ' (fun u => parZ u ![0, -1, 1]) = true := by decide +kernel
theorem mclcZ_axes : twofoldZ mclcZ (fun u => parZ u ![1, 1, 0]) = true := by decide +kernel
theorem triZ_axes : twofoldZ triZ (fun _ => false) = true := by decide +kernel

end Wulfric
