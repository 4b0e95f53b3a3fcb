import Verif.Props.C92_Centred

/-! # C92: examples of monoclinic lattices -/

namespace Wulfric

open Matrix _root_.Spec

theorem vec_int {c : Cell ℝ} {m : Matrix (Fin 3) (Fin 3) ℤ} (h : c = m.map (Int.cast : ℤ → ℝ))
    (x : Fin 3 → ℤ) : latticeVec c x = fun j => (rowZ m x j : ℝ) := by
  funext j
  fin_cases j <;> simp [latticeVec, rowZ, h, Fin.sum_univ_three]

theorem row_dot_int {c : Cell ℝ} {m : Matrix (Fin 3) (Fin 3) ℤ} (h : c = m.map (Int.cast : ℤ → ℝ))
    (i : Fin 3) (x : Fin 3 → ℤ) : dot (c i) (latticeVec c x) = (intDot (m i) (rowZ m x) : ℤ) := by
  rw [vec_int h]
  simp [dot, intDot, h]

theorem len_int {c : Cell ℝ} {m : Matrix (Fin 3) (Fin 3) ℤ} (h : c = m.map (Int.cast : ℤ → ℝ))
    (x : Fin 3 → ℤ) : dot (latticeVec c x) (latticeVec c x) =
      (intDot (rowZ m x) (rowZ m x) : ℤ) := by
  rw [vec_int h]
  simp [dot, intDot]

/-- A condition, for a Niggli-reduced cell with integer coordinates, for the lattice to be monoclinic:
by `C92_axis_range` only the axes with indices up to 2 matter. -/
theorem monoclinic_int {c : Cell ℝ} {m : Matrix (Fin 3) (Fin 3) ℤ}
    (h : c = m.map (Int.cast : ℤ → ℝ)) (hd : c.det ≠ 0) (hn : IsNiggli c) {u k : Fin 3 → ℤ}
    (hp : primZ u = true)
    (hk : ∀ i, 2 * intDot (m i) (rowZ m u) = intDot (rowZ m u) (rowZ m u) * k i)
    (htab : ∀ x ∈ millerIndices 2, primZ x = true →
      (∀ i, intDot (rowZ m x) (rowZ m x) ∣ 2 * intDot (m i) (rowZ m x)) → x = u ∨ x = -u) :
    MonoclinicAlong c (latticeVec c u) ∧ ((∃ j, |k j| = 1) → ¬ PrimitiveAlong c (latticeVec c u)) := by
  have hu0 : u ≠ 0 := by rintro rfl; simp [primZ] at hp
  have hb : 0 < dot (latticeVec c u) (latticeVec c u) := vdot_self_pos (latticeVec_ne hd hu0)
  have hh : ∀ i, dot (c i) (latticeVec c u) = dot (latticeVec c u) (latticeVec c u) / 2 * k i := by
    intro i
    rw [row_dot_int h, len_int h]
    have := congrArg (fun z : ℤ => (z : ℝ)) (hk i)
    push_cast at this
    linarith
  have hx := dot_normal hh
  refine ⟨⟨⟨u, rfl⟩, ?_, ⟨latticeVec_ne hd hu0, ?_⟩, ?_⟩, ?_⟩
  · rintro t x ⟨n, rfl⟩ e
    have e' : (fun i => (u i : ℝ)) = fun i => (t : ℝ) * n i := by
      apply index_ext hd
      intro j
      have := congrFun e j
      simp only [latticeVec, Fin.sum_univ_three, Pi.smul_apply, smul_eq_mul] at this ⊢
      rw [this]; ring
    have e2 : ∀ i, u i = t * n i := fun i => by exact_mod_cast congrFun e' i
    obtain ⟨w, hw⟩ := bezout hp
    have : t * intDot w n = 1 := by
      rw [← hw]
      simp only [intDot, e2]; ring
    exact Int.isUnit_iff_abs_eq.1 (IsUnit.of_mul_eq_one _ this)
  · rintro x ⟨n, rfl⟩
    refine ⟨intDot n k • u - n, ?_⟩
    funext j
    change halfTurn (latticeVec c u) (latticeVec c n) j = latticeVec c (intDot n k • u - n) j
    unfold halfTurn
    rw [hx n]
    have e : 2 * (dot (latticeVec c u) (latticeVec c u) / 2 * (intDot n k : ℝ) /
        dot (latticeVec c u) (latticeVec c u)) = intDot n k := by field_simp
    rw [e]
    simp only [latticeVec, Fin.sum_univ_three, Pi.sub_apply, Pi.smul_apply, smul_eq_mul]
    push_cast
    ring
  · intro x hx ht
    obtain ⟨w, q, hw, -, -, hl, hwp, hq⟩ := axis_reduced hd hn hx ht
    refine ⟨_, List.mem_singleton_self _, ?_⟩
    have := htab w (mem_miller'.2 hw) hwp fun i => ⟨q i, by
      have := hq i
      rw [row_dot_int h, len_int h] at this
      have g : (2 : ℝ) * (intDot (m i) (rowZ m w) : ℤ) =
          (intDot (rowZ m w) (rowZ m w) : ℤ) * q i := by linarith
      exact_mod_cast g⟩
    rcases this with e | e
    · rw [← e]; exact hl
    · rw [e, neg_vec] at hl
      unfold SameLine at *
      have a : dot x (-latticeVec c u) = -dot x (latticeVec c u) := by simp [dot]; ring
      have b : dot (-latticeVec c u) (-latticeVec c u) =
        dot (latticeVec c u) (latticeVec c u) := by simp [dot]
      rw [a, b, neg_sq] at hl
      exact hl
  · rintro ⟨j, hj⟩ hpr
    obtain ⟨t, ht⟩ := hpr (c j) ⟨Pi.single j 1, (single_vec c j).symm⟩
    have e : dot (c j - (t : ℝ) • latticeVec c u) (latticeVec c u) =
        dot (c j) (latticeVec c u) - t * dot (latticeVec c u) (latticeVec c u) := by
      simp only [dot, Pi.sub_apply, Pi.smul_apply, smul_eq_mul]; ring
    rw [e, hh] at ht
    have : dot (latticeVec c u) (latticeVec c u) * ((k j : ℝ) - 2 * t) = 0 := by
      linear_combination 2 * ht
    have := (mul_eq_zero.1 this).resolve_left hb.ne'
    have g : (k j : ℝ) = 2 * t := by linarith
    have g' : k j = 2 * t := by exact_mod_cast g
    rw [g'] at hj
    rcases abs_choice (2 * t) with z | z <;> omega

/-- A centred monoclinic cell with a long axis. -/
def longZ : Matrix (Fin 3) (Fin 3) ℤ := !![-2, 1, 0; 1, 1, 2; 1, 1, -2]

/-- A centred monoclinic cell with the axis as the first vector, the others not perpendicular to
it. -/
def firstZ : Matrix (Fin 3) (Fin 3) ℤ := !![1, 1, 0; 1, 0, 2; 3, -2, -1]

/-- A centred monoclinic cell with the axis as the first vector, the second one perpendicular to
it. -/
def missedZ : Matrix (Fin 3) (Fin 3) ℤ := !![1, 1, 0; 1, -1, 1; 0, -1, -2]

/-- The cell with integer coordinates. -/
def castCell (m : Matrix (Fin 3) (Fin 3) ℤ) : Cell ℝ := m.map (Int.cast : ℤ → ℝ)

theorem cast_dot (m : Matrix (Fin 3) (Fin 3) ℤ) (i j : Fin 3) :
    dot (castCell m i) (castCell m j) = (intDot (m i) (m j) : ℤ) := by
  simp [dot, castCell, intDot]

/-- Non-vacuity of the theorems for the centred lattices: two that are recognised, one that is
reported as triclinic. -/
theorem C92_example_centred :
    AlwaysReported (castCell longZ) "MCLC" ∧ AlwaysReported (castCell firstZ) "MCLC" ∧
    AlwaysReported (castCell missedZ) "TRI" ∧
    MonoclinicAlong (castCell missedZ) (castCell missedZ 0) ∧
    ¬ PrimitiveAlong (castCell missedZ) (castCell missedZ 0) := by
  have t0 : (1 / 10000 : ℝ) ≠ 0 := by norm_num
  have dl : (castCell longZ).det ≠ 0 := int_det rfl (by decide +kernel)
  have df : (castCell firstZ).det ≠ 0 := int_det rfl (by decide +kernel)
  have dm : (castCell missedZ).det ≠ 0 := int_det rfl (by decide +kernel)
  have nl : IsNiggli (castCell longZ) := by
    unfold IsNiggli
    simp only [cast_dot]
    constructor <;> simp [longZ, intDot] <;> norm_num
  have nf : IsNiggli (castCell firstZ) := by
    unfold IsNiggli
    simp only [cast_dot]
    constructor <;> simp [firstZ, intDot] <;> norm_num
  have nm : IsNiggli (castCell missedZ) := by
    unfold IsNiggli
    simp only [cast_dot]
    constructor <;> simp [missedZ, intDot] <;> norm_num
  obtain ⟨ml, pl⟩ := monoclinic_int (u := ![0, 1, -1]) (k := ![0, 1, -1]) rfl dl nl (by decide +kernel)
    (by decide +kernel) (by decide +kernel)
  obtain ⟨mf, pf⟩ := monoclinic_int (u := ![1, 0, 0]) (k := ![2, 1, 1]) rfl df nf (by decide +kernel)
    (by decide +kernel) (by decide +kernel)
  obtain ⟨mm, pm⟩ := monoclinic_int (u := ![1, 0, 0]) (k := ![2, 0, -1]) rfl dm nm (by decide +kernel)
    (by decide +kernel) (by decide +kernel)
  have pl := pl ⟨1, by decide +kernel⟩
  have pf := pf ⟨1, by decide +kernel⟩
  have pm := pm ⟨2, by decide +kernel⟩
  have first : ∀ c : Cell ℝ, latticeVec c ![1, 0, 0] = c 0 := by
    intro c; funext j; simp [latticeVec, Fin.sum_univ_three]
  have al : |(1 / 10000 : ℝ)| = 1 / 10000 := abs_of_pos (by norm_num)
  refine ⟨?_, ?_, ?_, first (castCell missedZ) ▸ mm, first (castCell missedZ) ▸ pm⟩
  · refine always dl fun niggli cell hs hd hred fuel =>
      C92_monoclinic_centred t0 (by norm_num) (by norm_num) hd hred
        ((latticeNoPseudo_congr hs).2 (C92_no_pseudo (int_gram rfl) (by decide +kernel)
          (by decide +kernel))) ((monoclinic_congr hs).2 ml) ?_
        (fun g => pl ((primitive_congr hs).1 g)) nl hs.symm ?_ fuel
    · rw [al, len_int rfl, show intDot (rowZ longZ ![0, 1, -1]) (rowZ longZ ![0, 1, -1]) = 16 by
        decide +kernel]
      norm_num
    · rintro ⟨i, j, h, -⟩
      rw [vec_int rfl] at h
      rcases h with h | h
      · have := congrFun h 2
        fin_cases i <;> simp [castCell, longZ, rowZ] at this <;> norm_num at this
      · have := congrFun h 2
        fin_cases i <;> simp [castCell, longZ, rowZ] at this <;> norm_num at this
  · refine always df fun niggli cell hs hd hred fuel =>
      C92_monoclinic_centred t0 (by norm_num) (by norm_num) hd hred
        ((latticeNoPseudo_congr hs).2 (C92_no_pseudo (int_gram rfl) (by decide +kernel)
          (by decide +kernel))) ((monoclinic_congr hs).2 mf) ?_
        (fun g => pf ((primitive_congr hs).1 g)) nf hs.symm ?_ fuel
    · rw [al, len_int rfl, show intDot (rowZ firstZ ![1, 0, 0]) (rowZ firstZ ![1, 0, 0]) = 2 by
        decide +kernel]
      norm_num
    · rintro ⟨i, j, -, -, h⟩
      have h := (row_dot_int (c := castCell firstZ) rfl j ![1, 0, 0]).symm.trans h
      have h : intDot (firstZ j) (rowZ firstZ ![1, 0, 0]) = 0 := by exact_mod_cast h
      exact (show ∀ j, intDot (firstZ j) (rowZ firstZ ![1, 0, 0]) ≠ 0 by decide +kernel) j h
  · refine always dm fun niggli cell hs hd hred fuel =>
      C92_monoclinic_missed t0 (by norm_num) (by norm_num) hd hred
        ((latticeNoPseudo_congr hs).2 (C92_no_pseudo (int_gram rfl) (by decide +kernel)
          (by decide +kernel))) ((monoclinic_congr hs).2 mm) ?_
        (fun g => pm ((primitive_congr hs).1 g)) nm hs.symm
        ⟨0, 1, Or.inl (first _).symm, by decide, ?_⟩ fuel
    · rw [al, len_int rfl, show intDot (rowZ missedZ ![1, 0, 0]) (rowZ missedZ ![1, 0, 0]) = 2 by
        decide +kernel]
      norm_num
    · refine (row_dot_int (c := castCell missedZ) rfl 1 ![1, 0, 0]).trans ?_
      rw [show intDot (missedZ 1) (rowZ missedZ ![1, 0, 0]) = 0 by decide +kernel]
      norm_num

end Wulfric
