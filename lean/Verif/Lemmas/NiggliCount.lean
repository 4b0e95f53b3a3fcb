import Verif.Lemmas.NiggliFlat
import Verif.Lemmas.NiggliIdem
import Verif.Lemmas.NiggliClean
import Verif.Lemmas.Packing

/-! # Counting the passes of the exact loop -/

namespace Wulfric
open Matrix Spec

set_option linter.unusedSectionVars false

section Field
variable {K : Type*} [Field K] [LinearOrder K] [IsStrictOrderedRing K]

theorem cur_row_mem (cell : Cell K) (T : Matrix (Fin 3) (Fin 3) ℤ) (i : Fin 3) :
    cur cell T i ∈ latticePoints cell :=
  latticePoints_mul_subset _ _ (row_mem (cur cell T) i)

theorem init_norms (cell : Cell K) :
    (niggliInit cell).A + (niggliInit cell).B + (niggliInit cell).C =
      dot (cell 0) (cell 0) + dot (cell 1) (cell 1) + dot (cell 2) (cell 2) := by
  simp [niggliInit, dot, Matrix.mul_apply, Fin.sum_univ_three]

/-- Squared lengths of the vectors of a commensurate lattice. -/
theorem commensurate_norm {sp : K} {cell : Cell K} (h : Commensurate sp cell) {v : Vec K}
    (hv : v ∈ latticePoints cell) : ∃ n : ℤ, dot v v = n * sp := by
  obtain ⟨n, rfl⟩ := hv
  obtain ⟨a, ha⟩ := h 0 0
  obtain ⟨b, hb⟩ := h 1 1
  obtain ⟨c, hc⟩ := h 2 2
  obtain ⟨x, hx⟩ := h 1 2
  obtain ⟨y, hy⟩ := h 0 2
  obtain ⟨z, hz⟩ := h 0 1
  simp only [if_true] at ha hb hc
  rw [if_neg (by decide)] at hx hy hz
  refine ⟨n 0 ^ 2 * a + n 1 ^ 2 * b + n 2 ^ 2 * c + n 1 * n 2 * x + n 0 * n 2 * y + n 0 * n 1 * z, ?_⟩
  push_cast
  have e : dot (fun j => ∑ i, (n i : K) * cell i j) (fun j => ∑ i, (n i : K) * cell i j) =
      (n 0 : K) ^ 2 * dot (cell 0) (cell 0) + (n 1 : K) ^ 2 * dot (cell 1) (cell 1) +
      (n 2 : K) ^ 2 * dot (cell 2) (cell 2) + (n 1 : K) * n 2 * (2 * dot (cell 1) (cell 2)) +
      (n 0 : K) * n 2 * (2 * dot (cell 0) (cell 2)) + (n 0 : K) * n 1 * (2 * dot (cell 0) (cell 1)) := by
    simp only [dot, Fin.sum_univ_three]; ring
  rw [e, ha, hb, hc, hx, hy, hz]
  ring

/-- `n` for `n * sp`. -/
noncomputable def multiple (sp a : K) : ℕ := by
  classical exact if h : ∃ n : ℕ, a = n * sp then h.choose else 0

theorem multiple_eq {sp : K} (n : ℕ) {a : K} (h : a = n * sp) : a = multiple sp a * sp := by
  have h' : ∃ n : ℕ, a = n * sp := ⟨n, h⟩
  unfold multiple
  rw [dif_pos h']
  exact h'.choose_spec

theorem loop_commensurate {cell : Cell K} (hd : cell.det ≠ 0) {sp : K} (hsp : 0 < sp)
    (h : Commensurate sp cell) (n : ℕ)
    (hn : 6 * (dot (cell 0) (cell 0) + dot (cell 1) (cell 1) + dot (cell 2) (cell 2)) < (n : K) * sp) :
    ∃ r, niggliLoop 0 0 n (niggliInit cell) = .ok r := by
  have hV : ∀ v ∈ latticePoints cell, dot v v = multiple sp (dot v v) * sp := by
    intro v hv
    obtain ⟨k, hk⟩ := commensurate_norm h hv
    have h0 : 0 ≤ k := by
      have := dot_self_nonneg v
      rw [hk] at this
      have := nonneg_of_mul_nonneg_left this hsp
      exact_mod_cast this
    obtain ⟨m, rfl⟩ := Int.eq_ofNat_of_zero_le h0
    exact multiple_eq m (by simpa using hk)
  have hpos : ∀ v ∈ latticePoints cell, v ≠ 0 → 1 ≤ multiple sp (dot v v) := by
    intro v hv h0
    have h1 := dot_self_pos h0
    rw [hV v hv] at h1
    have := (mul_pos_iff_of_pos_right hsp).1 h1
    have : 0 < multiple sp (dot v v) := by exact_mod_cast this
    omega
  have hg := good_init cell
  have hn0 := row_ne_zero hd
  refine loop_bound hd (fun a => ∃ v ∈ latticePoints cell, v ≠ 0 ∧ dot v v = a) _
    (fun a => multiple sp a - 1) ?_ ?_ n (niggliInit cell) 5 hg le_rfl (.inl rfl) ?_
  · intro s hs _
    have hr := row_ne_zero (hs.curdet hd)
    exact ⟨⟨_, cur_row_mem _ _ 0, hr 0, hs.tr.A.symm⟩, ⟨_, cur_row_mem _ _ 1, hr 1, hs.tr.B.symm⟩,
      ⟨_, cur_row_mem _ _ 2, hr 2, hs.tr.C.symm⟩⟩
  · rintro a b ⟨v, hv, v0, rfl⟩ ⟨w, hw, w0, rfl⟩ hab
    rw [hV v hv, hV w hw] at hab
    have := lt_of_mul_lt_mul_right hab hsp.le
    have : multiple sp (dot v v) < multiple sp (dot w w) := by exact_mod_cast this
    have := hpos v hv v0
    omega
  · have eA : (key (niggliInit cell)).A = dot (cell 0) (cell 0) := by
      simp [key, niggliInit, dot, Matrix.mul_apply, Fin.sum_univ_three]
    have eB : (key (niggliInit cell)).B = dot (cell 1) (cell 1) := by
      simp [key, niggliInit, dot, Matrix.mul_apply, Fin.sum_univ_three]
    have eC : (key (niggliInit cell)).C = dot (cell 2) (cell 2) := by
      simp [key, niggliInit, dot, Matrix.mul_apply, Fin.sum_univ_three]
    simp only [phi, eA, eB, eC]
    have h0 := hpos _ (row_mem cell 0) (hn0 0)
    have h1 := hpos _ (row_mem cell 1) (hn0 1)
    have h2 := hpos _ (row_mem cell 2) (hn0 2)
    rw [hV _ (row_mem cell 0), hV _ (row_mem cell 1), hV _ (row_mem cell 2), ← add_mul, ← add_mul,
      ← mul_assoc] at hn
    have := lt_of_mul_lt_mul_right hn hsp.le
    have : 6 * (multiple sp (dot (cell 0) (cell 0)) + multiple sp (dot (cell 1) (cell 1)) +
      multiple sp (dot (cell 2) (cell 2))) < n := by exact_mod_cast this
    omega

end Field

/-! ## Without commensurability: count the lattice vectors -/

/-- The squared lengths of the nonzero lattice vectors with a square of at most `S`. -/
def shortNorms (cell : Cell ℝ) (S : ℝ) : Set ℝ :=
  {a | ∃ v ∈ latticePoints cell, v ≠ 0 ∧ dot v v ≤ S ∧ dot v v = a}

theorem lat_sub {cell : Cell ℝ} {v w : Vec ℝ} (hv : v ∈ latticePoints cell)
    (hw : w ∈ latticePoints cell) : v - w ∈ latticePoints cell := by
  obtain ⟨n, rfl⟩ := hv
  obtain ⟨k, rfl⟩ := hw
  exact ⟨n - k, by ext j; simp [sub_mul, Finset.sum_sub_distrib]⟩

theorem lat_zero (cell : Cell ℝ) : (0 : Vec ℝ) ∈ latticePoints cell := ⟨0, by ext j; simp⟩

theorem short_card {cell : Cell ℝ} {S r l : ℝ} (hr : 0 ≤ r) (hl : 0 < l)
    (hmin : ∀ v ∈ latticePoints cell, v ≠ 0 → l ≤ dot v v) (hS : S ≤ r ^ 2 * l)
    (s : Finset (Vec ℝ)) (hs : ∀ v ∈ s, v ∈ latticePoints cell ∧ dot v v ≤ S) :
    (s.card : ℝ) ≤ (2 * r + 1) ^ 3 :=
  packing_dot s r l hr hl (fun v hv => (hs v hv).2.trans hS) fun v hv w hw hne =>
    hmin _ (lat_sub (hs v hv).1 (hs w hw).1) (sub_ne_zero.2 hne)

theorem short_finite {cell : Cell ℝ} {S r l : ℝ} (hr : 0 ≤ r) (hl : 0 < l)
    (hmin : ∀ v ∈ latticePoints cell, v ≠ 0 → l ≤ dot v v) (hS : S ≤ r ^ 2 * l) :
    {v | v ∈ latticePoints cell ∧ dot v v ≤ S}.Finite := by
  by_contra hinf
  obtain ⟨n, hn⟩ := exists_nat_gt ((2 * r + 1) ^ 3)
  obtain ⟨t, ht, hc⟩ := Set.Infinite.exists_subset_card_eq hinf n
  have := short_card hr hl hmin hS t (fun v hv => ht hv)
  rw [hc] at this
  linarith

theorem shortNorms_count {cell : Cell ℝ} {S r l : ℝ} (hS0 : 0 ≤ S) (hr : 0 ≤ r) (hl : 0 < l)
    (hmin : ∀ v ∈ latticePoints cell, v ≠ 0 → l ≤ dot v v) (hS : S ≤ r ^ 2 * l) :
    (shortNorms cell S).Finite ∧ 2 * ((shortNorms cell S).ncard : ℝ) + 1 ≤ (2 * r + 1) ^ 3 := by
  classical
  have hf := short_finite hr hl hmin hS
  set F := hf.toFinset with hF
  have memF : ∀ v, v ∈ F ↔ v ∈ latticePoints cell ∧ dot v v ≤ S := by
    intro v; rw [hF, Set.Finite.mem_toFinset]; rfl
  have h0 : (0 : Vec ℝ) ∈ F := (memF 0).2 ⟨lat_zero cell, by simpa [dot] using hS0⟩
  have e : shortNorms cell S = ((F.erase 0).image fun v => dot v v : Finset ℝ) := by
    ext a
    simp only [shortNorms, Set.mem_ofPred_eq, Finset.coe_image, Set.mem_image, Finset.mem_coe,
      Finset.mem_erase, memF]
    constructor
    · rintro ⟨v, hv, h1, h2, h3⟩; exact ⟨v, ⟨h1, hv, h2⟩, h3⟩
    · rintro ⟨v, ⟨h1, hv, h2⟩, h3⟩; exact ⟨v, hv, h1, h2, h3⟩
  rw [e]
  refine ⟨Finset.finite_toSet _, ?_⟩
  rw [Set.ncard_coe_finset]
  have two : 2 * ((F.erase 0).image fun v => dot v v).card ≤ (F.erase 0).card := by
    refine Finset.mul_card_image_le_card _ 2 ?_
    intro b hb
    obtain ⟨v, hv, rfl⟩ := Finset.mem_image.1 hb
    rw [Finset.mem_erase, memF] at hv
    have hneg : -v ∈ latticePoints cell := by
      have := lat_sub (lat_zero cell) hv.2.1
      rwa [zero_sub] at this
    have hd : dot (-v) (-v) = dot v v := by simp [dot]
    have hne : v ≠ -v := by
      intro h
      apply hv.1
      ext j
      have := congrFun h j
      simp only [Pi.neg_apply] at this
      simp only [Pi.zero_apply]
      linarith
    rw [← Finset.card_pair hne]
    refine Finset.card_le_card ?_
    intro w hw
    rw [Finset.mem_insert, Finset.mem_singleton] at hw
    rw [Finset.mem_filter, Finset.mem_erase, memF]
    rcases hw with rfl | rfl
    · exact ⟨hv, rfl⟩
    · exact ⟨⟨neg_ne_zero.2 hv.1, hneg, hd ▸ hv.2.2⟩, hd⟩
  rw [Finset.card_erase_of_mem h0] at two
  have hc := short_card hr hl hmin hS F (fun v hv => (memF v).1 hv)
  have h1 : 1 ≤ F.card := Finset.card_pos.2 ⟨0, h0⟩
  have : 2 * ((F.erase 0).image fun v => dot v v).card + 1 ≤ F.card := by omega
  have : 2 * (((F.erase 0).image fun v => dot v v).card : ℝ) + 1 ≤ F.card := by exact_mod_cast this
  linarith

theorem loop_short {cell : Cell ℝ} (hd : cell.det ≠ 0) {r l : ℝ} (hr : 0 ≤ r) (hl : 0 < l)
    (hmin : ∀ v ∈ latticePoints cell, v ≠ 0 → l ≤ dot v v)
    (hS : dot (cell 0) (cell 0) + dot (cell 1) (cell 1) + dot (cell 2) (cell 2) ≤ r ^ 2 * l) (n : ℕ)
    (hn : 9 * (2 * r + 1) ^ 3 ≤ n) : ∃ q, niggliLoop 0 0 n (niggliInit cell) = .ok q := by
  set S := dot (cell 0) (cell 0) + dot (cell 1) (cell 1) + dot (cell 2) (cell 2) with hSd
  have p0 := dot_self_pos (row_ne_zero hd 0)
  have p1 := dot_self_pos (row_ne_zero hd 1)
  have p2 := dot_self_pos (row_ne_zero hd 2)
  obtain ⟨hf, hc⟩ := shortNorms_count (by linarith : 0 ≤ S) hr hl hmin hS
  set W := shortNorms cell S
  have rk : ∀ a ∈ W, (W ∩ Set.Iio a).ncard + 1 ≤ W.ncard := by
    intro a ha
    refine Set.ncard_lt_ncard ⟨Set.inter_subset_left, fun h => ?_⟩ hf
    exact lt_irrefl a (h ha).2
  have hA : dot (cell 0) (cell 0) ∈ W := ⟨_, row_mem cell 0, row_ne_zero hd 0, by linarith, rfl⟩
  have hB : dot (cell 1) (cell 1) ∈ W := ⟨_, row_mem cell 1, row_ne_zero hd 1, by linarith, rfl⟩
  have hC : dot (cell 2) (cell 2) ∈ W := ⟨_, row_mem cell 2, row_ne_zero hd 2, by linarith, rfl⟩
  refine loop_bound hd (· ∈ W) S (fun a => (W ∩ Set.Iio a).ncard) ?_ ?_ n (niggliInit cell) 5
    (good_init cell) (init_norms cell).le (.inl rfl) ?_
  · intro s hs hle
    have hr := row_ne_zero (hs.curdet hd)
    have a := hs.A_pos hd
    have b := hs.B_pos hd
    have c := hs.C_pos hd
    refine ⟨⟨_, cur_row_mem _ _ 0, hr 0, ?_, hs.tr.A.symm⟩, ⟨_, cur_row_mem _ _ 1, hr 1, ?_, hs.tr.B.symm⟩,
      ⟨_, cur_row_mem _ _ 2, hr 2, ?_, hs.tr.C.symm⟩⟩
    · rw [← hs.tr.A]; linarith
    · rw [← hs.tr.B]; linarith
    · rw [← hs.tr.C]; linarith
  · intro a b ha _ hab
    refine Set.ncard_lt_ncard ⟨fun x hx => ⟨hx.1, lt_trans hx.2 hab⟩, fun h => ?_⟩
      (hf.subset Set.inter_subset_left)
    exact lt_irrefl a (h ⟨ha, hab⟩).2
  · have eA : (key (niggliInit cell)).A = dot (cell 0) (cell 0) := by
      simp [key, niggliInit, dot, Matrix.mul_apply, Fin.sum_univ_three]
    have eB : (key (niggliInit cell)).B = dot (cell 1) (cell 1) := by
      simp [key, niggliInit, dot, Matrix.mul_apply, Fin.sum_univ_three]
    have eC : (key (niggliInit cell)).C = dot (cell 2) (cell 2) := by
      simp [key, niggliInit, dot, Matrix.mul_apply, Fin.sum_univ_three]
    simp only [phi, eA, eB, eC]
    have h0 := rk _ hA
    have h1 := rk _ hB
    have h2 := rk _ hC
    have : 18 * (W.ncard : ℝ) ≤ n := by linarith
    have : 18 * W.ncard ≤ n := by exact_mod_cast this
    omega

end Wulfric
