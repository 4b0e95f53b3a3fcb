import Verif.Lemmas.DirectEnough

/-! # Triclinic lattices: the order and the signs of the vectors do not matter -/

namespace Wulfric

open Matrix _root_.Spec Wulfric.Spec

/-- The columns of the matrix are the three directions in some order, with some signs. -/
def SignedOrder (m : Matrix (Fin 3) (Fin 3) ℤ) : Prop :=
  m * m.transpose = 1 ∧ ∀ i, |m 0 i| + |m 1 i| + |m 2 i| ≤ 1 ∧ |m i 0| + |m i 1| + |m i 2| ≤ 1

instance (m : Matrix (Fin 3) (Fin 3) ℤ) : Decidable (SignedOrder m) := by
  unfold SignedOrder; infer_instance

theorem specPoint_applyT (m : Matrix (Fin 3) (Fin 3) ℤ) (c : Cell ℝ) (n : Fin 3 → ℤ) :
    specPoint (applyT m c) false n = specPoint c false (m *ᵥ n) := by
  ext j
  simp [specPoint, applyT, Matrix.mul_apply, Matrix.mulVec, dotProduct, Fin.sum_univ_three]
  ring

theorem small_sum {x y z a b c N : ℤ} (h : |x| + |y| + |z| ≤ 1) (ha : |a| ≤ N) (hb : |b| ≤ N)
    (hc : |c| ≤ N) : |x * a + y * b + z * c| ≤ N := by
  have hN : 0 ≤ N := (abs_nonneg _).trans ha
  calc |x * a + y * b + z * c| ≤ |x * a| + |y * b| + |z * c| := abs_add_three _ _ _
    _ = |x| * |a| + |y| * |b| + |z| * |c| := by rw [abs_mul, abs_mul, abs_mul]
    _ ≤ |x| * N + |y| * N + |z| * N := by gcongr
    _ = (|x| + |y| + |z|) * N := by ring
    _ ≤ 1 * N := by gcongr
    _ = N := one_mul N

theorem enough_applyT {m : Matrix (Fin 3) (Fin 3) ℤ} {c : Cell ℝ} (h : SignedOrder m)
    (he : Enough c) : Enough (applyT m c) := by
  have h1 (n : Fin 3 → ℤ) : m *ᵥ (m.transpose *ᵥ n) = n := by
    rw [Matrix.mulVec_mulVec, h.1, Matrix.one_mulVec]
  have hpts (p : Vec ℝ) : p ∈ resultPoints (getLatticePoints (applyT m c) (fun _ => 10)) ↔
      p ∈ resultPoints (getLatticePoints c (fun _ => 10)) := by
    rw [mem_resultPoints, mem_resultPoints]
    constructor
    · rintro ⟨n, hn, rfl⟩
      refine ⟨m *ᵥ n, fun j => ?_, specPoint_applyT m c n⟩
      have := small_sum (h.2 j).2 (hn 0) (hn 1) (hn 2)
      simpa [Matrix.mulVec, dotProduct, Fin.sum_univ_three] using this
    · rintro ⟨n, hn, rfl⟩
      refine ⟨m.transpose *ᵥ n, fun j => ?_, ?_⟩
      · have := small_sum (h.2 j).1 (hn 0) (hn 1) (hn 2)
        simpa [Matrix.mulVec, dotProduct, Fin.sum_univ_three] using this
      · rw [specPoint_applyT, h1]
  have hlat : latticePoints (applyT m c) = latticePoints c := by
    rw [latticePoints_eq, latticePoints_eq]
    ext p
    constructor
    · rintro ⟨n, rfl⟩
      exact ⟨m *ᵥ n, specPoint_applyT m c n⟩
    · rintro ⟨n, rfl⟩
      exact ⟨m.transpose *ᵥ n, by rw [specPoint_applyT, h1]⟩
  have e1 : region (resultPoints (getLatticePoints (applyT m c) (fun _ => 10))) =
      region (resultPoints (getLatticePoints c (fun _ => 10))) := by
    ext x
    exact ⟨fun hx p hp => hx p ((hpts p).2 hp), fun hx p hp => hx p ((hpts p).1 hp)⟩
  unfold Enough at he ⊢
  rw [e1, he]
  unfold wignerSeitz
  rw [hlat]

theorem signMatrix_order {x y z : ℝ} {m : Matrix (Fin 3) (Fin 3) ℤ}
    (h : signMatrix x y z = .ok m) : SignedOrder m := by
  unfold signMatrix at h
  split_ifs at h <;> cases h <;> decide +kernel

theorem dotMatrix_order {x y z : ℝ} {m : Matrix (Fin 3) (Fin 3) ℤ}
    (h : dotMatrix x y z = .ok m) : SignedOrder m := by
  unfold dotMatrix at h
  split_ifs at h <;> cases h <;> decide +kernel

theorem extremeMatrix_order {x y z tol : ℝ} {m : Matrix (Fin 3) (Fin 3) ℤ}
    (h : extremeMatrix x y z tol = .ok m) : SignedOrder m := by
  simp only [extremeMatrix] at h
  split_ifs at h <;> cases h <;> decide +kernel

/-- HPKOT, triclinic: the reciprocal lattice is given by a reduced cell. -/
theorem hpkotA_direct {niggli : Cell ℝ → Except Err (Cell ℝ)} {c d : Cell ℝ}
    (h : hpkotConventionalA niggli c = .ok d)
    (hred : ∀ r r1, getReciprocal c = .ok r → niggli r = .ok r1 → IsNiggli r1) : Enough d := by
  unfold hpkotConventionalA at h
  cases hr : getReciprocal c with
  | error e => rw [hr] at h; cases h
  | ok r =>
  simp only [hr, bind, Except.bind, pure, Except.pure] at h
  cases hn : niggli r with
  | error e => rw [hn] at h; cases h
  | ok r1 =>
  simp only [hn] at h
  have red := hred r r1 hr hn
  cases hr1 : getReciprocal r1 with
  | error e => rw [hr1] at h; cases h
  | ok c1 =>
  simp only [hr1] at h
  cases h2 : dotMatrix |npDot (r1 1) (r1 2)| |npDot (r1 0) (r1 2)| |npDot (r1 0) (r1 1)| with
  | error e => rw [h2] at h; cases h
  | ok m2 =>
  simp only [h2] at h
  cases h3 : getReciprocal (applyT m2 c1) with
  | error e => rw [h3] at h; cases h
  | ok r2 =>
  simp only [h3] at h
  cases h4 : getParams r2 with
  | error e => rw [h4] at h; cases h
  | ok p =>
  obtain ⟨x, y, z, al, be, ga⟩ := p
  simp only [h4] at h
  cases h5 : signMatrix al be ga with
  | error e => rw [h5] at h; cases h
  | ok m3 =>
  simp only [h5] at h
  cases h
  exact enough_applyT (signMatrix_order h5) (enough_applyT (dotMatrix_order h2)
    (C52_brillouin r1 c1 red hr1))

/-- SC, triclinic: only the order and the signs of the vectors are changed. -/
theorem scA_order {c d : Cell ℝ} {tol : ℝ} (h : scConventionalA c tol = .ok d) :
    ∃ m1 m2 r0, SignedOrder m1 ∧ SignedOrder m2 ∧ d = applyT m2 (applyT m1 c) ∧
      getReciprocal c = .ok r0 ∧ getReciprocal d = .ok (applyT m2 (applyT m1 r0)) := by
  unfold scConventionalA at h
  cases h0 : getReciprocal c with
  | error e => rw [h0] at h; cases h
  | ok r0 =>
  simp only [h0, bind, Except.bind, pure, Except.pure] at h
  cases hp : getParams r0 with
  | error e => rw [hp] at h; cases h
  | ok p =>
  obtain ⟨x, y, z, al, be, ga⟩ := p
  simp only [hp] at h
  cases h1 : signMatrix al be ga with
  | error e => rw [h1] at h; cases h
  | ok m1 =>
  simp only [h1] at h
  cases hp1 : getParams (applyT m1 r0) with
  | error e => rw [hp1] at h; cases h
  | ok p1 =>
  obtain ⟨x1, y1, z1, al1, be1, ga1⟩ := p1
  simp only [hp1] at h
  cases h2 : extremeMatrix al1 be1 ga1 tol with
  | error e => rw [h2] at h; cases h
  | ok m2 =>
  have q1 := recip_applyT m1 (signMatrix_det h1).2 c r0 h0
  obtain ⟨r', q2, -, q3⟩ := C03_involution _ (recip_ok q1).1
  rw [q1] at q2
  cases q2
  simp only [h2, q3] at h
  cases h
  exact ⟨m1, m2, r0, signMatrix_order h1, extremeMatrix_order h2, rfl, rfl,
    recip_applyT m2 (extremeMatrix_det h2).2 _ _ q1⟩

end Wulfric
