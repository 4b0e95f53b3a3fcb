import Verif.Lemmas.NiggliTable
import Verif.Lemmas.NiggliIdem
import Verif.Lemmas.LatticeEquiv

/-! The reduced form is unique: two Niggli-reduced bases of a lattice have the same scalar
products. -/

namespace Spec.Reduced

variable {K : Type*} [Field K] [LinearOrder K] [IsStrictOrderedRing K]
variable {A B C xi eta zeta : K}

theorem val_A : fA.val A B C xi eta zeta = A := by simp [Form.val, fA]
theorem val_B : fB.val A B C xi eta zeta = B := by simp [Form.val, fB]
theorem val_C : fC.val A B C xi eta zeta = C := by simp [Form.val, fC]
theorem val_X : fX.val A B C xi eta zeta = xi := by simp [Form.val, fX]
theorem val_E : fE.val A B C xi eta zeta = eta := by simp [Form.val, fE]
theorem val_Z : fZ.val A B C xi eta zeta = zeta := by simp [Form.val, fZ]

theorem facts_hold {t : Bool} {x e z : Form} {x' e' z' : K}
    (hx : x.val A B C xi eta zeta = x') (he : e.val A B C xi eta zeta = e')
    (hz : z.val A B C xi eta zeta = z') (h : NiggliNumbers A B C x' e' z') (ht : OfType t x' e' z') :
    ∀ s ∈ facts t x e z, Fact.Holds A B C xi eta zeta s := by
  have k1 := abs_le.1 h.xi_le
  have k2 := abs_le.1 h.eta_le
  have k3 := abs_le.1 h.zeta_le
  have k4 := h.sum_nonneg
  cases t
  · obtain ⟨t1, t2, t3⟩ : x' ≤ 0 ∧ e' ≤ 0 ∧ z' ≤ 0 := by simpa [OfType] using ht
    simp only [facts, Bool.false_eq_true, if_false, List.mem_cons, List.not_mem_nil, or_false]
    rintro s (rfl | rfl | rfl | rfl | rfl | rfl | rfl) <;>
      simp only [Fact.Holds, val_add, val_smul, val_A, val_B, hx, he, hz] <;> push_cast <;> linarith
  · obtain ⟨t1, t2, t3⟩ : 0 < x' ∧ 0 < e' ∧ 0 < z' := by simpa [OfType] using ht
    simp only [facts, if_true, List.mem_cons, List.not_mem_nil, or_false]
    rintro s (rfl | rfl | rfl | rfl | rfl | rfl) <;>
      simp only [Fact.Holds, val_sub, val_A, val_B, hx, he, hz] <;> linarith

theorem imps_hold {t : Bool} {x e z : Form} {x' e' z' : K}
    (hx : x.val A B C xi eta zeta = x') (he : e.val A B C xi eta zeta = e')
    (hz : z.val A B C xi eta zeta = z') (h : NiggliNumbers A B C x' e' z') (ht : OfType t x' e' z') :
    ∀ i ∈ imps t x e z, Imp.Holds A B C xi eta zeta i := by
  have k1 := abs_le.1 h.xi_le
  have k2 := abs_le.1 h.eta_le
  have k3 := abs_le.1 h.zeta_le
  have k4 := h.sum_nonneg
  have k5 := h.ab
  have k6 := h.bc
  cases t
  · obtain ⟨t1, t2, t3⟩ : x' ≤ 0 ∧ e' ≤ 0 ∧ z' ≤ 0 := by simpa [OfType] using ht
    have q1 := h.ab_tie
    have q2 := h.bc_tie
    rw [abs_of_nonpos t1, abs_of_nonpos t2] at q1
    rw [abs_of_nonpos t2, abs_of_nonpos t3] at q2
    simp only [imps, Bool.false_eq_true, if_false, List.mem_cons, List.not_mem_nil, or_false]
    rintro s (rfl | rfl | rfl | rfl | rfl | rfl) <;>
      simp only [Imp.Holds, val_add, val_sub, val_smul, val_A, val_B, val_C, hx, he, hz] <;>
      push_cast <;> refine ⟨by linarith, fun e => ?_⟩
    · exact (h.xi_eq_neg (by linarith)).ge
    · exact (h.eta_eq_neg (by linarith)).ge
    · exact (h.zeta_eq_neg (by linarith)).ge
    · have := h.sum_tie (by linarith)
      linarith
    · have := q1 (by linarith)
      linarith
    · have := q2 (by linarith)
      linarith
  · obtain ⟨t1, t2, t3⟩ : 0 < x' ∧ 0 < e' ∧ 0 < z' := by simpa [OfType] using ht
    have q1 := h.ab_tie
    have q2 := h.bc_tie
    rw [abs_of_pos t1, abs_of_pos t2] at q1
    rw [abs_of_pos t2, abs_of_pos t3] at q2
    simp only [imps, if_true, List.mem_cons, List.not_mem_nil, or_false]
    rintro s (rfl | rfl | rfl | rfl | rfl) <;>
      simp only [Imp.Holds, val_sub, val_smul, val_A, val_B, val_C, hx, he, hz] <;>
      push_cast <;> refine ⟨by linarith, fun e => ?_⟩
    · have := h.xi_eq (by linarith)
      linarith
    · have := h.eta_eq (by linarith)
      linarith
    · have := h.zeta_eq (by linarith)
      linarith
    · have := q1 (by linarith)
      linarith
    · have := q2 (by linarith)
      linarith

theorem exists_type {x e z : K} (h : NiggliNumbers A B C x e z) : ∃ t, OfType t x e z := by
  rcases h.type with k | k
  · exact ⟨true, by simpa [OfType] using k⟩
  · exact ⟨false, by simpa [OfType] using k⟩

/-- The statement on the numbers. -/
theorem unique_numbers {t : Bool} (h : NiggliNumbers A B C xi eta zeta) (hA : 0 < A)
    (ht : OfType t xi eta zeta) {p1 p2 p3 s : Vec3} (h1 : p1 ∈ cand t) (h2 : p2 ∈ cand t)
    (h3 : p3 ∈ cand t) (hdet : detV p1 p2 p3 * detV p1 p2 p3 = 1) (hs : s ∈ signs)
    (q1 : (qf p1).val A B C xi eta zeta = A) (q2 : (qf p2).val A B C xi eta zeta = B)
    (q3 : (qf p3).val A B C xi eta zeta = C)
    (h' : NiggliNumbers A B C (s.1 * (pf p2 p3).val A B C xi eta zeta)
      (s.2.1 * (pf p1 p3).val A B C xi eta zeta) (s.2.2 * (pf p1 p2).val A B C xi eta zeta)) :
    s.1 * (pf p2 p3).val A B C xi eta zeta = xi ∧ s.2.1 * (pf p1 p3).val A B C xi eta zeta = eta ∧
      s.2.2 * (pf p1 p2).val A B C xi eta zeta = zeta := by
  obtain ⟨t', ht'⟩ := exists_type h'
  have hmem : (p2, p3, s, t') ∈ cases t p1 := by
    unfold cases
    refine List.mem_flatMap.2 ⟨p2, h2, List.mem_flatMap.2 ⟨p3, h3, ?_⟩⟩
    rw [if_pos hdet]
    refine List.mem_flatMap.2 ⟨s, hs, ?_⟩
    cases t' <;> simp
  obtain ⟨ps, hps⟩ := table_ok t p1 h1
  obtain ⟨p, hp⟩ := checkAll_mem hps hmem
  unfold checkCase at hp
  have key := check_sound (A := A) (B := B) (C := C) (xi := xi) (eta := eta) (zeta := zeta) hp ?_ ?_
  · have e1 := key _ (List.mem_cons_self ..)
    have e2 := key _ (List.mem_cons_of_mem _ (List.mem_cons_self ..))
    have e3 := key _ (List.mem_cons_of_mem _ (List.mem_cons_of_mem _ (List.mem_cons_self ..)))
    rw [val_sub, val_smul, val_X] at e1
    rw [val_sub, val_smul, val_E] at e2
    rw [val_sub, val_smul, val_Z] at e3
    exact ⟨by linarith, by linarith, by linarith⟩
  · intro f hf
    unfold hyps at hf
    rcases List.mem_append.1 hf with hf | hf
    · rcases List.mem_append.1 hf with hf | hf
      · simp only [List.mem_cons, List.not_mem_nil, or_false] at hf
        have hab := h.ab
        have hbc := h.bc
        rcases hf with rfl | rfl | rfl | rfl | rfl | rfl <;>
          simp only [Fact.Holds, val_sub, val_A, val_B, val_C, q1, q2, q3] <;> linarith
      · exact facts_hold val_X val_E val_Z h ht f hf
    · exact facts_hold (val_smul _ _) (val_smul _ _) (val_smul _ _) h' ht' f hf
  · intro f hf
    rcases List.mem_append.1 hf with hf | hf
    · exact imps_hold val_X val_E val_Z h ht f hf
    · exact imps_hold (val_smul _ _) (val_smul _ _) (val_smul _ _) h' ht' f hf

/-- A coefficient vector times a sign. -/
def smulV (s : ℤ) (v : Vec3) : Vec3 := (s * v.1, s * v.2.1, s * v.2.2)

theorem row_cand {t : Bool} (h : NiggliNumbers A B C xi eta zeta) (hA : 0 < A)
    (ht : OfType t xi eta zeta) (p q r : ℤ) (hC : qform A B C xi eta zeta p q r ≤ C)
    (hB : r = 0 → qform A B C xi eta zeta p q r ≤ B) (h1 : r = 0 → q = 0 → p = 1 ∨ p = -1) :
    ∃ s : ℤ, (s = 1 ∨ s = -1) ∧ ∃ v ∈ cand t, (p, q, r) = smulV s v := by
  have hone : ((1, 0, 0) : Vec3) ∈ cand t := by cases t <;> decide
  rcases lt_trichotomy r 0 with hr | rfl | hr
  · refine ⟨-1, .inr rfl, (-p, -q, -r), cand_third h hA ht _ _ _ (by omega) ?_, by simp [smulV]⟩
    rw [qform_neg]
    exact hC
  · rcases lt_trichotomy q 0 with hq | rfl | hq
    · refine ⟨-1, .inr rfl, (-p, -q, 0), cand_second h hA ht _ _ (by omega) ?_, by simp [smulV]⟩
      have := qform_neg (A := A) (B := B) (C := C) (xi := xi) (eta := eta) (zeta := zeta) p q 0
      rw [neg_zero] at this
      rw [this]
      exact hB rfl
    · rcases h1 rfl rfl with rfl | rfl
      · exact ⟨1, .inl rfl, _, hone, by simp [smulV]⟩
      · exact ⟨-1, .inr rfl, _, hone, by simp [smulV]⟩
    · exact ⟨1, .inl rfl, _, cand_second h hA ht _ _ hq (hB rfl), by simp [smulV]⟩
  · exact ⟨1, .inl rfl, _, cand_third h hA ht _ _ _ hr hC, by simp [smulV]⟩

theorem val_qf (p q r : ℤ) : (qf (p, q, r)).val A B C xi eta zeta = qform A B C xi eta zeta p q r := by
  simp only [Form.val, qf, qform]; push_cast; ring

theorem val_qf_smul {s : ℤ} (hs : s = 1 ∨ s = -1) (v : Vec3) :
    (qf (smulV s v)).val A B C xi eta zeta = (qf v).val A B C xi eta zeta := by
  rcases hs with rfl | rfl <;> simp [Form.val, qf, smulV]

theorem val_pf_smul (s s' : ℤ) (u v : Vec3) :
    (pf (smulV s u) (smulV s' v)).val A B C xi eta zeta =
      ((s * s' : ℤ) : K) * (pf u v).val A B C xi eta zeta := by
  simp only [Form.val, pf, smulV]; push_cast; ring

theorem detV_smul {s1 s2 s3 : ℤ} (h1 : s1 = 1 ∨ s1 = -1) (h2 : s2 = 1 ∨ s2 = -1)
    (h3 : s3 = 1 ∨ s3 = -1) (u v w : Vec3) :
    detV (smulV s1 u) (smulV s2 v) (smulV s3 w) * detV (smulV s1 u) (smulV s2 v) (smulV s3 w) =
      detV u v w * detV u v w := by
  have e : detV (smulV s1 u) (smulV s2 v) (smulV s3 w) = s1 * s2 * s3 * detV u v w := by
    simp only [detV, smulV]; ring
  rw [e]
  rcases h1 with rfl | rfl <;> rcases h2 with rfl | rfl <;> rcases h3 with rfl | rfl <;> ring

end Spec.Reduced

namespace Spec
open Matrix Spec.Reduced Wulfric
variable {K : Type*} [Field K] [LinearOrder K] [IsStrictOrderedRing K]

/-- Two reduced bases of one lattice have the same scalar products. -/
theorem niggli_unique {c d : Matrix (Fin 3) (Fin 3) K} (hc : c.det ≠ 0) (hs : SameLattice c d)
    (nc : IsNiggli c) (nd : IsNiggli d) (i j : Fin 3) : dot (c i) (c j) = dot (d i) (d j) := by
  have hd : d.det ≠ 0 := by
    intro h0
    have := hs.abs_det
    rw [h0, abs_zero, eq_comm, abs_eq_zero] at this
    exact hc this
  obtain ⟨a0, a1, a2⟩ := lengths_le hc (le_of_eq hs) nc nd
  obtain ⟨b0, b1, b2⟩ := lengths_le hd (le_of_eq hs.symm) nd nc
  have l0 := le_antisymm a0 b0
  have l1 := le_antisymm a1 b1
  have l2 := le_antisymm a2 b2
  obtain ⟨M, hM, e⟩ := hs.unimodular hc
  have hrow : ∀ i k, d i k = (M i 0 : K) * c 0 k + (M i 1 : K) * c 1 k + (M i 2 : K) * c 2 k := by
    intro i k; rw [e, Matrix.mul_apply, Fin.sum_univ_three]; simp
  have hA : 0 < dot (c 0) (c 0) := by
    refine lt_of_le_of_ne (dot_self_nonneg _) fun h0 => hc ?_
    have h0 : c 0 0 * c 0 0 + c 0 1 * c 0 1 + c 0 2 * c 0 2 = 0 := h0.symm
    have s0 := mul_self_nonneg (c 0 0)
    have s1 := mul_self_nonneg (c 0 1)
    have s2 := mul_self_nonneg (c 0 2)
    have z0 : c 0 0 = 0 := mul_self_eq_zero.1 (by linarith)
    have z1 : c 0 1 = 0 := mul_self_eq_zero.1 (by linarith)
    have z2 : c 0 2 = 0 := mul_self_eq_zero.1 (by linarith)
    rw [det_fin_three, z0, z1, z2]; ring
  have hself : ∀ i, dot (d i) (d i) = qform (dot (c 0) (c 0)) (dot (c 1) (c 1)) (dot (c 2) (c 2))
      (2 * dot (c 1) (c 2)) (2 * dot (c 0) (c 2)) (2 * dot (c 0) (c 1)) (M i 0) (M i 1) (M i 2) := by
    intro i; simp only [dot, hrow, qform]; ring
  have hpair : ∀ i j, 2 * dot (d i) (d j) = (pf (M i 0, M i 1, M i 2) (M j 0, M j 1, M j 2)).val
      (dot (c 0) (c 0)) (dot (c 1) (c 1)) (dot (c 2) (c 2))
      (2 * dot (c 1) (c 2)) (2 * dot (c 0) (c 2)) (2 * dot (c 0) (c 1)) := by
    intro i j; simp only [dot, hrow, pf, Form.val]; push_cast; ring
  have hdetM : detV (M 0 0, M 0 1, M 0 2) (M 1 0, M 1 1, M 1 2) (M 2 0, M 2 1, M 2 2) = M.det := by
    rw [det_fin_three]; simp only [detV]; ring
  have hN : M.det ≠ 0 := by rcases hM with h | h <;> rw [h] <;> decide
  have hAB := nc.ab
  have hBC := nc.bc
  have nc' : NiggliNumbers (dot (c 0) (c 0)) (dot (c 1) (c 1)) (dot (c 2) (c 2))
      (2 * dot (c 1) (c 2)) (2 * dot (c 0) (c 2)) (2 * dot (c 0) (c 1)) := nc
  obtain ⟨t, ht⟩ := exists_type nc'
  -- the last vector is not in the plane of the first two unless the last two lengths agree
  have hlen : ∀ i, dot (d i) (d i) ≤ dot (c 2) (c 2) := by
    intro i; fin_cases i
    · show dot (d 0) (d 0) ≤ _
      rw [l0]; exact hAB.trans hBC
    · show dot (d 1) (d 1) ≤ _
      rw [l1]; exact hBC
    · exact l2.le
  have hplane : ∀ i, M i 2 = 0 → dot (d i) (d i) ≤ dot (c 1) (c 1) := by
    intro i; fin_cases i
    · intro _
      show dot (d 0) (d 0) ≤ _
      rw [l0]; exact hAB
    · intro _; exact l1.le
    · intro h2
      have h2 : M 2 2 = 0 := h2
      show dot (d 2) (d 2) ≤ _
      rw [l2]
      by_cases h1 : M 1 2 = 0
      · by_cases h0 : M 0 2 = 0
        · exfalso
          apply hN
          rw [det_fin_three, h0, h1, h2]; ring
        · have := third_min nc' hA.le (M 0 0) (M 0 1) (M 0 2) h0
          rw [← hself 0, l0] at this
          exact this.trans hAB
      · have := third_min nc' hA.le (M 1 0) (M 1 1) (M 1 2) h1
        rw [← hself 1, l1] at this
        exact this
  have hline : ∀ i, M i 2 = 0 → M i 1 = 0 → M i 0 = 1 ∨ M i 0 = -1 := by
    intro i h2 h1
    have hdvd : M i 0 ∣ M.det := by
      rw [det_fin_three]
      fin_cases i
      · have h2 : M 0 2 = 0 := h2
        have h1 : M 0 1 = 0 := h1
        show M 0 0 ∣ _
        exact ⟨M 1 1 * M 2 2 - M 1 2 * M 2 1, by rw [h1, h2]; ring⟩
      · have h2 : M 1 2 = 0 := h2
        have h1 : M 1 1 = 0 := h1
        show M 1 0 ∣ _
        exact ⟨M 0 2 * M 2 1 - M 0 1 * M 2 2, by rw [h1, h2]; ring⟩
      · have h2 : M 2 2 = 0 := h2
        have h1 : M 2 1 = 0 := h1
        show M 2 0 ∣ _
        exact ⟨M 0 1 * M 1 2 - M 0 2 * M 1 1, by rw [h1, h2]; ring⟩
    have : IsUnit (M i 0) := isUnit_of_dvd_unit hdvd (Int.isUnit_iff.2 hM)
    exact Int.isUnit_iff.1 this
  have hcand : ∀ i, ∃ s : ℤ, (s = 1 ∨ s = -1) ∧ ∃ v ∈ cand t, (M i 0, M i 1, M i 2) = smulV s v :=
    fun i => row_cand nc' hA ht _ _ _ (by rw [← hself]; exact hlen i)
      (fun h => by rw [← hself]; exact hplane i h) (hline i)
  choose s hs1 v hv1 hv2 using hcand
  have q : ∀ i, (qf (v i)).val (dot (c 0) (c 0)) (dot (c 1) (c 1)) (dot (c 2) (c 2))
      (2 * dot (c 1) (c 2)) (2 * dot (c 0) (c 2)) (2 * dot (c 0) (c 1)) = dot (d i) (d i) := by
    intro i
    rw [hself, ← val_qf, hv2 i, val_qf_smul (hs1 i)]
  have hp : ∀ i j, 2 * dot (d i) (d j) = ((s i * s j : ℤ) : K) * (pf (v i) (v j)).val
      (dot (c 0) (c 0)) (dot (c 1) (c 1)) (dot (c 2) (c 2))
      (2 * dot (c 1) (c 2)) (2 * dot (c 0) (c 2)) (2 * dot (c 0) (c 1)) := by
    intro i j
    rw [hpair, hv2 i, hv2 j, val_pf_smul]
  have hdet1 : detV (v 0) (v 1) (v 2) * detV (v 0) (v 1) (v 2) = 1 := by
    rw [← detV_smul (hs1 0) (hs1 1) (hs1 2), ← hv2, ← hv2, ← hv2, hdetM]
    rcases hM with h | h <;> rw [h] <;> rfl
  have hsig : (s 1 * s 2, s 0 * s 2, s 0 * s 1) ∈ signs := by
    rcases hs1 0 with h0 | h0 <;> rcases hs1 1 with h1 | h1 <;> rcases hs1 2 with h2 | h2 <;>
      rw [h0, h1, h2] <;> decide
  have nd' : NiggliNumbers (dot (d 0) (d 0)) (dot (d 1) (d 1)) (dot (d 2) (d 2))
      (2 * dot (d 1) (d 2)) (2 * dot (d 0) (d 2)) (2 * dot (d 0) (d 1)) := nd
  rw [hp 1 2, hp 0 2, hp 0 1, l0, l1, l2] at nd'
  obtain ⟨u1, u2, u3⟩ := unique_numbers nc' hA ht (hv1 0) (hv1 1) (hv1 2) hdet1 hsig
    ((q 0).trans l0) ((q 1).trans l1) ((q 2).trans l2) nd'
  have e12 : dot (c 1) (c 2) = dot (d 1) (d 2) := by
    have := (hp 1 2).trans u1
    linarith
  have e02 : dot (c 0) (c 2) = dot (d 0) (d 2) := by
    have := (hp 0 2).trans u2
    linarith
  have e01 : dot (c 0) (c 1) = dot (d 0) (d 1) := by
    have := (hp 0 1).trans u3
    linarith
  have comm : ∀ u v : Fin 3 → K, dot u v = dot v u := fun u v => by simp only [dot]; ring
  fin_cases i <;> fin_cases j
  · exact l0.symm
  · exact e01
  · exact e02
  · exact (comm _ _).trans (e01.trans (comm _ _))
  · exact l1.symm
  · exact e12
  · exact (comm _ _).trans (e02.trans (comm _ _))
  · exact (comm _ _).trans (e12.trans (comm _ _))
  · exact l2.symm

end Spec
