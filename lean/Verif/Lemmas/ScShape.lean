import Verif.Lemmas.ZeroScPath
import Verif.Lemmas.ZoneHpkot
import Verif.Props.C37_Orthorhombic

/-! # The shape of the SC conventional cell -/

namespace Wulfric
open Matrix _root_.Spec Wulfric.Spec

theorem family_pairs : ∀ n ∈ Finset.Icc (1 : ℤ) 230, (family n, centring n) ∈
    [("c", "P"), ("c", "F"), ("c", "I"), ("t", "P"), ("t", "I"), ("o", "P"), ("o", "F"),
     ("o", "I"), ("o", "C"), ("o", "A"), ("h", "P"), ("h", "R"), ("m", "P"), ("m", "C"),
     ("a", "P")] := by
  decide +kernel

theorem cos_supplement (be : ℝ) :
    Real.cos ((180 - be) * (Real.pi / 180)) = -Real.cos (be * (Real.pi / 180)) := by
  rw [show (180 - be) * (Real.pi / 180) = Real.pi - be * (Real.pi / 180) by ring, Real.cos_pi_sub]

/-- The monoclinic step on a cell with unique axis `b`. -/
theorem scM_standard {cell d : Cell ℝ} {x y z be tol : ℝ} {ct : String} (ht : 0 ≤ tol)
    (h : HasParams cell x y z 90 be 90) (hbe : 90 ≤ be) (hne : be = 90 ∨ tol < be - 90)
    (hd : scConventionalM cell ct tol = .ok d) :
    ∃ a b c, HasParams d a b c (180 - be) 90 90 ∧
      ((b = x ∧ c = z) ∨ (ct ≠ "C" ∧ b = z ∧ c = x) ∨ be = 90) := by
  unfold scConventionalM at hd
  cases h1 : getParams cell with
  | error e => rw [h1] at hd; cases hd
  | ok p =>
  obtain ⟨x', y', z', al', be', ga'⟩ := p
  obtain ⟨rfl, rfl, rfl, rfl, rfl, rfl⟩ := params_unique h1 h
  obtain ⟨-, ea, eb, ec⟩ := getParams_ok h1
  rw [h1] at hd
  simp only [bind, Except.bind, pure, Except.pure] at hd
  have z90 : |(90 : ℝ) - 90| ≤ tol := by simpa using ht
  -- the first step
  have first : ∃ m1 a1 b1 c1, monoclinicStep1 90 be 90 ct tol = .ok m1 ∧
      HasParams (applyT m1 cell) a1 b1 c1 (180 - be) 90 90 ∧ machineEps < a1 ∧
      machineEps < b1 ∧ machineEps < c1 ∧ ((b1 = x ∧ c1 = z) ∨ be = 90) := by
    unfold monoclinicStep1
    simp only [Bool.and_eq_true, cwt_eq_iff]
    rcases hne with rfl | hne
    · rw [if_pos ⟨z90, z90⟩]
      refine ⟨1, x, y, z, rfl, ?_, ea, eb, ec, .inr rfl⟩
      rw [applyT_one, show (180 : ℝ) - 90 = 90 by norm_num]
      exact h
    · have hb : ¬ |be - 90| ≤ tol := by
        rw [abs_of_nonneg (by linarith)]
        linarith
      rw [if_neg (fun e => hb e.1), if_neg (fun e => hb e.2), if_pos ⟨z90, z90⟩]
      refine ⟨_, y, x, z, rfl, ?_, eb, ea, ec, .inl ⟨rfl, rfl⟩⟩
      have := h.rot12
      rwa [show (180 : ℝ) - 90 = 90 by norm_num] at this
  obtain ⟨m1, a1, b1, c1, hm1, hp1, k1, k2, k3, hx⟩ := first
  simp only [hm1, params_pos hp1 k1 k2 k3] at hd
  have hle : cwt (180 - be) .le 90 tol = true := by
    simp only [cwt, Bool.not_eq_true', decide_eq_false_iff_not, not_lt]
    linarith
  by_cases q : b1 ≤ c1 ∨ ct = "C"
  · simp only [if_pos q, applyT_one, params_pos hp1 k1 k2 k3, hle, if_true] at hd
    obtain rfl := Except.ok.inj hd
    exact ⟨a1, b1, c1, hp1, hx.imp id .inr⟩
  · have hp2 := hp1.flip1swap23
    rw [show (180 : ℝ) - 90 = 90 by norm_num] at hp2
    simp only [if_neg q, params_pos hp2 k1 k3 k2, hle, if_true, applyT_one] at hd
    obtain rfl := Except.ok.inj hd
    refine ⟨a1, c1, b1, hp2, .inr (hx.imp (fun e => ⟨fun hC => q (.inr hC), e.2, e.1⟩) id)⟩

/-- The monoclinic step on a cell whose angle is right only within the tolerance. -/
theorem scM_near {cell d : Cell ℝ} {x y z be tol : ℝ} {ct : String} (ht : 0 ≤ tol)
    (h : HasParams cell x y z 90 be 90) (hbe : 90 < be) (hne : be - 90 ≤ tol)
    (hd : scConventionalM cell ct tol = .ok d) :
    ∃ b c be' ga', HasParams d x b c 90 be' ga' ∧ machineEps < x ∧ machineEps < b ∧
      machineEps < c ∧ (be' ≠ 90 ∨ ga' ≠ 90) := by
  unfold scConventionalM at hd
  cases h1 : getParams cell with
  | error e => rw [h1] at hd; cases hd
  | ok p =>
  obtain ⟨x', y', z', al', be', ga'⟩ := p
  obtain ⟨rfl, rfl, rfl, rfl, rfl, rfl⟩ := params_unique h1 h
  obtain ⟨-, ea, eb, ec⟩ := getParams_ok h1
  rw [h1] at hd
  simp only [bind, Except.bind, pure, Except.pure] at hd
  have z90 : |(90 : ℝ) - 90| ≤ tol := by simpa using ht
  have hm1 : monoclinicStep1 90 be 90 ct tol = .ok 1 := by
    unfold monoclinicStep1
    simp only [Bool.and_eq_true, cwt_eq_iff]
    rw [if_pos ⟨by rw [abs_of_pos (by linarith)]; exact hne, z90⟩]
  simp only [hm1, applyT_one, params_pos h ea eb ec] at hd
  have hle : cwt (90 : ℝ) .le 90 tol = true := by
    simp only [cwt, Bool.not_eq_true', decide_eq_false_iff_not, not_lt]
    linarith
  by_cases q : y ≤ z ∨ ct = "C"
  · simp only [if_pos q, params_pos h ea eb ec, hle, if_true] at hd
    obtain rfl := Except.ok.inj hd
    exact ⟨y, z, be, 90, h, ea, eb, ec, .inl hbe.ne'⟩
  · have hp2 := h.flip1swap23
    simp only [if_neg q, params_pos hp2 ea ec eb, hle, if_true] at hd
    obtain rfl := Except.ok.inj hd
    exact ⟨z, y, _, _, hp2, ea, ec, eb, .inr (by intro e; linarith)⟩

theorem eps_of_params {cell : Cell ℝ} {x y z al be ga : ℝ} (h : HasParams cell x y z al be ga)
    (hok : ∃ p, getParams cell = .ok p) : machineEps < x ∧ machineEps < y ∧ machineEps < z := by
  obtain ⟨⟨x', y', z', al', be', ga'⟩, h1⟩ := hok
  obtain ⟨rfl, rfl, rfl, rfl, rfl, rfl⟩ := params_unique h1 h
  exact (getParams_ok h1).2

theorem scOPFI_params {cell d : Cell ℝ} (h : scConventionalOPFI cell = .ok d) :
    ∃ p, getParams cell = .ok p := by
  cases h1 : getParams cell with
  | error e => simp [scConventionalOPFI, h1, bind, Except.bind] at h
  | ok p => exact ⟨p, rfl⟩

theorem scOC_params {cell d : Cell ℝ} (h : scConventionalOC cell = .ok d) :
    ∃ p, getParams cell = .ok p := by
  cases h1 : getParams cell with
  | error e => simp [scConventionalOC, h1, bind, Except.bind] at h
  | ok p => exact ⟨p, rfl⟩

/-- Orthorhombic lattices with the centring P, F or I. -/
theorem shape_OPFI {cell d : Cell ℝ} {x y z tol : ℝ} {ct : String}
    (hc : ct = "P" ∨ ct = "F" ∨ ct = "I") (h : HasParams cell x y z 90 90 90)
    (hd : scConventionalNoHR cell "o" ct tol = .ok d) :
    ∃ a b c, HasParams d a b c 90 90 90 ∧ a < b ∧ b < c := by
  have e : scConventionalOPFI cell = .ok d := by
    unfold scConventionalNoHR at hd
    rwa [if_neg (by simp), if_pos rfl, if_pos hc] at hd
  obtain ⟨ex, ey, ez⟩ := eps_of_params h (scOPFI_params e)
  obtain ⟨h1, h2⟩ := C37_orthorhombic cell x y z tol h ex ey ez ct hc
  by_cases q : x = y ∨ x = z ∨ y = z
  · rw [h2 q] at hd
    cases hd
  · push Not at q
    obtain ⟨d', a, b, c, k1, k2, -, k3, k4⟩ := h1 q.1 q.2.1 q.2.2
    rw [hd] at k1
    cases k1
    exact ⟨a, b, c, k2, k3, k4⟩

/-- Base-centred orthorhombic lattices. -/
theorem shape_OC {cell d : Cell ℝ} {x y z tol : ℝ} {ct : String} (hc : ct = "C" ∨ ct = "A")
    (h : HasParams cell x y z 90 90 90)
    (hd : scConventionalNoHR cell "o" ct tol = .ok d) :
    ∃ a b c, HasParams d a b c 90 90 90 ∧ a < b := by
  rcases hc with rfl | rfl
  · have e : scConventionalOC cell = .ok d := by
      unfold scConventionalNoHR at hd
      rwa [if_neg (by simp), if_pos rfl, if_neg (by decide), if_pos rfl] at hd
    obtain ⟨ex, ey, ez⟩ := eps_of_params h (scOC_params e)
    obtain ⟨h1, h2, -, -⟩ := C37_base_centred cell x y z tol h ex ey ez
    by_cases q : x = y
    · rw [h2 q] at hd
      cases hd
    · obtain ⟨d', a, b, k1, k2, -, k3⟩ := h1 q
      rw [hd] at k1
      cases k1
      exact ⟨a, b, z, k2, k3⟩
  · have e : scConventionalOC (applyT !![0, 0, 1; 1, 0, 0; 0, 1, 0] cell) = .ok d := by
      unfold scConventionalNoHR at hd
      rwa [if_neg (by simp), if_pos rfl, if_neg (by decide), if_neg (by decide), if_pos rfl] at hd
    obtain ⟨ex, ey, ez⟩ := eps_of_params h.cyc231 (scOC_params e)
    obtain ⟨-, -, h1, h2⟩ := C37_base_centred cell x y z tol h ez ex ey
    by_cases q : y = z
    · rw [h2 q] at hd
      cases hd
    · obtain ⟨d', a, b, k1, k2, -, k3⟩ := h1 q
      rw [hd] at k1
      cases k1
      exact ⟨a, b, x, k2, k3⟩

/-- All the lattices but the rhombohedral one. -/
theorem sc_shape {cell d : Cell ℝ} {f ct : String} {tol : ℝ} (ht : 0 ≤ tol)
    (hp : (f, ct) ∈ [("c", "P"), ("c", "F"), ("c", "I"), ("t", "P"), ("t", "I"), ("o", "P"),
      ("o", "F"), ("o", "I"), ("o", "C"), ("o", "A"), ("h", "P"), ("m", "P"), ("m", "C"),
      ("a", "P")])
    (hstd : StandardCell (f ++ ct) cell)
    (hne : f = "m" → ∀ x y z be, HasParams cell x y z 90 be 90 → be = 90 ∨ tol < be - 90)
    (hd : scConventionalNoHR cell f ct tol = .ok d) : ScCell (f ++ ct) d := by
  have pos : ∀ x y z be, HasParams d x y z be 90 90 → 0 ≤ x ∧ 0 ≤ y ∧ 0 ≤ z := by
    intro x y z be h
    exact ⟨h.a_nonneg, h.b_nonneg, h.c_nonneg⟩
  simp only [List.mem_cons, List.not_mem_nil, or_false, Prod.mk.injEq] at hp
  rcases hp with ⟨rfl, rfl⟩ | ⟨rfl, rfl⟩ | ⟨rfl, rfl⟩ | ⟨rfl, rfl⟩ | ⟨rfl, rfl⟩ | ⟨rfl, rfl⟩ |
    ⟨rfl, rfl⟩ | ⟨rfl, rfl⟩ | ⟨rfl, rfl⟩ | ⟨rfl, rfl⟩ | ⟨rfl, rfl⟩ | ⟨rfl, rfl⟩ | ⟨rfl, rfl⟩ |
    ⟨rfl, rfl⟩
  · obtain ⟨a, h⟩ := std_cubic hstd (by decide)
    obtain rfl : cell = d := by simpa [scConventionalNoHR] using hd
    exact .cubic (by decide) h
  · obtain ⟨a, h⟩ := std_cubic hstd (by decide)
    obtain rfl : cell = d := by simpa [scConventionalNoHR] using hd
    exact .cubic (by decide) h
  · obtain ⟨a, h⟩ := std_cubic hstd (by decide)
    obtain rfl : cell = d := by simpa [scConventionalNoHR] using hd
    exact .cubic (by decide) h
  · obtain ⟨a, c, h⟩ := std_tetragonal hstd (by decide)
    obtain rfl : cell = d := by simpa [scConventionalNoHR] using hd
    exact .tetragonal (by decide) h
  · obtain ⟨a, c, h⟩ := std_tetragonal hstd (by decide)
    obtain rfl : cell = d := by simpa [scConventionalNoHR] using hd
    exact .tetragonal (by decide) h
  · obtain ⟨x, y, z, h⟩ := std_orthorhombic hstd (by decide)
    obtain ⟨a, b, c, k, -⟩ := shape_OPFI (by decide) h hd
    exact .orthorhombic (by decide) k
  · obtain ⟨x, y, z, h, -⟩ := std_oF hstd (by decide)
    obtain ⟨a, b, c, k, -⟩ := shape_OPFI (by decide) h hd
    exact .orthorhombic (by decide) k
  · obtain ⟨x, y, z, h⟩ := std_orthorhombic hstd (by decide)
    obtain ⟨a, b, c, k, k1, k2⟩ := shape_OPFI (by decide) h hd
    exact .bodyCentred k (k1.trans k2).le k2.le
  · obtain ⟨x, y, z, h⟩ := std_orthorhombic hstd (by decide)
    obtain ⟨a, b, c, k, k1⟩ := shape_OC (by decide) h hd
    exact .baseCentred (by decide) k k1.le
  · obtain ⟨x, y, z, h⟩ := std_orthorhombic hstd (by decide)
    obtain ⟨a, b, c, k, k1⟩ := shape_OC (by decide) h hd
    exact .baseCentred (by decide) k k1.le
  · obtain ⟨a, c, h⟩ := std_hexagonal hstd (by decide)
    obtain rfl : cell = d := by simpa [scConventionalNoHR] using hd
    exact .hexagonal h
  · obtain ⟨x, y, z, be, h, h1, h2, h3⟩ := std_mP hstd (by decide)
    have hd' : scConventionalM cell "P" tol = .ok d := by simpa [scConventionalNoHR] using hd
    obtain ⟨a, b, c, k, k1⟩ := scM_standard ht h h1 (hne rfl _ _ _ _ h) hd'
    obtain ⟨-, pb, pc⟩ := pos _ _ _ _ k
    refine .monoclinic k (by linarith) ?_ ?_ <;> rw [cos_supplement] <;>
      rcases k1 with ⟨rfl, rfl⟩ | ⟨-, rfl, rfl⟩ | rfl
    · linarith
    · linarith
    · rw [cos_90]; linarith
    · linarith
    · linarith
    · rw [cos_90]; linarith
  · obtain ⟨x, y, z, be, h, h1, h2, h3⟩ := std_mC hstd (by decide)
    have hd' : scConventionalM cell "C" tol = .ok d := by simpa [scConventionalNoHR] using hd
    obtain ⟨a, b, c, k, k1⟩ := scM_standard ht h h1 (hne rfl _ _ _ _ h) hd'
    obtain ⟨-, pb, pc⟩ := pos _ _ _ _ k
    refine .monoclinicC k (by linarith) ?_ ?_ <;> rw [cos_supplement] <;>
      rcases k1 with ⟨rfl, rfl⟩ | ⟨q, -⟩ | rfl
    · linarith
    · exact absurd rfl q
    · rw [cos_90]; linarith
    · linarith
    · exact absurd rfl q
    · rw [cos_90]; linarith
  · exact .triclinic

end Wulfric
