import Verif.Props.C38_Triclinic
import Verif.Model.Symbols
import Verif.Spec.Symbols

/-! # Lemmas on symbols and variations -/

namespace Wulfric
open Matrix _root_.Spec Wulfric.Spec

/-- A successful HPKOT triclinic cell has reciprocal angles of one kind. -/
theorem hpkotA_kind {niggli : Cell ℝ → Except Err (Cell ℝ)} {c d : Cell ℝ}
    (h : hpkotConventionalA niggli c = .ok d) :
    ∃ r x y z al be ga, getReciprocal d = .ok r ∧ getParams r = .ok (x, y, z, al, be, ga) ∧
      HasParams r x y z al be ga ∧ OneKind al be ga := by
  unfold hpkotConventionalA at h
  cases hr : getReciprocal c with
  | error e => rw [hr] at h; cases h
  | ok r =>
    simp only [hr, bind, Except.bind, pure, Except.pure] at h
    cases hn : niggli r with
    | error e => rw [hn] at h; cases h
    | ok r1 =>
      simp only [hn] at h
      cases hr1 : getReciprocal r1 with
      | error e => rw [hr1] at h; cases h
      | ok c1 =>
        simp only [hr1] at h
        cases hm : dotMatrix |npDot (r1 1) (r1 2)| |npDot (r1 0) (r1 2)| |npDot (r1 0) (r1 1)| with
        | error e => rw [hm] at h; cases h
        | ok m2 =>
          simp only [hm] at h
          cases hr2 : getReciprocal (applyT m2 c1) with
          | error e => rw [hr2] at h; cases h
          | ok r2 =>
            simp only [hr2] at h
            cases hp : getParams r2 with
            | error e => rw [hp] at h; cases h
            | ok p =>
              obtain ⟨x, y, z, al, be, ga⟩ := p
              simp only [hp] at h
              obtain ⟨hpp, e1, e2, e3⟩ := getParams_ok hp
              obtain ⟨m, al', be', ga', hm3, hq, hk, -⟩ := sign_step hpp
              rw [hm3] at h
              cases h
              exact ⟨_, x, y, z, al', be', ga', recip_applyT m (signMatrix_det hm3).2 _ _ hr2,
                getParams_of_spec hq e1 e2 e3, hq, hk⟩

/-- A successful SC triclinic cell has reciprocal angles of one kind, the last one extreme. -/
theorem scA_kind {c d : Cell ℝ} {tol : ℝ} (ht : 0 ≤ tol) (h : scConventionalA c tol = .ok d) :
    ∃ r x y z al be ga, getReciprocal d = .ok r ∧ getParams r = .ok (x, y, z, al, be, ga) ∧
      HasParams r x y z al be ga ∧ OneKind al be ga ∧ GammaExtreme tol al be ga := by
  have h0 := h
  unfold scConventionalA at h0
  cases hr : getReciprocal c with
  | error e => rw [hr] at h0; cases h0
  | ok r =>
    simp only [hr, bind, Except.bind, pure, Except.pure] at h0
    cases hp : getParams r with
    | error e => rw [hp] at h0; cases h0
    | ok p =>
      obtain ⟨x, y, z, al, be, ga⟩ := p
      simp only [hp] at h0
      obtain ⟨hpp, e1, e2, e3⟩ := getParams_ok hp
      obtain ⟨m1, al1, be1, ga1, hm1, hp1, hk1, -⟩ := sign_step hpp
      simp only [hm1, getParams_of_spec hp1 e1 e2 e3] at h0
      obtain ⟨m2, x', y', z', al2, be2, ga2, hm2, hp2, hperm, hk2, hg2⟩ := extreme_step ht hp1 hk1
      simp only [hm2] at h0
      have q1 := recip_applyT m1 (signMatrix_det hm1).2 c r hr
      obtain ⟨hd, -⟩ := recip_ok q1
      obtain ⟨r', q2, -, q3⟩ := C03_involution _ hd
      rw [q1] at q2
      cases q2
      rw [q3] at h0
      cases h0
      have all : ∀ t ∈ [x', y', z'], machineEps < t := by
        intro t ht'
        have := hperm.subset ht'
        simp only [List.mem_cons, List.not_mem_nil, or_false] at this
        rcases this with rfl | rfl | rfl
        exacts [e1, e2, e3]
      exact ⟨_, x', y', z', al2, be2, ga2,
        recip_applyT m2 (extremeMatrix_det hm2).2 _ _ q1,
        getParams_of_spec hp2 (all _ (by simp)) (all _ (by simp)) (all _ (by simp)), hp2, hk2, hg2⟩

/-- The angle `alpha` of a successful SC monoclinic cell. -/
theorem scM_alpha {c d : Cell ℝ} {s : String} {tol : ℝ} (ht : 0 ≤ tol)
    (h : scConventionalM c s tol = .ok d) {x y z al be ga : ℝ}
    (hp : getParams d = .ok (x, y, z, al, be, ga)) : al ≤ 90 + tol := by
  unfold scConventionalM at h
  simp only [bind, Except.bind, pure, Except.pure] at h
  cases h1 : getParams c with
  | error e => rw [h1] at h; cases h
  | ok p1 =>
    simp only [h1] at h
    cases h2 : monoclinicStep1 p1.2.2.2.1 p1.2.2.2.2.1 p1.2.2.2.2.2 s tol with
    | error e => rw [h2] at h; cases h
    | ok m1 =>
      simp only [h2] at h
      cases h3 : getParams (applyT m1 c) with
      | error e => rw [h3] at h; cases h
      | ok p2 =>
        simp only [h3] at h
        generalize (if p2.2.1 ≤ p2.2.2.1 ∨ s = "C" then applyT 1 (applyT m1 c)
          else applyT !![-1, 0, 0; 0, 0, 1; 0, 1, 0] (applyT m1 c)) = c2 at h
        cases h4 : getParams c2 with
        | error e => rw [h4] at h; cases h
        | ok p3 =>
          obtain ⟨x3, y3, z3, al3, be3, ga3⟩ := p3
          simp only [h4] at h
          by_cases q : cwt al3 .le 90 tol
          · rw [if_pos q] at h
            cases h
            rw [applyT_one, h4] at hp
            cases hp
            simp only [cwt, Bool.not_eq_true', decide_eq_false_iff_not, not_lt] at q
            linarith
          · rw [if_neg q] at h
            cases h
            obtain ⟨hq, e1, e2, e3⟩ := getParams_ok h4
            have := getParams_of_spec hq.diag12 e1 e2 e3
            rw [this] at hp
            cases hp
            simp only [cwt, Bool.not_eq_true', decide_eq_false_iff_not, not_lt, not_le] at q
            linarith

end Wulfric
