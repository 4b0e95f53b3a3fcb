import Verif.Lemmas.Conventional
import Verif.Spec.Conventional
import Verif.Props.C31_SpglibTypes
import Verif.Lemmas.Inherit

/-! # C36: `get_conventional` keeps the crystal -/

namespace Wulfric
open Matrix _root_.Spec Wulfric.Spec

theorem _root_.Spec.ProperBasis.sameLattice {c d : Cell ℝ} (h : ProperBasis c d) :
    SameLattice c d ∧ d.det = c.det := by
  obtain ⟨M, hM, rfl⟩ := h
  refine ⟨(sameLattice_of_unimodular M (by rw [hM]; exact isUnit_one) c).symm, ?_⟩
  rw [det_mul, det_map_intCast, hM]; simp

theorem _root_.Spec.ProperBasis.refl (c : Cell ℝ) : ProperBasis c c :=
  ⟨1, by simp, by simp⟩

theorem _root_.Spec.ProperBasis.trans {c d e : Cell ℝ} (h : ProperBasis c d)
    (h' : ProperBasis d e) : ProperBasis c e := by
  obtain ⟨M, hM, rfl⟩ := h
  obtain ⟨N, hN, rfl⟩ := h'
  exact ⟨N * M, by rw [det_mul, hM, hN]; rfl, by rw [map_mul_int, Matrix.mul_assoc]⟩

theorem proper_applyT {m : Matrix (Fin 3) (Fin 3) ℤ} (hm : m.det = 1) (c : Cell ℝ) :
    ProperBasis c (applyT m c) := ⟨m.transpose, by rw [det_transpose, hm], rfl⟩

theorem signMatrix_det {ra rb rg : ℝ} {m} (h : signMatrix ra rb rg = .ok m) :
    m.det = 1 ∧ m * m.transpose = 1 := by
  unfold signMatrix at h
  split_ifs at h <;> cases h <;> refine ⟨?_, ?_⟩ <;> decide

theorem dotMatrix_det {a b c : ℝ} {m} (h : dotMatrix a b c = .ok m) :
    m.det = 1 ∧ m * m.transpose = 1 := by
  unfold dotMatrix at h
  split_ifs at h <;> cases h <;> refine ⟨?_, ?_⟩ <;> decide

theorem extremeMatrix_det {a b c t : ℝ} {m} (h : extremeMatrix a b c t = .ok m) :
    m.det = 1 ∧ m * m.transpose = 1 := by
  simp only [extremeMatrix] at h
  split_ifs at h <;> cases h <;> refine ⟨?_, ?_⟩ <;> decide

theorem monoclinicStep1_det {al be ga : ℝ} {s : String} {t : ℝ} {m}
    (h : monoclinicStep1 al be ga s t = .ok m) : m.det = 1 := by
  unfold monoclinicStep1 at h
  split_ifs at h <;> cases h <;> decide

theorem oPFI_proper {c d : Cell ℝ} (h : scConventionalOPFI c = .ok d) : ProperBasis c d := by
  unfold scConventionalOPFI at h
  cases hp : getParams c with
  | error e => rw [hp] at h; cases h
  | ok p =>
    rw [hp] at h
    simp only [bind, Except.bind, pure, Except.pure] at h
    split_ifs at h <;> cases h <;> exact proper_applyT (by decide) c

theorem oC_proper {c d : Cell ℝ} (h : scConventionalOC c = .ok d) : ProperBasis c d := by
  unfold scConventionalOC at h
  cases hp : getParams c with
  | error e => rw [hp] at h; cases h
  | ok p =>
    rw [hp] at h
    simp only [bind, Except.bind, pure, Except.pure] at h
    split_ifs at h <;> cases h <;> exact proper_applyT (by decide) c

theorem m_proper {c d : Cell ℝ} {s : String} {t : ℝ} (h : scConventionalM c s t = .ok d) :
    ProperBasis c d := by
  unfold scConventionalM at h
  cases hp : getParams c with
  | error e => rw [hp] at h; cases h
  | ok p =>
    simp only [hp, bind, Except.bind, pure, Except.pure] at h
    cases hm : monoclinicStep1 p.2.2.2.1 p.2.2.2.2.1 p.2.2.2.2.2 s t with
    | error e => rw [hm] at h; cases h
    | ok m1 =>
      simp only [hm] at h
      have q1 := proper_applyT (monoclinicStep1_det hm) c
      cases hp2 : getParams (applyT m1 c) with
      | error e => rw [hp2] at h; cases h
      | ok p2 =>
        simp only [hp2] at h
        set c2 := if p2.2.1 ≤ p2.2.2.1 ∨ s = "C" then applyT 1 (applyT m1 c)
          else applyT !![-1, 0, 0; 0, 0, 1; 0, 1, 0] (applyT m1 c) with hc2
        have q2 : ProperBasis c c2 := by
          rw [hc2]
          split_ifs
          · exact q1.trans (proper_applyT (by decide) _)
          · exact q1.trans (proper_applyT (by decide) _)
        cases hp3 : getParams c2 with
        | error e => rw [hp3] at h; cases h
        | ok p3 =>
          simp only [hp3] at h
          split_ifs at h <;> cases h <;> exact q2.trans (proper_applyT (by decide) _)

theorem hR_proper {c d : Cell ℝ} {s t : ℝ} (h : scConventionalHR c s t = .ok d) :
    ProperBasis c d := by
  unfold scConventionalHR at h
  cases hp : getParams c with
  | error e => rw [hp] at h; cases h
  | ok p =>
    rw [hp] at h
    simp only [bind, Except.bind, pure, Except.pure] at h
    split_ifs at h <;> cases h <;> exact proper_applyT (by decide) c

theorem scA_proper {c d : Cell ℝ} {t : ℝ} (h : scConventionalA c t = .ok d) :
    ProperBasis c d := by
  unfold scConventionalA at h
  cases hr : getReciprocal c with
  | error e => rw [hr] at h; cases h
  | ok r =>
    simp only [hr, bind, Except.bind, pure, Except.pure] at h
    cases hp : getParams r with
    | error e => rw [hp] at h; cases h
    | ok p =>
      simp only [hp] at h
      cases hm : signMatrix p.2.2.2.1 p.2.2.2.2.1 p.2.2.2.2.2 with
      | error e => rw [hm] at h; cases h
      | ok m1 =>
        simp only [hm] at h
        cases hp2 : getParams (applyT m1 r) with
        | error e => rw [hp2] at h; cases h
        | ok p2 =>
          simp only [hp2] at h
          cases hm2 : extremeMatrix p2.2.2.2.1 p2.2.2.2.2.1 p2.2.2.2.2.2 t with
          | error e => rw [hm2] at h; cases h
          | ok m2 =>
            simp only [hm2] at h
            have e1 := recip_applyT m1 (signMatrix_det hm).2 c r hr
            obtain ⟨hd, -⟩ := recip_ok e1
            obtain ⟨r', e2, -, e3⟩ := C03_involution _ hd
            rw [e1] at e2
            cases e2
            rw [e3] at h
            cases h
            exact (proper_applyT (signMatrix_det hm).1 c).trans
              (proper_applyT (extremeMatrix_det hm2).1 _)

theorem noHR_proper {c d : Cell ℝ} {f s : String} {t : ℝ}
    (h : scConventionalNoHR c f s t = .ok d) : ProperBasis c d := by
  unfold scConventionalNoHR at h
  split_ifs at h
  · cases h; exact .refl c
  · exact oPFI_proper h
  · exact oC_proper h
  · exact (proper_applyT (by decide) c).trans (oC_proper h)
  · exact m_proper h
  · exact scA_proper h

/-- The steps of the HPKOT function after the Niggli reduction. -/
theorem hpkotA_steps {niggli : Cell ℝ → Except Err (Cell ℝ)} {c d : Cell ℝ}
    (h : hpkotConventionalA niggli c = .ok d) :
    ∃ r r1 c1 m, getReciprocal c = .ok r ∧ niggli r = .ok r1 ∧ getReciprocal r1 = .ok c1 ∧
      m.det = 1 ∧ m * m.transpose = 1 ∧ d = applyT m c1 := by
  unfold hpkotConventionalA at h
  cases hr : getReciprocal c with
  | error e => rw [hr] at h; cases h
  | ok r =>
    simp only [hr, bind, Except.bind, pure, Except.pure] at h
    cases hn : niggli r with
    | error e => rw [hn] at h; cases h
    | ok r1 =>
      simp only [hn] at h
      cases hr1 : getReciprocal r1 with
      | error e => rw [hr1] at h; cases h
      | ok c1 =>
        simp only [hr1] at h
        cases hm : dotMatrix |npDot (r1 1) (r1 2)| |npDot (r1 0) (r1 2)| |npDot (r1 0) (r1 1)| with
        | error e => rw [hm] at h; cases h
        | ok m2 =>
          simp only [hm] at h
          cases hr2 : getReciprocal (applyT m2 c1) with
          | error e => rw [hr2] at h; cases h
          | ok r2 =>
            simp only [hr2] at h
            cases hp : getParams r2 with
            | error e => rw [hp] at h; cases h
            | ok p =>
              simp only [hp] at h
              cases hm3 : signMatrix p.2.2.2.1 p.2.2.2.2.1 p.2.2.2.2.2 with
              | error e => rw [hm3] at h; cases h
              | ok m3 =>
                simp only [hm3] at h
                cases h
                obtain ⟨a1, a2⟩ := dotMatrix_det hm
                obtain ⟨b1, b2⟩ := signMatrix_det hm3
                refine ⟨r, r1, c1, m2 * m3, rfl, hn, hr1, by rw [det_mul, a1, b1]; rfl, ?_,
                  applyT_applyT _ _ _⟩
                rw [transpose_mul, Matrix.mul_assoc, ← Matrix.mul_assoc m3, b2, Matrix.one_mul, a2]

/-- The reciprocal cells of two bases of one lattice are bases of one lattice, related with
the same determinant. -/
theorem recip_unimodular {r r1 c c1 : Cell ℝ} (M : Matrix (Fin 3) (Fin 3) ℤ)
    (hM : M.det = 1 ∨ M.det = -1) (e : r1 = M.map (Int.cast : ℤ → ℝ) * r)
    (hr : getReciprocal r = .ok c) (hr1 : getReciprocal r1 = .ok c1) :
    ∃ N : Matrix (Fin 3) (Fin 3) ℤ, N.det = M.det ∧ c1 = N.map (Int.cast : ℤ → ℝ) * c := by
  have hu : IsUnit M.det := Int.isUnit_iff.2 hM
  have hd : (M.map (Int.cast : ℤ → ℝ)).det ≠ 0 := by
    rw [det_map_intCast]
    rcases hM with h | h <;> simp [h]
  have e2 := C03_change_of_basis _ r c hd hr
  rw [← e, hr1] at e2
  have hinv : (M.map (Int.cast : ℤ → ℝ))⁻¹ = (M⁻¹).map (Int.cast : ℤ → ℝ) := by
    apply Matrix.inv_eq_left_inv
    rw [← map_mul_int, nonsing_inv_mul _ hu]; simp
  refine ⟨(M⁻¹).transpose, ?_, ?_⟩
  · rw [det_transpose, det_nonsing_inv]
    rcases hM with h | h <;> rw [h]
    · exact Ring.inverse_one _
    · exact Ring.inverse_unit (-1 : ℤˣ)
  · injection e2 with e2
    rw [e2, hinv]; rfl

/-- Which of spglib's cells `get_conventional` starts from. -/
noncomputable def sourceOf (convention : String) (data : SpglibData) :
    Cell ℝ × List (Vec ℝ) × List ℤ :=
  if convention = "sc" ∧ data.crystalFamily = "h" ∧ data.centringType = "R" then
    (data.primitiveCell, data.primitivePositions, data.primitiveTypes)
  else (data.conventionalCell, data.conventionalPositions, data.conventionalTypes)

theorem rebase_points {ps qs : List (Vec ℝ)} {c d : Cell ℝ} (h : rebase ps c d = .ok qs) :
    d.det ≠ 0 ∧ SamePoints c ps d qs := by
  unfold rebase npInv at h
  by_cases hd : d.det = 0
  · simp [hd, bind, Except.bind] at h
  · simp only [hd, if_false, bind, Except.bind, pure, Except.pure] at h
    cases h
    refine ⟨hd, ?_⟩
    unfold SamePoints
    rw [List.forall₂_map_right_iff]
    apply List.forall₂_same.2
    intro p _
    have key : ∀ v : Vec ℝ, cartesian d (vecMat v d⁻¹) = v := by
      intro v
      have e : d⁻¹ * d = 1 := nonsing_inv_mul _ (Ne.isUnit hd)
      ext j
      have e0 := congrFun (congrFun e 0) j
      have e1 := congrFun (congrFun e 1) j
      have e2 := congrFun (congrFun e 2) j
      rw [Matrix.mul_apply, Fin.sum_univ_three] at e0 e1 e2
      simp only [cartesian, vecMat]
      have : v j = v 0 * (1 : Cell ℝ) 0 j + v 1 * (1 : Cell ℝ) 1 j + v 2 * (1 : Cell ℝ) 2 j := by
        obtain rfl | rfl | rfl : j = 0 ∨ j = 1 ∨ j = 2 := by fin_cases j <;> simp
        all_goals simp
      rw [this]
      linear_combination v 0 * e0 + v 1 * e1 + v 2 * e2
    rw [key]
    rfl

/-- The parts: cell, positions, types. -/
theorem parts_ok {niggli : Cell ℝ → Except Err (Cell ℝ)} {convention : String}
    {data : SpglibData} {conv : Cell ℝ} {ps : List (Vec ℝ)} {ts : List ℤ}
    (h : conventionalParts niggli convention data = .ok (conv, ps, ts)) :
    SamePoints (sourceOf convention data).1 (sourceOf convention data).2.1 conv ps ∧
    ts = (sourceOf convention data).2.2 ∧
    (ProperBasis (sourceOf convention data).1 conv ∨
      (convention = "hpkot" ∧ data.crystalFamily = "a" ∧
        hpkotConventionalA niggli data.conventionalCell = .ok conv)) := by
  unfold conventionalParts at h
  unfold sourceOf
  have spg : ("hpkot" : String) ≠ "sc" := by decide
  have spg2 : ("spglib" : String) ≠ "sc" := by decide
  have refl : ∀ (c : Cell ℝ) l, SamePoints c l c l := by
    intro c l; exact List.forall₂_same.2 fun _ _ => rfl
  by_cases h1 : convention = "spglib" ∨ convention = "hpkot"
  · have hne : convention ≠ "sc" := by
      rintro rfl
      rcases h1 with h1 | h1 <;> exact absurd h1 (by decide)
    rw [if_neg (fun hc => hne hc.1)]
    rw [if_pos h1] at h
    by_cases h2 : convention = "hpkot" ∧ data.crystalFamily = "a"
    · rw [if_pos h2] at h
      cases hA : hpkotConventionalA niggli data.conventionalCell with
      | error e => rw [hA] at h; cases h
      | ok c1 =>
        simp only [hA, bind, Except.bind, pure, Except.pure] at h
        cases hb : rebase data.conventionalPositions data.conventionalCell c1 with
        | error e => rw [hb] at h; cases h
        | ok qs =>
          simp only [hb] at h
          cases h
          exact ⟨(rebase_points hb).2, rfl, .inr ⟨h2.1, h2.2, rfl⟩⟩
    · rw [if_neg h2] at h
      cases h
      exact ⟨refl _ _, rfl, .inl (.refl _)⟩
  · rw [if_neg h1] at h
    by_cases h3 : convention = "sc"
    · rw [if_pos h3] at h
      by_cases h4 : data.crystalFamily = "h" ∧ data.centringType = "R"
      · rw [if_pos ⟨h3, h4⟩]
        rw [if_pos h4] at h
        cases hA : scConventionalHR data.primitiveCell (angleTol data) data.symprec with
        | error e => rw [hA] at h; cases h
        | ok c1 =>
          simp only [hA, bind, Except.bind, pure, Except.pure] at h
          cases hb : rebase data.primitivePositions data.primitiveCell c1 with
          | error e => rw [hb] at h; cases h
          | ok qs =>
            simp only [hb] at h
            cases h
            exact ⟨(rebase_points hb).2, rfl, .inl (hR_proper hA)⟩
      · rw [if_neg (fun hc => h4 hc.2)]
        rw [if_neg h4] at h
        cases hA : scConventionalNoHR data.conventionalCell data.crystalFamily data.centringType
            (angleTol data) with
        | error e => rw [hA] at h; cases h
        | ok c1 =>
          simp only [hA, bind, Except.bind, pure, Except.pure] at h
          cases hb : rebase data.conventionalPositions data.conventionalCell c1 with
          | error e => rw [hb] at h; cases h
          | ok qs =>
            simp only [hb] at h
            cases h
            exact ⟨(rebase_points hb).2, rfl, .inl (noHR_proper hA)⟩
    · rw [if_neg h3] at h; cases h

theorem getConventional_steps {lower : String → String}
    {getData : Cell ℝ → Atoms ℝ → Except Err SpglibData}
    {niggli : Cell ℝ → Except Err (Cell ℝ)} {cell : Cell ℝ} {atoms : Atoms ℝ}
    {convention : String} {given : Option SpglibData} {conv : Cell ℝ} {atoms' : Atoms ℝ}
    (h : getConventional lower getData niggli cell atoms convention given = .ok (conv, atoms')) :
    ∃ data ps ts, resolveData lower getData cell atoms given = .ok data ∧
      conventionalParts niggli (lower convention) data = .ok (conv, ps, ts) ∧
      newAtoms atoms (lastIndex data.original.types) ps ts = .ok atoms' := by
  unfold getConventional at h
  cases h1 : resolveData lower getData cell atoms given with
  | error e => rw [h1] at h; cases h
  | ok data =>
    simp only [h1, bind, Except.bind, pure, Except.pure] at h
    cases h2 : conventionalParts niggli (lower convention) data with
    | error e => rw [h2] at h; cases h
    | ok q =>
      obtain ⟨c, ps, ts⟩ := q
      simp only [h2] at h
      cases h3 : newAtoms atoms (lastIndex data.original.types) ps ts with
      | error e => rw [h3] at h; cases h
      | ok a =>
        simp only [h3] at h
        cases h
        exact ⟨data, ps, ts, rfl, h2, h3⟩

/-- The data is the given one, checked against the structure, or computed from it. -/
theorem resolveData_ok {lower : String → String}
    {getData : Cell ℝ → Atoms ℝ → Except Err SpglibData} {cell : Cell ℝ} {atoms : Atoms ℝ}
    {given : Option SpglibData} {data : SpglibData}
    (h : resolveData lower getData cell atoms given = .ok data) :
    ValidAtoms atoms.toDict ["positions"] ∧
    ((given = none ∧ getData cell atoms = .ok data) ∨
      (given = some data ∧ validateSpglibData lower cell atoms data.original = .ok ())) := by
  unfold resolveData at h
  rcases validate_cases atoms ["positions"] with ⟨hv, e⟩ | ⟨hc, err, e⟩
  · refine ⟨hv, ?_⟩
    rw [e] at h
    simp only [bind, Except.bind, pure, Except.pure] at h
    cases given with
    | none => exact .inl ⟨rfl, h⟩
    | some d =>
      simp only at h
      cases hs : validateSpglibData lower cell atoms d.original with
      | error e => rw [hs] at h; cases h
      | ok u =>
        rw [hs] at h
        cases h
        exact .inr ⟨rfl, hs⟩
  · rw [e] at h; cases h

theorem valid_types {lower : String → String} {cell : Cell ℝ} {atoms : Atoms ℝ}
    {o : OriginalData ℝ} {l : List ℤ} (h : validateSpglibData lower cell atoms o = .ok ())
    (hl : atoms.spglibTypes = some l) : o.types = l := by
  rw [validateSpglibData_cases] at h
  split_ifs at h
  cases hp : atoms.positions with
  | none => rw [hp] at h; cases h
  | some ps =>
    simp only [hp] at h
    cases hc : positionsClose ps o.positions with
    | error e => rw [hc] at h; cases h
    | ok b =>
      cases b
      · simp only [hc] at h; cases h
      · simp only [hc] at h
        cases ht : getSpglibTypes lower atoms with
        | error e => rw [ht] at h; cases h
        | ok types =>
          simp only [ht] at h
          split_ifs at h with he
          rw [← he]
          unfold getSpglibTypes at ht
          rcases validate_cases atoms [] with ⟨-, e⟩ | ⟨-, err, e⟩
          · rw [e] at ht
            simp only [hl] at ht
            cases ht
            rfl
          · rw [e] at ht; cases ht

/-- C36: the returned atoms are the points of the cell spglib gave, in the same order, and
the lattice, the volume and the handedness are kept (for the triclinic cell of HPKOT see
`C36_triclinic_hpkot`). -/
theorem C36_crystal (lower : String → String)
    (getData : Cell ℝ → Atoms ℝ → Except Err SpglibData)
    (niggli : Cell ℝ → Except Err (Cell ℝ)) (cell : Cell ℝ) (atoms : Atoms ℝ)
    (convention : String) (given : Option SpglibData) (conv : Cell ℝ) (atoms' : Atoms ℝ)
    (h : getConventional lower getData niggli cell atoms convention given = .ok (conv, atoms')) :
    ∃ data, (given = some data ∨ (given = none ∧ getData cell atoms = .ok data)) ∧
      (∃ ps, atoms'.positions = some ps ∧
        SamePoints (sourceOf (lower convention) data).1 (sourceOf (lower convention) data).2.1
          conv ps) ∧
      (¬ (lower convention = "hpkot" ∧ data.crystalFamily = "a") →
        ProperBasis (sourceOf (lower convention) data).1 conv) := by
  obtain ⟨data, ps, ts, h1, h2, h3⟩ := getConventional_steps h
  obtain ⟨-, hd⟩ := resolveData_ok h1
  obtain ⟨p1, p2, p3⟩ := parts_ok h2
  refine ⟨data, ?_, ⟨ps, (newAtoms_ok (lastIndex_iff _) h3).1, p1⟩, ?_⟩
  · rcases hd with ⟨g, e⟩ | ⟨g, -⟩
    · exact .inr ⟨g, e⟩
    · exact .inl g
  · intro hn
    rcases p3 with p3 | ⟨e1, e2, -⟩
    · exact p3
    · exact absurd ⟨e1, e2⟩ hn

/-- C36: what `ProperBasis` gives: same lattice, same volume, same handedness. -/
theorem C36_lattice (c d : Cell ℝ) (h : ProperBasis c d) : SameLattice c d ∧ d.det = c.det :=
  h.sameLattice

/-- C36: the triclinic cell of HPKOT. If the Niggli reduction returns a basis of the lattice
it was given, the result is a basis of the lattice of spglib's cell; the handedness is kept
if the reduction keeps it, and reversed otherwise. -/
theorem C36_triclinic_hpkot (niggli : Cell ℝ → Except Err (Cell ℝ))
    (hn : ∀ r r', niggli r = .ok r' → SameLattice r r') (c d : Cell ℝ)
    (h : hpkotConventionalA niggli c = .ok d) :
    SameLattice c d ∧ (∃ r r', getReciprocal c = .ok r ∧ niggli r = .ok r' ∧
      (r'.det = r.det → ProperBasis c d) ∧ (r'.det = -r.det → d.det = -c.det)) := by
  obtain ⟨r, r1, c1, m, hr, hn1, hr1, hm, -, rfl⟩ := hpkotA_steps h
  obtain ⟨hcd, -⟩ := recip_ok hr
  obtain ⟨r', e1, hrd, e2⟩ := C03_involution c hcd
  rw [hr] at e1
  cases e1
  obtain ⟨M, hM, e⟩ := (hn r r1 hn1).unimodular hrd
  obtain ⟨N, hN, eN⟩ := recip_unimodular M hM e e2 hr1
  have hdet : r1.det = (M.det : ℝ) * r.det := by rw [e, det_mul, det_map_intCast]
  have hu : IsUnit N.det := by rw [hN]; exact Int.isUnit_iff.2 hM
  refine ⟨?_, r, r1, hr, hn1, ?_, ?_⟩
  · have s1 : SameLattice c c1 := by rw [eN]; exact (sameLattice_of_unimodular N hu c).symm
    exact s1.trans (proper_applyT hm c1).sameLattice.1
  · intro hpos
    have hM1 : M.det = 1 := by
      rcases hM with h1 | h1
      · exact h1
      · exfalso
        rw [h1] at hdet; push_cast at hdet
        apply hrd; linarith
    have : ProperBasis c c1 := ⟨N, by rw [hN, hM1], eN⟩
    exact this.trans (proper_applyT hm c1)
  · intro hneg
    have hM1 : M.det = -1 := by
      rcases hM with h1 | h1
      · exfalso
        rw [h1] at hdet; push_cast at hdet
        apply hrd; linarith
      · exact h1
    rw [(proper_applyT hm c1).sameLattice.2, eN, det_mul, det_map_intCast, hN, hM1]
    push_cast; ring

/-- C36: every new atom has the type spglib gave to it, and its names and species are those of
the last original atom of this type. -/
theorem C36_types (lower : String → String)
    (getData : Cell ℝ → Atoms ℝ → Except Err SpglibData)
    (hget : ∀ c a d l, getData c a = .ok d → a.spglibTypes = some l → d.original.types = l)
    (niggli : Cell ℝ → Except Err (Cell ℝ)) (cell : Cell ℝ) (atoms : Atoms ℝ)
    (convention : String) (given : Option SpglibData) (conv : Cell ℝ) (atoms' : Atoms ℝ)
    (h : getConventional lower getData niggli cell atoms convention given = .ok (conv, atoms')) :
    ∃ data, (given = some data ∨ (given = none ∧ getData cell atoms = .ok data)) ∧
      atoms'.spglibTypes = some (sourceOf (lower convention) data).2.2 ∧
      Inherited (LastIndex data.original.types) atoms.names
        (sourceOf (lower convention) data).2.2 atoms'.names ∧
      Inherited (LastIndex data.original.types) atoms.species
        (sourceOf (lower convention) data).2.2 atoms'.species := by
  obtain ⟨data, ps, ts, h1, h2, h3⟩ := getConventional_steps h
  obtain ⟨-, hd⟩ := resolveData_ok h1
  obtain ⟨-, rfl, -⟩ := parts_ok h2
  obtain ⟨-, n1, n2, n3, n4⟩ := newAtoms_ok (lastIndex_iff _) h3
  refine ⟨data, ?_, ?_, n1, n2⟩
  · rcases hd with ⟨g, e⟩ | ⟨g, -⟩
    · exact .inr ⟨g, e⟩
    · exact .inl g
  · cases hs : atoms.spglibTypes with
    | none => exact n3 hs
    | some l =>
      have ht : data.original.types = l := by
        rcases hd with ⟨-, e⟩ | ⟨-, e⟩
        · exact hget _ _ _ _ e hs
        · exact valid_types e hs
      have := n4 (by rw [hs]; simp)
      rw [hs] at this
      refine inherited_types (l := l) ?_ this
      intro t i hi
      rw [← ht]; exact hi.1

/-- C36: with the convention "spglib" (and with "hpkot" unless the crystal is triclinic) cell
and positions are spglib's. -/
theorem C36_unchanged (niggli : Cell ℝ → Except Err (Cell ℝ)) (data : SpglibData) :
    conventionalParts niggli "spglib" data =
      .ok (data.conventionalCell, data.conventionalPositions, data.conventionalTypes) ∧
    (data.crystalFamily ≠ "a" → conventionalParts niggli "hpkot" data =
      .ok (data.conventionalCell, data.conventionalPositions, data.conventionalTypes)) := by
  constructor
  · simp [conventionalParts]
  · intro h; simp [conventionalParts, h]

/-- C36: any other convention raises `ConventionNotSupported`, after the arguments were
checked. -/
theorem C36_unsupported (lower : String → String)
    (getData : Cell ℝ → Atoms ℝ → Except Err SpglibData)
    (niggli : Cell ℝ → Except Err (Cell ℝ)) (cell : Cell ℝ) (atoms : Atoms ℝ)
    (convention : String) (given : Option SpglibData) (data : SpglibData)
    (hd : resolveData lower getData cell atoms given = .ok data)
    (h : lower convention ∉ ["spglib", "hpkot", "sc"]) :
    getConventional lower getData niggli cell atoms convention given =
      .error .conventionNotSupported := by
  simp only [List.mem_cons, List.not_mem_nil, or_false, not_or] at h
  unfold getConventional
  rw [hd]
  simp [bind, Except.bind, conventionalParts, h.1, h.2.1, h.2.2]

/-- C36: when the call succeeds: the cell can be brought to the convention, and every type of
the conventional cell is the type of an atom. -/
theorem C36_defined (lower : String → String)
    (getData : Cell ℝ → Atoms ℝ → Except Err SpglibData)
    (niggli : Cell ℝ → Except Err (Cell ℝ)) (cell : Cell ℝ) (atoms : Atoms ℝ)
    (convention : String) (given : Option SpglibData) (data : SpglibData) (conv : Cell ℝ)
    (ps : List (Vec ℝ)) (ts : List ℤ)
    (hd : resolveData lower getData cell atoms given = .ok data)
    (hp : conventionalParts niggli (lower convention) data = .ok (conv, ps, ts))
    (ht : ∀ t ∈ ts, t ∈ data.original.types)
    (h1 : ∀ l, atoms.names = some l → l.length = data.original.types.length)
    (h2 : ∀ l, atoms.species = some l → l.length = data.original.types.length)
    (h3 : ∀ l, atoms.spglibTypes = some l → l.length = data.original.types.length) :
    ∃ atoms', getConventional lower getData niggli cell atoms convention given =
      .ok (conv, atoms') := by
  obtain ⟨a, ha⟩ := newAtoms_defined (ps := ps) (ts := ts) (mapping := lastIndex data.original.types)
    (n := data.original.types.length) (by
      intro t htt
      obtain ⟨i, hi⟩ := exists_lastIndex _ t (ht t htt)
      exact ⟨i, (List.getElem?_eq_some_iff.1 hi.1).1, (lastIndex_iff _ _ _).2 hi⟩) h1 h2 h3
  refine ⟨a, ?_⟩
  unfold getConventional
  simp only [hd, hp, bind, Except.bind, pure, Except.pure]
  rw [ha]

end Wulfric
