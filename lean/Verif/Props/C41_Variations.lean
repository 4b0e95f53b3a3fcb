import Verif.Props.C40_Symbols

/-! # C41: `sc_get_variation` -/

set_option linter.unusedSectionVars false

namespace Wulfric
open Matrix _root_.Spec Wulfric.Spec

/-- The lattice types with variations. -/
def _root_.Spec.withVariations : List String := ["tI", "oF", "hR", "mC", "aP"]

/-- The boundary between two variations: where the name is not defined. `t` and `s` are the
tolerances for lengths and angles. -/
def _root_.Spec.OnBoundary (bl : String) (t s a b c alpha ka kb : ℝ) : Prop :=
  (bl = "tI" ∧ a = c) ∨ (bl = "oF" ∧ (b - t ≤ a ∨ c - t ≤ b)) ∨ (bl = "hR" ∧ |alpha - 90| ≤ s) ∨
    (bl = "aP" ∧ (|ka - 90| ≤ s ∨ |kb - 90| ≤ s))

theorem monoclinic_groups : ∀ n ∈ Finset.Icc (1 : ℤ) 230,
    family n ++ centring n = "mC" → family n = "m" ∧ centring n = "C" := by
  decide +kernel

theorem cwt_lt_iff' {x y t : ℝ} : cwt x .lt y t = true ↔ x < y - t := by simp [cwt]
theorem cwt_gt_iff' {x y t : ℝ} : cwt x .gt y t = true ↔ y + t < x := by
  simp only [cwt, decide_eq_true_eq]
  constructor <;> intro h <;> linarith
theorem cwt_ge_iff' {x y t : ℝ} : cwt x .ge y t = true ↔ y - t ≤ x := by simp [cwt]

theorem not_abs_le {x y t : ℝ} (h : ¬ |x - y| ≤ t) : x < y - t ∨ y + t < x := by
  rw [abs_le, not_and_or, not_le, not_le] at h
  rcases h with h | h
  · left; linarith
  · right; linarith

/-- ORCF: which result, and when `ValueError`. -/
theorem orcf_cases (a b c t : ℝ) :
    ((b - t ≤ a ∨ c - t ≤ b) ∧ orcfVariation a b c t = .error .valueError) ∨
    ∃ s, orcfVariation a b c t = .ok (some s) ∧ ¬ (b - t ≤ a ∨ c - t ≤ b) ∧
      s ∈ scBravaisLatticeVariations ∧
      ∀ r alpha kp ka kb kg, ScVariation "oF" t r a b c alpha kp ka kb kg s := by
  unfold orcfVariation
  simp only [Bool.or_eq_true, cwt_ge_iff', cwt_eq_iff, cwt_gt_iff', cwt_lt_iff', sub_zero, zero_add,
    zero_sub]
  by_cases q : b - t ≤ a ∨ c - t ≤ b
  · rw [if_pos q]; exact .inl ⟨q, rfl⟩
  · rw [if_neg q]
    right
    have q' := q
    simp only [not_or, not_le] at q'
    split_ifs with q1 q2 q3
    · exact ⟨_, rfl, q, by decide, fun _ _ _ _ _ _ => .orcf3 rfl q'.1 q'.2 q1⟩
    · exact ⟨_, rfl, q, by decide, fun _ _ _ _ _ _ => .orcf1 rfl q'.1 q'.2 q2⟩
    · exact ⟨_, rfl, q, by decide, fun _ _ _ _ _ _ => .orcf2 rfl q'.1 q'.2 q3⟩
    · exfalso
      rw [abs_le, not_and_or, not_le, not_le] at q1
      rcases q1 with h | h
      · exact q3 h
      · exact q2 h

theorem rhl_cases (alpha s : ℝ) :
    (|alpha - 90| ≤ s ∧ rhlVariation alpha s = .error .valueError) ∨
    ∃ v, rhlVariation alpha s = .ok (some v) ∧ ¬ |alpha - 90| ≤ s ∧
      v ∈ scBravaisLatticeVariations ∧
      ∀ t a b c kp ka kb kg, ScVariation "hR" t s a b c alpha kp ka kb kg v := by
  unfold rhlVariation
  simp only [cwt_gt_iff', cwt_lt_iff']
  split_ifs with q1 q2
  · refine .inr ⟨_, rfl, ?_, by decide, fun _ _ _ _ _ _ _ _ => .rhl1 rfl q1⟩
    rw [abs_le]; rintro ⟨h1, -⟩; linarith
  · refine .inr ⟨_, rfl, ?_, by decide, fun _ _ _ _ _ _ _ _ => .rhl2 rfl q2⟩
    rw [abs_le]; rintro ⟨-, h1⟩; linarith
  · refine .inl ⟨?_, rfl⟩
    rw [abs_le]; push Not at q1 q2; constructor <;> linarith

theorem mclc_cases (a b c alpha kp t s : ℝ) (ha : alpha ≤ 90 + s) :
    ∃ v, mclcVariation a b c alpha kp t s = .ok (some v) ∧ v ∈ scBravaisLatticeVariations ∧
      ∀ ka kb kg, ScVariation "mC" t s a b c alpha kp ka kb kg v := by
  unfold mclcVariation
  simp only [cwt_gt_iff', cwt_lt_iff', cwt_eq_iff, toRadians]
  rw [if_neg (not_lt.2 ha)]
  split_ifs with q1 q2 q3 q4 q5 q6
  · exact ⟨_, rfl, by decide, fun _ _ _ => .mclc2 rfl q1⟩
  · exact ⟨_, rfl, by decide, fun _ _ _ => .mclc1 rfl q2⟩
  · exact ⟨_, rfl, by decide, fun _ _ _ => .mclc4 rfl q3 q4⟩
  · exact ⟨_, rfl, by decide, fun _ _ _ => .mclc3 rfl q3 q5⟩
  · exact ⟨_, rfl, by decide, fun _ _ _ => .mclc5 rfl q3 q6⟩
  · rcases not_abs_le q4 with h | h
    · exact absurd h q5
    · exact absurd h q6
  · rcases not_abs_le q1 with h | h
    · exact absurd h q3
    · exact absurd h q2

theorem tri_cases (ka kb kg s : ℝ) (hs : 0 ≤ s) (hk : OneKind ka kb kg)
    (hg : GammaExtreme s ka kb kg) :
    ((|ka - 90| ≤ s ∨ |kb - 90| ≤ s) ∧ triVariation ka kb kg s = .error .valueError) ∨
    ∃ v, triVariation ka kb kg s = .ok (some v) ∧ ¬ (|ka - 90| ≤ s ∨ |kb - 90| ≤ s) ∧
      v ∈ scBravaisLatticeVariations ∧
      ∀ t a b c alpha kp, ScVariation "aP" t s a b c alpha kp ka kb kg v := by
  unfold triVariation
  simp only [Bool.or_eq_true, Bool.and_eq_true, cwt_gt_iff', cwt_lt_iff', cwt_eq_iff]
  by_cases q : |ka - 90| ≤ s ∨ |kb - 90| ≤ s
  · rw [if_pos q]; exact .inl ⟨q, rfl⟩
  rw [if_neg q]
  right
  have q' := q
  rw [not_or] at q'
  have ha := not_abs_le q'.1
  have hb := not_abs_le q'.2
  by_cases q1 : |kg - 90| ≤ s
  · rw [if_pos q1]
    rcases hk with ⟨h1, h2, h3⟩ | ⟨h1, h2, h3⟩
    · have ha' : ka < 90 - s := ha.resolve_right (by intro h; linarith)
      have hb' : kb < 90 - s := hb.resolve_right (by intro h; linarith)
      rw [if_neg (by rintro ⟨h, -⟩; linarith), if_pos ⟨ha', hb'⟩]
      exact ⟨_, rfl, q, by decide, fun _ _ _ _ _ _ => .tri2b rfl ha' hb' q1⟩
    · have ha' : 90 + s < ka := ha.resolve_left (by intro h; linarith)
      have hb' : 90 + s < kb := hb.resolve_left (by intro h; linarith)
      rw [if_pos ⟨ha', hb'⟩]
      exact ⟨_, rfl, q, by decide, fun _ _ _ _ _ _ => .tri2a rfl ha' hb' q1⟩
  · rw [if_neg q1]
    have hc := not_abs_le q1
    rcases hk with ⟨h1, h2, h3⟩ | ⟨h1, h2, h3⟩
    · have ha' : ka < 90 - s := ha.resolve_right (by intro h; linarith)
      have hb' : kb < 90 - s := hb.resolve_right (by intro h; linarith)
      have hc' : kg < 90 - s := hc.resolve_right (by intro h; linarith)
      rw [if_neg (by
        have := min_le_left kg (min kb ka)
        intro h; linarith), if_pos (max_lt hc' (max_lt hb' ha'))]
      rcases hg with ⟨g1, g2, -⟩ | ⟨-, -, g3⟩
      · exact ⟨_, rfl, q, by decide, fun _ _ _ _ _ _ => .tri1b rfl ha' hb' hc' g1 g2⟩
      · linarith
    · have ha' : 90 + s < ka := ha.resolve_left (by intro h; linarith)
      have hb' : 90 + s < kb := hb.resolve_left (by intro h; linarith)
      have hc' : 90 + s < kg := hc.resolve_left (by intro h; linarith)
      rw [if_pos (lt_min hc' (lt_min hb' ha'))]
      rcases hg with ⟨-, -, g3⟩ | ⟨g1, g2, -⟩
      · linarith
      · exact ⟨_, rfl, q, by decide, fun _ _ _ _ _ _ => .tri1a rfl ha' hb' hc' g1 g2⟩

/-- The SC conventional cell of a non-rhombohedral lattice, from a successful call. -/
theorem sc_noHR {lower : String → String} (hl : lower "SC" = "sc")
    {getData : Cell ℝ → Atoms ℝ → Except Err SpglibData}
    {niggli : Cell ℝ → Except Err (Cell ℝ)} {cell : Cell ℝ} {atoms : Atoms ℝ}
    {data : SpglibData} {conv : Cell ℝ} {atoms' : Atoms ℝ} (hf : data.crystalFamily ≠ "h")
    (h : getConventional lower getData niggli cell atoms "SC" (some data) = .ok (conv, atoms')) :
    scConventionalNoHR data.conventionalCell data.crystalFamily data.centringType (angleTol data) =
      .ok conv := by
  obtain ⟨d2, ps, ts, g1, g2, -⟩ := getConventional_steps h
  obtain rfl := resolve_given (.inl rfl) g1
  rw [hl] at g2
  unfold conventionalParts at g2
  rw [if_neg (by decide), if_pos rfl, if_neg (by rintro ⟨h, -⟩; exact hf h)] at g2
  cases g3 : scConventionalNoHR d2.conventionalCell d2.crystalFamily d2.centringType
      (angleTol d2) with
  | error e => rw [g3] at g2; cases g2
  | ok d =>
    simp only [g3, bind, Except.bind, pure, Except.pure] at g2
    cases g4 : rebase d2.conventionalPositions d2.conventionalCell d with
    | error e => rw [g4] at g2; cases g2
    | ok w => simp only [g4] at g2; cases g2; rfl

theorem short_names {bl : String} (h : bl ∈ bravaisLattices) (hv : bl ∉ withVariations) :
    ∃ s, scBravaisLatticeShortNames.getItem bl = .ok s ∧ s ∈ scBravaisLatticeVariations ∧
      ∀ t r a b c alpha kp ka kb kg, ScVariation bl t r a b c alpha kp ka kb kg s := by
  simp only [bravaisLattices, List.mem_cons, List.not_mem_nil, or_false] at h
  rcases h with rfl | rfl | rfl | rfl | rfl | rfl | rfl | rfl | rfl | rfl | rfl | rfl | rfl | rfl |
    rfl
  · exact ⟨_, rfl, by decide, fun _ _ _ _ _ _ _ _ _ _ => .cub rfl⟩
  · exact ⟨_, rfl, by decide, fun _ _ _ _ _ _ _ _ _ _ => .fcc rfl⟩
  · exact ⟨_, rfl, by decide, fun _ _ _ _ _ _ _ _ _ _ => .bcc rfl⟩
  · exact ⟨_, rfl, by decide, fun _ _ _ _ _ _ _ _ _ _ => .tet rfl⟩
  · exact absurd (by decide) hv
  · exact ⟨_, rfl, by decide, fun _ _ _ _ _ _ _ _ _ _ => .orc rfl⟩
  · exact absurd (by decide) hv
  · exact ⟨_, rfl, by decide, fun _ _ _ _ _ _ _ _ _ _ => .orci rfl⟩
  · exact ⟨_, rfl, by decide, fun _ _ _ _ _ _ _ _ _ _ => .orcc (.inr rfl)⟩
  · exact ⟨_, rfl, by decide, fun _ _ _ _ _ _ _ _ _ _ => .orcc (.inl rfl)⟩
  · exact ⟨_, rfl, by decide, fun _ _ _ _ _ _ _ _ _ _ => .hex rfl⟩
  · exact absurd (by decide) hv
  · exact ⟨_, rfl, by decide, fun _ _ _ _ _ _ _ _ _ _ => .mcl rfl⟩
  · exact absurd (by decide) hv
  · exact absurd (by decide) hv

section
variable (lower : String → String) (hl : lower "SC" = "sc")
  (getData : Cell ℝ → Atoms ℝ → Except Err SpglibData)
  (niggli : Cell ℝ → Except Err (Cell ℝ)) (cell : Cell ℝ) (atoms : Atoms ℝ)
  (given : Option SpglibData) (data : SpglibData)
  (hd : given = some data ∨ (given = none ∧ getData cell atoms = .ok data))
  (hn : 1 ≤ data.spaceGroupNumber ∧ data.spaceGroupNumber ≤ 230)
  (hf : data.crystalFamily = family data.spaceGroupNumber)
  (hc : data.centringType = centring data.spaceGroupNumber)
  (tol : ℝ) (htol : 0 ≤ tol) (ht1 : data.angleTolerance = -1 → tol = 1 / 10 ^ 4)
  (ht2 : data.angleTolerance ≠ -1 → tol = data.angleTolerance)

omit hl hd hn hf hc htol in
include ht1 ht2 in
theorem angleTol_eq : angleTol data = tol := by
  unfold angleTol
  split_ifs with h
  · exact (ht1 h).symm
  · exact (ht2 h).symm

include hl hd hn hf hc htol ht1 ht2

/-- C41: the variation returned is a name of the published list (never `None`, never "TRI"),
and its definition holds for the parameters of the conventional cell, the reciprocal angle
`kp` of the primitive cell (MCLC) and the reciprocal angles of the conventional one (TRI). -/
theorem C41_variation (v : Option String)
    (h : scGetVariation lower getData niggli cell atoms given = .ok v) :
    ∃ s, v = some s ∧ s ∈ scBravaisLatticeVariations ∧
    ∃ a b c alpha kp ka kb kg,
      ScVariation (data.crystalFamily ++ data.centringType) data.symprec tol
        a b c alpha kp ka kb kg s ∧
      (data.crystalFamily ++ data.centringType ∈ withVariations → ∃ conv atoms' be ga,
        getConventional lower getData niggli cell atoms "SC" (some data) = .ok (conv, atoms') ∧
        HasParams conv a b c alpha be ga ∧
        (data.crystalFamily ++ data.centringType = "mC" → ∃ prim atoms'' r x y z p q,
          getPrimitive lower getData niggli cell atoms "SC" (some data) = .ok (prim, atoms'') ∧
          getReciprocal prim = .ok r ∧ HasParams r x y z p q kp) ∧
        (data.crystalFamily ++ data.centringType = "aP" → ∃ r x y z,
          getReciprocal conv = .ok r ∧ HasParams r x y z ka kb kg)) := by
  have htt := angleTol_eq data tol ht1 ht2
  unfold scGetVariation at h
  cases h1 : resolveData lower getData cell atoms given with
  | error e => rw [h1] at h; cases h
  | ok data' =>
    obtain rfl := resolve_given hd h1
    simp only [h1, bind, Except.bind, pure, Except.pure] at h
    have hbl := symbols_inside _ (Finset.mem_Icc.2 hn)
    have hmono := monoclinic_groups _ (Finset.mem_Icc.2 hn)
    have htri := triclinic_groups _ (Finset.mem_Icc.2 hn)
    rw [← hf, ← hc] at hbl hmono htri
    generalize hB : data'.crystalFamily ++ data'.centringType = bl at *
    by_cases hv : bl ∈ withVariations
    · rw [if_pos (show bl ∈ ["tI", "oF", "hR", "mC", "aP"] from hv)] at h
      cases h3 : getConventional lower getData niggli cell atoms "SC" (some data') with
      | error e => rw [h3] at h; cases h
      | ok q =>
        obtain ⟨conv, atoms'⟩ := q
        simp only [h3] at h
        unfold scVariationOf at h
        cases h4 : getParams conv with
        | error e => rw [h4] at h; cases h
        | ok p =>
          obtain ⟨a, b, c, alpha, be, ga⟩ := p
          simp only [h4, bind, Except.bind] at h
          obtain ⟨hp, ea, eb, ec⟩ := getParams_ok h4
          rw [htt] at h
          simp only [withVariations, List.mem_cons, List.not_mem_nil, or_false] at hv
          rcases hv with rfl | rfl | rfl | rfl | rfl
          · rw [if_pos rfl] at h
            unfold bctVariation at h
            split_ifs at h with q1 q2
            · cases h
              exact ⟨_, rfl, by decide, a, b, c, alpha, 0, 0, 0, 0, .bct1 rfl q1, fun _ =>
                ⟨conv, atoms', be, ga, rfl, hp, fun k => absurd k (by decide),
                  fun k => absurd k (by decide)⟩⟩
            · cases h
              exact ⟨_, rfl, by decide, a, b, c, alpha, 0, 0, 0, 0, .bct2 rfl q2, fun _ =>
                ⟨conv, atoms', be, ga, rfl, hp, fun k => absurd k (by decide),
                  fun k => absurd k (by decide)⟩⟩
          · rw [if_neg (by decide), if_pos rfl] at h
            rcases orcf_cases a b c data'.symprec with ⟨-, e⟩ | ⟨s, e, -, hs, hsp⟩
            · rw [e] at h; cases h
            · rw [e] at h
              cases h
              exact ⟨s, rfl, hs, a, b, c, alpha, 0, 0, 0, 0, hsp _ _ _ _ _ _, fun _ =>
                ⟨conv, atoms', be, ga, rfl, hp, fun k => absurd k (by decide),
                  fun k => absurd k (by decide)⟩⟩
          · rw [if_neg (by decide), if_neg (by decide), if_pos rfl] at h
            rcases rhl_cases alpha tol with ⟨-, e⟩ | ⟨s, e, -, hs, hsp⟩
            · rw [e] at h; cases h
            · rw [e] at h
              cases h
              exact ⟨s, rfl, hs, a, b, c, alpha, 0, 0, 0, 0, hsp _ _ _ _ _ _ _ _, fun _ =>
                ⟨conv, atoms', be, ga, rfl, hp, fun k => absurd k (by decide),
                  fun k => absurd k (by decide)⟩⟩
          · rw [if_neg (by decide), if_neg (by decide), if_neg (by decide), if_pos rfl] at h
            obtain ⟨hm1, hm2⟩ := hmono rfl
            have hsc := sc_noHR hl (by rw [hm1]; decide) h3
            rw [hm1] at hsc
            unfold scConventionalNoHR at hsc
            rw [if_neg (by simp), if_neg (by decide), if_pos rfl, htt] at hsc
            have hal := scM_alpha htol hsc h4
            cases h5 : getPrimitive lower getData niggli cell atoms "SC" (some data') with
            | error e => rw [h5] at h; cases h
            | ok q =>
              obtain ⟨prim, atoms''⟩ := q
              simp only [h5] at h
              cases h6 : getReciprocal prim with
              | error e => rw [h6] at h; cases h
              | ok r =>
                simp only [h6] at h
                cases h7 : getParams r with
                | error e => rw [h7] at h; cases h
                | ok w =>
                  obtain ⟨x, y, z, p, q, kp⟩ := w
                  simp only [h7] at h
                  obtain ⟨hr, -⟩ := getParams_ok h7
                  obtain ⟨s, e, hs, hsp⟩ := mclc_cases a b c alpha kp data'.symprec tol hal
                  rw [e] at h
                  cases h
                  exact ⟨s, rfl, hs, a, b, c, alpha, kp, 0, 0, 0, hsp _ _ _, fun _ =>
                    ⟨conv, atoms', be, ga, rfl, hp,
                      fun _ => ⟨prim, atoms'', r, x, y, z, p, q, rfl, h6, hr⟩,
                      fun k => absurd k (by decide)⟩⟩
          · rw [if_neg (by decide), if_neg (by decide), if_neg (by decide), if_neg (by decide)] at h
            have hfa := htri rfl
            have hsc := sc_noHR hl (by rw [hfa]; decide) h3
            rw [hfa] at hsc
            unfold scConventionalNoHR at hsc
            rw [if_neg (by simp), if_neg (by decide), if_neg (by decide), if_pos rfl, htt] at hsc
            obtain ⟨r, x, y, z, ka, kb, kg, r1, r2, r3, r4, r5⟩ := scA_kind htol hsc
            simp only [r1, r2] at h
            rcases tri_cases ka kb kg tol htol r4 r5 with ⟨-, e⟩ | ⟨s, e, -, hs, hsp⟩
            · rw [e] at h; cases h
            · rw [e] at h
              cases h
              exact ⟨s, rfl, hs, a, b, c, alpha, 0, ka, kb, kg, hsp _ _ _ _ _ _, fun _ =>
                ⟨conv, atoms', be, ga, rfl, hp, fun k => absurd k (by decide),
                  fun _ => ⟨r, x, y, z, r1, r3⟩⟩⟩
    · rw [if_neg (show bl ∉ ["tI", "oF", "hR", "mC", "aP"] from hv)] at h
      obtain ⟨s, e, hs, hsp⟩ := short_names hbl hv
      rw [e] at h
      cases h
      exact ⟨s, rfl, hs, 0, 0, 0, 0, 0, 0, 0, 0, hsp _ _ _ _ _ _ _ _ _ _, fun k => absurd k hv⟩

/-- C41: `ValueError` is raised exactly on the boundary between two variations (lattice types
with more than one variation, other than MCLC, where no boundary is excluded). -/
theorem C41_boundary (hres : resolveData lower getData cell atoms given = .ok data)
    (hbl : data.crystalFamily ++ data.centringType ∈ ["tI", "oF", "hR", "aP"])
    (conv : Cell ℝ) (atoms' : Atoms ℝ)
    (hconv : getConventional lower getData niggli cell atoms "SC" (some data) = .ok (conv, atoms'))
    (a b c alpha be ga : ℝ) (hp : getParams conv = .ok (a, b, c, alpha, be, ga))
    (r : Cell ℝ) (x y z ka kb kg : ℝ) (hr : getReciprocal conv = .ok r)
    (hk : getParams r = .ok (x, y, z, ka, kb, kg)) :
    (scGetVariation lower getData niggli cell atoms given = .error .valueError ↔
      OnBoundary (data.crystalFamily ++ data.centringType) data.symprec tol a b c alpha ka kb) ∧
    (¬ OnBoundary (data.crystalFamily ++ data.centringType) data.symprec tol a b c alpha ka kb →
      ∃ s, scGetVariation lower getData niggli cell atoms given = .ok (some s)) := by
  have htt := angleTol_eq data tol ht1 ht2
  have htri := triclinic_groups _ (Finset.mem_Icc.2 hn)
  rw [← hf, ← hc] at htri
  unfold scGetVariation scVariationOf
  simp only [hres, hconv, hp, hr, hk, htt, bind, Except.bind, pure, Except.pure]
  generalize hB : data.crystalFamily ++ data.centringType = bl at *
  simp only [List.mem_cons, List.not_mem_nil, or_false] at hbl
  rcases hbl with rfl | rfl | rfl | rfl
  · rw [if_pos (by decide), if_pos rfl]
    unfold bctVariation
    rcases lt_trichotomy c a with h | h | h
    · rw [if_pos h]
      refine ⟨⟨fun k => (by cases k), fun k => ?_⟩, fun _ => ⟨_, rfl⟩⟩
      rcases k with ⟨-, k⟩ | ⟨k, -⟩ | ⟨k, -⟩ | ⟨k, -⟩
      · exact absurd k h.ne'
      all_goals exact absurd k (by decide)
    · rw [if_neg h.not_lt, if_neg h.symm.not_lt]
      exact ⟨⟨fun _ => .inl ⟨rfl, h.symm⟩, fun _ => rfl⟩,
        fun k => absurd (.inl ⟨rfl, h.symm⟩) k⟩
    · rw [if_neg h.le.not_gt, if_pos h]
      refine ⟨⟨fun k => (by cases k), fun k => ?_⟩, fun _ => ⟨_, rfl⟩⟩
      rcases k with ⟨-, k⟩ | ⟨k, -⟩ | ⟨k, -⟩ | ⟨k, -⟩
      · exact absurd k h.ne
      all_goals exact absurd k (by decide)
  · rw [if_pos (by decide), if_neg (by decide), if_pos rfl]
    rcases orcf_cases a b c data.symprec with ⟨q, e⟩ | ⟨s, e, q, -⟩
    · rw [e]
      exact ⟨⟨fun _ => .inr (.inl ⟨rfl, q⟩), fun _ => rfl⟩,
        fun k => absurd (.inr (.inl ⟨rfl, q⟩)) k⟩
    · rw [e]
      refine ⟨⟨fun k => (by cases k), fun k => ?_⟩, fun _ => ⟨_, rfl⟩⟩
      rcases k with ⟨k, -⟩ | ⟨-, k⟩ | ⟨k, -⟩ | ⟨k, -⟩
      · exact absurd k (by decide)
      · exact absurd k q
      all_goals exact absurd k (by decide)
  · rw [if_pos (by decide), if_neg (by decide), if_neg (by decide), if_pos rfl]
    rcases rhl_cases alpha tol with ⟨q, e⟩ | ⟨s, e, q, -⟩
    · rw [e]
      exact ⟨⟨fun _ => .inr (.inr (.inl ⟨rfl, q⟩)), fun _ => rfl⟩,
        fun k => absurd (.inr (.inr (.inl ⟨rfl, q⟩))) k⟩
    · rw [e]
      refine ⟨⟨fun k => (by cases k), fun k => ?_⟩, fun _ => ⟨_, rfl⟩⟩
      rcases k with ⟨k, -⟩ | ⟨k, -⟩ | ⟨-, k⟩ | ⟨k, -⟩
      · exact absurd k (by decide)
      · exact absurd k (by decide)
      · exact absurd k q
      · exact absurd k (by decide)
  · rw [if_pos (by decide), if_neg (by decide), if_neg (by decide), if_neg (by decide),
      if_neg (by decide)]
    have hfa := htri rfl
    have hsc := sc_noHR hl (by rw [hfa]; decide) hconv
    rw [hfa] at hsc
    unfold scConventionalNoHR at hsc
    rw [if_neg (by simp), if_neg (by decide), if_neg (by decide), if_pos rfl, htt] at hsc
    obtain ⟨r', x', y', z', ka', kb', kg', r1, r2, r3, r4, r5⟩ := scA_kind htol hsc
    rw [hr] at r1
    cases r1
    rw [hk] at r2
    cases r2
    rcases tri_cases ka kb kg tol htol r4 r5 with ⟨q, e⟩ | ⟨s, e, q, -⟩
    · rw [e]
      exact ⟨⟨fun _ => .inr (.inr (.inr ⟨rfl, q⟩)), fun _ => rfl⟩,
        fun k => absurd (.inr (.inr (.inr ⟨rfl, q⟩))) k⟩
    · rw [e]
      refine ⟨⟨fun k => (by cases k), fun k => ?_⟩, fun _ => ⟨_, rfl⟩⟩
      rcases k with ⟨k, -⟩ | ⟨k, -⟩ | ⟨k, -⟩ | ⟨-, k⟩
      · exact absurd k (by decide)
      · exact absurd k (by decide)
      · exact absurd k (by decide)
      · exact absurd k q

/-- C41: the C-centred monoclinic type has no excluded boundary: with the two cells and
their parameters, a variation is returned. -/
theorem C41_mclc (hres : resolveData lower getData cell atoms given = .ok data)
    (hbl : data.crystalFamily ++ data.centringType = "mC")
    (conv prim : Cell ℝ) (atoms' atoms'' : Atoms ℝ)
    (hconv : getConventional lower getData niggli cell atoms "SC" (some data) = .ok (conv, atoms'))
    (hprim : getPrimitive lower getData niggli cell atoms "SC" (some data) = .ok (prim, atoms''))
    (p : ℝ × ℝ × ℝ × ℝ × ℝ × ℝ) (hp : getParams conv = .ok p)
    (r : Cell ℝ) (k : ℝ × ℝ × ℝ × ℝ × ℝ × ℝ) (hr : getReciprocal prim = .ok r)
    (hk : getParams r = .ok k) :
    ∃ s, scGetVariation lower getData niggli cell atoms given = .ok (some s) := by
  have htt := angleTol_eq data tol ht1 ht2
  obtain ⟨a, b, c, alpha, be, ga⟩ := p
  obtain ⟨x, y, z, ka, kb, kg⟩ := k
  obtain ⟨hm1, -⟩ := monoclinic_groups _ (Finset.mem_Icc.2 hn) (by rw [← hf, ← hc]; exact hbl)
  have hsc := sc_noHR hl (by rw [hf, hm1]; decide) hconv
  rw [hf, hm1] at hsc
  unfold scConventionalNoHR at hsc
  rw [if_neg (by simp), if_neg (by decide), if_pos rfl, htt] at hsc
  obtain ⟨s, e, -⟩ := mclc_cases a b c alpha kg data.symprec tol (scM_alpha htol hsc hp)
  refine ⟨s, ?_⟩
  unfold scGetVariation scVariationOf
  simp only [hres, hconv, hprim, hp, hr, hk, htt, hbl, bind, Except.bind, pure, Except.pure]
  rw [if_pos (by decide), if_neg (by decide), if_neg (by decide), if_neg (by decide), if_pos trivial, e]

end

/-- C41: the definitions exclude each other. -/
theorem C41_unique (bl : String) (t s a b c alpha kp ka kb kg : ℝ)
    (ht : 0 ≤ t) (hs : 0 ≤ s) (u v : String)
    (h : ScVariation bl t s a b c alpha kp ka kb kg u)
    (h' : ScVariation bl t s a b c alpha kp ka kb kg v) : u = v := by
  cases h <;> cases h' <;> first
    | rfl
    | (rename_i h1 h2; subst h1; exact absurd h2 (by decide))
    | (rename_i h1 h2; rcases h1 with rfl | rfl <;> exact absurd h2 (by decide))
    | (rename_i h1 h2; subst h2; revert h1; decide)
    | (rename_i h1 h2 h3; subst h1; exact absurd h2 (by decide))
    | (rename_i h1 h2 h3; subst h1; exact absurd h3 (by decide))
    | (subst_vars; exfalso; first | linarith | contradiction)
    | (subst_vars; exfalso; simp only [abs_le] at *; linarith)

/-- C41: the variation starts with the short name of the Bravais lattice. -/
theorem C41_prefix (bl : String) (t s a b c alpha kp ka kb kg : ℝ) (v : String)
    (h : ScVariation bl t s a b c alpha kp ka kb kg v) :
    ∃ n, scBravaisLatticeShortNames.getItem bl = .ok n ∧
      v ∈ [n, n ++ "1", n ++ "2", n ++ "3", n ++ "4", n ++ "5", n ++ "1a", n ++ "1b", n ++ "2a",
        n ++ "2b"] := by
  cases h <;> rename_i h1 <;> first
    | (subst h1; exact ⟨_, rfl, by decide⟩)
    | (rcases h1 with rfl | rfl <;> exact ⟨_, rfl, by decide⟩)
    | (rename_i h2; subst h2; exact ⟨_, rfl, by decide⟩)
    | (rename_i h3 h2; subst h3; exact ⟨_, rfl, by decide⟩)
    | (subst_vars; exact ⟨_, rfl, by decide⟩)

/-- C41: the helper for triclinic lattices alone can return `None` or a name that is not in
the list of variations; only the cells the library constructs avoid this. -/
theorem C41_tri_alone : triVariation 80 100 90 (1 / 10 ^ 4) = .ok none ∧
    triVariation 80 100 100 (1 / 10 ^ 4) = .ok (some "TRI") ∧
    "TRI" ∉ scBravaisLatticeVariations := by
  refine ⟨?_, ?_, by decide⟩
  · unfold triVariation
    simp only [Bool.or_eq_true, Bool.and_eq_true, cwt_gt_iff', cwt_lt_iff', cwt_eq_iff]
    norm_num [abs_of_nonneg, abs_of_nonpos]
  · unfold triVariation
    simp only [Bool.or_eq_true, Bool.and_eq_true, cwt_gt_iff', cwt_lt_iff', cwt_eq_iff]
    norm_num [abs_of_nonneg, abs_of_nonpos]

theorem box_variation (x z : ℝ) (hx : machineEps < x) (hz : machineEps < z) :
    scGetVariation String.toLower (fun _ _ => .error .runtimeError)
      (fun c => .ok c) !![x, 0, 0; 0, x, 0; 0, 0, z] boxAtoms (some (boxData x x z 139 "t" "I")) =
      bctVariation x z := by
  have h0x := machineEps_pos.trans hx
  have h0z := machineEps_pos.trans hz
  obtain ⟨a, h⟩ := box_sc_tetragonal String.toLower (fun _ _ => .error .runtimeError)
    (fun c => .ok c) x x z 139 "I" (by decide +kernel) (by positivity)
  unfold scGetVariation
  rw [box_resolve]
  simp only [bind, Except.bind, pure, Except.pure]
  have e : (boxData x x z 139 "t" "I").crystalFamily ++
      (boxData x x z 139 "t" "I").centringType = "tI" := rfl
  rw [e, if_pos (by decide), h]
  simp only [scVariationOf, box_params x x z hx hx hz, bind, Except.bind]
  rw [if_pos trivial]

/-- The hypotheses are met, and both outcomes occur: a body-centred tetragonal crystal with
the lengths 1, 1, 2, and one with equal lengths. -/
example : scGetVariation String.toLower (fun _ _ => .error .runtimeError)
    (fun c => .ok c) !![1, 0, 0; 0, 1, 0; 0, 0, 2] boxAtoms (some (boxData 1 1 2 139 "t" "I")) =
      .ok (some "BCT2") ∧
    scGetVariation String.toLower (fun _ _ => .error .runtimeError)
    (fun c => .ok c) !![1, 0, 0; 0, 1, 0; 0, 0, 1] boxAtoms (some (boxData 1 1 1 139 "t" "I")) =
      .error .valueError := by
  constructor
  · rw [box_variation 1 2 (eps_lt (by norm_num)) (eps_lt (by norm_num))]
    norm_num [bctVariation]
  · rw [box_variation 1 1 (eps_lt (by norm_num)) (eps_lt (by norm_num))]
    norm_num [bctVariation]

end Wulfric
