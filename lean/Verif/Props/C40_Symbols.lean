import Verif.Lemmas.Symbols
import Verif.Props.C33_SpaceGroups
import Verif.Lemmas.Samples

/-! # C40: `hpkot_get_extended_bl_symbol` -/

namespace Wulfric
open Matrix _root_.Spec Wulfric.Spec

/-- The lattice types whose symbol depends on the conventional cell. -/
def _root_.Spec.needsCell : List String := ["tI", "oF", "oI", "oC", "oA", "hR", "mC", "aP"]

theorem cubic_groups : ∀ n ∈ Finset.Icc (1 : ℤ) 230,
    (family n ++ centring n = "cP" ∨ family n ++ centring n = "cF") → 195 ≤ n := by
  decide +kernel

theorem triclinic_groups : ∀ n ∈ Finset.Icc (1 : ℤ) 230,
    family n ++ centring n = "aP" → family n = "a" := by
  decide +kernel

theorem resolve_given {lower : String → String}
    {getData : Cell ℝ → Atoms ℝ → Except Err SpglibData} {cell : Cell ℝ} {atoms : Atoms ℝ}
    {given : Option SpglibData} {data data' : SpglibData}
    (hd : given = some data ∨ (given = none ∧ getData cell atoms = .ok data))
    (h : resolveData lower getData cell atoms given = .ok data') : data' = data := by
  obtain ⟨-, h⟩ := resolveData_ok h
  rcases hd with rfl | ⟨rfl, e⟩
  · rcases h with ⟨h, -⟩ | ⟨h, -⟩
    · cases h
    · exact (Option.some.inj h).symm
  · rcases h with ⟨-, h⟩ | ⟨h, -⟩
    · rw [e] at h; exact (Except.ok.inj h).symm
    · cases h

theorem simple_none_iff {bl : String} (h : bl ∈ bravaisLattices) (n : ℤ) :
    hpkotSimpleSymbol bl n = none ↔ bl ∈ needsCell := by
  simp only [bravaisLattices, List.mem_cons, List.not_mem_nil, or_false] at h
  rcases h with rfl | rfl | rfl | rfl | rfl | rfl | rfl | rfl | rfl | rfl | rfl | rfl | rfl | rfl |
    rfl <;> simp [hpkotSimpleSymbol, needsCell]
  all_goals (split_ifs <;> simp)

/-- The symbols that need no cell. -/
theorem simple_spec {n : ℤ} (hn : 1 ≤ n ∧ n ≤ 230) {r : Except Err String}
    (h : hpkotSimpleSymbol (family n ++ centring n) n = some r) (a b c beta ra rb rg : ℝ) :
    ∃ s, r = .ok s ∧ s ∈ hpkotExtendedBlSymbols ∧
      HpkotSymbol (family n ++ centring n) n a b c beta ra rb rg s := by
  have hbl := symbols_inside n (Finset.mem_Icc.2 hn)
  have hcub := cubic_groups n (Finset.mem_Icc.2 hn)
  generalize family n ++ centring n = bl at *
  have h230 := hn.2
  simp only [bravaisLattices, List.mem_cons, List.not_mem_nil, or_false] at hbl
  rcases hbl with rfl | rfl | rfl | rfl | rfl | rfl | rfl | rfl | rfl | rfl | rfl | rfl | rfl | rfl |
    rfl
  · have h195 := hcub (by simp)
    unfold hpkotSimpleSymbol at h
    rw [if_neg (by decide), if_pos rfl] at h
    split_ifs at h with q1 q2
    · cases h; exact ⟨_, rfl, by decide, .cP1 rfl q1.1 q1.2⟩
    · cases h; exact ⟨_, rfl, by decide, .cP2 rfl q2.1 q2.2⟩
    · omega
  · have h195 := hcub (by simp)
    unfold hpkotSimpleSymbol at h
    rw [if_neg (by decide), if_neg (by decide), if_pos rfl] at h
    split_ifs at h with q1 q2
    · cases h; exact ⟨_, rfl, by decide, .cF1 rfl q1.1 q1.2⟩
    · cases h; exact ⟨_, rfl, by decide, .cF2 rfl q2.1 q2.2⟩
    · omega
  · cases h; exact ⟨_, rfl, by decide, .cI1 rfl⟩
  · cases h; exact ⟨_, rfl, by decide, .tP1 rfl⟩
  · cases h
  · cases h; exact ⟨_, rfl, by decide, .oP1 rfl⟩
  · cases h
  · cases h
  · cases h
  · cases h
  · unfold hpkotSimpleSymbol at h
    rw [if_neg (by decide), if_neg (by decide), if_neg (by decide), if_pos rfl] at h
    have key : ((143 ≤ n ∧ n ≤ 149) ∨ (159 ≤ n ∧ n ≤ 163) ∨ n ∈ ([151, 153, 157] : List ℤ)) ↔
        n ∈ hP1Groups := by
      simp only [hP1Groups, List.mem_cons, List.not_mem_nil, or_false]
      omega
    split_ifs at h with q1
    · cases h; exact ⟨_, rfl, by decide, .hP1 rfl (key.1 q1)⟩
    · cases h; exact ⟨_, rfl, by decide, .hP2 rfl fun hc => q1 (key.2 hc)⟩
  · cases h
  · cases h; exact ⟨_, rfl, by decide, .mP1 rfl⟩
  · cases h
  · cases h

theorem sqrt_compare {a c : ℝ} (ha : 0 ≤ a) (hc : 0 ≤ c) :
    Real.sqrt 3 * a ≤ Real.sqrt 2 * c ↔ 3 * a ^ 2 ≤ 2 * c ^ 2 := by
  have h3 := Real.sqrt_nonneg 3
  have h2 := Real.sqrt_nonneg 2
  rw [← abs_of_nonneg (mul_nonneg h3 ha), ← abs_of_nonneg (mul_nonneg h2 hc), ← sq_le_sq,
    mul_pow, mul_pow, Real.sq_sqrt (by norm_num), Real.sq_sqrt (by norm_num)]

/-- The symbols decided by lengths and the angle `beta`. -/
theorem length_spec {bl : String} (hbl : bl ∈ needsCell) (hne : bl ≠ "aP") (n : ℤ)
    {a b c : ℝ} (beta ra rb rg : ℝ) (ha : 0 ≤ a) (hc : 0 ≤ c) :
    ∃ s, hpkotLengthSymbol bl a b c beta = some s ∧ s ∈ hpkotExtendedBlSymbols ∧
      HpkotSymbol bl n a b c beta ra rb rg s := by
  simp only [needsCell, List.mem_cons, List.not_mem_nil, or_false] at hbl
  unfold hpkotLengthSymbol
  rcases hbl with rfl | rfl | rfl | rfl | rfl | rfl | rfl | rfl
  · rw [if_pos rfl]
    split_ifs with q
    · exact ⟨_, rfl, by decide, .tI1 rfl q⟩
    · exact ⟨_, rfl, by decide, .tI2 rfl (not_le.1 q)⟩
  · rw [if_neg (by decide), if_pos rfl]
    split_ifs with q1 q2
    · exact ⟨_, rfl, by decide, .oF1 rfl q1⟩
    · exact ⟨_, rfl, by decide, .oF2 rfl q2⟩
    · exact ⟨_, rfl, by decide, .oF3 rfl (not_lt.1 q1) (not_lt.1 q2)⟩
  · rw [if_neg (by decide), if_neg (by decide), if_pos rfl]
    split_ifs with q1 q2 q3
    · exact ⟨_, rfl, by decide, .oI1 rfl q1.1 q1.2⟩
    · refine ⟨_, rfl, by decide, .oI2 rfl q2.1 ?_⟩
      by_contra hca
      push Not at hca
      exact q1 ⟨hca, q2.1.trans hca⟩
    · refine ⟨_, rfl, by decide, .oI3 rfl ?_ ?_⟩
      · by_contra hab
        push Not at hab
        exact q2 ⟨hab, q3.2.trans hab⟩
      · by_contra hcb
        push Not at hcb
        exact q1 ⟨q3.1.trans hcb, hcb⟩
    · exfalso
      rcases le_total a c with h1 | h1 <;> rcases le_total b c with h2 | h2 <;>
        rcases le_total a b with h3 | h3
      all_goals first
        | exact q1 ⟨h1, h2⟩
        | exact q2 ⟨h3, h1⟩
        | exact q3 ⟨h3, h2⟩
        | exact q1 ⟨h3.trans h2, h2⟩
        | exact q2 ⟨h2.trans h1, h1⟩
        | exact q3 ⟨h1.trans h2, h2⟩
  · rw [if_neg (by decide), if_neg (by decide), if_neg (by decide), if_pos rfl]
    split_ifs with q
    · exact ⟨_, rfl, by decide, .oC1 rfl q⟩
    · exact ⟨_, rfl, by decide, .oC2 rfl (not_le.1 q)⟩
  · rw [if_neg (by decide), if_neg (by decide), if_neg (by decide), if_neg (by decide), if_pos rfl]
    split_ifs with q
    · exact ⟨_, rfl, by decide, .oA1 rfl q⟩
    · exact ⟨_, rfl, by decide, .oA2 rfl (not_le.1 q)⟩
  · rw [if_neg (by decide), if_neg (by decide), if_neg (by decide), if_neg (by decide),
      if_neg (by decide), if_pos rfl]
    split_ifs with q
    · exact ⟨_, rfl, by decide, .hR1 rfl ((sqrt_compare ha hc).1 q)⟩
    · refine ⟨_, rfl, by decide, .hR2 rfl ?_⟩
      rw [sqrt_compare ha hc] at q
      exact not_le.1 q
  · rw [if_neg (by decide), if_neg (by decide), if_neg (by decide), if_neg (by decide),
      if_neg (by decide), if_neg (by decide), if_pos rfl]
    have e : -a * Real.cos (beta * toRadians) / c + (a * Real.sin (beta * toRadians) / b) ^ 2 =
        -a * Real.cos (beta * (Real.pi / 180)) / c +
          a ^ 2 * Real.sin (beta * (Real.pi / 180)) ^ 2 / b ^ 2 := by
      rw [toRadians, div_pow, mul_pow]
    rw [e]
    unfold toRadians
    split_ifs with q1 q2
    · exact ⟨_, rfl, by decide, .mC1 rfl q1⟩
    · exact ⟨_, rfl, by decide, .mC2 rfl (not_le.1 q1) q2⟩
    · exact ⟨_, rfl, by decide, .mC3 rfl (not_le.1 q1) (not_le.1 q2)⟩
  · exact absurd rfl hne

section
variable (lower : String → String) (hl : lower "HPKOT" = "hpkot")
  (getData : Cell ℝ → Atoms ℝ → Except Err SpglibData)
  (niggli : Cell ℝ → Except Err (Cell ℝ)) (cell : Cell ℝ) (atoms : Atoms ℝ)
  (given : Option SpglibData) (data : SpglibData)
  (hd : given = some data ∨ (given = none ∧ getData cell atoms = .ok data))
  (hn : 1 ≤ data.spaceGroupNumber ∧ data.spaceGroupNumber ≤ 230)
  (hf : data.crystalFamily = family data.spaceGroupNumber)
  (hc : data.centringType = centring data.spaceGroupNumber)
include hl hd hn hf hc

/-- C40: the symbol is one of the published list and its definition holds for the lattice
parameters of the conventional cell (and the reciprocal angles, if triclinic). -/
theorem C40_symbol (s : String)
    (h : hpkotGetExtendedBlSymbol lower getData niggli cell atoms given = .ok s) :
    s ∈ hpkotExtendedBlSymbols ∧
    ∃ a b c beta ra rb rg,
      HpkotSymbol (data.crystalFamily ++ data.centringType) data.spaceGroupNumber
        a b c beta ra rb rg s ∧
      (data.crystalFamily ++ data.centringType ∈ needsCell → ∃ conv atoms' al ga,
        getConventional lower getData niggli cell atoms "HPKOT" (some data) =
          .ok (conv, atoms') ∧ HasParams conv a b c al beta ga ∧
        (data.crystalFamily ++ data.centringType = "aP" → ∃ r x y z,
          getReciprocal conv = .ok r ∧ HasParams r x y z ra rb rg)) := by
  unfold hpkotGetExtendedBlSymbol at h
  cases h1 : resolveData lower getData cell atoms given with
  | error e => rw [h1] at h; cases h
  | ok data' =>
    obtain rfl := resolve_given hd h1
    simp only [h1, bind, Except.bind, pure, Except.pure] at h
    have hbl := symbols_inside _ (Finset.mem_Icc.2 hn)
    rw [hf, hc] at h ⊢
    cases h2 : hpkotSimpleSymbol (family data'.spaceGroupNumber ++ centring data'.spaceGroupNumber)
        data'.spaceGroupNumber with
    | some r =>
      simp only [h2] at h
      obtain ⟨s', e, hs, hsp⟩ := simple_spec hn h2 0 0 0 0 0 0 0
      rw [e] at h
      cases h
      refine ⟨hs, 0, 0, 0, 0, 0, 0, 0, hsp, fun hc => ?_⟩
      rw [(simple_none_iff hbl _).2 hc] at h2
      cases h2
    | none =>
      simp only [h2] at h
      have hneed := (simple_none_iff hbl _).1 h2
      cases h3 : getConventional lower getData niggli cell atoms "HPKOT" (some data') with
      | error e => rw [h3] at h; cases h
      | ok q =>
        obtain ⟨conv, atoms'⟩ := q
        simp only [h3] at h
        cases h4 : getParams conv with
        | error e => rw [h4] at h; cases h
        | ok p =>
          obtain ⟨a, b, c, al, beta, ga⟩ := p
          simp only [h4] at h
          obtain ⟨hp, ea, eb, ec⟩ := getParams_ok h4
          by_cases haP : family data'.spaceGroupNumber ++ centring data'.spaceGroupNumber = "aP"
          · have hfa : family data'.spaceGroupNumber = "a" :=
              triclinic_groups _ (Finset.mem_Icc.2 hn) haP
            obtain ⟨d2, ps, ts, g1, g2, -⟩ := getConventional_steps h3
            obtain rfl := resolve_given (.inl rfl) g1
            rw [hl] at g2
            unfold conventionalParts at g2
            rw [if_pos (by decide), if_pos ⟨rfl, hf.trans hfa⟩] at g2
            cases g3 : hpkotConventionalA niggli d2.conventionalCell with
            | error e => rw [g3] at g2; cases g2
            | ok d =>
              simp only [g3, bind, Except.bind, pure, Except.pure] at g2
              cases g4 : rebase d2.conventionalPositions d2.conventionalCell d with
              | error e => rw [g4] at g2; cases g2
              | ok w =>
                simp only [g4] at g2
                cases g2
                obtain ⟨r, x, y, z, ra, rb, rg, r1, r2, r3, r4⟩ := hpkotA_kind g3
                rw [haP] at h ⊢
                have hno : hpkotLengthSymbol "aP" a b c beta = none := by
                  simp [hpkotLengthSymbol]
                simp only [hno, if_true, hpkotTriclinicSymbol, r1, r2, bind, Except.bind, pure,
                  Except.pure] at h
                by_cases q : 90 ≤ ra ∧ 90 ≤ rb ∧ 90 ≤ rg
                · rw [if_pos q] at h
                  cases h
                  exact ⟨by decide, a, b, c, beta, ra, rb, rg, .aP2 rfl q.1 q.2.1 q.2.2,
                    fun _ => ⟨conv, atoms', al, ga, rfl, hp, fun _ => ⟨r, x, y, z, r1, r3⟩⟩⟩
                · rw [if_neg q] at h
                  cases h
                  rcases r4 with k | k
                  · exact ⟨by decide, a, b, c, beta, ra, rb, rg, .aP3 rfl k.1 k.2.1 k.2.2,
                      fun _ => ⟨conv, atoms', al, ga, rfl, hp, fun _ => ⟨r, x, y, z, r1, r3⟩⟩⟩
                  · exact absurd k q
          · obtain ⟨s', e, hs, hsp⟩ := length_spec (b := b) hneed haP data'.spaceGroupNumber beta 0 0 0
              hp.a_nonneg hp.c_nonneg
            simp only [e] at h
            cases h
            exact ⟨hs, a, b, c, beta, 0, 0, 0, hsp, fun _ => ⟨conv, atoms', al, ga, rfl, hp,
              fun hcon => absurd hcon haP⟩⟩

/-- C40: no branch is left without a symbol. If the arguments are valid and, for the types
that need it, the conventional cell exists with vectors longer than the machine epsilon, a
symbol is returned. -/
theorem C40_total (hres : resolveData lower getData cell atoms given = .ok data)
    (hconv : data.crystalFamily ++ data.centringType ∈ needsCell → ∃ conv atoms',
      getConventional lower getData niggli cell atoms "HPKOT" (some data) = .ok (conv, atoms') ∧
      ∀ i, machineEps < npNorm (conv i)) :
    ∃ s, hpkotGetExtendedBlSymbol lower getData niggli cell atoms given = .ok s := by
  unfold hpkotGetExtendedBlSymbol
  simp only [hres, bind, Except.bind, pure, Except.pure]
  have hbl := symbols_inside _ (Finset.mem_Icc.2 hn)
  rw [hf, hc] at hconv ⊢
  cases h2 : hpkotSimpleSymbol (family data.spaceGroupNumber ++ centring data.spaceGroupNumber)
      data.spaceGroupNumber with
  | some r =>
    obtain ⟨s', e, hs, hsp⟩ := simple_spec hn h2 0 0 0 0 0 0 0
    exact ⟨s', e⟩
  | none =>
    have hneed := (simple_none_iff hbl _).1 h2
    obtain ⟨conv, atoms', h3, hpos⟩ := hconv hneed
    obtain ⟨al, be, ga, hp⟩ := exists_params (c := conv) fun i => (machineEps_pos.trans (hpos i)).ne'
    have h4 := getParams_of_spec hp (hpos 0) (hpos 1) (hpos 2)
    simp only [h3, h4]
    by_cases haP : family data.spaceGroupNumber ++ centring data.spaceGroupNumber = "aP"
    · have hfa : family data.spaceGroupNumber = "a" :=
        triclinic_groups _ (Finset.mem_Icc.2 hn) haP
      obtain ⟨d2, ps, ts, g1, g2, -⟩ := getConventional_steps h3
      obtain rfl := resolve_given (.inl rfl) g1
      rw [hl] at g2
      unfold conventionalParts at g2
      rw [if_pos (by decide), if_pos ⟨rfl, hf.trans hfa⟩] at g2
      cases g3 : hpkotConventionalA niggli d2.conventionalCell with
      | error e => rw [g3] at g2; cases g2
      | ok d =>
        simp only [g3, bind, Except.bind, pure, Except.pure] at g2
        cases g4 : rebase d2.conventionalPositions d2.conventionalCell d with
        | error e => rw [g4] at g2; cases g2
        | ok w =>
          simp only [g4] at g2
          cases g2
          obtain ⟨r, x, y, z, ra, rb, rg, r1, r2, r3, r4⟩ := hpkotA_kind g3
          have hno : ∀ a b c beta, hpkotLengthSymbol "aP" a b c beta = none := by
            simp [hpkotLengthSymbol]
          simp only [haP, hno, if_true, hpkotTriclinicSymbol, r1, r2, bind, Except.bind, pure,
            Except.pure]
          split_ifs
          · exact ⟨_, rfl⟩
          · exact ⟨_, rfl⟩
    · obtain ⟨s', e, hs, hsp⟩ := length_spec (b := npNorm (conv 1)) hneed haP
        data.spaceGroupNumber be 0 0 0 hp.a_nonneg hp.c_nonneg
      simp only [e]
      exact ⟨_, rfl⟩

end

/-- C40: the definitions exclude each other: there is one symbol only. -/
theorem C40_unique (bl : String) (n : ℤ) (a b c beta ra rb rg : ℝ) (s s' : String)
    (h : HpkotSymbol bl n a b c beta ra rb rg s) (h' : HpkotSymbol bl n a b c beta ra rb rg s') :
    s = s' := by
  have hb : 0 ≤ 1 / b ^ 2 := by positivity
  cases h <;> cases h' <;> first
    | rfl
    | (rename_i h1 h2; subst h1; exact absurd h2 (by decide))
    | (rename_i h1 h2 h3; subst h1; first | exact absurd h2 (by decide) | exact absurd h3 (by decide))
    | (subst_vars; exfalso; first | omega | linarith | contradiction)

/-- C40: the symbol starts with the Bravais lattice. -/
theorem C40_prefix (bl : String) (n : ℤ) (a b c beta ra rb rg : ℝ) (s : String)
    (h : HpkotSymbol bl n a b c beta ra rb rg s) : s = bl ++ "1" ∨ s = bl ++ "2" ∨ s = bl ++ "3" := by
  cases h <;> subst_vars <;> decide

/-- C40: with `a < b` (spglib's order of the vectors) `oF3` means that the inverse squares
satisfy all three triangle inequalities, the definition of the paper. -/
theorem C40_oF3 (n : ℤ) (a b c beta ra rb rg : ℝ) (ha : 0 < a) (hab : a ≤ b)
    (h : HpkotSymbol "oF" n a b c beta ra rb rg "oF3") :
    1 / a ^ 2 ≤ 1 / b ^ 2 + 1 / c ^ 2 ∧ 1 / b ^ 2 ≤ 1 / a ^ 2 + 1 / c ^ 2 ∧
      1 / c ^ 2 ≤ 1 / a ^ 2 + 1 / b ^ 2 := by
  generalize hs : "oF3" = s at h
  cases h <;> first | exact absurd hs (by decide) | skip
  case oF3 h1 h2 =>
    refine ⟨h1, ?_, h2⟩
    have : 1 / b ^ 2 ≤ 1 / a ^ 2 :=
      one_div_le_one_div_of_le (by positivity) (pow_le_pow_left₀ ha.le hab 2)
    have : 0 ≤ 1 / c ^ 2 := by positivity
    linarith

/-- C40: without that order the code returns `oF3` although one inequality fails. -/
theorem C40_oF3_order : hpkotLengthSymbol "oF" 3 1 3 90 = some "oF3" ∧
    ¬ (1 / (1 : ℝ) ^ 2 ≤ 1 / 3 ^ 2 + 1 / 3 ^ 2) := by
  constructor
  · unfold hpkotLengthSymbol
    rw [if_neg (by decide), if_pos rfl]
    norm_num
  · norm_num

/-- The hypotheses are met: an orthorhombic body-centred crystal with the lengths 3, 5, 4. -/
example : hpkotGetExtendedBlSymbol String.toLower (fun _ _ => .error .runtimeError)
    (fun c => .ok c) !![3, 0, 0; 0, 5, 0; 0, 0, 4] boxAtoms (some (boxData 3 5 4 71 "o" "I")) =
      .ok "oI3" := by
  obtain ⟨a, h⟩ := box_hpkot String.toLower (fun _ _ => .error .runtimeError) (fun c => .ok c)
    3 5 4 71 "o" "I" (by decide +kernel) (by decide)
  unfold hpkotGetExtendedBlSymbol
  rw [box_resolve]
  simp only [bind, Except.bind, pure, Except.pure]
  have e1 : hpkotSimpleSymbol ((boxData 3 5 4 71 "o" "I").crystalFamily ++
      (boxData 3 5 4 71 "o" "I").centringType) (boxData 3 5 4 71 "o" "I").spaceGroupNumber =
      none := by simp [boxData, hpkotSimpleSymbol]
  have e2 : (boxData 3 5 4 71 "o" "I").crystalFamily ++
      (boxData 3 5 4 71 "o" "I").centringType = "oI" := rfl
  rw [e1, h]
  simp only
  rw [box_params 3 5 4 (eps_lt (by norm_num)) (eps_lt (by norm_num)) (eps_lt (by norm_num)), e2]
  have e3 : hpkotLengthSymbol "oI" 3 5 4 90 = some "oI3" := by
    unfold hpkotLengthSymbol
    rw [if_neg (by decide), if_neg (by decide), if_pos rfl]
    norm_num
  simp only [e3]

end Wulfric
