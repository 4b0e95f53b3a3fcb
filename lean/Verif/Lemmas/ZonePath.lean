import Verif.Lemmas.ZoneForm
import Verif.Props.C43_Points
import Verif.Props.C53_Primitive

/-!
# The points of `get_path_and_points` and the tables they come from
-/

namespace Wulfric

open Matrix _root_.Spec Wulfric.Spec

/-- Lattice parameters are determined by the cell. -/
theorem params_unique {cell : Cell ℝ} {a b c al be ga a' b' c' al' be' ga' : ℝ}
    (h : getParams cell = .ok (a, b, c, al, be, ga))
    (h' : HasParams cell a' b' c' al' be' ga') :
    a' = a ∧ b' = b ∧ c' = c ∧ al' = al ∧ be' = be ∧ ga' = ga := by
  obtain ⟨k, ea, eb, ec⟩ := getParams_ok h
  have key : ∀ x y : ℝ, 0 ≤ x → 0 ≤ y → x ^ 2 = y ^ 2 → x = y := fun x y hx hy e => by
    rwa [sq_eq_sq₀ hx hy] at e
  have e1 := key a' a h'.a_nonneg k.a_nonneg (by rw [← h'.aa, k.aa])
  have e2 := key b' b h'.b_nonneg k.b_nonneg (by rw [← h'.bb, k.bb])
  have e3 := key c' c h'.c_nonneg k.c_nonneg (by rw [← h'.cc, k.cc])
  have := getParams_of_spec h' (e1 ▸ ea) (e2 ▸ eb) (e3 ▸ ec)
  rw [h] at this
  simp only [Except.ok.injEq, Prod.mk.injEq] at this
  exact ⟨this.1.symm, this.2.1.symm, this.2.2.1.symm, this.2.2.2.1.symm, this.2.2.2.2.1.symm,
    this.2.2.2.2.2.symm⟩

theorem getConventional_lower {lower : String → String}
    {getData : Cell ℝ → Atoms ℝ → Except Err SpglibData}
    {niggli : Cell ℝ → Except Err (Cell ℝ)} {cell : Cell ℝ} {atoms : Atoms ℝ}
    {given : Option SpglibData} {s t : String} (h : lower s = lower t) :
    getConventional lower getData niggli cell atoms s given =
      getConventional lower getData niggli cell atoms t given := by
  unfold getConventional
  rw [h]

theorem getPrimitive_lower {lower : String → String}
    {getData : Cell ℝ → Atoms ℝ → Except Err SpglibData}
    {niggli : Cell ℝ → Except Err (Cell ℝ)} {cell : Cell ℝ} {atoms : Atoms ℝ}
    {given : Option SpglibData} {s t : String} (h : lower s = lower t) :
    getPrimitive lower getData niggli cell atoms s given =
      getPrimitive lower getData niggli cell atoms t given := by
  unfold getPrimitive
  rw [h]

theorem resolve_self {lower : String → String}
    {getData : Cell ℝ → Atoms ℝ → Except Err SpglibData} {cell : Cell ℝ} {atoms : Atoms ℝ}
    {data d : SpglibData} (h : resolveData lower getData cell atoms (some data) = .ok d) :
    d = data := resolve_given (.inl rfl) h

/-- The points a call returns, in terms of the table. -/
theorem points_of_table {cell rprim : Cell ℝ} {kpath path : String}
    {raw pts : PyDict String (Vec ℝ)} {inv t : Bool} (hg : GoodTable kpath raw)
    (h : (do
        let points ← allCoordinates cell rprim false raw
        extendPath inv t kpath points) = Except.ok (path, pts)) (k : String) (v : Vec ℝ)
    (hv : pts.get? k = some v) :
    ∃ x ∈ raw, (k = x.1 ∧ v = vecMat x.2 rprim) ∨
      (x.1 ≠ "GAMMA" ∧ k = x.1 ++ "_P" ∧ v = -(vecMat x.2 rprim)) := by
  cases he : allCoordinates cell rprim false raw with
  | error _ => simp [he, bind, Except.bind] at h
  | ok e =>
  simp only [he, bind, Except.bind] at h
  obtain ⟨k1, k2⟩ := allCoordinates_ok he
  have mem : ∀ (d : PyDict String (Vec ℝ)) k v, d.get? k = some v → (k, v) ∈ d := by
    intro d
    induction d with
    | nil => intro k v h; simp [PyDict.get?] at h
    | cons x d ih =>
      intro k v h
      obtain ⟨a, b⟩ := x
      simp only [PyDict.get?] at h
      split_ifs at h with q
      · cases h
        exact List.mem_cons.2 (.inl (by rw [q]))
      · exact List.mem_cons.2 (.inr (ih _ _ h))
  have main : ∀ k v, e.get? k = some v → ∃ x ∈ raw, k = x.1 ∧ v = vecMat x.2 rprim := by
    intro k v hv
    have hk : k ∈ raw.keys := by
      rw [← k1, ← PyDict.get?_isSome, hv]; rfl
    rw [← PyDict.get?_isSome, Option.isSome_iff_exists] at hk
    obtain ⟨x, hx⟩ := hk
    obtain ⟨v', hv', c1⟩ := k2 k x hx
    rw [hv] at hv'
    cases hv'
    exact ⟨(k, x), mem _ _ _ hx, rfl, pointCoordinates_absolute c1⟩
  by_cases hi : inv = true ∨ t = true
  · rw [extend_same hi] at h
    cases h
    obtain ⟨x, hx, e1, e2⟩ := main k v hv
    exact ⟨x, hx, .inl ⟨e1, e2⟩⟩
  · rw [not_or, Bool.not_eq_true, Bool.not_eq_true] at hi
    rw [hi.1, hi.2] at h
    obtain ⟨p, path', e', hp, he', e1, e2, e3, e4⟩ := extend_spec hg k1
    rw [he'] at h
    cases h
    have hk : k ∈ pts.keys := by
      rw [← PyDict.get?_isSome, hv]; rfl
    rw [e2, List.mem_append, List.mem_map] at hk
    rcases hk with hk | ⟨k', hk, rfl⟩
    · rw [e3 k hk] at hv
      obtain ⟨x, hx, e1, e2⟩ := main k v hv
      exact ⟨x, hx, .inl ⟨e1, e2⟩⟩
    · rw [List.mem_filter] at hk
      have hk' := hk.1
      rw [← PyDict.get?_isSome, Option.isSome_iff_exists] at hk'
      obtain ⟨w, hw⟩ := hk'
      have hne : k' ≠ "GAMMA" := by simpa using hk.2
      rw [e4 k' w hne hw] at hv
      cases hv
      obtain ⟨x, hx, e1, rfl⟩ := main k' w hw
      subst e1
      exact ⟨x, hx, .inr ⟨hne, rfl, rfl⟩⟩

/-- The same, when all points of the table are known to lie well. -/
theorem place_points {cell rprim : Cell ℝ} {kpath path : String}
    {raw pts : PyDict String (Vec ℝ)} {inv t : Bool} (hg : GoodTable kpath raw)
    (h : (do
        let points ← allCoordinates cell rprim false raw
        extendPath inv t kpath points) = Except.ok (path, pts)) (bad : String → Prop)
    (hp : ∀ x ∈ raw, bad x.1 ∨ PointPlace rprim x) (k : String) (v : Vec ℝ)
    (hv : pts.get? k = some v) (hb : ¬ bad k) (hb' : ∀ n, k = n ++ "_P" → ¬ bad n) :
    InZone rprim v ∧ (k ≠ "GAMMA" → OnZoneBoundary rprim v) := by
  obtain ⟨x, hx, ⟨rfl, rfl⟩ | ⟨h1, rfl, rfl⟩⟩ := points_of_table hg h k v hv
  · rcases hp x hx with h2 | ⟨h2, h3⟩ | h2
    · exact absurd h2 hb
    · rw [h3, vecMat_row]
      exact ⟨gamma_inZone _, fun h => absurd h2 h⟩
    · exact ⟨h2.1, fun _ => h2⟩
  · rcases hp x hx with h2 | ⟨h2, h3⟩ | h2
    · exact absurd h2 (hb' _ rfl)
    · exact absurd h2 h1
    · exact ⟨zone_neg h2.1, fun _ => boundary_neg h2⟩

section
variable (lower : String → String) (getData : Cell ℝ → Atoms ℝ → Except Err SpglibData)
  (niggli : Cell ℝ → Except Err (Cell ℝ)) (cell : Cell ℝ) (atoms : Atoms ℝ)
  (given : Option SpglibData) (data : SpglibData)
  (hd : given = some data ∨ (given = none ∧ getData cell atoms = .ok data))
  (hn : 1 ≤ data.spaceGroupNumber ∧ data.spaceGroupNumber ≤ 230)
  (hf : data.crystalFamily = family data.spaceGroupNumber)
  (hc : data.centringType = centring data.spaceGroupNumber) (convention : String)

include hd hn hf hc

/-- The steps of a call with the HPKOT convention. -/
theorem hpkot_path_steps (hl : lower "HPKOT" = "hpkot") (hl' : lower "hpkot" = "hpkot")
    (hconv : lower convention = "hpkot") (t rel : Bool) (path : String)
    (pts : PyDict String (Vec ℝ))
    (h : getPathAndPoints lower getData niggli cell atoms given convention t rel =
      .ok (path, pts)) :
    ∃ kpath raw prim pa rprim conv ca matrix a b c al be ga ra rb rg s,
      getPrimitive lower getData niggli cell atoms convention (some data) = .ok (prim, pa) ∧
      getReciprocal prim = .ok rprim ∧
      getConventional lower getData niggli cell atoms convention (some data) = .ok (conv, ca) ∧
      (hpkotConventionalToPrimitive ℝ).get? (data.crystalFamily ++ data.centringType) =
        some matrix ∧ prim = matrix.transpose * conv ∧
      getParams conv = .ok (a, b, c, al, be, ga) ∧
      HpkotSymbol (data.crystalFamily ++ data.centringType) data.spaceGroupNumber
        a b c be ra rb rg s ∧
      (data.crystalFamily ++ data.centringType = "aP" → ∃ r x y z,
          getReciprocal conv = .ok r ∧ HasParams r x y z ra rb rg) ∧
      hpkotPointsOf a b c be (data.crystalFamily ++ data.centringType) s = .ok raw ∧
      (GoodTable kpath raw ∧ hpkotDefaultKPaths.getItem s = .ok kpath ∧
        hpkotGetExtendedBlSymbol lower getData niggli cell atoms (some data) = .ok s) ∧
      (do
        let points ← allCoordinates cell rprim rel raw
        extendPath (centrosymmetric data.spaceGroupNumber) t kpath points) = .ok (path, pts) := by
  unfold getPathAndPoints at h
  cases h1 : resolveData lower getData cell atoms given with
  | error _ => simp [h1, bind, Except.bind] at h
  | ok data' =>
  have hd' := resolve_given hd h1
  subst hd'
  simp only [h1, bind, Except.bind] at h
  cases h2 : getConventional lower getData niggli cell atoms convention (some data') with
  | error _ => simp [h2] at h
  | ok ca =>
  obtain ⟨conv, a1⟩ := ca
  simp only [h2] at h
  cases h3 : getPrimitive lower getData niggli cell atoms convention (some data') with
  | error _ => simp [h3] at h
  | ok pa =>
  obtain ⟨prim, a2⟩ := pa
  simp only [h3] at h
  cases h4 : pathAndRawPoints lower getData niggli cell atoms data' conv (lower convention) with
  | error _ => simp [h4] at h
  | ok kr =>
  obtain ⟨kpath, raw⟩ := kr
  simp only [h4] at h
  cases h5 : getReciprocal prim with
  | error _ => simp [h5] at h
  | ok rprim =>
  have hinv : inversionSymmetry.getItem data'.spaceGroupNumber =
      .ok (centrosymmetric data'.spaceGroupNumber) := (C33_values _ hn).2.2
  simp only [h5, hinv] at h
  -- the primitive cell
  obtain ⟨dd, ps, ts, g1, g2, -⟩ := getPrimitive_steps h3
  obtain rfl := resolve_self g1
  obtain ⟨-, conv', ca', matrix, qs, ws, m1, m2, -, m3, -⟩ :=
    primitiveParts_steps (by rw [hconv]; decide) g2
  have m4 : getConventional lower getData niggli cell atoms (lower convention) (some dd) =
      getConventional lower getData niggli cell atoms convention (some dd) :=
    getConventional_lower (by rw [hconv, hl'])
  rw [m4, h2] at m1
  simp only [Except.ok.injEq, Prod.mk.injEq] at m1
  obtain ⟨rfl, rfl⟩ := m1
  -- the symbol
  unfold pathAndRawPoints at h4
  rw [if_neg (by rw [hconv]; decide), if_pos hconv] at h4
  simp only [bind, Except.bind] at h4
  cases h6 : hpkotGetExtendedBlSymbol lower getData niggli cell atoms (some dd) with
  | error _ => simp [h6] at h4
  | ok s =>
  obtain ⟨-, a', b', c', be', ra, rb, rg, hs, hneed⟩ :=
    C40_symbol lower hl getData niggli cell atoms (some dd) dd (.inl rfl) hn hf hc s h6
  simp only [h6] at h4
  cases h7 : hpkotGetPoints conv (dd.crystalFamily ++ dd.centringType) s with
  | error _ => simp [h7] at h4
  | ok pts' =>
  simp only [h7] at h4
  unfold hpkotGetPoints at h7
  cases h8 : getParams conv with
  | error _ => simp [h8, bind, Except.bind] at h7
  | ok q =>
  obtain ⟨a, b, c, al, be, ga⟩ := q
  simp only [h8, bind, Except.bind] at h7
  obtain ⟨d, pth, e2, e3, e4⟩ := hpkot_points hs a b c be
  have e2' := e2
  rw [h7] at e2'
  cases e2'
  simp only [e3, pure, Except.pure] at h4
  cases h4
  -- the symbol holds for the parameters of this cell
  have hsym : HpkotSymbol (dd.crystalFamily ++ dd.centringType) dd.spaceGroupNumber
      a b c be ra rb rg s ∧ (dd.crystalFamily ++ dd.centringType = "aP" → ∃ r x y z,
          getReciprocal conv = .ok r ∧ HasParams r x y z ra rb rg) := by
    by_cases hb : dd.crystalFamily ++ dd.centringType ∈ needsCell
    · obtain ⟨conv'', at'', al'', ga'', n1, n2, n3⟩ := hneed hb
      rw [getConventional_lower (t := convention) (by rw [hconv, hl]), h2] at n1
      simp only [Except.ok.injEq, Prod.mk.injEq] at n1
      obtain ⟨rfl, rfl⟩ := n1
      obtain ⟨rfl, rfl, rfl, -, rfl, -⟩ := params_unique h8 n2
      exact ⟨hs, n3⟩
    · refine ⟨?_, fun e => absurd (by rw [e]; decide) hb⟩
      revert hb
      clear hneed e2 e3 h7
      intro hb
      cases hs with
      | cP1 h1 h2 h3 => exact .cP1 h1 h2 h3
      | cP2 h1 h2 h3 => exact .cP2 h1 h2 h3
      | cF1 h1 h2 h3 => exact .cF1 h1 h2 h3
      | cF2 h1 h2 h3 => exact .cF2 h1 h2 h3
      | cI1 h1 => exact .cI1 h1
      | tP1 h1 => exact .tP1 h1
      | oP1 h1 => exact .oP1 h1
      | hP1 h1 h2 => exact .hP1 h1 h2
      | hP2 h1 h2 => exact .hP2 h1 h2
      | mP1 h1 => exact .mP1 h1
      | _ h1 => exact absurd (by rw [h1]; decide) hb
  exact ⟨kpath, raw, prim, a2, rprim, conv, a1, matrix, a, b, c, al, be, ga, ra, rb, rg, s, rfl, h5,
    rfl, m2 hconv, m3, h8, hsym.1, hsym.2, h7, ⟨e4, e3, rfl⟩, h⟩

/-- The steps of a call with the SC convention. -/
theorem sc_path_steps (hl : lower "SC" = "sc") (hl' : lower "sc" = "sc")
    (hconv : lower convention = "sc") (htol : data.angleTolerance = -1 ∨ 0 ≤ data.angleTolerance)
    (t rel : Bool) (path : String)
    (pts : PyDict String (Vec ℝ))
    (h : getPathAndPoints lower getData niggli cell atoms given convention t rel =
      .ok (path, pts)) :
    ∃ kpath raw prim pa rprim conv ca matrix a b c al be ga kp ka kb kg short s,
      getPrimitive lower getData niggli cell atoms convention (some data) = .ok (prim, pa) ∧
      getReciprocal prim = .ok rprim ∧
      getConventional lower getData niggli cell atoms convention (some data) = .ok (conv, ca) ∧
      (scConventionalToPrimitive ℝ).get? (data.crystalFamily ++ data.centringType) =
        some matrix ∧ prim = matrix.transpose * conv ∧
      getParams conv = .ok (a, b, c, al, be, ga) ∧
      scGetVariation lower getData niggli cell atoms (some data) = .ok (some s) ∧
      ScVariation (data.crystalFamily ++ data.centringType) data.symprec (angleTol data)
        a b c al kp ka kb kg s ∧
      (data.crystalFamily ++ data.centringType = "mC" → ∃ x y z p q,
        HasParams rprim x y z p q kp) ∧
      (data.crystalFamily ++ data.centringType = "aP" → ∃ r x y z,
          getReciprocal conv = .ok r ∧ HasParams r x y z ka kb kg) ∧
      scBravaisLatticeShortNames.get? (data.crystalFamily ++ data.centringType) = some short ∧
      scPointsOf a b c al short (some s) = .ok raw ∧
      (GoodTable kpath raw ∧ scDefaultKPaths.getItem s = .ok kpath) ∧
      (do
        let points ← allCoordinates cell rprim rel raw
        extendPath (centrosymmetric data.spaceGroupNumber) t kpath points) = .ok (path, pts) := by
  unfold getPathAndPoints at h
  cases h1 : resolveData lower getData cell atoms given with
  | error _ => simp [h1, bind, Except.bind] at h
  | ok data' =>
  have hd' := resolve_given hd h1
  subst hd'
  simp only [h1, bind, Except.bind] at h
  cases h2 : getConventional lower getData niggli cell atoms convention (some data') with
  | error _ => simp [h2] at h
  | ok ca =>
  obtain ⟨conv, a1⟩ := ca
  simp only [h2] at h
  cases h3 : getPrimitive lower getData niggli cell atoms convention (some data') with
  | error _ => simp [h3] at h
  | ok pa =>
  obtain ⟨prim, a2⟩ := pa
  simp only [h3] at h
  cases h4 : pathAndRawPoints lower getData niggli cell atoms data' conv (lower convention) with
  | error _ => simp [h4] at h
  | ok kr =>
  obtain ⟨kpath, raw⟩ := kr
  simp only [h4] at h
  cases h5 : getReciprocal prim with
  | error _ => simp [h5] at h
  | ok rprim =>
  have hinv : inversionSymmetry.getItem data'.spaceGroupNumber =
      .ok (centrosymmetric data'.spaceGroupNumber) := (C33_values _ hn).2.2
  simp only [h5, hinv] at h
  -- the primitive cell
  obtain ⟨dd, ps, ts, g1, g2, -⟩ := getPrimitive_steps h3
  obtain rfl := resolve_self g1
  obtain ⟨-, conv', ca', matrix, qs, ws, m1, -, m2, m3, -⟩ :=
    primitiveParts_steps (by rw [hconv]; decide) g2
  have m4 : getConventional lower getData niggli cell atoms (lower convention) (some dd) =
      getConventional lower getData niggli cell atoms convention (some dd) :=
    getConventional_lower (by rw [hconv, hl'])
  rw [m4, h2] at m1
  simp only [Except.ok.injEq, Prod.mk.injEq] at m1
  obtain ⟨rfl, rfl⟩ := m1
  -- the variation
  unfold pathAndRawPoints at h4
  rw [if_pos hconv] at h4
  simp only [bind, Except.bind] at h4
  cases h6 : scGetVariation lower getData niggli cell atoms (some dd) with
  | error _ => simp [h6] at h4
  | ok v =>
  obtain ⟨s, rfl, -, a', b', c', al', kp, ka, kb, kg, hv, hneed⟩ :=
    C41_variation lower hl getData niggli cell atoms (some dd) dd (.inl rfl) hn hf hc
      (angleTol dd) (by
        unfold angleTol
        rcases htol with h | h
        · rw [if_pos h]; positivity
        · split_ifs
          · positivity
          · exact h)
      (by intro h; unfold angleTol; rw [if_pos h])
      (by intro h; unfold angleTol; rw [if_neg h]) v h6
  simp only [h6] at h4
  cases h7 : scGetPoints conv (dd.crystalFamily ++ dd.centringType) (some s) with
  | error _ => simp [h7] at h4
  | ok pts' =>
  simp only [h7] at h4
  unfold scGetPoints at h7
  cases h8 : getParams conv with
  | error _ => simp [h8, bind, Except.bind] at h7
  | ok q =>
  obtain ⟨a, b, c, al, be, ga⟩ := q
  simp only [h8, bind, Except.bind] at h7
  obtain ⟨short, e1, d, pth, e2, e3, e4⟩ := sc_points hv a b c al
  simp only [e1] at h7
  have e2' := e2
  rw [h7] at e2'
  cases e2'
  simp only [e3, pure, Except.pure] at h4
  cases h4
  -- the variation holds for the parameters of this cell
  have hsym : ScVariation (dd.crystalFamily ++ dd.centringType) dd.symprec (angleTol dd)
      a b c al kp ka kb kg s ∧
      (dd.crystalFamily ++ dd.centringType = "mC" → ∃ x y z p q,
        HasParams rprim x y z p q kp) ∧
      (dd.crystalFamily ++ dd.centringType = "aP" → ∃ r x y z,
          getReciprocal conv = .ok r ∧ HasParams r x y z ka kb kg) := by
    by_cases hb : dd.crystalFamily ++ dd.centringType ∈ withVariations
    · obtain ⟨conv'', at'', be'', ga'', n1, n2, n3, n4⟩ := hneed hb
      rw [getConventional_lower (t := convention) (by rw [hconv, hl]), h2] at n1
      simp only [Except.ok.injEq, Prod.mk.injEq] at n1
      obtain ⟨rfl, rfl⟩ := n1
      obtain ⟨rfl, rfl, rfl, rfl, -, -⟩ := params_unique h8 n2
      refine ⟨hv, fun hm => ?_, n4⟩
      obtain ⟨prim', at', r', x, y, z, p, q, o1, o2, o3⟩ := n3 hm
      rw [getPrimitive_lower (t := convention) (by rw [hconv, hl]), h3] at o1
      simp only [Except.ok.injEq, Prod.mk.injEq] at o1
      obtain ⟨rfl, rfl⟩ := o1
      rw [h5] at o2
      cases o2
      exact ⟨x, y, z, p, q, o3⟩
    · refine ⟨?_, fun e => absurd (by rw [e]; decide) hb, fun e => absurd (by rw [e]; decide) hb⟩
      revert hb
      clear hneed e2 e3 h7
      intro hb
      cases hv with
      | cub h1 => exact .cub h1
      | fcc h1 => exact .fcc h1
      | bcc h1 => exact .bcc h1
      | tet h1 => exact .tet h1
      | orc h1 => exact .orc h1
      | orci h1 => exact .orci h1
      | orcc h1 => exact .orcc h1
      | hex h1 => exact .hex h1
      | mcl h1 => exact .mcl h1
      | _ h1 => exact absurd (by rw [h1]; decide) hb
  exact ⟨kpath, raw, prim, a2, rprim, conv, a1, matrix, a, b, c, al, be, ga, kp, ka, kb, kg, short,
    s, rfl, h5, rfl, m2 hconv, m3, h8, rfl,
    hsym.1, hsym.2.1, hsym.2.2, e1, h7, ⟨e4, e3⟩, h⟩

end

end Wulfric
