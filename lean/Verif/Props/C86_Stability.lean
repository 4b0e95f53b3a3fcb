import Verif.Lemmas.StabilityPoints

/-! # C86: small errors change neither the symbol nor the path, and move the points a little

The code computes with floating-point numbers; the model with exact ones.  Away from the borders
between two symbols (see `Spec.HpkotInside` and `Spec.ScInside`; on them the symbol is decided by
the last digit), the symbol and the path are the same for every crystal whose conventional cell is
close enough, and the named points are continuous functions of the conventional cell. -/

namespace Wulfric

open Matrix _root_.Spec Wulfric.Spec Filter Topology

/-- A call of `wulfric.kpoints.get_path_and_points` with absolute coordinates that returned
`(path, pts)`: `data` is the spglib data (given, or computed from the crystal) and `conv` the
conventional cell of the crystal.  The number is one of a space group, with the family and
centring of that group. -/
structure PathCall (lower : String → String) (getData : Cell ℝ → Atoms ℝ → Except Err SpglibData)
    (niggli : Cell ℝ → Except Err (Cell ℝ)) (convention : String) (t : Bool) (cell : Cell ℝ)
    (atoms : Atoms ℝ) (given : Option SpglibData) (data : SpglibData) (conv : Cell ℝ)
    (path : String) (pts : PyDict String (Vec ℝ)) : Prop where
  resolved : given = some data ∨ (given = none ∧ getData cell atoms = .ok data)
  number : 1 ≤ data.spaceGroupNumber ∧ data.spaceGroupNumber ≤ 230
  crystalFamily : data.crystalFamily = family data.spaceGroupNumber
  centringType : data.centringType = centring data.spaceGroupNumber
  returned : getPathAndPoints lower getData niggli cell atoms given convention t false =
    .ok (path, pts)
  conventional : ∃ ca,
    getConventional lower getData niggli cell atoms convention (some data) = .ok (conv, ca)

/-! ## The reciprocal cell as a function -/

noncomputable def recOf (x : Cell ℝ) : Cell ℝ := (2 * Real.pi) • (x⁻¹).transpose

theorem recOf_det {x : Cell ℝ} (h : x.det ≠ 0) : (recOf x).det ≠ 0 := by
  have h2 : (2 * Real.pi : ℝ) ≠ 0 := by positivity
  unfold recOf
  rw [det_smul, det_transpose, det_nonsing_inv, Ring.inverse_eq_inv']
  exact mul_ne_zero (pow_ne_zero _ h2) (inv_ne_zero h)

theorem continuousAt_recOf {x : Cell ℝ} (h : x.det ≠ 0) : ContinuousAt recOf x := by
  have h1 : ContinuousAt (fun y : Cell ℝ => (y⁻¹).transpose) x :=
    ContinuousAt.comp (g := fun y : Cell ℝ => y.transpose)
      (Continuous.matrix_transpose continuous_id).continuousAt (continuousAt_inv h)
  exact h1.const_smul (2 * Real.pi)

theorem continuous_primitive (m : Cell ℝ) : Continuous fun x : Cell ℝ => m.transpose * x :=
  Continuous.matrix_mul continuous_const continuous_id

theorem symbol_any {bl s : String} {n : ℤ} {a b c be ra rb rg ra' rb' rg' : ℝ} (hbl : bl ≠ "aP")
    (h : HpkotSymbol bl n a b c be ra rb rg s) : HpkotSymbol bl n a b c be ra' rb' rg' s := by
  cases h <;> first
    | exact absurd ‹bl = "aP"› hbl
    | (constructor <;> assumption)

theorem variation_any {bl s : String} {t u a b c al kp ka kb kg kp' ka' kb' kg' : ℝ}
    (hkp : bl = "mC" → kp' = kp) (hk : bl = "aP" → ka' = ka ∧ kb' = kb ∧ kg' = kg)
    (h : ScVariation bl t u a b c al kp ka kb kg s) :
    ScVariation bl t u a b c al kp' ka' kb' kg' s := by
  by_cases h1 : bl = "mC"
  · obtain rfl := hkp h1
    cases h <;> first
      | (constructor <;> assumption)
      | exact absurd (h1.symm.trans ‹bl = "aP"›) (by decide)
  · by_cases h2 : bl = "aP"
    · obtain ⟨rfl, rfl, rfl⟩ := hk h2
      cases h <;> first
        | (constructor <;> assumption)
        | exact absurd ‹bl = "mC"› h1
    · cases h <;> first
        | (constructor <;> assumption)
        | exact absurd ‹bl = "mC"› h1
        | exact absurd ‹bl = "aP"› h2

theorem list_unique {s : String} {l l' : List (String × Option Where)} {x : List (String × _)}
    (hx : (x.map Prod.fst).Nodup) (h : (s, l) ∈ x) (h' : (s, l') ∈ x) : l = l' := by
  induction x with
  | nil => cases h
  | cons p x ih =>
    rw [List.map_cons, List.nodup_cons] at hx
    rcases List.mem_cons.1 h with h1 | h1 <;> rcases List.mem_cons.1 h' with h2 | h2
    · rw [← h1] at h2
      exact (Prod.mk.inj h2).2.symm
    · exact absurd (List.mem_map_of_mem h2) (by rw [← h1] at hx; exact hx.1)
    · exact absurd (List.mem_map_of_mem h1) (by rw [← h2] at hx; exact hx.1)
    · exact ih hx.2 h1 h2

theorem places_missing : (∀ e ∈ hpkotPlaces, ∀ p ∈ e.2, p.2.isNone = true →
      e.1 = "aP2" ∧ p.1 = "Z") ∧ ∀ e ∈ scPlaces, ∀ p ∈ e.2, p.2.isNone = true →
      (e.1 = "MCLC1" ∨ e.1 = "MCLC2") ∧ p.1 = "F3" := by
  decide +kernel

section
variable {lower : String → String} {getData : Cell ℝ → Atoms ℝ → Except Err SpglibData}
  {niggli : Cell ℝ → Except Err (Cell ℝ)} {convention : String} {t : Bool}

/-- What is known of a call in the HPKOT convention. -/
theorem hpkot_report (hl : lower "HPKOT" = "hpkot") (hl' : lower "hpkot" = "hpkot")
    (hconv : lower convention = "hpkot") {cell : Cell ℝ} {atoms : Atoms ℝ}
    {given : Option SpglibData} {data : SpglibData} {conv : Cell ℝ} {path : String}
    {pts : PyDict String (Vec ℝ)}
    (h : PathCall lower getData niggli convention t cell atoms given data conv path pts)
    (hstd : family data.spaceGroupNumber ≠ "a" →
      StandardCell (family data.spaceGroupNumber ++ centring data.spaceGroupNumber)
        data.conventionalCell) :
    ∃ matrix s kpath raw l,
      conv.det ≠ 0 ∧ (matrix.transpose * conv).det ≠ 0 ∧
      (hpkotConventionalToPrimitive ℝ).get?
        (family data.spaceGroupNumber ++ centring data.spaceGroupNumber) = some matrix ∧
      HpkotSymbol (family data.spaceGroupNumber ++ centring data.spaceGroupNumber)
        data.spaceGroupNumber (rowLen 0 conv) (rowLen 1 conv) (rowLen 2 conv) (rowAngle 0 2 conv)
        (rowAngle 1 2 (recOf conv)) (rowAngle 0 2 (recOf conv)) (rowAngle 0 1 (recOf conv)) s ∧
      hpkotGetExtendedBlSymbol lower getData niggli cell atoms (some data) = .ok s ∧
      hpkotDefaultKPaths.getItem s = .ok kpath ∧ (s, l) ∈ hpkotPlaces ∧
      List.Forall₂ (PlacedAt (recOf (matrix.transpose * conv))) raw l ∧ GoodTable kpath raw ∧
      (do
        let points ← allCoordinates cell (recOf (matrix.transpose * conv)) false raw
        extendPath (centrosymmetric data.spaceGroupNumber) t kpath points) = .ok (path, pts) := by
  obtain ⟨hd, hn, hf, hc, h, hcv⟩ := h
  obtain ⟨kpath, raw, prim, pa, rprim, conv', ca, matrix, a, b, c, al, be, ga, ra, rb, rg, s,
    s1, s2, s3, s4, s5, s6, s7, s8, s9, ⟨s10, s10', s12⟩, s11⟩ := hpkot_path_steps lower getData
      niggli cell atoms given data hd hn hf hc convention hl hl' hconv t false path pts h
  obtain ⟨ca', hcv⟩ := hcv
  rw [s3] at hcv
  cases hcv
  have hbl := symbols_inside _ (Finset.mem_Icc.2 hn)
  rw [hf, hc] at s4 s7 s8 s9
  have hl : ∃ l, (s, l) ∈ hpkotPlaces ∧ List.Forall₂ (PlacedAt rprim) raw l := by
    by_cases haP : family data.spaceGroupNumber ++ centring data.spaceGroupNumber = "aP"
    · rw [haP] at s4
      obtain rfl : !![1, 0, 0; 0, 1, 0; 0, 0, 1] = matrix := Option.some.inj s4
      rw [one_literal, transpose_one, one_mul] at s5
      subst s5
      exact hpkot_at_aP haP s2 s7 s9
    · have hfa : family data.spaceGroupNumber ≠ "a" :=
        fun e => haP (family_a _ (Finset.mem_Icc.2 hn) e)
      obtain ⟨d2, ps, ts, g1, g2, -⟩ := getConventional_steps s3
      obtain rfl := resolve_given (.inl rfl) g1
      rw [hconv] at g2
      unfold conventionalParts at g2
      rw [if_pos (by decide), if_neg (fun e => hfa (hf.symm.trans e.2))] at g2
      cases g2
      exact hpkot_at hbl haP (hstd hfa) s4 s5 s2 s6 s7 s9
  obtain ⟨l, l1, l2⟩ := hl
  subst s5
  obtain ⟨d1, rfl⟩ := recip_ok s2
  have d2 : conv.det ≠ 0 := by
    rw [det_mul] at d1
    exact right_ne_zero_of_mul d1
  obtain ⟨rfl, rfl, rfl, -, rfl, -⟩ := params_eq d2 (getParams_ok s6).1
  refine ⟨matrix, s, kpath, raw, l, d2, d1, s4, ?_, s12, s10', l1, l2, s10, s11⟩
  by_cases haP : family data.spaceGroupNumber ++ centring data.spaceGroupNumber = "aP"
  · obtain ⟨r, x, y, z, e1, e2⟩ := s8 haP
    obtain ⟨-, rfl⟩ := recip_ok e1
    obtain ⟨-, -, -, rfl, rfl, rfl⟩ := params_eq (recOf_det d2) e2
    exact s7
  · exact symbol_any haP s7

/-- C86, HPKOT: let the call return for a crystal that is not on the border of two symbols.  Then,
for every `δ`, there is an `ε` such that every crystal of the same space group whose conventional
cell differs by less than `ε` (in each component) has the same symbol, the same path with the same
names of points, and each point within `δ` (in each component); for the symbol aP2, but `Z`. -/
theorem C86_hpkot (hl : lower "HPKOT" = "hpkot") (hl' : lower "hpkot" = "hpkot")
    (hconv : lower convention = "hpkot") {cell₀ : Cell ℝ} {atoms₀ : Atoms ℝ}
    {given₀ : Option SpglibData} {data₀ : SpglibData} {conv₀ : Cell ℝ} {path₀ : String}
    {pts₀ : PyDict String (Vec ℝ)}
    (h₀ : PathCall lower getData niggli convention t cell₀ atoms₀ given₀ data₀ conv₀ path₀ pts₀)
    (hstd₀ : family data₀.spaceGroupNumber ≠ "a" →
      StandardCell (family data₀.spaceGroupNumber ++ centring data₀.spaceGroupNumber)
        data₀.conventionalCell)
    {a b c al be ga : ℝ} (hp : HasParams conv₀ a b c al be ga) {q : Cell ℝ} {x y z ra rb rg : ℝ}
    (hq : getReciprocal conv₀ = .ok q) (hpq : HasParams q x y z ra rb rg)
    (hin : HpkotInside (family data₀.spaceGroupNumber ++ centring data₀.spaceGroupNumber)
      a b c be ra rb rg) :
    ∃ s, hpkotGetExtendedBlSymbol lower getData niggli cell₀ atoms₀ (some data₀) = .ok s ∧
    ∀ δ > 0, ∃ ε > 0, ∀ cell atoms given data conv path pts,
      PathCall lower getData niggli convention t cell atoms given data conv path pts →
      data.spaceGroupNumber = data₀.spaceGroupNumber →
      (family data.spaceGroupNumber ≠ "a" →
        StandardCell (family data.spaceGroupNumber ++ centring data.spaceGroupNumber)
          data.conventionalCell) →
      (∀ i j, |conv i j - conv₀ i j| < ε) →
      hpkotGetExtendedBlSymbol lower getData niggli cell atoms (some data) = .ok s ∧
      path = path₀ ∧ pts.keys = pts₀.keys ∧
      ∀ k v v₀, pts.get? k = some v → pts₀.get? k = some v₀ →
        (s = "aP2" → k ≠ "Z" ∧ k ≠ "Z_P") → ∀ i, |v i - v₀ i| < δ := by
  obtain ⟨m, s, kpath, raw₀, l, d₀, d₀', e1, e2, e3, e4, e5, e6, e7, e8⟩ :=
    hpkot_report hl hl' hconv h₀ hstd₀
  obtain ⟨rfl, rfl, rfl, -, rfl, -⟩ := params_eq d₀ hp
  obtain ⟨-, rfl⟩ := recip_ok hq
  obtain ⟨-, -, -, rfl, rfl, rfl⟩ := params_eq (recOf_det d₀) hpq
  have hcr := continuousAt_recOf d₀
  have ca : ∀ i j, ContinuousAt (fun x => rowAngle i j (recOf x)) conv₀ := fun i j =>
    (continuousAt_rowAngle i j (recOf_det d₀)).comp hcr
  have pos : ∀ i, 0 < rowLen i conv₀ := fun i =>
    lt_of_le_of_ne (npNorm_nonneg _) (Ne.symm (norm_pos_of_det d₀ i))
  have st := symbol_stable (x₀ := conv₀) (a := rowLen 0) (b := rowLen 1) (c := rowLen 2)
    (be := rowAngle 0 2) (ra := fun x => rowAngle 1 2 (recOf x))
    (rb := fun x => rowAngle 0 2 (recOf x)) (rg := fun x => rowAngle 0 1 (recOf x))
    (continuous_rowLen 0).continuousAt (continuous_rowLen 1).continuousAt
    (continuous_rowLen 2).continuousAt (continuousAt_rowAngle 0 2 d₀) (pos 0) (pos 1) (pos 2)
    (fun _ => ⟨ca 1 2, ca 0 2, ca 0 1⟩) e2 hin
  refine ⟨s, e3, fun δ hδ => ?_⟩
  have hc : ContinuousAt (fun x : Cell ℝ => recOf (m.transpose * x)) conv₀ :=
    ContinuousAt.comp (f := fun x : Cell ℝ => m.transpose * x) (continuousAt_recOf d₀')
      (continuous_primitive m).continuousAt
  have hmem : (s, l) ∈ hpkotPlaces ++ scPlaces := List.mem_append_left _ e5
  have cl := hc.eventually (list_close (recOf_det d₀') hmem hδ)
  obtain ⟨ε, e0, he⟩ := eventually_entries (st.and cl)
  refine ⟨ε, e0, ?_⟩
  intro cell atoms given data conv path pts h hnum hstd hclose
  obtain ⟨m', s', kpath', raw, l', f0, -, f1, f2, f3, f4, f5, f6, f7, f8⟩ :=
    hpkot_report hl hl' hconv h hstd
  rw [hnum] at f1 f2 f8
  obtain ⟨g1, g2⟩ := he conv hclose
  rw [e1] at f1
  obtain rfl := Option.some.inj f1
  obtain rfl := C40_unique _ _ _ _ _ _ _ _ _ _ _ g1 f2
  rw [e4] at f4
  obtain rfl := Except.ok.inj f4
  obtain rfl := list_unique C84_lists.1 e5 f5
  obtain ⟨k1, k2, k3⟩ := points_close f7 f8 e7 e8 hmem f6 e6 g2
  refine ⟨f3, k1, k2, fun k v v₀ hv hv₀ hk => k3 k v v₀ hv hv₀ fun n hn => ?_⟩
  obtain ⟨q1, q2⟩ := places_missing.1 _ e5 _ hn rfl
  rw [show n = "Z" from q2]
  exact hk q1

/-- What is known of a call in the SC convention. -/
theorem sc_report (hl : lower "SC" = "sc") (hl' : lower "sc" = "sc")
    (hconv : lower convention = "sc") {cell : Cell ℝ} {atoms : Atoms ℝ}
    {given : Option SpglibData} {data : SpglibData} {conv : Cell ℝ} {path : String}
    {pts : PyDict String (Vec ℝ)}
    (h : PathCall lower getData niggli convention t cell atoms given data conv path pts)
    (htol : data.angleTolerance = -1 ∨ 0 ≤ data.angleTolerance) (hsp : 0 ≤ data.symprec)
    (hcell : family data.spaceGroupNumber ≠ "a" →
      ScCell (family data.spaceGroupNumber ++ centring data.spaceGroupNumber) conv) :
    ∃ matrix s kpath raw l,
      conv.det ≠ 0 ∧ (matrix.transpose * conv).det ≠ 0 ∧
      (scConventionalToPrimitive ℝ).get?
        (family data.spaceGroupNumber ++ centring data.spaceGroupNumber) = some matrix ∧
      ScVariation (family data.spaceGroupNumber ++ centring data.spaceGroupNumber)
        data.symprec (angleTol data) (rowLen 0 conv) (rowLen 1 conv) (rowLen 2 conv)
        (rowAngle 1 2 conv) (rowAngle 0 1 (recOf (matrix.transpose * conv)))
        (rowAngle 1 2 (recOf conv)) (rowAngle 0 2 (recOf conv)) (rowAngle 0 1 (recOf conv)) s ∧
      scGetVariation lower getData niggli cell atoms (some data) = .ok (some s) ∧
      scDefaultKPaths.getItem s = .ok kpath ∧ (s, l) ∈ scPlaces ∧
      List.Forall₂ (PlacedAt (recOf (matrix.transpose * conv))) raw l ∧ GoodTable kpath raw ∧
      (do
        let points ← allCoordinates cell (recOf (matrix.transpose * conv)) false raw
        extendPath (centrosymmetric data.spaceGroupNumber) t kpath points) = .ok (path, pts) := by
  obtain ⟨hd, hn, hf, hc, h, hcv⟩ := h
  obtain ⟨kpath, raw, prim, pa, rprim, conv', ca, matrix, a, b, c, al, be, ga, kp, ka, kb, kg,
    short, s, s1, s2, s3, s4, s5, s6, s6', s7, s8, s9, s10, s11, ⟨s12, s12'⟩, s13⟩ :=
      sc_path_steps lower getData niggli cell
      atoms given data hd hn hf hc convention hl hl' hconv htol t false path pts h
  obtain ⟨ca', hcv⟩ := hcv
  rw [s3] at hcv
  cases hcv
  have hbl := symbols_inside _ (Finset.mem_Icc.2 hn)
  rw [hf, hc] at s4 s7 s8 s9 s10
  subst s5
  have hl : ∃ l, (s, l) ∈ scPlaces ∧ List.Forall₂ (PlacedAt rprim) raw l := by
    by_cases haP : family data.spaceGroupNumber ++ centring data.spaceGroupNumber = "aP"
    · rw [haP] at s4 s10
      obtain rfl : "TRI" = short := Option.some.inj s10
      obtain rfl : !![1, 0, 0; 0, 1, 0; 0, 0, 1] = matrix := Option.some.inj s4
      rw [one_literal, transpose_one, one_mul] at s2
      exact sc_at_aP haP s2 s7 s11
    · have hfa : family data.spaceGroupNumber ≠ "a" :=
        fun e => haP (family_a _ (Finset.mem_Icc.2 hn) e)
      exact sc_at hbl haP (hcell hfa) hsp (angleTol_nonneg htol) s4 s2 s6 s7 s8 s10 s11
  obtain ⟨l, l1, l2⟩ := hl
  obtain ⟨d1, rfl⟩ := recip_ok s2
  have d2 : conv.det ≠ 0 := by
    rw [det_mul] at d1
    exact right_ne_zero_of_mul d1
  obtain ⟨rfl, rfl, rfl, rfl, -, -⟩ := params_eq d2 (getParams_ok s6).1
  refine ⟨matrix, s, kpath, raw, l, d2, d1, s4, ?_, s6', s12', l1, l2, s12, s13⟩
  refine variation_any (fun e => ?_) (fun e => ?_) s7
  · obtain ⟨x, y, z, p, q, e1⟩ := s8 e
    exact (params_eq (recOf_det d1) e1).2.2.2.2.2.symm
  · obtain ⟨r, x, y, z, e1, e2⟩ := s9 e
    obtain ⟨-, rfl⟩ := recip_ok e1
    obtain ⟨-, -, -, e3, e4, e5⟩ := params_eq (recOf_det d2) e2
    exact ⟨e3.symm, e4.symm, e5.symm⟩

/-- C86, SC: let the call return for a crystal that is not on the border of two variations.  Then,
for every `δ`, there is an `ε` such that every crystal of the same space group, with the same
tolerances, whose conventional cell differs by less than `ε` (in each component) has the same
variation, the same path with the same names of points, and each point within `δ` (in each
component); for the variations MCLC1 and MCLC2, but `F3`. -/
theorem C86_sc (hl : lower "SC" = "sc") (hl' : lower "sc" = "sc")
    (hconv : lower convention = "sc") {cell₀ : Cell ℝ} {atoms₀ : Atoms ℝ}
    {given₀ : Option SpglibData} {data₀ : SpglibData} {conv₀ : Cell ℝ} {path₀ : String}
    {pts₀ : PyDict String (Vec ℝ)}
    (h₀ : PathCall lower getData niggli convention t cell₀ atoms₀ given₀ data₀ conv₀ path₀ pts₀)
    (htol : data₀.angleTolerance = -1 ∨ 0 ≤ data₀.angleTolerance) (hsp : 0 ≤ data₀.symprec)
    (hcell₀ : family data₀.spaceGroupNumber ≠ "a" →
      ScCell (family data₀.spaceGroupNumber ++ centring data₀.spaceGroupNumber) conv₀)
    {a b c al be ga : ℝ} (hp : HasParams conv₀ a b c al be ga) {q : Cell ℝ}
    {x y z ra rb rg : ℝ} (hq : getReciprocal conv₀ = .ok q) (hpq : HasParams q x y z ra rb rg)
    {prim r : Cell ℝ} {pa : Atoms ℝ} {u v w p p' kp : ℝ}
    (hprim : getPrimitive lower getData niggli cell₀ atoms₀ convention (some data₀) =
      .ok (prim, pa)) (hr : getReciprocal prim = .ok r) (hpr : HasParams r u v w p p' kp)
    (hin : ScInside (family data₀.spaceGroupNumber ++ centring data₀.spaceGroupNumber)
      data₀.symprec (angleTol data₀) a b c al kp rg) :
    ∃ s, scGetVariation lower getData niggli cell₀ atoms₀ (some data₀) = .ok (some s) ∧
    ∀ δ > 0, ∃ ε > 0, ∀ cell atoms given data conv path pts,
      PathCall lower getData niggli convention t cell atoms given data conv path pts →
      data.spaceGroupNumber = data₀.spaceGroupNumber →
      data.symprec = data₀.symprec → data.angleTolerance = data₀.angleTolerance →
      (family data.spaceGroupNumber ≠ "a" →
        ScCell (family data.spaceGroupNumber ++ centring data.spaceGroupNumber) conv) →
      (∀ i j, |conv i j - conv₀ i j| < ε) →
      scGetVariation lower getData niggli cell atoms (some data) = .ok (some s) ∧
      path = path₀ ∧ pts.keys = pts₀.keys ∧
      ∀ k v v₀, pts.get? k = some v → pts₀.get? k = some v₀ →
        (s = "MCLC1" ∨ s = "MCLC2" → k ≠ "F3" ∧ k ≠ "F3_P") → ∀ i, |v i - v₀ i| < δ := by
  obtain ⟨m, s, kpath, raw₀, l, d₀, d₀', e1, e2, e3, e4, e5, e6, e7, e8⟩ :=
    sc_report hl hl' hconv h₀ htol hsp hcell₀
  obtain ⟨rfl, rfl, rfl, rfl, -, -⟩ := params_eq d₀ hp
  obtain ⟨-, rfl⟩ := recip_ok hq
  obtain ⟨-, -, -, -, -, rfl⟩ := params_eq (recOf_det d₀) hpq
  have hkp : kp = rowAngle 0 1 (recOf (m.transpose * conv₀)) := by
    obtain ⟨_, _, _, _, _, _, _, m', _, _, _, _, _, _, _, _, _, _, _, _, s1, s2, s3, s4, s5, -⟩ :=
      sc_path_steps lower getData niggli cell₀ atoms₀ given₀ data₀ h₀.resolved h₀.number
        h₀.crystalFamily h₀.centringType convention hl hl' hconv htol t false path₀ pts₀ h₀.returned
    rw [hprim] at s1
    cases s1
    obtain ⟨ca, hca⟩ := h₀.conventional
    rw [hca] at s3
    cases s3
    rw [h₀.crystalFamily, h₀.centringType, e1] at s4
    obtain rfl := Option.some.inj s4
    subst s5
    obtain ⟨-, rfl⟩ := recip_ok hr
    exact (params_eq (recOf_det d₀') hpr).2.2.2.2.2
  subst hkp
  have hcr := continuousAt_recOf d₀
  have ca : ∀ i j, ContinuousAt (fun x => rowAngle i j (recOf x)) conv₀ := fun i j =>
    (continuousAt_rowAngle i j (recOf_det d₀)).comp hcr
  have hc : ContinuousAt (fun x : Cell ℝ => recOf (m.transpose * x)) conv₀ :=
    ContinuousAt.comp (f := fun x : Cell ℝ => m.transpose * x) (continuousAt_recOf d₀')
      (continuous_primitive m).continuousAt
  have ck : ContinuousAt (fun x : Cell ℝ => rowAngle 0 1 (recOf (m.transpose * x))) conv₀ :=
    ContinuousAt.comp (f := fun x : Cell ℝ => recOf (m.transpose * x))
      (continuousAt_rowAngle 0 1 (recOf_det d₀')) hc
  have pos : ∀ i, 0 < rowLen i conv₀ := fun i =>
    lt_of_le_of_ne (npNorm_nonneg _) (Ne.symm (norm_pos_of_det d₀ i))
  have st := variation_stable (x₀ := conv₀) (a := rowLen 0) (b := rowLen 1) (c := rowLen 2)
    (al := rowAngle 1 2) (kp := fun x => rowAngle 0 1 (recOf (m.transpose * x)))
    (ka := fun x => rowAngle 1 2 (recOf x))
    (kb := fun x => rowAngle 0 2 (recOf x)) (kg := fun x => rowAngle 0 1 (recOf x))
    (continuous_rowLen 0).continuousAt (continuous_rowLen 1).continuousAt
    (continuous_rowLen 2).continuousAt (continuousAt_rowAngle 1 2 d₀) (pos 0) (pos 1) (pos 2)
    (fun _ => ck) (fun _ => ⟨ca 1 2, ca 0 2, ca 0 1⟩) hsp (angleTol_nonneg htol) e2 hin
  refine ⟨s, e3, fun δ hδ => ?_⟩
  have hmem : (s, l) ∈ hpkotPlaces ++ scPlaces := List.mem_append_right _ e5
  have cl := hc.eventually (list_close (recOf_det d₀') hmem hδ)
  obtain ⟨ε, e0, he⟩ := eventually_entries (st.and cl)
  refine ⟨ε, e0, ?_⟩
  intro cell atoms given data conv path pts h hnum hsp' htol' hcell hclose
  obtain ⟨m', s', kpath', raw, l', f0, -, f1, f2, f3, f4, f5, f6, f7, f8⟩ :=
    sc_report hl hl' hconv h (by rw [htol']; exact htol) (by rw [hsp']; exact hsp) hcell
  rw [hnum] at f1 f2 f8
  obtain ⟨g1, g2⟩ := he conv hclose
  rw [e1] at f1
  obtain rfl := Option.some.inj f1
  have ht : angleTol data = angleTol data₀ := by
    unfold angleTol
    rw [htol']
  rw [hsp', ht] at f2
  obtain rfl := g1 _ f2
  rw [e4] at f4
  obtain rfl := Except.ok.inj f4
  obtain rfl := list_unique C84_lists.2.1 e5 f5
  obtain ⟨k1, k2, k3⟩ := points_close f7 f8 e7 e8 hmem f6 e6 g2
  refine ⟨f3, k1, k2, fun k v v₀ hv hv₀ hk => k3 k v v₀ hv hv₀ fun n hn => ?_⟩
  obtain ⟨q1, q2⟩ := places_missing.2 _ e5 _ hn rfl
  rw [show n = "F3" from q2]
  exact hk q1

end

/-- The hypotheses of `C86_hpkot` are met: P222. -/
example : ∃ path pts q x y z ra rb rg, PathCall String.toLower (fun _ _ => .error .runtimeError)
      (fun c => .ok c) "HPKOT" false !![3, 0, 0; 0, 5, 0; 0, 0, 4] boxAtoms
      (some (boxData 3 5 4 16 "o" "P")) (boxData 3 5 4 16 "o" "P") !![3, 0, 0; 0, 5, 0; 0, 0, 4]
      path pts ∧
    StandardCell (family 16 ++ centring 16) (boxData 3 5 4 16 "o" "P").conventionalCell ∧
    HasParams !![3, 0, 0; 0, 5, 0; 0, 0, 4] 3 5 4 90 90 90 ∧
    getReciprocal !![3, 0, 0; 0, 5, 0; 0, 0, 4] = .ok q ∧ HasParams q x y z ra rb rg ∧
    HpkotInside (family 16 ++ centring 16) 3 5 4 90 ra rb rg := by
  obtain ⟨⟨path, pts⟩, h⟩ := sample_path false false
  obtain ⟨b, h2⟩ := box_hpkot String.toLower (fun _ _ => .error .runtimeError)
    (fun c => .ok c) 3 5 4 16 "o" "P" (by decide +kernel) (by decide)
  have hdet : (!![3, 0, 0; 0, 5, 0; 0, 0, 4] : Cell ℝ).det ≠ 0 := by simp [det_fin_three]
  obtain ⟨q, hq, -⟩ := C03_involution (!![3, 0, 0; 0, 5, 0; 0, 0, 4] : Cell ℝ) hdet
  have hq' : q.det ≠ 0 := (recip_ok hq).2 ▸ recOf_det hdet
  obtain ⟨ra, rb, rg, hp⟩ := exists_params (norm_pos_of_det hq')
  have hb : family 16 ++ centring 16 = "oP" := by decide +kernel
  refine ⟨path, pts, q, _, _, _, ra, rb, rg, ⟨.inl rfl, ⟨by decide, by decide⟩, rfl, rfl, h, b, h2⟩,
    .orthorhombic (a := 3) (b := 5) (c := 4) (by decide +kernel)
      (hasParams_box (by norm_num) (by norm_num) (by norm_num)),
    hasParams_box (by norm_num) (by norm_num) (by norm_num), hq, hp, ?_⟩
  rw [hb]
  constructor <;> exact fun e => absurd e (by decide)

/-- The hypotheses of `C86_sc` are met: P4. -/
example : ∃ path pts q x y z ra rb rg prim pa r u v w p p' kp, PathCall String.toLower
      (fun _ _ => .error .runtimeError) (fun c => .ok c) "SC" false boxT boxAtoms
      (some (boxData 3 3 4 75 "t" "P")) (boxData 3 3 4 75 "t" "P") boxT path pts ∧
    ScCell (family 75 ++ centring 75) boxT ∧ HasParams boxT 3 3 4 90 90 90 ∧
    getReciprocal boxT = .ok q ∧ HasParams q x y z ra rb rg ∧
    getPrimitive String.toLower (fun _ _ => .error .runtimeError) (fun c => .ok c)
      boxT boxAtoms "SC" (some (boxData 3 3 4 75 "t" "P")) = .ok (prim, pa) ∧
    getReciprocal prim = .ok r ∧ HasParams r u v w p p' kp ∧
    ScInside (family 75 ++ centring 75) (boxData 3 3 4 75 "t" "P").symprec
      (angleTol (boxData 3 3 4 75 "t" "P")) 3 3 4 90 kp rg := by
  obtain ⟨⟨path, pts⟩, h⟩ := boxT_path false false
  obtain ⟨a, h1, -⟩ := boxT_conventional "SC" (by decide +kernel)
  obtain ⟨b, h2⟩ := boxT_primitive
  obtain ⟨q, hq, -⟩ := C03_involution boxT boxT_det
  have hq' : q.det ≠ 0 := (recip_ok hq).2 ▸ recOf_det boxT_det
  obtain ⟨ra, rb, rg, hp⟩ := exists_params (norm_pos_of_det hq')
  have hb : family 75 ++ centring 75 = "tP" := by decide +kernel
  refine ⟨path, pts, q, _, _, _, ra, rb, rg, boxT, b, q, _, _, _, ra, rb, rg,
    ⟨.inl rfl, ⟨by decide, by decide⟩, rfl, rfl, h, a, h1⟩,
    .tetragonal (a := 3) (c := 4) (by decide +kernel)
      (hasParams_box (by norm_num) (by norm_num) (by norm_num)),
    hasParams_box (by norm_num) (by norm_num) (by norm_num), hq, hp, h2, hq, hp, ?_⟩
  rw [hb]
  constructor <;> exact fun e => absurd e (by decide)

/-- A lattice with two symbols to choose from, away from the border. -/
example (ra rb rg : ℝ) : HpkotInside "tI" 3 3 4 90 ra rb rg ∧
    HpkotInside "oI" 3 5 4 90 ra rb rg ∧ ScInside "mC" (1 / 10 ^ 5) (1 / 10 ^ 4) 3 4 5 90 70 80 := by
  refine ⟨?_, ?_, ?_⟩
  · constructor <;> first | exact fun e => absurd e (by decide) | (intro; norm_num; done)
  · constructor <;> first | exact fun e => absurd e (by decide) | (intro; norm_num; done)
  · have hx : (90 : ℝ) * (Real.pi / 180) = Real.pi / 2 := by ring
    constructor <;> first
      | exact fun e => absurd e (by decide)
      | (intro _
         rw [hx, Real.cos_pi_div_two, Real.sin_pi_div_two]
         refine ⟨?_, ?_⟩
         · rw [abs_of_neg (by norm_num)]
           norm_num
         · rw [abs_of_pos (by norm_num)]
           norm_num)

/-- On the border the symbol is not stable: next to the body-centred tetragonal cell with `c = a`
there are, as close as one likes, cells with the other symbol. -/
example (n : ℤ) (a be ra rb rg ε : ℝ) (h : 0 < ε) : HpkotSymbol "tI" n a a a be ra rb rg "tI1" ∧
    ∃ c, |c - a| < ε ∧ HpkotSymbol "tI" n a a c be ra rb rg "tI2" :=
  ⟨.tI1 rfl le_rfl, a + ε / 2, by rw [add_sub_cancel_left, abs_of_pos] <;> linarith,
    .tI2 rfl (by linarith)⟩

end Wulfric
