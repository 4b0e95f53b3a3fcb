import Verif.Lemmas.ZoneSc
import Verif.Lemmas.SampleSc

/-! # C55: the points of the default paths and the first Brillouin zone -/

namespace Wulfric

open Matrix _root_.Spec Wulfric.Spec

section
variable (lower : String → String) (getData : Cell ℝ → Atoms ℝ → Except Err SpglibData)
  (niggli : Cell ℝ → Except Err (Cell ℝ)) (cell : Cell ℝ) (atoms : Atoms ℝ)
  (given : Option SpglibData) (data : SpglibData)
  (hd : given = some data ∨ (given = none ∧ getData cell atoms = .ok data))
  (hn : 1 ≤ data.spaceGroupNumber ∧ data.spaceGroupNumber ≤ 230)
  (hf : data.crystalFamily = family data.spaceGroupNumber)
  (hc : data.centringType = centring data.spaceGroupNumber) (convention : String)

theorem family_a : ∀ n ∈ Finset.Icc (1 : ℤ) 230, family n = "a" → family n ++ centring n = "aP" := by
  decide +kernel

theorem origin_zero (r : Cell ℝ) : ![0, 0, 0] ᵥ* r = 0 := by
  have : (![0, 0, 0] : Vec ℝ) = 0 := by ext i; fin_cases i <;> rfl
  rw [this, Matrix.zero_vecMul]

/-- What the zone says about one point of the lattice. -/
theorem zone_row {r : Cell ℝ} {p q w : ℝ} (h : InZone r (![p, q, w] ᵥ* r)) (n m l : ℤ) :
    2 * (p * n * dot (r 0) (r 0) + q * m * dot (r 1) (r 1) + w * l * dot (r 2) (r 2) +
      (p * m + q * n) * dot (r 0) (r 1) + (p * l + w * n) * dot (r 0) (r 2) +
      (q * l + w * m) * dot (r 1) (r 2)) ≤
    n ^ 2 * dot (r 0) (r 0) + m ^ 2 * dot (r 1) (r 1) + l ^ 2 * dot (r 2) (r 2) +
      2 * (n * m * dot (r 0) (r 1) + n * l * dot (r 0) (r 2) + m * l * dot (r 1) (r 2)) := by
  have := h _ ⟨![n, m, l], rfl⟩
  rw [← vecMat_row] at this
  simp only [dot, vecMat, Fin.sum_univ_three, Pi.sub_apply, cons_val_zero, cons_val_one,
    cons_val] at this ⊢
  linarith

theorem angleTol_nonneg {data : SpglibData}
    (h : data.angleTolerance = -1 ∨ 0 ≤ data.angleTolerance) : 0 ≤ angleTol data := by
  unfold angleTol
  split_ifs with h1
  · norm_num
  · exact h.resolve_left h1

include hd hn hf hc

/-- C55, HPKOT: with spglib's standardised cell in its standard shape, every point lies in the
first Brillouin zone of the primitive cell and, GAMMA aside, on its boundary. The exception is
`Z` of the triclinic lattice `aP2`, which the code puts at the origin (`C43_aP2_origin`). For the
triclinic lattices the cell that the Niggli reduction returns must be reduced, see
`C55_niggli`. -/
theorem C55_hpkot (hl : lower "HPKOT" = "hpkot") (hl' : lower "hpkot" = "hpkot")
    (hconv : lower convention = "hpkot") (t : Bool) (path : String)
    (pts : PyDict String (Vec ℝ))
    (h : getPathAndPoints lower getData niggli cell atoms given convention t false =
      .ok (path, pts))
    (hstd : StandardCell (family data.spaceGroupNumber ++ centring data.spaceGroupNumber)
      data.conventionalCell)
    (hnig : family data.spaceGroupNumber = "a" → ∀ r r1,
      getReciprocal data.conventionalCell = .ok r → niggli r = .ok r1 → PairReduced r1)
    (prim r : Cell ℝ) (pa : Atoms ℝ)
    (hprim : getPrimitive lower getData niggli cell atoms convention (some data) = .ok (prim, pa))
    (hr : getReciprocal prim = .ok r) (k : String) (v : Vec ℝ) (hv : pts.get? k = some v) :
    InZone r v ∧ (k = "GAMMA" ∨ OnZoneBoundary r v ∨
      (family data.spaceGroupNumber = "a" ∧ (k = "Z" ∨ k = "Z_P") ∧ v = 0)) := by
  obtain ⟨kpath, raw, prim', pa', rprim, conv, ca, matrix, a, b, c, al, be, ga, ra, rb, rg, s,
    s1, s2, s3, s4, s5, s6, s7, s8, s9, ⟨s10, -⟩, s11⟩ := hpkot_path_steps lower getData niggli cell
      atoms given data hd hn hf hc convention hl hl' hconv t false path pts h
  rw [hprim] at s1
  cases s1
  rw [hr] at s2
  cases s2
  have hbl := symbols_inside _ (Finset.mem_Icc.2 hn)
  rw [hf, hc] at s4 s7 s8 s9
  obtain ⟨d2, ps, ts, g1, g2, -⟩ := getConventional_steps s3
  obtain rfl := resolve_given (.inl rfl) g1
  rw [hconv] at g2
  unfold conventionalParts at g2
  rw [if_pos (by decide)] at g2
  by_cases haP : family d2.spaceGroupNumber ++ centring d2.spaceGroupNumber = "aP"
  · have hfa := triclinic_groups _ (Finset.mem_Icc.2 hn) haP
    rw [if_pos ⟨rfl, hf.trans hfa⟩] at g2
    cases g3 : hpkotConventionalA niggli d2.conventionalCell with
    | error e => rw [g3] at g2; cases g2
    | ok d =>
      simp only [g3, bind, Except.bind, pure, Except.pure] at g2
      cases g4 : rebase d2.conventionalPositions d2.conventionalCell d with
      | error e => rw [g4] at g2; cases g2
      | ok ps' =>
        rw [g4] at g2
        cases g2
        obtain ⟨r', z1, z2, z3, z4⟩ := hpkotA_zone g3 (hnig hfa)
        rw [haP] at s4
        obtain rfl : !![1, 0, 0; 0, 1, 0; 0, 0, 1] = matrix := Option.some.inj s4
        rw [one_literal, transpose_one, one_mul] at s5
        subst s5
        rw [hr] at z1
        cases z1
        obtain ⟨r2, x, y, z, y1, y2⟩ := s8 haP
        rw [hr] at y1
        cases y1
        have hpl := hpkot_place_aP haP hr z2 z3 z4 y2 s7 s9
        obtain ⟨x, hx, ⟨rfl, rfl⟩ | ⟨n1, rfl, rfl⟩⟩ := points_of_table s10 s11 k v hv
        · rcases hpl x hx with ⟨e1, e2⟩ | ⟨e1, e2⟩ | e1
          · rw [e2, vecMat_row]
            exact ⟨gamma_inZone _, .inr (.inr ⟨hfa, .inl e1, origin_zero r⟩)⟩
          · rw [e2, vecMat_row]
            exact ⟨gamma_inZone _, .inl e1⟩
          · exact ⟨e1.1, .inr (.inl e1)⟩
        · rcases hpl x hx with ⟨e1, e2⟩ | ⟨e1, e2⟩ | e1
          · rw [e1, e2, vecMat_row]
            exact ⟨zone_neg (gamma_inZone _), .inr (.inr ⟨hfa, .inr rfl, by rw [origin_zero, neg_zero]⟩)⟩
          · exact absurd e1 n1
          · exact ⟨zone_neg e1.1, .inr (.inl (boundary_neg e1))⟩
  · have hfa : family d2.spaceGroupNumber ≠ "a" := fun e => haP (family_a _ (Finset.mem_Icc.2 hn) e)
    rw [if_neg (fun e => hfa (hf.symm.trans e.2))] at g2
    cases g2
    obtain ⟨e1, e2⟩ := place_points s10 s11 (fun _ => False)
      (fun x hx => .inr (hpkot_place hbl haP hstd s4 s5 hr s6 s7 s9 x hx)) k v hv id
      (fun _ _ => id)
    by_cases hg : k = "GAMMA"
    · exact ⟨e1, .inl hg⟩
    · exact ⟨e1, .inr (.inl (e2 hg))⟩

/-- C55, SC: with the conventional cell in the shape of the SC convention, every point lies in
the first Brillouin zone of the primitive cell and, GAMMA aside, on its boundary. The variations
that stand for an equality are chosen within a tolerance: the cell must not be on the wrong side
(`TieMet`). Exceptions: `F3` of the monoclinic C-centred lattice (`C55_F3_outside`), and `N` of
the triclinic lattice if the first two reciprocal vectors do not have the smallest product
(`C55_N_outside`). For the triclinic lattice the reciprocal of spglib's cell must be reduced. -/
theorem C55_sc_partial (hl : lower "SC" = "sc") (hl' : lower "sc" = "sc")
    (hconv : lower convention = "sc")
    (htol : data.angleTolerance = -1 ∨ 0 ≤ data.angleTolerance) (hsym : 0 ≤ data.symprec)
    (t : Bool) (path : String) (pts : PyDict String (Vec ℝ))
    (h : getPathAndPoints lower getData niggli cell atoms given convention t false =
      .ok (path, pts))
    (prim r conv : Cell ℝ) (pa ca : Atoms ℝ) (s : String)
    (hprim : getPrimitive lower getData niggli cell atoms convention (some data) = .ok (prim, pa))
    (hr : getReciprocal prim = .ok r)
    (hcv : getConventional lower getData niggli cell atoms convention (some data) =
      .ok (conv, ca))
    (hvar : scGetVariation lower getData niggli cell atoms (some data) = .ok (some s))
    (hcell : ScCell (family data.spaceGroupNumber ++ centring data.spaceGroupNumber) conv)
    (htie : TieMet s conv r)
    (hred : family data.spaceGroupNumber = "a" → ∀ r0,
      getReciprocal data.conventionalCell = .ok r0 → PairReduced r0)
    (k : String) (v : Vec ℝ) (hv : pts.get? k = some v)
    (hmC : family data.spaceGroupNumber ++ centring data.spaceGroupNumber = "mC" →
      k ≠ "F3" ∧ k ≠ "F3_P")
    (haN : family data.spaceGroupNumber = "a" → k = "N" ∨ k = "N_P" →
      dot (r 0) (r 1) ≤ dot (r 0) (r 2) ∧ dot (r 0) (r 1) ≤ dot (r 1) (r 2)) :
    InZone r v ∧ (k ≠ "GAMMA" → OnZoneBoundary r v) := by
  obtain ⟨kpath, raw, prim', pa', rprim, conv', ca', matrix, a, b, c, al, be, ga, kp, ka, kb, kg,
    short, s', s1, s2, s3, s4, s5, s6, s6', s7, s8, s9, s10, s11, ⟨s12, -⟩, s13⟩ :=
      sc_path_steps lower getData niggli cell
      atoms given data hd hn hf hc convention hl hl' hconv htol t false path pts h
  rw [hprim] at s1
  cases s1
  rw [hr] at s2
  cases s2
  rw [hcv] at s3
  cases s3
  rw [hvar] at s6'
  cases s6'
  have hu : 0 ≤ angleTol data := angleTol_nonneg htol
  have hbl := symbols_inside _ (Finset.mem_Icc.2 hn)
  rw [hf, hc] at s4 s7 s8 s9 s10
  by_cases haP : family data.spaceGroupNumber ++ centring data.spaceGroupNumber = "aP"
  · have hfa := triclinic_groups _ (Finset.mem_Icc.2 hn) haP
    rw [haP] at s4 s10
    obtain rfl : "TRI" = short := Option.some.inj s10
    obtain rfl : !![1, 0, 0; 0, 1, 0; 0, 0, 1] = matrix := Option.some.inj s4
    rw [one_literal, transpose_one, one_mul] at s5
    subst s5
    obtain ⟨d2, ps, ts, g1, g2, -⟩ := getConventional_steps hcv
    obtain rfl := resolve_given (.inl rfl) g1
    rw [hconv] at g2
    unfold conventionalParts at g2
    rw [if_neg (by decide), if_pos rfl, if_neg (fun e => absurd (hfa.symm.trans (hf.symm.trans e.1))
      (by decide))] at g2
    cases g3 : scConventionalNoHR d2.conventionalCell d2.crystalFamily d2.centringType
        (angleTol d2) with
    | error e => rw [g3] at g2; cases g2
    | ok d =>
      simp only [g3, bind, Except.bind, pure, Except.pure] at g2
      cases g4 : rebase d2.conventionalPositions d2.conventionalCell d with
      | error e => rw [g4] at g2; cases g2
      | ok ps' =>
        rw [g4] at g2
        cases g2
        rw [hf, hfa] at g3
        have g5 : scConventionalA d2.conventionalCell (angleTol d2) = .ok prim := by
          simpa [scConventionalNoHR] using g3
        obtain ⟨r0, h0⟩ : ∃ r0, getReciprocal d2.conventionalCell = .ok r0 := by
          cases e : getReciprocal d2.conventionalCell with
          | error _ => simp [scConventionalA, e, bind, Except.bind] at g5
          | ok r0 => exact ⟨r0, rfl⟩
        obtain ⟨r', z1, z2⟩ := scA_zone hu g5 h0 (hred hfa r0 h0)
        rw [hr] at z1
        cases z1
        obtain ⟨r2, x, y, z, y1, y2⟩ := s9 haP
        rw [hr] at y1
        cases y1
        have key : ∀ n, (n = "N" ∧ (dot (r 0) (r 2) < dot (r 0) (r 1) ∨
            dot (r 1) (r 2) < dot (r 0) (r 1))) → ¬ (k = n ∨ k = n ++ "_P") := by
          rintro n ⟨rfl, h1⟩ h2
          have := haN hfa (by simpa using h2)
          rcases h1 with h1 | h1 <;> linarith
        exact place_points s12 s13 (fun n => n = "N" ∧ (dot (r 0) (r 2) < dot (r 0) (r 1) ∨
          dot (r 1) (r 2) < dot (r 0) (r 1)))
          (scplace_aP haP hu hr z2 y2 s7 htie (getParams_ok s6).1 s11) k v hv
          (fun e => key k e (.inl rfl)) (fun n e e' => key n e' (.inr e))
  · subst s5
    refine place_points s12 s13 (fun n => family data.spaceGroupNumber ++
        centring data.spaceGroupNumber = "mC" ∧ n = "F3")
      (sc_place hbl haP hcell hsym hu s4 hr s6 s7 htie s8 s10 s11) k v hv ?_ ?_
    · rintro ⟨e1, rfl⟩
      exact (hmC e1).1 rfl
    · rintro n rfl ⟨e1, rfl⟩
      exact (hmC e1).2 rfl

end

/-- A Niggli-reduced cell meets the condition on the triclinic lattices. -/
theorem C55_niggli (r : Cell ℝ) (h : IsNiggli r) : PairReduced r := by
  obtain ⟨h1, h2, -, -, -, h3, h4, h5, -⟩ := h
  have e : ∀ x y : ℝ, |2 * x| ≤ y → 2 * |x| ≤ y := fun x y h => by
    rwa [abs_mul, abs_two] at h
  have h3 := e _ _ h3
  have h4 := e _ _ h4
  have h5 := e _ _ h5
  intro i j hij
  fin_cases i <;> fin_cases j <;> first
    | exact absurd rfl hij
    | (simp only [Fin.zero_eta, Fin.mk_one, Fin.reduceFinMk, dot_comm' (r 1) (r 0),
        dot_comm' (r 2) (r 0), dot_comm' (r 2) (r 1)]
       linarith)

/-- The exception `F3`: for every cell of the variation MCLC1 it is outside of the zone. -/
theorem C55_F3_outside (conv r : Cell ℝ) (a b c al : ℝ) (ha : 0 < a) (hb : 0 < b) (hc : 0 < c)
    (h : HasParams conv a b c al 90 90)
    (hr : getReciprocal ((!![1 / 2, -1 / 2, 0; 1 / 2, 1 / 2, 0; 0, 0, 1] : Cell ℝ).transpose * conv) =
      .ok r) (hg : dot (r 0) (r 1) < 0) :
    ∃ d v, scPointsOf a b c al "MCLC" (some "MCLC1") = .ok d ∧ d.get? "F3" = some v ∧
      ¬ InZone r (v ᵥ* r) := by
  have hdet : conv.det ≠ 0 := by
    have := (recip_ok hr).1
    rw [det_mul] at this
    exact right_ne_zero_of_mul this
  obtain ⟨-, hst⟩ := HasParams.strict hdet h
  have hs0 := cos_deg_strict hst.hal.1 hst.hal.2
  obtain ⟨ca, hcos⟩ : ∃ ca, Real.cos (al * (Real.pi / 180)) = ca := ⟨_, rfl⟩
  have hs2 : Real.sin (al * toRadians) ^ 2 = 1 - ca ^ 2 := by
    rw [sin_sq_deg, toRadians, hcos]
  have hcos' : Real.cos (al * toRadians) = ca := hcos
  rw [hcos] at hs0
  obtain ⟨s, hs, h11, h22, h33, h12, h13, h23⟩ :=
    (form_MCLC ha.ne' hb.ne' hc.ne' hcos hs0 h rfl rfl rfl rfl).dots hr
  refine ⟨scTable17 a b c al, _, by simp [scPointsOf], rfl, fun hz => ?_⟩
  have hz := zone_row hz 1 0 0
  rw [hcos', hs2] at hz
  push_cast at hz
  rw [h11, h12, h13, h22, h33, h23] at hz
  rw [h12] at hg
  have hXY : 1 / b ^ 2 < (1 - ca ^ 2) / a ^ 2 := by nlinarith
  obtain ⟨ze, hze⟩ : ∃ ze, (2 - b * ca / c) / (4 * (1 - ca ^ 2)) = ze := ⟨_, rfl⟩
  have hze' : 4 * ze * (1 - ca ^ 2) * (1 / b ^ 2) = 2 * (1 / b ^ 2) - ca / (b * c) := by
    rw [← hze]
    have := hs0.ne'
    field_simp
  have hw : ca * (2 * ze * c * ca / b) / (b * c) = 2 * ze * ca ^ 2 * (1 / b ^ 2) := by
    field_simp
  rw [hze] at hz
  obtain ⟨X, hX⟩ : ∃ X, (1 - ca ^ 2) / a ^ 2 = X := ⟨_, rfl⟩
  obtain ⟨Y, hY⟩ : ∃ Y, 1 / b ^ 2 = Y := ⟨_, rfl⟩
  obtain ⟨W, hW⟩ : ∃ W, ca / (b * c) = W := ⟨_, rfl⟩
  have hw' : (2 * ze * c * ca / b) * W = 2 * ze * ca ^ 2 * Y := by
    rw [← hY, ← hw, ← hW]; ring
  rw [hX, hY, hW] at hz
  rw [hX, hY] at hXY
  rw [hY, hW] at hze'
  nlinarith

/-- The exception `N`: with the reciprocal cell of the variation TRI1b it is outside of the zone
whenever the first two reciprocal vectors do not have the smallest scalar product. -/
theorem C55_N_outside (r : Cell ℝ) (a b c al : ℝ)
    (h : dot (r 0) (r 2) < dot (r 0) (r 1) ∨ dot (r 1) (r 2) < dot (r 0) (r 1)) :
    ∃ d v, scPointsOf a b c al "TRI" (some "TRI1b") = .ok d ∧ d.get? "N" = some v ∧
      ¬ InZone r (v ᵥ* r) := by
  refine ⟨scTable21, ![-1 / 2, -1 / 2, 1 / 2], by simp [scPointsOf], by rfl, fun hz => ?_⟩
  rcases h with h | h
  · have := zone_row hz (-1) 0 0
    push_cast at this
    linarith
  · have := zone_row hz 0 (-1) 0
    push_cast at this
    linarith

/-- The condition on the face-centred cells cannot be dropped: otherwise the symbol is `oF3` and
its point `Y` is outside of the zone. -/
theorem C55_oF3_outside (conv r : Cell ℝ) (a b c : ℝ) (ha : 0 < a) (hb : 0 < b) (hc : 0 < c)
    (h : HasParams conv a b c 90 90 90) (hab : 1 / a ^ 2 + 1 / c ^ 2 < 1 / b ^ 2)
    (hr : getReciprocal ((!![0, 1 / 2, 1 / 2; 1 / 2, 0, 1 / 2; 1 / 2, 1 / 2, 0] : Cell ℝ).transpose *
      conv) = .ok r) :
    hpkotLengthSymbol "oF" a b c 90 = some "oF3" ∧
    ∃ d v, hpkotPointsOf a b c 90 "oF" "oF3" = .ok d ∧ d.get? "Y" = some v ∧
      ¬ InZone r (v ᵥ* r) := by
  have hA : 0 < 1 / a ^ 2 := by positivity
  have hC : 0 < 1 / c ^ 2 := by positivity
  constructor
  · unfold hpkotLengthSymbol
    rw [if_neg (by decide), if_pos rfl, if_neg (by linarith), if_neg (by linarith)]
  obtain ⟨s, hs, h11, h22, h33, h12, h13, h23⟩ :=
    (form_F ha.ne' hb.ne' hc.ne' h rfl rfl rfl).dots hr
  refine ⟨hpkotTable78 a b c, ![1 / 2, 0, 1 / 2], by simp [hpkotPointsOf], by rfl, fun hz => ?_⟩
  have := zone_row hz 1 1 1
  push_cast at this
  rw [h11, h12, h13, h22, h33, h23] at this
  nlinarith

/-- A reduced reciprocal cell with all angles acute, the first two vectors closest to a right
angle, to which `C55_N_outside` applies. -/
example : ∃ r : Cell ℝ, PairReduced r ∧ 0 < dot (r 0) (r 1) ∧ 0 < dot (r 0) (r 2) ∧
    0 < dot (r 1) (r 2) ∧
    dot (r 0) (r 1) ^ 2 * dot (r 2) (r 2) < dot (r 0) (r 2) ^ 2 * dot (r 1) (r 1) ∧
    dot (r 0) (r 1) ^ 2 * dot (r 2) (r 2) < dot (r 1) (r 2) ^ 2 * dot (r 0) (r 0) ∧
    dot (r 0) (r 2) < dot (r 0) (r 1) := by
  refine ⟨!![2, 0, 0; 3 / 10, 3, 0; 1 / 5, 1 / 10, 1], ?_, ?_⟩
  · intro i j hij
    fin_cases i <;> fin_cases j <;> first
      | exact absurd rfl hij
      | (simp [dot, abs_of_pos]; norm_num [abs_of_pos])
  · simp [dot]
    norm_num

/-- The hypotheses of `C55_hpkot` are met: P222. -/
example : ∃ path pts prim pa r, getPathAndPoints String.toLower
    (fun _ _ => .error .runtimeError) (fun c => .ok c) !![3, 0, 0; 0, 5, 0; 0, 0, 4] boxAtoms
    (some (boxData 3 5 4 16 "o" "P")) "HPKOT" false false = .ok (path, pts) ∧
    getPrimitive String.toLower (fun _ _ => .error .runtimeError) (fun c => .ok c)
      !![3, 0, 0; 0, 5, 0; 0, 0, 4] boxAtoms "HPKOT" (some (boxData 3 5 4 16 "o" "P")) =
      .ok (prim, pa) ∧ getReciprocal prim = .ok r ∧
    ∀ k v, pts.get? k = some v → k ≠ "GAMMA" → OnZoneBoundary r v := by
  obtain ⟨⟨path, pts⟩, h⟩ := sample_path false false
  obtain ⟨b, h2⟩ := box_primitive String.toLower (fun _ _ => .error .runtimeError)
    (fun c => .ok c) 3 5 4 16 (by decide +kernel) (by decide +kernel) (by norm_num)
  obtain ⟨q, hq, -⟩ := C03_involution (!![3, 0, 0; 0, 5, 0; 0, 0, 4] : Cell ℝ)
    (by simp [det_fin_three])
  refine ⟨path, pts, _, b, q, h, h2, hq, fun k v hv hk => ?_⟩
  have hfa : family (boxData 3 5 4 16 "o" "P").spaceGroupNumber ≠ "a" := by
    show family 16 ≠ "a"
    decide +kernel
  have := (C55_hpkot String.toLower _ _ _ _ _ (boxData 3 5 4 16 "o" "P") (.inl rfl)
    ⟨by decide, by decide⟩ rfl rfl "HPKOT" (by decide +kernel) (by decide +kernel)
    (by decide +kernel) false path pts h
    (.orthorhombic (a := 3) (b := 5) (c := 4) (by show family 16 ++ centring 16 ∈ _; decide +kernel)
      (hasParams_box (by norm_num) (by norm_num) (by norm_num)))
    (fun e => absurd e hfa) _ q b h2 hq k v hv).2
  rcases this with h | h | h
  · exact absurd h hk
  · exact h
  · exact absurd h.1 hfa

/-- The hypotheses of `C55_sc_partial` are met: P4. -/
example : ∃ path pts prim pa r, getPathAndPoints String.toLower
    (fun _ _ => .error .runtimeError) (fun c => .ok c) boxT boxAtoms
    (some (boxData 3 3 4 75 "t" "P")) "SC" false false = .ok (path, pts) ∧
    getPrimitive String.toLower (fun _ _ => .error .runtimeError) (fun c => .ok c)
      boxT boxAtoms "SC" (some (boxData 3 3 4 75 "t" "P")) = .ok (prim, pa) ∧
    getReciprocal prim = .ok r ∧
    ∀ k v, pts.get? k = some v → k ≠ "GAMMA" → OnZoneBoundary r v := by
  obtain ⟨⟨path, pts⟩, h⟩ := boxT_path false false
  obtain ⟨a, h1, -⟩ := boxT_conventional "SC" (by decide +kernel)
  obtain ⟨b, h2⟩ := boxT_primitive
  obtain ⟨q, hq, -⟩ := C03_involution boxT boxT_det
  refine ⟨path, pts, _, b, q, h, h2, hq, fun k v hv => ?_⟩
  have hfa : family (boxData 3 3 4 75 "t" "P").spaceGroupNumber ≠ "a" := by
    show family 75 ≠ "a"
    decide +kernel
  refine (C55_sc_partial String.toLower _ _ _ _ _ (boxData 3 3 4 75 "t" "P") (.inl rfl)
    ⟨by decide, by decide⟩ rfl rfl "SC" (by decide +kernel) (by decide +kernel)
    (by decide +kernel) (.inl rfl) (by simp [boxData]) false path pts h _ q _ b a _ h2 hq h1
    boxT_variation
    (.tetragonal (a := 3) (c := 4) (by show family 75 ++ centring 75 ∈ _; decide +kernel)
      (hasParams_box (by norm_num) (by norm_num) (by norm_num))) ?_
    (fun e => absurd e hfa) k v hv ?_ (fun e => absurd e hfa)).2
  · intro _ _ _ _ _ _ _ _ _ _ _ _ _ _
    simp
  · intro e
    exact absurd (show family 75 ++ centring 75 = "mC" from e) (by decide +kernel)

end Wulfric
