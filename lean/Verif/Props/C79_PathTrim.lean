import Verif.Props.C76_Trim

/-! # C79: the default path passes through every time-reversal-invariant momentum -/

namespace Wulfric

open Matrix _root_.Spec Wulfric.Spec

section
variable (lower : String → String) (getData : Cell ℝ → Atoms ℝ → Except Err SpglibData)
  (niggli : Cell ℝ → Except Err (Cell ℝ)) (cell : Cell ℝ) (atoms : Atoms ℝ)
  (given : Option SpglibData) (data : SpglibData)
  (hd : given = some data ∨ (given = none ∧ getData cell atoms = .ok data))
  (hn : 1 ≤ data.spaceGroupNumber ∧ data.spaceGroupNumber ≤ 230)
  (hf : data.crystalFamily = family data.spaceGroupNumber)
  (hc : data.centringType = centring data.spaceGroupNumber) (convention : String)

include hd hn hf hc

/-- C79, HPKOT: with spglib's standardised cell in its standard shape, the path returned passes
through a point equivalent to each time-reversal-invariant momentum. The symbol "aP2" is excepted,
see `C79_aP2_partial`. -/
theorem C79_hpkot (hl : lower "HPKOT" = "hpkot") (hl' : lower "hpkot" = "hpkot")
    (hconv : lower convention = "hpkot") (t : Bool) (path : String)
    (pts : PyDict String (Vec ℝ))
    (h : getPathAndPoints lower getData niggli cell atoms given convention t false =
      .ok (path, pts))
    (hstd : family data.spaceGroupNumber ≠ "a" →
      StandardCell (family data.spaceGroupNumber ++ centring data.spaceGroupNumber)
        data.conventionalCell)
    (prim r : Cell ℝ) (pa : Atoms ℝ)
    (hprim : getPrimitive lower getData niggli cell atoms convention (some data) = .ok (prim, pa))
    (hr : getReciprocal prim = .ok r)
    (hs : hpkotGetExtendedBlSymbol lower getData niggli cell atoms (some data) ≠ .ok "aP2")
    (k : Vec ℝ) (hk : TimeInvariant r k) :
    ∃ name v p sub, pts.get? name = some v ∧ EquivalentVectors r k v ∧
      getPathAsList path = .ok p ∧ sub ∈ p ∧ name ∈ sub := by
  obtain ⟨-, -, -, -, -, -, -, -, -, -, -, -, -, -, -, -, -, s,
    -, -, -, -, -, -, -, -, -, ⟨-, -, e⟩, -⟩ := hpkot_path_steps lower getData niggli
      cell atoms given data hd hn hf hc convention hl hl' hconv t false path pts h
  obtain ⟨raw, h1, -, h2, -⟩ := hpkot_call_table lower getData niggli cell atoms given data hd hn hf
    hc convention hl hl' hconv t path pts h prim r pa hprim hr s (fun _ => hstd) e
  obtain ⟨names, p, h3, hp, hon⟩ := h2 (fun e' => hs (e' ▸ e))
  obtain ⟨x, hx, hxn, hx'⟩ := h3 k hk
  obtain ⟨sub, hsub, hin⟩ := hon _ hxn
  exact ⟨x.1, _, p, sub, h1 x hx, hx', hp, hsub, hin⟩

/-- C79, the symbol "aP2": all but half the third reciprocal vector, which `C76_aP2_missing` shows
to be missing. -/
theorem C79_aP2_partial (hl : lower "HPKOT" = "hpkot") (hl' : lower "hpkot" = "hpkot")
    (hconv : lower convention = "hpkot") (t : Bool) (path : String)
    (pts : PyDict String (Vec ℝ))
    (h : getPathAndPoints lower getData niggli cell atoms given convention t false =
      .ok (path, pts))
    (prim r : Cell ℝ) (pa : Atoms ℝ)
    (hprim : getPrimitive lower getData niggli cell atoms convention (some data) = .ok (prim, pa))
    (hr : getReciprocal prim = .ok r)
    (hs : hpkotGetExtendedBlSymbol lower getData niggli cell atoms (some data) = .ok "aP2")
    (k : Vec ℝ) (hk : TimeInvariant r k) :
    EquivalentVectors r k ((1 / 2 : ℝ) • r 2) ∨
      ∃ name v p sub, pts.get? name = some v ∧ EquivalentVectors r k v ∧
      getPathAsList path = .ok p ∧ sub ∈ p ∧ name ∈ sub := by
  obtain ⟨kpath, raw, prim', pa', rprim, conv, ca, matrix, a, b, c, al, be, ga, ra, rb, rg, s',
    s1, s2, s3, s4, s5, s6, s7, s8, s9, ⟨s10, s10'', s10'⟩, s11⟩ := hpkot_path_steps lower getData
      niggli cell atoms given data hd hn hf hc convention hl hl' hconv t false path pts h
  rw [hprim] at s1
  cases s1
  rw [hr] at s2
  cases s2
  rw [hs] at s10'
  cases s10'
  simp [hpkotPointsOf] at s9
  subst s9
  obtain ⟨x, hx, hxn, hx'⟩ := trims_table91 (recip_unit hr) k hk
  rcases List.mem_cons.1 hx with rfl | hx
  · left
    have : (1 / 2 : ℝ) • r 2 = ![0, 0, 1 / 2] ᵥ* r := by
      ext j
      simp [Matrix.vecMul, dotProduct, Fin.sum_univ_three]
    rw [this]
    exact hx'
  · right
    obtain rfl : "GAMMA-X|Y-GAMMA-Z|R-GAMMA-T|U-GAMMA-V" = kpath := Except.ok.inj s10''
    obtain ⟨p, hp, hon⟩ := names_on (names := ["GAMMA", "X", "Y", "R", "T", "U", "V"]) s10 s11
      (by decide +kernel)
    have hne : x.1 ≠ "" := by
      intro e
      have : x.1 ∈ hpkotTable91.keys := List.mem_map_of_mem hx
      rw [e] at this
      revert this
      simp [hpkotTable91, PyDict.keys]
    obtain ⟨sub, hsub, hin⟩ := hon _ ((List.mem_cons.1 hxn).resolve_left hne)
    exact ⟨x.1, _, p, sub, table_point s10 s11 hx, hx', hp, hsub, hin⟩

/-- C79, SC. -/
theorem C79_sc (hl : lower "SC" = "sc") (hl' : lower "sc" = "sc") (hconv : lower convention = "sc")
    (htol : data.angleTolerance = -1 ∨ 0 ≤ data.angleTolerance) (hsym : 0 ≤ data.symprec)
    (hstd : StandardCell (family data.spaceGroupNumber ++ centring data.spaceGroupNumber)
      data.conventionalCell)
    (hR : family data.spaceGroupNumber ++ centring data.spaceGroupNumber = "hR" →
      ∃ x t, HasParams data.primitiveCell x x x t t t)
    (hm : family data.spaceGroupNumber = "m" → ∀ x y z be,
      HasParams data.conventionalCell x y z 90 be 90 → be = 90 ∨ angleTol data < be - 90)
    (t : Bool) (path : String) (pts : PyDict String (Vec ℝ))
    (h : getPathAndPoints lower getData niggli cell atoms given convention t false =
      .ok (path, pts))
    (prim r : Cell ℝ) (pa : Atoms ℝ)
    (hprim : getPrimitive lower getData niggli cell atoms convention (some data) = .ok (prim, pa))
    (hr : getReciprocal prim = .ok r) (k : Vec ℝ) (hk : TimeInvariant r k) :
    ∃ name v p sub, pts.get? name = some v ∧ EquivalentVectors r k v ∧
      getPathAsList path = .ok p ∧ sub ∈ p ∧ name ∈ sub := by
  obtain ⟨kpath, raw, prim', pa', rprim, conv', ca', matrix, a, b, c, al, be, ga, kp, ka, kb, kg,
    short, s', s1, s2, s3, s4, s5, s6, s6', s7, s8, s9, s10, s11, ⟨s12, s12'⟩, s13⟩ :=
      sc_path_steps lower getData niggli cell
      atoms given data hd hn hf hc convention hl hl' hconv htol t false path pts h
  rw [hprim] at s1
  cases s1
  rw [hr] at s2
  cases s2
  subst s5
  have hbl := symbols_inside _ (Finset.mem_Icc.2 hn)
  have hcell := C60_shape (.inl rfl) hn hf hc hconv htol hsym hstd hR hm conv' ca' s3
  rw [hf, hc] at s4 s7 s10
  obtain ⟨names, t1, t2⟩ := trims_sc hbl (fun _ => hcell) s4 hr s7 s10 s11
  rw [s12'] at t2
  obtain ⟨p, hp, hon⟩ := names_on s12 s13 (Except.ok.inj t2)
  obtain ⟨x, hx, hxn, hx'⟩ := t1 k hk
  obtain ⟨sub, hsub, hin⟩ := hon _ hxn
  exact ⟨x.1, _, p, sub, table_point s12 s13 hx, hx', hp, hsub, hin⟩

end

/-- The hypotheses of `C79_hpkot` are met: P222. -/
example : ∃ path pts prim pa r, getPathAndPoints String.toLower
    (fun _ _ => .error .runtimeError) (fun c => .ok c) !![3, 0, 0; 0, 5, 0; 0, 0, 4] boxAtoms
    (some (boxData 3 5 4 16 "o" "P")) "HPKOT" false false = .ok (path, pts) ∧
    getPrimitive String.toLower (fun _ _ => .error .runtimeError) (fun c => .ok c)
      !![3, 0, 0; 0, 5, 0; 0, 0, 4] boxAtoms "HPKOT" (some (boxData 3 5 4 16 "o" "P")) =
      .ok (prim, pa) ∧ getReciprocal prim = .ok r ∧
    ∀ k, TimeInvariant r k → ∃ name v p sub, pts.get? name = some v ∧ EquivalentVectors r k v ∧
      getPathAsList path = .ok p ∧ sub ∈ p ∧ name ∈ sub := by
  obtain ⟨⟨path, pts⟩, h⟩ := sample_path false false
  obtain ⟨b, h2⟩ := box_primitive String.toLower (fun _ _ => .error .runtimeError)
    (fun c => .ok c) 3 5 4 16 (by decide +kernel) (by decide +kernel) (by norm_num)
  obtain ⟨q, hq, -⟩ := C03_involution (!![3, 0, 0; 0, 5, 0; 0, 0, 4] : Cell ℝ)
    (by simp [det_fin_three])
  refine ⟨path, pts, _, b, q, h, h2, hq, fun k hk => ?_⟩
  refine C79_hpkot String.toLower _ _ _ _ _ (boxData 3 5 4 16 "o" "P") (.inl rfl)
    ⟨by decide, by decide⟩ rfl rfl "HPKOT" (by decide +kernel) (by decide +kernel)
    (by decide +kernel) false path pts h
    (fun _ => .orthorhombic (a := 3) (b := 5) (c := 4)
      (by show family 16 ++ centring 16 ∈ _; decide +kernel)
      (hasParams_box (by norm_num) (by norm_num) (by norm_num))) _ q b h2 hq ?_ k hk
  intro e
  have k1 : hpkotGetExtendedBlSymbol String.toLower (fun _ _ => .error .runtimeError)
      (fun c => .ok c) !![3, 0, 0; 0, 5, 0; 0, 0, 4] boxAtoms (some (boxData 3 5 4 16 "o" "P")) =
      .ok "oP1" := by
    unfold hpkotGetExtendedBlSymbol
    rw [box_resolve]
    rfl
  rw [k1] at e
  exact absurd (Except.ok.inj e) (by decide)

/-- The hypotheses of `C79_sc` are met: P4. -/
example : ∃ path pts prim pa r, getPathAndPoints String.toLower
    (fun _ _ => .error .runtimeError) (fun c => .ok c) boxT boxAtoms
    (some (boxData 3 3 4 75 "t" "P")) "SC" false false = .ok (path, pts) ∧
    getPrimitive String.toLower (fun _ _ => .error .runtimeError) (fun c => .ok c)
      boxT boxAtoms "SC" (some (boxData 3 3 4 75 "t" "P")) = .ok (prim, pa) ∧
    getReciprocal prim = .ok r ∧
    ∀ k, TimeInvariant r k → ∃ name v p sub, pts.get? name = some v ∧ EquivalentVectors r k v ∧
      getPathAsList path = .ok p ∧ sub ∈ p ∧ name ∈ sub := by
  obtain ⟨⟨path, pts⟩, h⟩ := boxT_path false false
  obtain ⟨b, h2⟩ := boxT_primitive
  obtain ⟨q, hq, -⟩ := C03_involution boxT boxT_det
  refine ⟨path, pts, _, b, q, h, h2, hq, fun k hk => ?_⟩
  have hfa : family (boxData 3 3 4 75 "t" "P").spaceGroupNumber ≠ "m" := by
    show family 75 ≠ "m"
    decide +kernel
  have hfr : family (boxData 3 3 4 75 "t" "P").spaceGroupNumber ++
      centring (boxData 3 3 4 75 "t" "P").spaceGroupNumber ≠ "hR" := by
    show family 75 ++ centring 75 ≠ "hR"
    decide +kernel
  exact C79_sc String.toLower _ _ _ _ _ (boxData 3 3 4 75 "t" "P") (.inl rfl)
    ⟨by decide, by decide⟩ rfl rfl "SC" (by decide +kernel) (by decide +kernel)
    (by decide +kernel) (.inl rfl) (by simp [boxData])
    (.tetragonal (a := 3) (c := 4) (by show family 75 ++ centring 75 ∈ _; decide +kernel)
      (hasParams_box (by norm_num) (by norm_num) (by norm_num)))
    (fun e => absurd e hfr) (fun e => absurd e hfa) false path pts h _ q b h2 hq k hk

end Wulfric
