import Verif.Lemmas.TrimCall
import Verif.Props.C55_BrillouinZone
import Verif.Props.C60_ScShape

/-! # C76: every time-reversal-invariant momentum is among the named points -/

namespace Wulfric

open Matrix _root_.Spec Wulfric.Spec

/-- With half the third vector added the table has all classes. -/
theorem trims_table91 {r : Cell ℝ} (hr : IsUnit r.det) :
    TrimTable r ["", "GAMMA", "X", "Y", "R", "T", "U", "V"] (("", ![0, 0, 1 / 2]) :: hpkotTable91) := by
  have s0 : LatSym r !![1, 0, 0; 0, 1, 0; 0, 0, 1] := latSym_one r
  refine trims_of hr ?_
  simp only [parities, List.forall_mem_cons, List.not_mem_nil, false_implies, implies_true, and_true]
  refine ⟨?_, ?_, ?_, ?_, ?_, ?_, ?_, ?_⟩
  · exact ⟨("GAMMA", ![0, 0, 0]), List.mem_of_getElem? (i := 1) rfl, by simp, _, s0, ![0, 0, 0],
      by half_check⟩
  · exact ⟨("", ![0, 0, 1 / 2]), List.mem_of_getElem? (i := 0) rfl, by simp, _, s0, ![0, 0, 0],
      by half_check⟩
  · exact ⟨("Y", ![0, 1 / 2, 0]), List.mem_of_getElem? (i := 3) rfl, by simp, _, s0, ![0, 0, 0],
      by half_check⟩
  · exact ⟨("T", ![0, 1 / 2, 1 / 2]), List.mem_of_getElem? (i := 7) rfl, by simp, _, s0, ![0, 0, 0],
      by half_check⟩
  · exact ⟨("X", ![1 / 2, 0, 0]), List.mem_of_getElem? (i := 4) rfl, by simp, _, s0, ![0, 0, 0],
      by half_check⟩
  · exact ⟨("U", ![1 / 2, 0, 1 / 2]), List.mem_of_getElem? (i := 6) rfl, by simp, _, s0, ![0, 0, 0],
      by half_check⟩
  · exact ⟨("V", ![1 / 2, 1 / 2, 0]), List.mem_of_getElem? (i := 5) rfl, by simp, _, s0, ![0, 0, 0],
      by half_check⟩
  · exact ⟨("R", ![1 / 2, 1 / 2, 1 / 2]), List.mem_of_getElem? (i := 8) rfl, by simp, _, s0, ![0, 0, 0],
      by half_check⟩

/-- Twice a point of the table, as an integer combination. -/
theorem table91_twice : ∀ x ∈ hpkotTable91, ∃ n : Fin 3 → ℤ, (∀ i, 2 * x.2 i = n i) ∧
    (n 0 % 2 ≠ 0 ∨ n 1 % 2 ≠ 0 ∨ n 2 % 2 = 0) := by
  have key : ∀ (a b c : ℤ), (a % 2 ≠ 0 ∨ b % 2 ≠ 0 ∨ c % 2 = 0) → ∀ (v : Vec ℝ),
      (∀ i, 2 * v i = ((![a, b, c] : Fin 3 → ℤ) i : ℝ)) → ∃ n : Fin 3 → ℤ, (∀ i, 2 * v i = n i) ∧
      (n 0 % 2 ≠ 0 ∨ n 1 % 2 ≠ 0 ∨ n 2 % 2 = 0) := fun a b c h v hv => ⟨![a, b, c], hv, h⟩
  simp only [hpkotTable91, List.forall_mem_cons, List.not_mem_nil, false_implies, implies_true,
    and_true]
  refine ⟨key 0 0 0 (by decide) _ ?_, key 0 0 0 (by decide) _ ?_, key 0 1 0 (by decide) _ ?_,
    key 1 0 0 (by decide) _ ?_, key 1 1 0 (by decide) _ ?_, key 1 0 1 (by decide) _ ?_,
    key 0 1 1 (by decide) _ ?_, key 1 1 1 (by decide) _ ?_⟩ <;>
  · intro i
    fin_cases i <;> simp

theorem symmetry_dot {r R : Cell ℝ} (h : IsSymmetry r R) (v : Vec ℝ) :
    dot (v ᵥ* R) (v ᵥ* R) = dot v v := by
  have e : ∀ u : Vec ℝ, dot u u = u ⬝ᵥ u := fun u => by
    simp [dot, dotProduct, Fin.sum_univ_three]
  rw [e, e]
  calc (v ᵥ* R) ⬝ᵥ (v ᵥ* R) = (v ᵥ* R) ⬝ᵥ (R.transpose *ᵥ v) := by rw [Matrix.mulVec_transpose]
    _ = v ⬝ᵥ v := by rw [Matrix.dotProduct_mulVec, Matrix.vecMul_vecMul, h.1, Matrix.vecMul_one]

/-- No point of the table is equivalent to half the third vector, if that is shorter than all
others. -/
theorem table91_apart {r : Cell ℝ} (hr : IsUnit r.det)
    (hshort : ∀ g ∈ latticePoints r, g = 0 ∨ g = r 2 ∨ g = -r 2 ∨ dot (r 2) (r 2) < dot g g) :
    ∀ x ∈ hpkotTable91, ∀ v, v = x.2 ᵥ* r ∨ v = -(x.2 ᵥ* r) →
      ¬ EquivalentVectors r ((1 / 2 : ℝ) • r 2) v := by
  rintro x hx v hv ⟨R, hR, m, hm⟩
  obtain ⟨n, hn, hpar⟩ := table91_twice x hx
  obtain ⟨q, hq, hqp⟩ : ∃ q : Fin 3 → ℤ, r 2 ᵥ* R = (fun i => (q i : ℝ)) ᵥ* r ∧
      (q 0 % 2 ≠ 0 ∨ q 1 % 2 ≠ 0 ∨ q 2 % 2 = 0) := by
    have e1 : r 2 ᵥ* R = (2 : ℝ) • v + (2 : ℝ) • ((fun i => (m i : ℝ)) ᵥ* r) := by
      have e2 : ((1 / 2 : ℝ) • r 2) ᵥ* R = v + (fun i => (m i : ℝ)) ᵥ* r := by
        rw [← sub_eq_iff_eq_add', hm]
        ext j
        simp [Matrix.vecMul, dotProduct]
      rw [← smul_add, ← e2, Matrix.smul_vecMul, smul_smul]
      norm_num
    have e3 : (2 : ℝ) • (x.2 ᵥ* r) = (fun i => (n i : ℝ)) ᵥ* r := by
      rw [← Matrix.smul_vecMul]
      congr 1
      ext i
      simpa using hn i
    rcases hv with rfl | rfl
    · refine ⟨fun i => n i + 2 * m i, ?_, by simp only []; omega⟩
      rw [e1, e3, ← Matrix.smul_vecMul, ← Matrix.add_vecMul]
      congr 1
      ext i
      simp
    · refine ⟨fun i => -n i + 2 * m i, ?_, by simp only []; omega⟩
      rw [e1, smul_neg, e3, ← Matrix.smul_vecMul, ← Matrix.neg_vecMul, ← Matrix.add_vecMul]
      congr 1
      ext i
      simp
  have hnorm := symmetry_dot hR (r 2)
  have hrow : ∀ s : ℤ, (s : ℝ) • r 2 = (fun i => (((![0, 0, s] : Fin 3 → ℤ) i : ℤ) : ℝ)) ᵥ* r := by
    intro s
    ext j
    simp [Matrix.vecMul, dotProduct, Fin.sum_univ_three]
  have hinj : ∀ s : ℤ, (fun i => (q i : ℝ)) ᵥ* r = (s : ℝ) • r 2 → q = ![0, 0, s] := by
    intro s h
    rw [hrow] at h
    have := Matrix.vecMul_injective_of_isUnit ((Matrix.isUnit_iff_isUnit_det r).2 hr) h
    funext i
    exact_mod_cast congrFun this i
  have hpos : dot (r 2) (r 2) ≠ 0 := by
    intro h0
    have h2 : r 2 = 0 := by
      have e : r 2 0 * r 2 0 + r 2 1 * r 2 1 + r 2 2 * r 2 2 = 0 := h0
      ext j
      fin_cases j <;> simp <;> nlinarith [mul_self_nonneg (r 2 0), mul_self_nonneg (r 2 1),
        mul_self_nonneg (r 2 2)]
    refine hr.ne_zero ?_
    exact Matrix.det_eq_zero_of_row_eq_zero 2 (fun j => congrFun h2 j)
  rw [hq] at hnorm
  rcases hshort ((fun i => (q i : ℝ)) ᵥ* r) ⟨q, by ext j; simp [Matrix.vecMul, dotProduct]⟩ with
    h | h | h | h
  · rw [h] at hnorm
    exact hpos (by rw [← hnorm]; simp [dot])
  · have := hinj 1 (by rw [h]; simp)
    subst this
    revert hqp
    simp
  · have := hinj (-1) (by rw [h]; simp)
    subst this
    revert hqp
    simp
  · exact absurd hnorm h.ne'

section
variable (lower : String → String) (getData : Cell ℝ → Atoms ℝ → Except Err SpglibData)
  (niggli : Cell ℝ → Except Err (Cell ℝ)) (cell : Cell ℝ) (atoms : Atoms ℝ)
  (given : Option SpglibData) (data : SpglibData)
  (hd : given = some data ∨ (given = none ∧ getData cell atoms = .ok data))
  (hn : 1 ≤ data.spaceGroupNumber ∧ data.spaceGroupNumber ≤ 230)
  (hf : data.crystalFamily = family data.spaceGroupNumber)
  (hc : data.centringType = centring data.spaceGroupNumber) (convention : String)

include hd hn hf hc

/-- The table a call with HPKOT takes its points from. -/
theorem hpkot_call_table (hl : lower "HPKOT" = "hpkot") (hl' : lower "hpkot" = "hpkot")
    (hconv : lower convention = "hpkot") (t : Bool) (path : String)
    (pts : PyDict String (Vec ℝ))
    (h : getPathAndPoints lower getData niggli cell atoms given convention t false =
      .ok (path, pts))
    (prim r : Cell ℝ) (pa : Atoms ℝ)
    (hprim : getPrimitive lower getData niggli cell atoms convention (some data) = .ok (prim, pa))
    (hr : getReciprocal prim = .ok r) (s : String)
    (hstd : s ≠ "aP2" → family data.spaceGroupNumber ≠ "a" →
      StandardCell (family data.spaceGroupNumber ++ centring data.spaceGroupNumber)
        data.conventionalCell)
    (hs : hpkotGetExtendedBlSymbol lower getData niggli cell atoms (some data) = .ok s) :
    ∃ raw : PyDict String (Vec ℝ), (∀ x ∈ raw, pts.get? x.1 = some (x.2 ᵥ* r)) ∧
      (∀ k v, pts.get? k = some v → ∃ x ∈ raw, v = x.2 ᵥ* r ∨ v = -(x.2 ᵥ* r)) ∧
      (s ≠ "aP2" → ∃ names p, TrimTable r names raw ∧ getPathAsList path = .ok p ∧
        ∀ n ∈ names, ∃ sub ∈ p, n ∈ sub) ∧ (s = "aP2" → raw = hpkotTable91) := by
  obtain ⟨kpath, raw, prim', pa', rprim, conv, ca, matrix, a, b, c, al, be, ga, ra, rb, rg, s',
    s1, s2, s3, s4, s5, s6, s7, s8, s9, ⟨s10, s10'', s10'⟩, s11⟩ := hpkot_path_steps lower getData niggli
      cell atoms given data hd hn hf hc convention hl hl' hconv t false path pts h
  rw [hprim] at s1
  cases s1
  rw [hr] at s2
  cases s2
  rw [hs] at s10'
  cases s10'
  have hbl := symbols_inside _ (Finset.mem_Icc.2 hn)
  rw [hf, hc] at s4 s7 s9
  subst s5
  refine ⟨raw, fun x hx => table_point s10 s11 hx, fun k v hv => ?_, fun hne => ?_, fun he => ?_⟩
  · obtain ⟨x, hx, ⟨-, e⟩ | ⟨-, -, e⟩⟩ := points_of_table s10 s11 k v hv
    · exact ⟨x, hx, .inl (by rw [e, vecMat_row])⟩
    · exact ⟨x, hx, .inr (by rw [e, vecMat_row])⟩
  · have hst : family data.spaceGroupNumber ++ centring data.spaceGroupNumber ≠ "aP" →
        StandardCell (family data.spaceGroupNumber ++ centring data.spaceGroupNumber) conv := by
      intro haP
      have hfa : family data.spaceGroupNumber ≠ "a" :=
        fun e => haP (family_a _ (Finset.mem_Icc.2 hn) e)
      obtain ⟨d2, ps, ts, g1, g2, -⟩ := getConventional_steps s3
      obtain rfl := resolve_given (.inl rfl) g1
      rw [hconv] at g2
      unfold conventionalParts at g2
      rw [if_pos (by decide), if_neg (fun e => hfa (hf.symm.trans e.2))] at g2
      cases g2
      exact hstd hne hfa
    obtain ⟨names, t1, t2⟩ := trims_hpkot hbl hst s4 hr s7 s9 hne
    rw [s10''] at t2
    obtain ⟨p, hp, hon⟩ := names_on s10 s11 (Except.ok.inj t2)
    exact ⟨names, p, t1, hp, hon⟩
  · subst he
    simp [hpkotPointsOf] at s9
    exact s9.symm

/-- C76, HPKOT: with spglib's standardised cell in its standard shape, every wave vector that
time reversal leaves in place (up to a vector of the reciprocal lattice) is equivalent to one of the
points returned: a symmetry of the lattice and a translation of the reciprocal lattice carry one into
the other. The symbol "aP2" is excepted, see `C76_aP2_partial`. -/
theorem C76_hpkot (hl : lower "HPKOT" = "hpkot") (hl' : lower "hpkot" = "hpkot")
    (hconv : lower convention = "hpkot") (t : Bool) (path : String)
    (pts : PyDict String (Vec ℝ))
    (h : getPathAndPoints lower getData niggli cell atoms given convention t false =
      .ok (path, pts))
    (hstd : family data.spaceGroupNumber ≠ "a" →
      StandardCell (family data.spaceGroupNumber ++ centring data.spaceGroupNumber)
        data.conventionalCell)
    (prim r : Cell ℝ) (pa : Atoms ℝ)
    (hprim : getPrimitive lower getData niggli cell atoms convention (some data) = .ok (prim, pa))
    (hr : getReciprocal prim = .ok r)
    (hs : hpkotGetExtendedBlSymbol lower getData niggli cell atoms (some data) ≠ .ok "aP2")
    (k : Vec ℝ) (hk : TimeInvariant r k) :
    ∃ name v, pts.get? name = some v ∧ EquivalentVectors r k v := by
  obtain ⟨-, -, -, -, -, -, -, -, -, -, -, -, -, -, -, -, -, s,
    -, -, -, -, -, -, -, -, -, ⟨-, -, e⟩, -⟩ := hpkot_path_steps lower getData niggli
      cell atoms given data hd hn hf hc convention hl hl' hconv t false path pts h
  obtain ⟨raw, h1, -, h2, -⟩ := hpkot_call_table lower getData niggli cell atoms given data hd hn hf
    hc convention hl hl' hconv t path pts h prim r pa hprim hr s (fun _ => hstd) e
  obtain ⟨names, p, h3, -, -⟩ := h2 (fun e' => hs (e' ▸ e))
  obtain ⟨x, hx, -, hx'⟩ := h3 k hk
  exact ⟨x.1, _, h1 x hx, hx'⟩

/-- C76, the symbol "aP2": every class is there but that of half the third reciprocal vector. Its
name would be `Z`, which the code puts at the origin. -/
theorem C76_aP2_partial (hl : lower "HPKOT" = "hpkot") (hl' : lower "hpkot" = "hpkot")
    (hconv : lower convention = "hpkot") (t : Bool) (path : String)
    (pts : PyDict String (Vec ℝ))
    (h : getPathAndPoints lower getData niggli cell atoms given convention t false =
      .ok (path, pts))
    (prim r : Cell ℝ) (pa : Atoms ℝ)
    (hprim : getPrimitive lower getData niggli cell atoms convention (some data) = .ok (prim, pa))
    (hr : getReciprocal prim = .ok r)
    (hs : hpkotGetExtendedBlSymbol lower getData niggli cell atoms (some data) = .ok "aP2")
    (k : Vec ℝ) (hk : TimeInvariant r k) :
    EquivalentVectors r k ((1 / 2 : ℝ) • r 2) ∨
      ∃ name v, pts.get? name = some v ∧ EquivalentVectors r k v := by
  obtain ⟨raw, h1, -, -, h2⟩ := hpkot_call_table lower getData niggli cell atoms given data hd hn hf
    hc convention hl hl' hconv t path pts h prim r pa hprim hr _ (fun e => absurd rfl e) hs
  obtain ⟨x, hx, -, hx'⟩ := trims_table91 (recip_unit hr) k hk
  rcases List.mem_cons.1 hx with rfl | hx
  · left
    have : (1 / 2 : ℝ) • r 2 = ![0, 0, 1 / 2] ᵥ* r := by
      ext j
      simp [Matrix.vecMul, dotProduct, Fin.sum_univ_three]
    rw [this]
    exact hx'
  · rw [← h2 rfl] at hx
    exact .inr ⟨x.1, _, h1 x hx, hx'⟩

/-- C76, why "aP2" is excepted: if the third reciprocal vector is shorter than all other vectors of
the lattice, half of it is a time-reversal-invariant momentum and none of the points returned is
equivalent to it. -/
theorem C76_aP2_missing (hl : lower "HPKOT" = "hpkot") (hl' : lower "hpkot" = "hpkot")
    (hconv : lower convention = "hpkot") (t : Bool) (path : String)
    (pts : PyDict String (Vec ℝ))
    (h : getPathAndPoints lower getData niggli cell atoms given convention t false =
      .ok (path, pts))
    (prim r : Cell ℝ) (pa : Atoms ℝ)
    (hprim : getPrimitive lower getData niggli cell atoms convention (some data) = .ok (prim, pa))
    (hr : getReciprocal prim = .ok r)
    (hs : hpkotGetExtendedBlSymbol lower getData niggli cell atoms (some data) = .ok "aP2")
    (hshort : ∀ g ∈ latticePoints r, g = 0 ∨ g = r 2 ∨ g = -r 2 ∨ dot (r 2) (r 2) < dot g g) :
    TimeInvariant r ((1 / 2 : ℝ) • r 2) ∧
    ∀ name v, pts.get? name = some v → ¬ EquivalentVectors r ((1 / 2 : ℝ) • r 2) v := by
  obtain ⟨raw, -, h1, -, h2⟩ := hpkot_call_table lower getData niggli cell atoms given data hd hn hf
    hc convention hl hl' hconv t path pts h prim r pa hprim hr _ (fun e => absurd rfl e) hs
  refine ⟨⟨![0, 0, 1], ?_⟩, fun name v hv he => ?_⟩
  · ext j
    simp [Fin.sum_univ_three]
    ring
  · obtain ⟨x, hx, hxv⟩ := h1 name v hv
    rw [h2 rfl] at hx
    exact table91_apart (recip_unit hr) hshort x hx v hxv he

/-- C76, SC: from the shape of spglib's cells alone, as in `C60_shape`. -/
theorem C76_sc (hl : lower "SC" = "sc") (hl' : lower "sc" = "sc") (hconv : lower convention = "sc")
    (htol : data.angleTolerance = -1 ∨ 0 ≤ data.angleTolerance) (hsym : 0 ≤ data.symprec)
    (hstd : StandardCell (family data.spaceGroupNumber ++ centring data.spaceGroupNumber)
      data.conventionalCell)
    (hR : family data.spaceGroupNumber ++ centring data.spaceGroupNumber = "hR" →
      ∃ x t, HasParams data.primitiveCell x x x t t t)
    (hm : family data.spaceGroupNumber = "m" → ∀ x y z be,
      HasParams data.conventionalCell x y z 90 be 90 → be = 90 ∨ angleTol data < be - 90)
    (t : Bool) (path : String) (pts : PyDict String (Vec ℝ))
    (h : getPathAndPoints lower getData niggli cell atoms given convention t false =
      .ok (path, pts))
    (prim r : Cell ℝ) (pa : Atoms ℝ)
    (hprim : getPrimitive lower getData niggli cell atoms convention (some data) = .ok (prim, pa))
    (hr : getReciprocal prim = .ok r) (k : Vec ℝ) (hk : TimeInvariant r k) :
    ∃ name v, pts.get? name = some v ∧ EquivalentVectors r k v := by
  obtain ⟨kpath, raw, prim', pa', rprim, conv', ca', matrix, a, b, c, al, be, ga, kp, ka, kb, kg,
    short, s', s1, s2, s3, s4, s5, s6, s6', s7, s8, s9, s10, s11, ⟨s12, -⟩, s13⟩ :=
      sc_path_steps lower getData niggli cell
      atoms given data hd hn hf hc convention hl hl' hconv htol t false path pts h
  rw [hprim] at s1
  cases s1
  rw [hr] at s2
  cases s2
  subst s5
  have hbl := symbols_inside _ (Finset.mem_Icc.2 hn)
  have hcell := C60_shape (.inl rfl) hn hf hc hconv htol hsym hstd hR hm conv' ca' s3
  rw [hf, hc] at s4 s7 s10
  obtain ⟨names, t1, -⟩ := trims_sc hbl (fun _ => hcell) s4 hr s7 s10 s11
  obtain ⟨x, hx, -, hx'⟩ := t1 k hk
  exact ⟨x.1, _, table_point s12 s13 hx, hx'⟩

end

/-- The hypotheses of `C76_hpkot` are met: P222. -/
example : ∃ path pts prim pa r, getPathAndPoints String.toLower
    (fun _ _ => .error .runtimeError) (fun c => .ok c) !![3, 0, 0; 0, 5, 0; 0, 0, 4] boxAtoms
    (some (boxData 3 5 4 16 "o" "P")) "HPKOT" false false = .ok (path, pts) ∧
    getPrimitive String.toLower (fun _ _ => .error .runtimeError) (fun c => .ok c)
      !![3, 0, 0; 0, 5, 0; 0, 0, 4] boxAtoms "HPKOT" (some (boxData 3 5 4 16 "o" "P")) =
      .ok (prim, pa) ∧ getReciprocal prim = .ok r ∧
    ∀ k, TimeInvariant r k → ∃ name v, pts.get? name = some v ∧ EquivalentVectors r k v := by
  obtain ⟨⟨path, pts⟩, h⟩ := sample_path false false
  obtain ⟨b, h2⟩ := box_primitive String.toLower (fun _ _ => .error .runtimeError)
    (fun c => .ok c) 3 5 4 16 (by decide +kernel) (by decide +kernel) (by norm_num)
  obtain ⟨q, hq, -⟩ := C03_involution (!![3, 0, 0; 0, 5, 0; 0, 0, 4] : Cell ℝ)
    (by simp [det_fin_three])
  refine ⟨path, pts, _, b, q, h, h2, hq, fun k hk => ?_⟩
  refine C76_hpkot String.toLower _ _ _ _ _ (boxData 3 5 4 16 "o" "P") (.inl rfl)
    ⟨by decide, by decide⟩ rfl rfl "HPKOT" (by decide +kernel) (by decide +kernel)
    (by decide +kernel) false path pts h
    (fun _ => .orthorhombic (a := 3) (b := 5) (c := 4)
      (by show family 16 ++ centring 16 ∈ _; decide +kernel)
      (hasParams_box (by norm_num) (by norm_num) (by norm_num))) _ q b h2 hq ?_ k hk
  intro e
  have k1 : hpkotGetExtendedBlSymbol String.toLower (fun _ _ => .error .runtimeError)
      (fun c => .ok c) !![3, 0, 0; 0, 5, 0; 0, 0, 4] boxAtoms (some (boxData 3 5 4 16 "o" "P")) =
      .ok "oP1" := by
    unfold hpkotGetExtendedBlSymbol
    rw [box_resolve]
    rfl
  rw [k1] at e
  exact absurd (Except.ok.inj e) (by decide)

/-- The hypotheses of `C76_sc` are met: P4. -/
example : ∃ path pts prim pa r, getPathAndPoints String.toLower
    (fun _ _ => .error .runtimeError) (fun c => .ok c) boxT boxAtoms
    (some (boxData 3 3 4 75 "t" "P")) "SC" false false = .ok (path, pts) ∧
    getPrimitive String.toLower (fun _ _ => .error .runtimeError) (fun c => .ok c)
      boxT boxAtoms "SC" (some (boxData 3 3 4 75 "t" "P")) = .ok (prim, pa) ∧
    getReciprocal prim = .ok r ∧
    ∀ k, TimeInvariant r k → ∃ name v, pts.get? name = some v ∧ EquivalentVectors r k v := by
  obtain ⟨⟨path, pts⟩, h⟩ := boxT_path false false
  obtain ⟨b, h2⟩ := boxT_primitive
  obtain ⟨q, hq, -⟩ := C03_involution boxT boxT_det
  refine ⟨path, pts, _, b, q, h, h2, hq, fun k hk => ?_⟩
  have hfa : family (boxData 3 3 4 75 "t" "P").spaceGroupNumber ≠ "m" := by
    show family 75 ≠ "m"
    decide +kernel
  have hfr : family (boxData 3 3 4 75 "t" "P").spaceGroupNumber ++
      centring (boxData 3 3 4 75 "t" "P").spaceGroupNumber ≠ "hR" := by
    show family 75 ++ centring 75 ≠ "hR"
    decide +kernel
  exact C76_sc String.toLower _ _ _ _ _ (boxData 3 3 4 75 "t" "P") (.inl rfl)
    ⟨by decide, by decide⟩ rfl rfl "SC" (by decide +kernel) (by decide +kernel)
    (by decide +kernel) (.inl rfl) (by simp [boxData])
    (.tetragonal (a := 3) (c := 4) (by show family 75 ++ centring 75 ∈ _; decide +kernel)
      (hasParams_box (by norm_num) (by norm_num) (by norm_num)))
    (fun e => absurd e hfr) (fun e => absurd e hfa) false path pts h _ q b h2 hq k hk

end Wulfric
