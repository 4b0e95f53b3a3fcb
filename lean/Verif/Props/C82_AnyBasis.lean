import Verif.Lemmas.Turn
import Verif.Lemmas.ZonePath
import Verif.Lemmas.Trim
import Verif.Props.C77_Total
import Verif.Props.C61_NiggliUnique

/-! C82: for a triclinic crystal the results in the HPKOT convention do not depend on the basis nor
on the orientation in which the lattice was given. -/

namespace Wulfric
open Matrix _root_.Spec Wulfric.Spec

/-- `niggli` succeeded on the reciprocal of `c`, and returned a Niggli-reduced basis of it. -/
def ReducesReciprocal (niggli : Cell ℝ → Except Err (Cell ℝ)) (c : Cell ℝ) : Prop :=
  ∃ r r', getReciprocal c = .ok r ∧ niggli r = .ok r' ∧ SameLattice r r' ∧ IsNiggli r'

theorem hpkotA_identity {niggli : Cell ℝ → Except Err (Cell ℝ)} {c r r' c0 : Cell ℝ}
    (h1 : getReciprocal c = .ok r) (h2 : niggli r = .ok r') (h3 : getReciprocal c0 = .ok r') :
    hpkotConventionalA niggli c = hpkotConventionalA Except.ok c0 := by
  unfold hpkotConventionalA
  rw [h1, h3]
  simp only [bind, Except.bind, h2]

theorem isometric_reciprocal {c d r s : Cell ℝ} (h : Isometric c d)
    (hr : getReciprocal c = .ok r) (hs : getReciprocal d = .ok s) : Isometric r s := by
  obtain ⟨R, hR, hl⟩ := h
  have hc := (recip_ok hr).1
  have hcR : (c * R).det ≠ 0 := by
    rw [det_mul]; exact mul_ne_zero hc (det_orthogonal_ne hR)
  obtain ⟨M, hM, e⟩ := hl.unimodular hcR
  have h1 : getReciprocal (c * R) = .ok (r * R) := by
    rw [getReciprocal_turn hR, hr]; rfl
  obtain ⟨N, hN, e2⟩ := recip_unimodular M hM e h1 hs
  refine ⟨R, hR, ?_⟩
  rw [e2]
  exact (sameLattice_of_unimodular N (by rw [hN]; exact Int.isUnit_iff.2 hM) _).symm

theorem isometric_trans_lattice {r s r' s' : Cell ℝ} (hr : r.det ≠ 0) (h : Isometric r s)
    (h1 : SameLattice r r') (h2 : SameLattice s s') : Isometric r' s' := by
  obtain ⟨R, hR, hl⟩ := h
  exact ⟨R, hR, ((sameLattice_mul h1 hr R).symm.trans hl).trans h2⟩

/-- C82: the conventional cell of a triclinic lattice is a property of the lattice: two bases of
one lattice, rotated or reflected in between, give the same conventional cell up to an isometry. -/
theorem C82_conventional {niggli : Cell ℝ → Except Err (Cell ℝ)} {c d : Cell ℝ}
    (h : Isometric c d) (hc : ReducesReciprocal niggli c) (hd : ReducesReciprocal niggli d) :
    ∃ Q : Cell ℝ, Q * Q.transpose = 1 ∧
      hpkotConventionalA niggli d = (hpkotConventionalA niggli c).map fun x => x * Q := by
  obtain ⟨r, r', h1, h2, h3, h4⟩ := hc
  obtain ⟨s, s', k1, k2, k3, k4⟩ := hd
  have hr := (recip_unit h1).ne_zero
  have hs := (recip_unit k1).ne_zero
  have hiso := isometric_trans_lattice hr (isometric_reciprocal h h1 k1) h3 k3
  have hr' : r'.det ≠ 0 := by
    obtain ⟨M, hM, e⟩ := h3.unimodular hr
    rw [e, det_mul, det_map_intCast]
    refine mul_ne_zero ?_ hr
    rcases hM with h | h <;> simp [h]
  have hm := C61_unique r' s' hr' hiso h4 k4
  obtain ⟨Q, hQ, e⟩ := sameMetric_exists r' s' hr' fun i j => (hm i j).symm
  have hinv : ∀ x : Cell ℝ, x.det ≠ 0 → ∃ y, getReciprocal y = .ok x := fun x hx => by
    obtain ⟨y, -, -, e⟩ := C03_involution x hx
    exact ⟨y, e⟩
  obtain ⟨c0, e1⟩ := hinv r' hr'
  have e2 : getReciprocal (c0 * Q) = .ok s' := by
    rw [getReciprocal_turn hQ, e1, e]; rfl
  refine ⟨Q, hQ, ?_⟩
  rw [hpkotA_identity h1 h2 e1, hpkotA_identity k1 k2 e2]
  exact hpkotConventionalA_turn hQ (fun _ => rfl) c0

/-- C82: the reduction `get_niggli` of the library is such a reduction, when the scalar products of
the reciprocal vectors are separated. -/
theorem C82_niggli (sp : Cell ℝ → ℝ → Except Err (Cell ℝ)) (e : ℝ) (impl : String)
    (hi : IsWulfric impl) (m : ℤ) (spacing : ℝ) {c r r' : Cell ℝ} (hr : getReciprocal c = .ok r)
    (hs : Separated spacing (absTol r e) (1 / 10 ^ 8) r)
    (h : getNiggli sp r e impl m = .ok r') :
    ReducesReciprocal (fun x => getNiggli sp x e impl m) c :=
  ⟨r, r', hr, h, (C11_same_lattice sp r e impl hi m r' h).2.1.symm,
    C13_getNiggli_partial sp r e impl hi m r' spacing hs h⟩

section
variable {lower : String → String} {getData : Cell ℝ → Atoms ℝ → Except Err SpglibData}
  {niggli : Cell ℝ → Except Err (Cell ℝ)}

theorem conventional_hpkotA {data : SpglibData} (ha : data.crystalFamily = "a") {conv : Cell ℝ}
    {cell : Cell ℝ} {atoms ca : Atoms ℝ} {convention : String}
    (hconv : lower convention = "hpkot")
    (h : getConventional lower getData niggli cell atoms convention (some data) = .ok (conv, ca)) :
    hpkotConventionalA niggli data.conventionalCell = .ok conv := by
  obtain ⟨d, ps, ts, h1, h2, -⟩ := getConventional_steps h
  have e := resolve_some h1
  subst e
  rw [hconv] at h2
  unfold conventionalParts at h2
  rw [if_pos (Or.inr rfl), if_pos ⟨rfl, ha⟩] at h2
  cases h3 : hpkotConventionalA niggli d.conventionalCell with
  | error e => rw [h3] at h2; cases h2
  | ok x =>
    simp only [h3, bind, Except.bind, pure, Except.pure] at h2
    cases h4 : rebase d.conventionalPositions d.conventionalCell x with
    | error e => rw [h4] at h2; cases h2
    | ok y => rw [h4] at h2; cases h2; rfl

theorem symbol_triclinic {data : SpglibData} (ha : data.crystalFamily = "a")
    (hp : data.centringType = "P") {cell : Cell ℝ} {atoms : Atoms ℝ} {s : String}
    (hl : lower "HPKOT" = "hpkot")
    (h : hpkotGetExtendedBlSymbol lower getData niggli cell atoms (some data) = .ok s) :
    ∃ conv, hpkotConventionalA niggli data.conventionalCell = .ok conv ∧
      hpkotTriclinicSymbol conv = .ok s := by
  unfold hpkotGetExtendedBlSymbol at h
  cases h1 : resolveData lower getData cell atoms (some data) with
  | error e => rw [h1] at h; cases h
  | ok d =>
    have e := resolve_some h1
    subst e
    have e1 : d.crystalFamily ++ d.centringType = "aP" := by rw [ha, hp]; rfl
    have e2 : hpkotSimpleSymbol "aP" d.spaceGroupNumber = none := by
      simp [hpkotSimpleSymbol]
    simp only [h1, bind, Except.bind, e1, e2] at h
    cases h2 : getConventional lower getData niggli cell atoms "HPKOT" (some d) with
    | error e => rw [h2] at h; cases h
    | ok p =>
      obtain ⟨conv, ca⟩ := p
      refine ⟨conv, conventional_hpkotA ha hl h2, ?_⟩
      simp only [h2] at h
      cases h3 : getParams conv with
      | error e => rw [h3] at h; cases h
      | ok q =>
        obtain ⟨a, b, c, al, be, ga⟩ := q
        have e3 : hpkotLengthSymbol "aP" a b c be = none := by
          simp [hpkotLengthSymbol]
        simpa only [h3, e3, if_true] using h

/-- C82: the extended Bravais lattice symbol of a triclinic crystal depends on the lattice only. -/
theorem C82_symbol {cell₁ cell₂ : Cell ℝ} {atoms₁ atoms₂ : Atoms ℝ} {data₁ data₂ : SpglibData}
    (fa₁ : data₁.crystalFamily = "a") (fp₁ : data₁.centringType = "P")
    (fa₂ : data₂.crystalFamily = "a") (fp₂ : data₂.centringType = "P")
    (hiso : Isometric data₁.conventionalCell data₂.conventionalCell)
    (hr₁ : ReducesReciprocal niggli data₁.conventionalCell)
    (hr₂ : ReducesReciprocal niggli data₂.conventionalCell)
    (hl : lower "HPKOT" = "hpkot") {s₁ s₂ : String}
    (h₁ : hpkotGetExtendedBlSymbol lower getData niggli cell₁ atoms₁ (some data₁) = .ok s₁)
    (h₂ : hpkotGetExtendedBlSymbol lower getData niggli cell₂ atoms₂ (some data₂) = .ok s₂) :
    s₁ = s₂ := by
  obtain ⟨c, a1, a2⟩ := symbol_triclinic fa₁ fp₁ hl h₁
  obtain ⟨d, b1, b2⟩ := symbol_triclinic fa₂ fp₂ hl h₂
  obtain ⟨Q, hQ, e⟩ := C82_conventional hiso hr₁ hr₂
  rw [a1, b1] at e
  have e : d = c * Q := by cases e; rfl
  rw [e, triclinicSymbol_turn hQ, a2] at b2
  cases b2; rfl

theorem allCoordinates_cell (c d r : Cell ℝ) (l : PyDict String (Vec ℝ)) :
    allCoordinates c r false l = allCoordinates d r false l := by
  induction l with
  | nil => rfl
  | cons p l ih =>
    unfold allCoordinates
    rw [ih]
    rfl

/-- C82: two descriptions of a triclinic crystal, whose standard cells span the same lattice up to
an isometry of space: both calls give the same path, and the special points are the same points of
the reciprocal space, up to that isometry. -/
theorem C82_path {cell₁ cell₂ : Cell ℝ} {atoms₁ atoms₂ : Atoms ℝ} {data₁ data₂ : SpglibData}
    (hn : data₁.spaceGroupNumber = data₂.spaceGroupNumber)
    (hn1 : 1 ≤ data₁.spaceGroupNumber ∧ data₁.spaceGroupNumber ≤ 2)
    (hf₁ : data₁.crystalFamily = family data₁.spaceGroupNumber)
    (hc₁ : data₁.centringType = centring data₁.spaceGroupNumber)
    (hf₂ : data₂.crystalFamily = family data₂.spaceGroupNumber)
    (hc₂ : data₂.centringType = centring data₂.spaceGroupNumber)
    (hiso : Isometric data₁.conventionalCell data₂.conventionalCell)
    (hr₁ : ReducesReciprocal niggli data₁.conventionalCell)
    (hr₂ : ReducesReciprocal niggli data₂.conventionalCell)
    (hl : lower "HPKOT" = "hpkot") (hl' : lower "hpkot" = "hpkot") {convention : String}
    (hconv : lower convention = "hpkot") (t : Bool) {path₁ path₂ : String}
    {pts₁ pts₂ : PyDict String (Vec ℝ)}
    (h₁ : getPathAndPoints lower getData niggli cell₁ atoms₁ (some data₁) convention t false =
      .ok (path₁, pts₁))
    (h₂ : getPathAndPoints lower getData niggli cell₂ atoms₂ (some data₂) convention t false =
      .ok (path₂, pts₂)) :
    path₂ = path₁ ∧ ∃ Q : Cell ℝ, Q * Q.transpose = 1 ∧
      pts₂ = pts₁.map fun x => (x.1, Matrix.vecMul x.2 Q) := by
  have hfam : ∀ n : ℤ, 1 ≤ n → n ≤ 2 → family n = "a" ∧ centring n = "P" := by
    intro n a b
    have : n = 1 ∨ n = 2 := by omega
    rcases this with rfl | rfl <;> decide +kernel
  obtain ⟨fa, fp⟩ := hfam _ hn1.1 hn1.2
  have fa1 := hf₁.trans fa
  have fp1 := hc₁.trans fp
  rw [hn] at fa fp
  have fa2 := hf₂.trans fa
  have fp2 := hc₂.trans fp
  obtain ⟨kp, raw, prim, pa, rprim, conv, ca, mt, a, b, c, al, be, ga, ra, rb, rg, s, -, g2, g3, g4,
    g5, g6, g7, g8, g9, ⟨-, g10, g12⟩, g11⟩ := hpkot_path_steps lower getData niggli cell₁ atoms₁ _
      data₁ (Or.inl rfl) ⟨hn1.1, by omega⟩ hf₁ hc₁ convention hl hl' hconv t false path₁ pts₁ h₁
  obtain ⟨kp', raw', prim', pa', rprim', conv', ca', mt', a', b', c', al', be', ga', ra', rb', rg',
    s', -, k2, k3, k4, k5, k6, k7, k8, k9, ⟨-, k10, k12⟩, k11⟩ := hpkot_path_steps lower getData niggli
      cell₂ atoms₂ _ data₂ (Or.inl rfl) ⟨by omega, by omega⟩ hf₂ hc₂ convention hl hl' hconv t false
      path₂ pts₂ h₂
  obtain ⟨Q, hQ, e⟩ := C82_conventional hiso hr₁ hr₂
  rw [conventional_hpkotA fa1 hconv g3, conventional_hpkotA fa2 hconv k3] at e
  have e : conv' = conv * Q := by cases e; rfl
  subst e
  rw [fa1, fp1] at g4 g7 g8 g9
  rw [fa2, fp2] at k4 k7 k8 k9
  rw [g4] at k4
  cases k4
  rw [getParams_turn hQ, g6] at k6
  cases k6
  have ep : prim' = prim * Q := by rw [k5, g5, Matrix.mul_assoc]
  rw [ep, getReciprocal_turn hQ, g2] at k2
  have er : rprim' = rprim * Q := by cases k2; rfl
  have es := C82_symbol fa1 fp1 fa2 fp2 hiso hr₁ hr₂ hl g12 k12
  subst es
  rw [g10] at k10
  cases k10
  rw [g9] at k9
  cases k9
  subst er
  rw [allCoordinates_cell cell₂ (cell₁ * Q), allCoordinates_turn hQ, ← hn] at k11
  cases hall : allCoordinates cell₁ rprim false raw with
  | error e => rw [hall] at g11; cases g11
  | ok pts =>
    simp only [hall, Except.map, bind, Except.bind, extendPath_turn] at g11 k11
    rw [g11] at k11
    cases k11
    refine ⟨rfl, Q, hQ, ?_⟩
    simp [turnPoints, vecMat_eq]
end

/-! ### A crystal in two bases -/

theorem long_dual {c a d : Cell ℝ} (h : getReciprocal c = .ok a) (ha : ∀ i, dot (a i) (a i) ≤ 36)
    (hs : SameLattice c d) (i : Fin 3) : 1 ≤ dot (d i) (d i) := by
  have hc := (recip_ok h).1
  obtain ⟨a', e, hdual, -⟩ := C02_dual_unique c hc
  rw [h] at e
  cases e
  have hdd := det_sameLattice hs hc
  obtain ⟨n, hn⟩ : d i ∈ latticePoints c := by
    rw [show latticePoints c = latticePoints d from hs]; exact row_mem_lattice d i
  have hne : ∃ k, n k ≠ 0 := by
    by_contra h0
    push Not at h0
    refine hdd ?_
    refine Matrix.det_eq_zero_of_row_eq_zero i fun j => ?_
    rw [hn]; simp [h0]
  obtain ⟨k, hk⟩ := hne
  have e : dot (a k) (d i) = 2 * Real.pi * n k := by
    have e0 := hdual k 0
    have e1 := hdual k 1
    have e2 := hdual k 2
    rw [hn]
    simp only [dot, Fin.sum_univ_three] at e0 e1 e2 ⊢
    have : (2 * Real.pi * n k : ℝ) = n 0 * (if k = 0 then 2 * Real.pi else 0) +
        n 1 * (if k = 1 then 2 * Real.pi else 0) + n 2 * (if k = 2 then 2 * Real.pi else 0) := by
      fin_cases k <;> simp <;> ring
    rw [this, ← e0, ← e1, ← e2]; ring
  have hcs := cauchy (a k) (d i)
  have h1 : (1 : ℝ) ≤ (n k : ℝ) ^ 2 := by
    have : 1 ≤ n k ^ 2 := by have := sq_nonneg (n k); have := pow_ne_zero 2 hk; omega
    exact_mod_cast this
  have hpi := Real.pi_gt_three
  have h36 : (36 : ℝ) ≤ dot (a k) (d i) ^ 2 := by
    rw [e, mul_pow]
    nlinarith
  have hd0 : 0 ≤ dot (d i) (d i) := by unfold dot; nlinarith [sq_nonneg (d i 0), sq_nonneg (d i 1), sq_nonneg (d i 2)]
  have := ha k
  nlinarith

theorem long_integer {A : Matrix (Fin 3) (Fin 3) ℤ} {d : Cell ℝ}
    (hA : (A.map (Int.cast : ℤ → ℝ)).det ≠ 0) (hs : SameLattice (A.map (Int.cast : ℤ → ℝ)) d)
    (i : Fin 3) : 1 ≤ dot (d i) (d i) := by
  have hdd := det_sameLattice hs hA
  obtain ⟨M, -, e⟩ := hs.unimodular hA
  have e : d = (M * A).map (Int.cast : ℤ → ℝ) := by
    rw [e]; exact (Matrix.map_mul (f := Int.castRingHom ℝ)).symm
  generalize M * A = B at e
  subst e
  have hne : ∃ j, B i j ≠ 0 := by
    by_contra h0
    push Not at h0
    refine hdd (Matrix.det_eq_zero_of_row_eq_zero i fun j => ?_)
    simp [h0]
  obtain ⟨j, hj⟩ := hne
  have key : 1 ≤ B i 0 ^ 2 + B i 1 ^ 2 + B i 2 ^ 2 := by
    have h0 := sq_nonneg (B i 0)
    have h1 := sq_nonneg (B i 1)
    have h2 := sq_nonneg (B i 2)
    have : B i j ^ 2 ≠ 0 := pow_ne_zero 2 hj
    fin_cases j <;> simp only [Fin.zero_eta, Fin.mk_one, Fin.reduceFinMk] at this <;> omega
  have : (1 : ℝ) ≤ (B i 0 : ℝ) ^ 2 + (B i 1 : ℝ) ^ 2 + (B i 2 : ℝ) ^ 2 := by exact_mod_cast key
  simp only [dot, Matrix.map_apply]
  linarith

/-- One atom, and a triclinic cell whose reciprocal vectors are integers: there is a path. -/
theorem integer_call {niggli : Cell ℝ → Except Err (Cell ℝ)} {A : Matrix (Fin 3) (Fin 3) ℤ}
    {c : Cell ℝ} (h : getReciprocal c = .ok (A.map (Int.cast : ℤ → ℝ)))
    (ha : ∀ i, dot (A.map (Int.cast : ℤ → ℝ) i) (A.map (Int.cast : ℤ → ℝ) i) ≤ 36)
    (hnig : ∀ r r', niggli r = .ok r' → SameLattice r r') (hr : ReducesReciprocal niggli c)
    (t rel : Bool) : ∃ path pts, getPathAndPoints String.toLower (fun _ _ => .error .runtimeError)
      niggli c boxAtoms (some (oneData c 1 "a" "P")) "HPKOT" t rel = .ok (path, pts) := by
  have hl : String.toLower "HPKOT" = "hpkot" := by decide +kernel
  have hdet := (recip_ok h).1
  have hsnd : SoundData (oneData c 1 "a" "P") boxAtoms :=
    one_sound _ hdet 1 (by norm_num) (by decide +kernel) (by decide +kernel) (by decide +kernel)
  have hA := (recip_unit h).ne_zero
  have hlat : ∀ conv ca, getConventional String.toLower (fun _ _ => .error .runtimeError) niggli c
      boxAtoms "HPKOT" (some (oneData c 1 "a" "P")) = .ok (conv, ca) → SameLattice c conv := by
    intro conv ca hc
    have := conventional_hpkotA (data := oneData c 1 "a" "P") rfl hl hc
    exact (C36_triclinic_hpkot niggli hnig c conv this).1
  refine C77_hpkot (one_resolve _ _ _ _ _ _) hsnd hl (by decide +kernel) hl hnig
    (one_resolve _ _ _ _ _ _) (show family 1 ++ centring 1 ≠ "hR" by decide +kernel) hdet ?_ ?_ ?_
    t rel
  · intro _
    obtain ⟨r, r', h1, h2, h3, -⟩ := hr
    have e : r = A.map (Int.cast : ℤ → ℝ) := by
      rw [h] at h1
      simp only [Except.ok.injEq] at h1
      exact h1.symm
    subst e
    exact ⟨_, r', h, h2, det_sameLattice h3 hA, fun i => norm_above (long_integer hA h3 i)⟩
  · intro conv ca hc i
    exact norm_above (long_dual h ha (hlat conv ca hc) i)
  · intro conv ca m hc hm
    rw [show (oneData c 1 "a" "P").crystalFamily ++ (oneData c 1 "a" "P").centringType = "a" ++ "P"
      from rfl, one_matrix (by decide)] at hm
    cases hm
    rw [transpose_one, one_mul]
    have hs := hlat conv ca hc
    have := one_sparse (det_sameLattice hs hdet) ((oneData c 1 "a" "P").symprec + 1 / 10 ^ 8)
      (by norm_num [oneData])
    have h0 : SamePoints c [0] conv [0] := .cons (by funext j; simp [cartesian]) .nil
    rwa [crystal_sameLattice [1] h0 hs] at this

/-- The hypotheses of C82 are met: two different bases of one lattice, one of them turned by a quarter
of a turn, one atom, and the reduction of the library with the default tolerance. -/
example (sp : Cell ℝ → ℝ → Except Err (Cell ℝ)) (t : Bool) : ∃ (c d : Cell ℝ) (m : ℤ),
    Isometric c d ∧ ¬ SameMetric c d ∧
    ReducesReciprocal (fun x => getNiggli sp x defaultRel "wulfric" m) c ∧
    ReducesReciprocal (fun x => getNiggli sp x defaultRel "wulfric" m) d ∧
    ∃ path pts Q, Q * Q.transpose = 1 ∧
      getPathAndPoints String.toLower (fun _ _ => .error .runtimeError)
        (fun x => getNiggli sp x defaultRel "wulfric" m) c boxAtoms (some (oneData c 1 "a" "P"))
        "HPKOT" t false = .ok (path, pts) ∧
      getPathAndPoints String.toLower (fun _ _ => .error .runtimeError)
        (fun x => getNiggli sp x defaultRel "wulfric" m) d boxAtoms (some (oneData d 1 "a" "P"))
        "HPKOT" t false = .ok (path, pts.map fun x => (x.1, Matrix.vecMul x.2 Q)) := by
  have hi : IsWulfric "wulfric" := by unfold IsWulfric; decide +kernel
  set a : Cell ℝ := !![2, 0, 0; 1, 3, 0; 1, 1, 4] with ea
  set b : Cell ℝ := !![0, 2, 0; -3, 1, 0; -4, 2, 4] with eb
  have hda : a.det ≠ 0 := by simp [ea, det_fin_three]
  have hdb : b.det ≠ 0 := by simp [eb, det_fin_three]
  have hiso : Isometric a b := by
    refine ⟨!![0, 1, 0; -1, 0, 0; 0, 0, 1], ?_, ?_⟩
    · ext i j; fin_cases i <;> fin_cases j <;> simp [Matrix.mul_apply, Fin.sum_univ_three]
    · have := sameLattice_of_unimodular (K := ℝ) !![1, 0, 0; 0, 1, 0; 0, 1, 1]
        (by simp [det_fin_three]) (a * !![0, 1, 0; -1, 0, 0; 0, 0, 1])
      convert this.symm using 1
      ext i j
      fin_cases i <;> fin_cases j <;>
        simp [ea, eb, Matrix.mul_apply, Fin.sum_univ_three] <;> norm_num
  have hsep : Separated 1 (absTol a defaultRel) (1 / 10 ^ 8) a := by
    have hd : |a.det| = 24 := by simp [ea, det_fin_three]; norm_num
    have hb : (24 : ℝ) ^ ((1 : ℝ) / 3) ≤ 27 ^ ((1 : ℝ) / 3) :=
      Real.rpow_le_rpow (by norm_num) (by norm_num) (by norm_num)
    have h27 : (27 : ℝ) ^ ((1 : ℝ) / 3) = 3 := by
      rw [show (27 : ℝ) = 3 ^ (3 : ℝ) by norm_num, ← Real.rpow_mul (by norm_num)]; norm_num
    rw [h27] at hb
    have h0 : (0 : ℝ) ≤ 24 ^ ((1 : ℝ) / 3) := by positivity
    refine integer_separated _ ?_ _ _ ?_ ?_ (by norm_num) (by norm_num)
    · intro i j
      refine ⟨(!![2, 0, 0; 1, 3, 0; 1, 1, 4] : Matrix (Fin 3) (Fin 3) ℤ) i j, ?_⟩
      fin_cases i <;> fin_cases j <;> simp [ea]
    · unfold absTol defaultRel; rw [hd]; positivity
    · unfold absTol defaultRel; rw [hd]; norm_num at hb ⊢; linarith
  obtain ⟨N, r₁, r₂, -, -, hN⟩ := C61_params sp a b defaultRel "wulfric" hi 1 hda hiso hsep
  obtain ⟨h1, h2⟩ := hN N le_rfl
  obtain ⟨c, c1, -, c2⟩ := C03_involution a hda
  obtain ⟨d, d1, -, d2⟩ := C03_involution b hdb
  have red1 := C82_niggli sp _ _ hi _ 1 c2 hsep h1
  have red2 := C82_niggli sp _ _ hi _ 1 d2 (separated_isometric hda hiso hsep) h2
  have hcd := isometric_reciprocal hiso c1 d1
  have hnig : ∀ r r', getNiggli sp r defaultRel "wulfric" N = .ok r' → SameLattice r r' :=
    fun r r' h => (C11_same_lattice sp r _ _ hi _ r' h).2.1.symm
  have ea' : a = (!![2, 0, 0; 1, 3, 0; 1, 1, 4] : Matrix (Fin 3) (Fin 3) ℤ).map Int.cast := by
    ext i j; fin_cases i <;> fin_cases j <;> simp [ea]
  have eb' : b = (!![0, 2, 0; -3, 1, 0; -4, 2, 4] : Matrix (Fin 3) (Fin 3) ℤ).map Int.cast := by
    ext i j; fin_cases i <;> fin_cases j <;> simp [eb]
  have hl : String.toLower "HPKOT" = "hpkot" := by decide +kernel
  have hl' : String.toLower "hpkot" = "hpkot" := by decide +kernel
  obtain ⟨path₁, pts₁, p1⟩ := integer_call (ea' ▸ c2)
    (fun i => by fin_cases i <;> simp [dot] <;> norm_num) hnig red1 t false
  obtain ⟨path₂, pts₂, p2⟩ := integer_call (eb' ▸ d2)
    (fun i => by fin_cases i <;> simp [dot] <;> norm_num) hnig red2 t false
  obtain ⟨e1, Q, hQ, e2⟩ := C82_path (data₁ := oneData c 1 "a" "P") (data₂ := oneData d 1 "a" "P")
    rfl (by simp [oneData]) (show "a" = family 1 by decide +kernel)
    (show "P" = centring 1 by decide +kernel) (show "a" = family 1 by decide +kernel)
    (show "P" = centring 1 by decide +kernel) hcd red1 red2 hl hl' hl t p1 p2
  subst e1 e2
  refine ⟨c, d, N, hcd, ?_, red1, red2, _, _, Q, hQ, p1, p2⟩
  clear p1 p2
  intro hm
  obtain ⟨Q, hQ, e⟩ := sameMetric_exists c d (recip_ok c2).1 fun i j => (hm i j).symm
  rw [e, getReciprocal_turn hQ, c2] at d2
  have e3 : b = a * Q := by
    simp only [Except.map, Except.ok.injEq] at d2
    exact d2.symm
  have := sameMetric_mul a Q hQ 2 2
  rw [← e3] at this
  simp [ea, eb, dot] at this
  norm_num at this

end Wulfric
