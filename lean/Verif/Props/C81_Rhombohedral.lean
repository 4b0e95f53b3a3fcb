import Verif.Props.C63_SameCrystal
import Verif.Props.C78_Letters

/-! # C81: rhombohedral crystals in the HPKOT convention -/

namespace Wulfric

open Matrix _root_.Spec Wulfric.Spec

/-- A primitive cell of the rhombohedral lattice on hexagonal axes (obverse setting). -/
noncomputable def obverse (conv : Cell ℝ) : Cell ℝ :=
  (!![2 / 3, 1 / 3, 1 / 3; -1 / 3, 1 / 3, 1 / 3; -1 / 3, -2 / 3, 1 / 3] : Cell ℝ) * conv

/-- It is one. -/
theorem obverse_lattice (conv : Cell ℝ) :
    latticePoints (obverse conv) = centredLattice (translations ℝ 'R') conv := by
  ext v
  constructor
  · rintro ⟨n, rfl⟩
    obtain ⟨q, hq⟩ : ∃ q : ℤ, n 0 + n 1 + n 2 = 3 * q ∨ n 0 + n 1 + n 2 = 3 * q + 1 ∨
        n 0 + n 1 + n 2 = 3 * q + 2 := ⟨(n 0 + n 1 + n 2) / 3, by omega⟩
    rcases hq with h | h | h
    · refine ⟨![2 * q - n 1 - n 2, q - n 2, q], ![0, 0, 0], by simp [translations], ?_⟩
      have h' : (n 0 : ℝ) = 3 * q - n 1 - n 2 := by
        have : (n 0 + n 1 + n 2 : ℝ) = 3 * q := by exact_mod_cast h
        linarith
      funext j
      simp [obverse, Matrix.mul_apply, Fin.sum_univ_three, h']
      ring
    · refine ⟨![2 * q - n 1 - n 2, q - n 2, q], ![2 / 3, 1 / 3, 1 / 3], by simp [translations], ?_⟩
      have h' : (n 0 : ℝ) = 3 * q + 1 - n 1 - n 2 := by
        have : (n 0 + n 1 + n 2 : ℝ) = 3 * q + 1 := by exact_mod_cast h
        linarith
      funext j
      simp [obverse, Matrix.mul_apply, Fin.sum_univ_three, h']
      ring
    · refine ⟨![2 * q + 1 - n 1 - n 2, q - n 2, q], ![1 / 3, 2 / 3, 2 / 3], by simp [translations], ?_⟩
      have h' : (n 0 : ℝ) = 3 * q + 2 - n 1 - n 2 := by
        have : (n 0 + n 1 + n 2 : ℝ) = 3 * q + 2 := by exact_mod_cast h
        linarith
      funext j
      simp [obverse, Matrix.mul_apply, Fin.sum_univ_three, h']
      ring
  · rintro ⟨n, t, ht, rfl⟩
    simp only [translations, List.mem_cons, List.not_mem_nil, or_false] at ht
    rcases ht with rfl | rfl | rfl
    · refine ⟨![n 0 + n 2, n 1 - n 0 + n 2, n 2 - n 1], ?_⟩
      funext j
      simp [obverse, Matrix.mul_apply, Fin.sum_univ_three]
      ring
    · refine ⟨![n 0 + n 2 + 1, n 1 - n 0 + n 2, n 2 - n 1], ?_⟩
      funext j
      simp [obverse, Matrix.mul_apply, Fin.sum_univ_three]
      ring
    · refine ⟨![n 0 + n 2 + 1, n 1 - n 0 + n 2 + 1, n 2 - n 1], ?_⟩
      funext j
      simp [obverse, Matrix.mul_apply, Fin.sum_univ_three]
      ring

/-- The cell the code makes. -/
theorem hR_cell {matrix conv : Cell ℝ}
    (hm : (hpkotConventionalToPrimitive ℝ).get? "hR" = some matrix) :
    matrix.transpose * conv = (3 / 2 : ℝ) • obverse conv := by
  obtain rfl : !![1, -1 / 2, -1 / 2; 1 / 2, 1 / 2, -1; 1 / 2, 1 / 2, 1 / 2] = matrix :=
    Option.some.inj hm
  unfold obverse
  rw [← Matrix.smul_mul]
  congr 1
  ext i j
  fin_cases i <;> fin_cases j <;> simp <;> norm_num

section
variable (lower : String → String) (getData : Cell ℝ → Atoms ℝ → Except Err SpglibData)
  (niggli : Cell ℝ → Except Err (Cell ℝ)) (cell : Cell ℝ) (atoms : Atoms ℝ)
  (given : Option SpglibData) (data : SpglibData)
  (hd : given = some data ∨ (given = none ∧ getData cell atoms = .ok data))
  (hf : data.crystalFamily ++ data.centringType = "hR") (convention : String)
  (hconv : lower convention = "hpkot") (hl' : lower "hpkot" = "hpkot")

include hd hf hconv hl'

/-- C81, the cell: for a rhombohedral crystal `get_primitive` with HPKOT returns the primitive cell
of the crystal with every vector half as long again: its volume is 27/8 of the right one. -/
theorem C81_cell {prim : Cell ℝ} {pa : Atoms ℝ}
    (h : getPrimitive lower getData niggli cell atoms convention given = .ok (prim, pa)) :
    latticePoints (obverse data.conventionalCell) =
        centredLattice (translations ℝ 'R') data.conventionalCell ∧
      prim = (3 / 2 : ℝ) • obverse data.conventionalCell ∧
      prim.det = 27 / 8 * (obverse data.conventionalCell).det := by
  obtain ⟨d, ps, ts, h1, h2, -⟩ := getPrimitive_steps h
  obtain rfl := resolve_given hd h1
  rw [hconv] at h2
  obtain ⟨-, conv, ca, matrix, qs, ws, e1, e2, -, e4, -⟩ := primitiveParts_steps (by decide) h2
  obtain ⟨d2, qs2, cts, g1, g2, -⟩ := getConventional_steps e1
  obtain rfl := resolve_given (.inl rfl) g1
  rw [hl'] at g2
  have hfa : d2.crystalFamily ≠ "a" := by
    intro e
    rw [e] at hf
    have := congrArg (fun s => s.toList.head?) hf
    simp at this
  unfold conventionalParts at g2
  rw [if_pos (by decide), if_neg (fun e => hfa e.2)] at g2
  cases g2
  have e2 := e2 rfl
  rw [hf] at e2
  refine ⟨obverse_lattice _, ?_, ?_⟩
  · rw [e4, hR_cell e2]
  · rw [e4, hR_cell e2, det_smul]
    norm_num

/-- C81, the crystal: whenever the positions and types returned are (up to the rounding) the given
crystal, the crystal has the translation by half a vector of its primitive cell among its symmetries
(up to twice the rounding), that is, its lattice is finer than the one spglib found. -/
theorem C81_crystal {prim : Cell ℝ} {pa : Atoms ℝ}
    (hst : Standardised data.given "hR" data.conventionalCell data.conventionalPositions
      data.conventionalTypes data.primitiveCell data.primitivePositions data.primitiveTypes)
    (h : getPrimitive lower getData niggli cell atoms convention given = .ok (prim, pa))
    (v : Vec ℝ) (ps : List (Vec ℝ)) (ts : List ℤ)
    (w1 : NearBy (1 / 2 / 10 ^ 8) prim (crystal prim ps ts) (moved v data.given))
    (w2 : NearBy (1 / 2 / 10 ^ 8) prim (moved v data.given) (crystal prim ps ts)) :
    NearBy (1 / 10 ^ 8) prim
      (moved (cartesian data.conventionalCell ![1 / 3, 1 / 6, 1 / 6]) data.given) data.given := by
  obtain ⟨-, hprim, -⟩ := C81_cell lower getData niggli cell atoms given data hd hf convention hconv
    hl' h
  have hsym : ∀ l x, (l, x) ∈ data.given →
      (l, x - cartesian data.conventionalCell ![2 / 3, 1 / 3, 1 / 3]) ∈ data.given := by
    intro l x hx
    obtain ⟨u, hu⟩ := hst.conventional
    have ht := hst.centred ![2 / 3, 1 / 3, 1 / 3] (by
      have : hpkotLetter "hR" = 'R' := by decide +kernel
      rw [this]
      simp [translations])
    unfold Symmetry at ht
    rw [hu] at ht
    have h1 : (l, x + u) ∈ moved u data.given := by
      show (l, x + u - u) ∈ data.given
      rwa [add_sub_cancel_right]
    rw [← ht] at h1
    have h2 : (l, x + u - cartesian data.conventionalCell ![2 / 3, 1 / 3, 1 / 3] - u) ∈
      data.given := h1
    rwa [add_sub_right_comm, add_sub_cancel_right] at h2
  rintro ⟨l, x⟩ hx
  have hx : (l, x - cartesian data.conventionalCell ![1 / 3, 1 / 6, 1 / 6]) ∈ data.given := hx
  obtain ⟨⟨l', b⟩, hb, hl, e, he, hxb⟩ := w2
    (l, x - cartesian data.conventionalCell ![1 / 3, 1 / 6, 1 / 6] + v) (by
      show (l, _ - v) ∈ data.given
      rwa [add_sub_cancel_right])
  obtain rfl : l = l' := hl
  have hb' : (l, b + cartesian prim ![1, 0, 0]) ∈ crystal prim ps ts := by
    obtain ⟨i, p, n, k1, k2, k3⟩ := hb
    refine ⟨i, p, n + ![1, 0, 0], k1, k2, ?_⟩
    have k3 : b = cartesian prim fun j => p j + n j := k3
    funext j
    simp [k3, cartesian]
    ring
  obtain ⟨⟨l', c⟩, hc, hl, e', he', hbc⟩ := w1 _ hb'
  obtain rfl : l = l' := hl
  have hc : (l, c - v) ∈ data.given := hc
  refine ⟨_, hsym _ _ hc, rfl, fun j => e j + e' j, fun j => ?_, ?_⟩
  · have a1 := abs_le.1 (he j)
    have a2 := abs_le.1 (he' j)
    norm_num at a1 a2
    rw [abs_le]
    norm_num
    constructor <;> linarith
  · funext j
    have a1 := congrFun hxb j
    have a2 := congrFun hbc j
    have a3 : cartesian prim ![1, 0, 0] j =
        3 / 2 * cartesian data.conventionalCell ![2 / 3, 1 / 3, 1 / 3] j := by
      rw [hprim]
      simp [cartesian, obverse, Matrix.vecMul, dotProduct, Fin.sum_univ_three]
    have a4 : cartesian data.conventionalCell ![1 / 3, 1 / 6, 1 / 6] j =
        1 / 2 * cartesian data.conventionalCell ![2 / 3, 1 / 3, 1 / 3] j := by
      simp [cartesian]
      ring
    have a5 : cartesian prim (fun j => e j + e' j) j = cartesian prim e j + cartesian prim e' j := by
      simp only [cartesian]
      ring
    simp only [Pi.sub_apply, Pi.add_apply] at a1 a2 ⊢
    rw [a5]
    linarith

/-- C81, crystals with one atom in the primitive cell: what `get_primitive` returns is never the
crystal that was given, whatever the origin. -/
theorem C81_never {prim : Cell ℝ} {pa : Atoms ℝ}
    (hst : Standardised data.given "hR" data.conventionalCell data.conventionalPositions
      data.conventionalTypes data.primitiveCell data.primitivePositions data.primitiveTypes)
    (hdet : data.conventionalCell.det ≠ 0) (hne : data.given.Nonempty)
    (hone : ∀ a ∈ data.given, ∀ b ∈ data.given,
      a.2 - b.2 ∈ centredLattice (translations ℝ 'R') data.conventionalCell)
    (h : getPrimitive lower getData niggli cell atoms convention given = .ok (prim, pa))
    (v : Vec ℝ) (ps : List (Vec ℝ)) (ts : List ℤ) :
    ¬ (NearBy (1 / 2 / 10 ^ 8) prim (crystal prim ps ts) (moved v data.given) ∧
      NearBy (1 / 2 / 10 ^ 8) prim (moved v data.given) (crystal prim ps ts)) := by
  rintro ⟨w1, w2⟩
  have hn := C81_crystal lower getData niggli cell atoms given data hd hf convention hconv hl' hst h v
    ps ts w1 w2
  obtain ⟨hlat, hprim, -⟩ := C81_cell lower getData niggli cell atoms given data hd hf convention
    hconv hl' h
  obtain ⟨⟨l, a⟩, ha⟩ := hne
  obtain ⟨⟨l', b⟩, hb, -, e, he, hab⟩ := hn (l, a + cartesian data.conventionalCell
    ![1 / 3, 1 / 6, 1 / 6]) (by
      show (l, _ - _) ∈ data.given
      rwa [add_sub_cancel_right])
  have hl := hone _ ha _ hb
  rw [← hlat] at hl
  obtain ⟨n, hn⟩ := hl
  have hod : IsUnit (obverse data.conventionalCell).det := by
    unfold obverse
    rw [det_mul, isUnit_iff_ne_zero]
    refine mul_ne_zero ?_ hdet
    simp [det_fin_three]
    norm_num
  have key : ((fun i => (n i : ℝ) + ![1 / 2, 0, 0] i - 3 / 2 * e i) : Fin 3 → ℝ) ᵥ*
      obverse data.conventionalCell = 0 := by
    funext j
    have a1 := congrFun hab j
    have a2 := congrFun hn j
    have a4 : cartesian data.conventionalCell ![1 / 3, 1 / 6, 1 / 6] j =
        1 / 2 * obverse data.conventionalCell 0 j := by
      simp [cartesian, obverse, Matrix.mul_apply, Fin.sum_univ_three]
      ring
    have a5 : cartesian prim e j = 3 / 2 * (e 0 * obverse data.conventionalCell 0 j +
        e 1 * obverse data.conventionalCell 1 j + e 2 * obverse data.conventionalCell 2 j) := by
      rw [hprim]
      simp only [cartesian, Matrix.smul_apply, smul_eq_mul]
      ring
    simp only [Pi.sub_apply, Pi.add_apply, Fin.sum_univ_three] at a1 a2
    rw [a4, a5] at a1
    simp only [Matrix.vecMul, dotProduct, Fin.sum_univ_three, Pi.zero_apply]
    simp
    linarith
  have h0 := Matrix.eq_zero_of_vecMul_eq_zero hod.ne_zero key
  have h0 := congrFun h0 0
  simp at h0
  have hb := abs_le.1 (he 0)
  norm_num at hb
  have hn0 : n 0 = 0 ∨ 1 ≤ n 0 ∨ n 0 ≤ -1 := by omega
  rcases hn0 with h | h | h
  · rw [h] at h0
    norm_num at h0
    linarith
  · have : (1 : ℝ) ≤ n 0 := by exact_mod_cast h
    linarith
  · have : (n 0 : ℝ) ≤ -1 := by exact_mod_cast h
    linarith

/-- C81, the points: the reciprocal cell, and with it all points, is 2/3 of that of the crystal. -/
theorem C81_reciprocal {prim r right : Cell ℝ} {pa : Atoms ℝ}
    (h : getPrimitive lower getData niggli cell atoms convention given = .ok (prim, pa))
    (hr : getReciprocal prim = .ok r)
    (hr' : getReciprocal (obverse data.conventionalCell) = .ok right) : r = (2 / 3 : ℝ) • right := by
  obtain ⟨-, hprim, -⟩ := C81_cell lower getData niggli cell atoms given data hd hf convention
    hconv hl' h
  obtain ⟨hd1, rfl⟩ := recip_ok hr
  obtain ⟨hd2, rfl⟩ := recip_ok hr'
  rw [hprim]
  have : ((3 / 2 : ℝ) • obverse data.conventionalCell)⁻¹ =
      (2 / 3 : ℝ) • (obverse data.conventionalCell)⁻¹ := by
    refine Matrix.inv_eq_left_inv ?_
    rw [Matrix.smul_mul, Matrix.mul_smul, smul_smul,
      Matrix.nonsing_inv_mul _ (isUnit_iff_ne_zero.2 hd2)]
    norm_num
  rw [this, transpose_smul, smul_comm]

end

/-- C81, the point "T", which the tables put at a corner of the zone (half the sum of the reciprocal
vectors, up to the sign of one): it is returned at a third of that sum, which time reversal does not
leave in place. -/
theorem C81_T (lower : String → String) (getData : Cell ℝ → Atoms ℝ → Except Err SpglibData)
    (niggli : Cell ℝ → Except Err (Cell ℝ)) (cell : Cell ℝ) (atoms : Atoms ℝ)
    (given : Option SpglibData) (data : SpglibData)
    (hd : given = some data ∨ (given = none ∧ getData cell atoms = .ok data))
    (hn : 1 ≤ data.spaceGroupNumber ∧ data.spaceGroupNumber ≤ 230)
    (hf : data.crystalFamily = family data.spaceGroupNumber)
    (hc : data.centringType = centring data.spaceGroupNumber)
    (hR : family data.spaceGroupNumber ++ centring data.spaceGroupNumber = "hR")
    (convention : String) (hl : lower "HPKOT" = "hpkot") (hl' : lower "hpkot" = "hpkot")
    (hconv : lower convention = "hpkot") (t : Bool) (path : String) (pts : PyDict String (Vec ℝ))
    (h : getPathAndPoints lower getData niggli cell atoms given convention t false =
      .ok (path, pts)) :
    ∃ right v, ∃ s : ℝ, getReciprocal (obverse data.conventionalCell) = .ok right ∧
      pts.get? "T" = some v ∧ (s = 1 ∨ s = -1) ∧
      v = (1 / 3 : ℝ) • (right 0 + s • right 1 + right 2) ∧ ¬ TimeInvariant right v := by
  obtain ⟨kpath, raw, prim, pa', r, conv, ca, matrix, a, b, c, al, be, ga, ra, rb, rg, s',
    s1, s2, s3, s4, s5, s6, s7, s8, s9, ⟨s10, -, s10'⟩, s11⟩ := hpkot_path_steps lower getData niggli
      cell atoms given data hd hn hf hc convention hl hl' hconv t false path pts h
  have hf' : data.crystalFamily ++ data.centringType = "hR" := by rw [hf, hc, hR]
  obtain ⟨-, hprim, hpd⟩ := C81_cell lower getData niggli cell atoms (some data) data (.inl rfl) hf'
    convention hconv hl' s1
  have hdet : (obverse data.conventionalCell).det ≠ 0 := by
    intro e
    rw [e, mul_zero] at hpd
    exact (recip_ok s2).1 hpd
  obtain ⟨right, hr', -⟩ := C03_involution _ hdet
  have hrr := C81_reciprocal lower getData niggli cell atoms (some data) data (.inl rfl) hf'
    convention hconv hl' s1 s2 hr'
  obtain ⟨s, hs, hT⟩ : ∃ s : ℝ, (s = 1 ∨ s = -1) ∧ ("T", ![1 / 2, s / 2, 1 / 2]) ∈ raw := by
    rw [hf'] at s7 s9
    cases s7 with
    | hR1 _ =>
      simp [hpkotPointsOf] at s9
      subst s9
      exact ⟨1, .inl rfl, List.mem_of_getElem? (i := 1) rfl⟩
    | hR2 _ =>
      simp [hpkotPointsOf] at s9
      subst s9
      exact ⟨-1, .inr rfl, List.mem_of_getElem? (i := 1) rfl⟩
    | _ q => exact absurd q (by decide)
  have hv := table_point s10 s11 hT
  have e3 : (![1 / 2, s / 2, 1 / 2] : Vec ℝ) ᵥ* r =
      (1 / 3 : ℝ) • (right 0 + s • right 1 + right 2) := by
    rw [hrr]
    funext j
    simp [Matrix.vecMul, dotProduct, Fin.sum_univ_three]
    ring
  refine ⟨right, _, s, hr', hv, hs, e3, ?_⟩
  rintro ⟨n, hn'⟩
  have hu := recip_unit hr'
  have key : (![(n 0 : ℝ) - 2 / 3, n 1 - 2 / 3 * s, n 2 - 2 / 3] : Fin 3 → ℝ) ᵥ* right = 0 := by
    funext j
    have := congrFun hn' j
    simp only [e3, Pi.sub_apply, Pi.neg_apply, Pi.smul_apply, Pi.add_apply, smul_eq_mul,
      Fin.sum_univ_three] at this
    simp [Matrix.vecMul, dotProduct, Fin.sum_univ_three]
    linarith
  have h0 := congrFun (Matrix.eq_zero_of_vecMul_eq_zero hu.ne_zero key) 0
  simp at h0
  have h1 : (3 * n 0 : ℝ) = 2 := by linarith
  have h2 : 3 * n 0 = 2 := by exact_mod_cast h1
  omega

end Wulfric
