import Verif.Lemmas.Total
import Verif.Lemmas.ZonePath
import Verif.Lemmas.Samples
import Verif.Lemmas.ScShape
import Verif.Props.C41_Variations
import Verif.Props.C45_Kpoints
import Verif.Props.C73_Describe
import Verif.Props.C74_Precomputed

/-! # C77: no crystal that spglib understands is refused -/

namespace Wulfric

open Matrix _root_.Spec Wulfric.Spec

theorem distinct_transfer {c d : Cell ℝ} {ps qs : List (Vec ℝ)} (hc : c.det ≠ 0)
    (hl : SameLattice c d) (h : SamePoints c ps d qs) (hd : DistinctSites ps) : DistinctSites qs := by
  intro i j p q hp hq ⟨n, hn⟩
  have hlen := h.length_eq
  obtain ⟨hi, rfl⟩ := List.getElem?_eq_some_iff.1 hp
  obtain ⟨hj, rfl⟩ := List.getElem?_eq_some_iff.1 hq
  refine hd i j ps[i] ps[j] (List.getElem?_eq_getElem _) (List.getElem?_eq_getElem _) ?_
  have e1 : cartesian c ps[i] = cartesian d qs[i] :=
    (List.forall₂_iff_get.1 h).2 i (by omega) hi
  have e2 : cartesian c ps[j] = cartesian d qs[j] :=
    (List.forall₂_iff_get.1 h).2 j (by omega) hj
  have : cartesian d (fun k => (n k : ℝ)) ∈ latticePoints c := by
    rw [show latticePoints c = latticePoints d from hl]
    exact (mem_latticePoints d _).2 ⟨n, rfl⟩
  obtain ⟨m, hm⟩ := (mem_latticePoints c _).1 this
  refine ⟨m, fun k => ?_⟩
  have e : cartesian c (fun k => ps[i] k - ps[j] k) = cartesian c fun k => (m k : ℝ) := by
    rw [cartesian_sub, e1, e2, ← hm, ← cartesian_sub]
    congr 1
    ext k
    exact hn k
  exact congrFun (cartesian_inj hc e) k

theorem det_sameLattice {c d : Cell ℝ} (h : SameLattice c d) (hc : c.det ≠ 0) : d.det ≠ 0 := by
  obtain ⟨M, hM, rfl⟩ := h.unimodular hc
  rw [det_mul]
  refine mul_ne_zero ?_ hc
  have : (M.map (Int.cast : ℤ → ℝ)).det = (M.det : ℝ) := by
    rw [show (M.map (Int.cast : ℤ → ℝ)) = (Int.castRingHom ℝ).mapMatrix M from rfl,
      ← RingHom.map_det]
    rfl
  rw [this]
  rcases hM with e | e <;> rw [e] <;> norm_num

/-- Both tables of matrices have an entry for every space group. -/
theorem matrix_exists {n : ℤ} (hn : 1 ≤ n ∧ n ≤ 230) (conv0 : String) :
    ∃ matrix, primitiveMatrix conv0 (family n ++ centring n) = .ok matrix ∧
      (conv0 = "hpkot" → (hpkotConventionalToPrimitive ℝ).get? (family n ++ centring n) =
        some matrix) ∧
      (conv0 ≠ "hpkot" → (scConventionalToPrimitive ℝ).get? (family n ++ centring n) =
        some matrix) := by
  have hs := symbols_inside _ (Finset.mem_Icc.2 hn)
  generalize family n ++ centring n = s at hs
  unfold primitiveMatrix PyDict.getItem
  by_cases hc : conv0 = "hpkot"
  · have : ∃ m, (hpkotConventionalToPrimitive ℝ).get? s = some m := by
      simp only [bravaisLattices, List.mem_cons, List.not_mem_nil, or_false] at hs
      rcases hs with rfl | rfl | rfl | rfl | rfl | rfl | rfl | rfl | rfl | rfl | rfl | rfl | rfl |
        rfl | rfl <;> exact ⟨_, rfl⟩
    obtain ⟨m, hm⟩ := this
    refine ⟨m, ?_, fun _ => hm, fun e => absurd hc e⟩
    rw [if_pos hc, hm]
  · have : ∃ m, (scConventionalToPrimitive ℝ).get? s = some m := by
      simp only [bravaisLattices, List.mem_cons, List.not_mem_nil, or_false] at hs
      rcases hs with rfl | rfl | rfl | rfl | rfl | rfl | rfl | rfl | rfl | rfl | rfl | rfl | rfl |
        rfl | rfl <;> exact ⟨_, rfl⟩
    obtain ⟨m, hm⟩ := this
    refine ⟨m, ?_, fun e => absurd e hc, fun _ => hm⟩
    rw [if_neg hc, hm]

/-- What is expected of the data for the crystal: family and centring are those of the space group;
the lists of the given atoms have one entry for each atom; spglib's two cells are cells of the given
crystal, are not flat, and list each of their atoms once. -/
structure SoundData (data : SpglibData) (atoms : Atoms ℝ) : Prop where
  number : 1 ≤ data.spaceGroupNumber ∧ data.spaceGroupNumber ≤ 230
  family : data.crystalFamily = _root_.Spec.family data.spaceGroupNumber
  centring : data.centringType = _root_.Spec.centring data.spaceGroupNumber
  types : ∀ l, atoms.spglibTypes = some l → data.original.types = l
  names : ∀ l, atoms.names = some l → l.length = data.original.types.length
  species : ∀ l, atoms.species = some l → l.length = data.original.types.length
  standardised : Standardised data.given
    (_root_.Spec.family data.spaceGroupNumber ++ _root_.Spec.centring data.spaceGroupNumber)
    data.conventionalCell data.conventionalPositions data.conventionalTypes data.primitiveCell
    data.primitivePositions data.primitiveTypes
  conventional_det : data.conventionalCell.det ≠ 0
  primitive_det : data.primitiveCell.det ≠ 0
  conventional_len : data.conventionalTypes.length = data.conventionalPositions.length
  primitive_len : data.primitiveTypes.length = data.primitivePositions.length
  conventional_distinct : DistinctSites data.conventionalPositions
  primitive_distinct : DistinctSites data.primitivePositions
  conventional_some : data.conventionalPositions ≠ []
  primitive_some : data.primitivePositions ≠ []
  symprec : 0 ≤ data.symprec

theorem crystal_types {c d : Cell ℝ} {ps qs : List (Vec ℝ)} {ts us : List ℤ} {v : Vec ℝ}
    (h : crystal c ps ts = moved v (crystal d qs us)) (hl : ts.length = ps.length) :
    ∀ t ∈ ts, t ∈ us := by
  intro t ht
  obtain ⟨i, hi, rfl⟩ := List.getElem_of_mem ht
  have : (ts[i], cartesian c fun j => ps[i] j + ((0 : ℤ) : ℝ)) ∈ crystal c ps ts :=
    ⟨i, ps[i], fun _ => 0, List.getElem?_eq_getElem hi, List.getElem?_eq_getElem (by omega), rfl⟩
  rw [h] at this
  obtain ⟨j, q, n, h1, -⟩ := this
  exact List.mem_of_getElem? h1

section
variable {lower : String → String} {getData : Cell ℝ → Atoms ℝ → Except Err SpglibData}
  {niggli : Cell ℝ → Except Err (Cell ℝ)} {cell : Cell ℝ} {atoms : Atoms ℝ}
  {convention : String} {given : Option SpglibData} {data : SpglibData}
  (hd : resolveData lower getData cell atoms given = .ok data) (hs : SoundData data atoms)

theorem source_sound (hs : SoundData data atoms) (conv0 : String) :
    (sourceOf conv0 data).1.det ≠ 0 ∧
    (sourceOf conv0 data).2.2.length = (sourceOf conv0 data).2.1.length ∧
    DistinctSites (sourceOf conv0 data).2.1 ∧ (sourceOf conv0 data).2.1 ≠ [] ∧
    (∃ v, crystal (sourceOf conv0 data).1 (sourceOf conv0 data).2.1 (sourceOf conv0 data).2.2 =
      moved v data.given) ∧
    ∀ t ∈ (sourceOf conv0 data).2.2, t ∈ data.original.types := by
  unfold sourceOf
  split_ifs with h
  · obtain ⟨v, hv⟩ := hs.standardised.primitive
    exact ⟨hs.primitive_det, hs.primitive_len, hs.primitive_distinct, hs.primitive_some, ⟨v, hv⟩,
      crystal_types hv hs.primitive_len⟩
  · obtain ⟨v, hv⟩ := hs.standardised.conventional
    exact ⟨hs.conventional_det, hs.conventional_len, hs.conventional_distinct,
      hs.conventional_some, ⟨v, hv⟩, crystal_types hv hs.conventional_len⟩

theorem path_returned (hd : resolveData lower getData cell atoms given = .ok data)
    (hn : 1 ≤ data.spaceGroupNumber ∧ data.spaceGroupNumber ≤ 230) (hcell : cell.det ≠ 0)
    {conv prim r : Cell ℝ} {ca pa : Atoms ℝ} {kpath : String} {raw : PyDict String (Vec ℝ)}
    (h2 : getConventional lower getData niggli cell atoms convention (some data) = .ok (conv, ca))
    (h3 : getPrimitive lower getData niggli cell atoms convention (some data) = .ok (prim, pa))
    (h4 : pathAndRawPoints lower getData niggli cell atoms data conv (lower convention) =
      .ok (kpath, raw))
    (h5 : getReciprocal prim = .ok r) (e4 : GoodTable kpath raw) (t rel : Bool) :
    ∃ path pts, getPathAndPoints lower getData niggli cell atoms given convention t rel =
      .ok (path, pts) := by
  obtain ⟨e, he⟩ := allCoordinates_exists (r := r) (rel := rel) hcell raw
  have hinv : inversionSymmetry.getItem data.spaceGroupNumber =
      .ok (centrosymmetric data.spaceGroupNumber) := (C33_values _ hn).2.2
  have hfin : ∃ path pts, extendPath (centrosymmetric data.spaceGroupNumber) t kpath e =
      .ok (path, pts) := by
    by_cases hi : centrosymmetric data.spaceGroupNumber = true ∨ t = true
    · exact ⟨_, _, extend_same hi kpath e⟩
    · simp only [not_or, Bool.not_eq_true] at hi
      rw [hi.1, hi.2]
      obtain ⟨-, path, pts, -, k, -⟩ := extend_spec e4 (allCoordinates_ok he).1
      exact ⟨path, pts, k⟩
  obtain ⟨path, pts, hfin⟩ := hfin
  refine ⟨path, pts, ?_⟩
  unfold getPathAndPoints
  simp only [hd, h2, h3, h4, h5, he, hinv, hfin, bind, Except.bind]

include hd hs

/-- C77: `get_conventional` returns whenever its cell can be made. -/
theorem C77_conventional {conv : Cell ℝ} {ps : List (Vec ℝ)} {ts : List ℤ}
    (hp : conventionalParts niggli (lower convention) data = .ok (conv, ps, ts)) :
    ∃ atoms', getConventional lower getData niggli cell atoms convention given =
      .ok (conv, atoms') := by
  obtain ⟨-, rfl, -⟩ := parts_ok hp
  exact C36_defined lower getData niggli cell atoms convention given data conv ps _ hd hp
    (source_sound hs _).2.2.2.2.2 hs.names hs.species
    (fun l hl => by rw [hs.types l hl])

/-- C77: `get_primitive` returns for every crystal whose conventional cell can be made, if different
atoms are further apart than the tolerance (not for HPKOT rhombohedral crystals). -/
theorem C77_primitive (hnig : ∀ r r', niggli r = .ok r' → SameLattice r r')
    (hres : resolveData lower getData cell atoms (some data) = .ok data)
    (hcv : lower convention = "hpkot" ∨ lower convention = "sc")
    (hll : lower (lower convention) = lower convention)
    (hR : lower convention = "hpkot" →
      family data.spaceGroupNumber ++ centring data.spaceGroupNumber ≠ "hR")
    {conv : Cell ℝ} {ca : Atoms ℝ}
    (hconv : getConventional lower getData niggli cell atoms convention (some data) =
      .ok (conv, ca))
    (hsp : ∀ matrix, primitiveMatrix (lower convention)
        (data.crystalFamily ++ data.centringType) = .ok matrix →
      Sparse (data.symprec + 1 / 10 ^ 8) (matrix.transpose * conv) data.given) :
    ∃ prim pa, getPrimitive lower getData niggli cell atoms convention given = .ok (prim, pa) ∧
      prim.det ≠ 0 ∧ ∃ matrix, primitiveMatrix (lower convention)
        (data.crystalFamily ++ data.centringType) = .ok matrix ∧ prim = matrix.transpose * conv := by
  obtain ⟨d2, qs, cts, g1, g2, g3⟩ := getConventional_steps hconv
  rw [hres] at g1
  cases g1
  obtain ⟨s1, s2, s3, s4, -, s5⟩ := source_sound hs (lower convention)
  obtain ⟨p1, rfl, p3⟩ := parts_ok g2
  have hsl : SameLattice (sourceOf (lower convention) data).1 conv := by
    rcases p3 with p | ⟨e1, e2, e3⟩
    · exact p.sameLattice.1
    · rw [sourceOf, if_neg (by rw [e1]; simp)]
      exact (C36_triclinic_hpkot niggli hnig _ _ e3).1
  have hcd := det_sameLattice hsl s1
  have hdq := distinct_transfer s1 hsl p1 s3
  obtain ⟨matrix, hm, m1, m2⟩ := matrix_exists hs.number (lower convention)
  rw [← hs.family, ← hs.centring] at hm m1 m2
  have hne : lower convention = "sc" → lower convention ≠ "hpkot" := by
    intro e; rw [e]; decide
  -- the lattice of the primitive cell
  obtain ⟨ts, hlat, hdet, hinc⟩ : ∃ ts : List (Vec ℝ),
      latticePoints (matrix.transpose * conv) = centredLattice ts conv ∧
      (matrix.transpose * conv).det * ts.length = conv.det ∧ Incongruent ts := by
    rcases hcv with e | e
    · obtain ⟨a, b⟩ := C34_hpkot_partial _ _ (m1 e) (by rw [hs.family, hs.centring]; exact hR e) conv
      exact ⟨_, a, b, incongruent_translations _⟩
    · obtain ⟨a, b⟩ := C34_sc _ _ (m2 (hne e)) conv
      exact ⟨_, a, b, incongruent_translations _⟩
  have hpd : (matrix.transpose * conv).det ≠ 0 := by
    intro e
    rw [e, zero_mul] at hdet
    exact hcd hdet.symm
  set prim := matrix.transpose * conv with hprim
  clear_value prim
  have hinv : npInv prim = .ok prim⁻¹ := by
    unfold npInv
    rw [if_neg hpd]
  have hreb : rebase qs conv prim = .ok (qs.map fun p => vecMat (vecMat p conv) prim⁻¹) := by
    unfold rebase
    simp only [hinv, bind, Except.bind, pure, Except.pure]
  set ws := qs.map fun p => vecMat (vecMat p conv) prim⁻¹ with hws
  clear_value ws
  have hsame := (rebase_points hreb).2
  obtain ⟨hpos, hty, -⟩ := newAtoms_describes (lastIndex_iff _) (fun t i hi => hi.1) hs.types g3
  have hconv' : getConventional lower getData niggli cell atoms (lower convention) (some data) =
      .ok (conv, ca) := by
    rw [getConventional_lower hll, hconv]
  obtain ⟨v, hv, hv'⟩ := primitive_before hs.number hs.family hs.centring hs.standardised hnig hcv
    hll hR hconv' m1 (fun e => m2 (hne e)) hprim hreb g2
  have hlen : (sourceOf (lower convention) data).2.2.length = ws.length := by
    rw [s2, p1.length_eq, hsame.length_eq]
  have hsparse : Sparse (data.symprec + 1 / 10 ^ 8) prim
      (crystal prim ws (sourceOf (lower convention) data).2.2) := by
    rw [hv]
    rintro ⟨l, x⟩ ha ⟨l', y⟩ hb e he hxy
    have := hsp matrix hm _ ha _ hb e he (by rw [← hprim]; simpa using hxy)
    simp only [Prod.mk.injEq, sub_left_inj] at this
    rw [this.1, this.2]
  have htw := twins_centred hs.symprec hpd hcd hlen hsame hlat hinc (hv.trans hv'.symm) hdq hsparse
  have hrep : |conv.det / prim.det| = (ts.length : ℝ) := by
    rw [← hdet, mul_comm, mul_div_assoc, div_self hpd, mul_one]
    exact abs_of_nonneg (Nat.cast_nonneg _)
  obtain ⟨ps', ts', hu⟩ := C35_defined ws (sourceOf (lower convention) data).2.2 ts.length
    data.symprec (by
      intro e
      have := hsame.length_eq
      rw [← p1.length_eq, e, List.length_nil, List.length_eq_zero_iff] at this
      exact s4 this) hlen htw
  have hparts : primitiveParts lower getData niggli cell atoms (lower convention) data =
      .ok (prim, ps', ts') := by
    unfold primitiveParts Atoms.getPositions
    rw [if_neg (by rcases hcv with e | e <;> rw [e] <;> decide), if_pos hcv]
    simp only [hconv', hm, bind, Except.bind, ← hprim, hpos, hinv, ← hws, hty, Option.getD_some,
      hrep, hu, pure, Except.pure]
  have hts' : ∀ t ∈ ts', t ∈ data.original.types := by
    obtain ⟨vs, kept, -, -, k3, -, k5, -⟩ := C35_kept _ _ _ _ _ _ hu
    intro t ht
    rw [k5] at ht
    obtain ⟨i, hi, rfl⟩ := List.mem_map.1 ht
    have hil := k3 i hi
    apply s5
    rw [← hlen] at hil
    simp [List.getD, List.getElem?_eq_getElem hil]
  obtain ⟨pa, hpa⟩ := newAtoms_defined (atoms := atoms) (ps := ps') (ts := ts')
    (mapping := firstIndex data.original.types) (n := data.original.types.length) (by
      intro t htt
      obtain ⟨i, hi⟩ := exists_firstIndex _ t (hts' t htt)
      exact ⟨i, (List.getElem?_eq_some_iff.1 hi.1).1, (firstIndex_iff _ _ _).2 hi⟩) hs.names
    hs.species (fun l hl => by rw [hs.types l hl])
  refine ⟨prim, pa, ?_, hpd, matrix, hm, hprim⟩
  unfold getPrimitive
  simp only [hd, hparts, hpa, bind, Except.bind, pure, Except.pure]

/-- C77: with the convention "spglib" nothing can fail. -/
theorem C77_spglib (hcv : lower convention = "spglib") :
    (∃ conv ca, getConventional lower getData niggli cell atoms convention given = .ok (conv, ca)) ∧
    ∃ prim pa, getPrimitive lower getData niggli cell atoms convention given = .ok (prim, pa) := by
  constructor
  · have hp := (C36_unchanged niggli data).1
    rw [← hcv] at hp
    exact ⟨_, C77_conventional hd hs hp⟩
  · obtain ⟨v, hv⟩ := hs.standardised.primitive
    obtain ⟨pa, hpa⟩ := newAtoms_defined (atoms := atoms) (ps := data.primitivePositions)
      (ts := data.primitiveTypes) (mapping := firstIndex data.original.types)
      (n := data.original.types.length) (by
        intro t htt
        obtain ⟨i, hi⟩ := exists_firstIndex _ t (crystal_types hv hs.primitive_len t htt)
        exact ⟨i, (List.getElem?_eq_some_iff.1 hi.1).1, (firstIndex_iff _ _ _).2 hi⟩) hs.names
      hs.species (fun l hl => by rw [hs.types l hl])
    refine ⟨data.primitiveCell, pa, ?_⟩
    unfold getPrimitive primitiveParts
    simp only [hd, hcv, if_true, hpa, bind, Except.bind, pure, Except.pure]

/-- C77: the conventional cell of the HPKOT convention can always be made; for triclinic crystals
if the Niggli reduction returns a cell whose edges are not below the precision of numbers. -/
theorem C77_hpkot_conventional (hcv : lower convention = "hpkot")
    (htri : data.crystalFamily = "a" → ∃ r r1, getReciprocal data.conventionalCell = .ok r ∧
      niggli r = .ok r1 ∧ r1.det ≠ 0 ∧ ∀ i, machineEps < npNorm (r1 i)) :
    ∃ conv ca, getConventional lower getData niggli cell atoms convention given = .ok (conv, ca) := by
  by_cases ha : data.crystalFamily = "a"
  · obtain ⟨r, r1, h1, h2, h3, h4⟩ := htri ha
    obtain ⟨d, r', -, -, -, -, -, -, h5, h6, -⟩ := C38_hpkot niggli _ r r1 h1 h2 h3 h4
    have hdd := (recip_ok h6).1
    refine ⟨d, C77_conventional hd hs (ps := data.conventionalPositions.map fun p =>
      vecMat (vecMat p data.conventionalCell) d⁻¹) (ts := data.conventionalTypes) ?_⟩
    unfold conventionalParts rebase npInv
    simp only [hcv, ha, or_true, and_self, if_true, h5, bind, Except.bind, if_neg hdd, pure,
      Except.pure]
  · have hp := (C36_unchanged niggli data).2 ha
    rw [← hcv] at hp
    exact ⟨_, C77_conventional hd hs hp⟩

/-- C77, HPKOT: path and points are returned for every crystal (not rhombohedral) whose atoms are
further apart than the tolerance and whose cell has edges above the precision of numbers. -/
theorem C77_hpkot (hl : lower "HPKOT" = "hpkot") (hl' : lower "hpkot" = "hpkot")
    (hcv : lower convention = "hpkot") (hnig : ∀ r r', niggli r = .ok r' → SameLattice r r')
    (hres : resolveData lower getData cell atoms (some data) = .ok data)
    (hR : family data.spaceGroupNumber ++ centring data.spaceGroupNumber ≠ "hR")
    (hcell : cell.det ≠ 0)
    (htri : data.crystalFamily = "a" → ∃ r r1, getReciprocal data.conventionalCell = .ok r ∧
      niggli r = .ok r1 ∧ r1.det ≠ 0 ∧ ∀ i, machineEps < npNorm (r1 i))
    (hlen : ∀ conv ca, getConventional lower getData niggli cell atoms convention (some data) =
      .ok (conv, ca) → ∀ i, machineEps < npNorm (conv i))
    (hsp : ∀ conv ca matrix, getConventional lower getData niggli cell atoms convention
        (some data) = .ok (conv, ca) →
      primitiveMatrix (lower convention) (data.crystalFamily ++ data.centringType) = .ok matrix →
      Sparse (data.symprec + 1 / 10 ^ 8) (matrix.transpose * conv) data.given) (t rel : Bool) :
    ∃ path pts, getPathAndPoints lower getData niggli cell atoms given convention t rel =
      .ok (path, pts) := by
  obtain ⟨conv, ca, h2⟩ := C77_hpkot_conventional (convention := convention) hres hs hcv htri
  have hpos := hlen conv ca h2
  obtain ⟨prim, pa, h3, hpd, -⟩ := C77_primitive hres hs hnig hres (.inl hcv) (by rw [hcv, hl'])
    (fun _ => hR) h2 (fun m hm => hsp conv ca m h2 hm)
  obtain ⟨s, h6⟩ := C40_total lower hl getData niggli cell atoms (some data) data (.inl rfl) hs.number
    hs.family hs.centring hres (fun _ => ⟨conv, ca, by
      rw [getConventional_lower (t := convention) (by rw [hcv, hl]), h2], hpos⟩)
  obtain ⟨-, a', b', c', be', ra, rb, rg, hsym, -⟩ := C40_symbol lower hl getData niggli cell atoms
    (some data) data (.inl rfl) hs.number hs.family hs.centring s h6
  obtain ⟨al, be, ga, hp⟩ := exists_params (c := conv) fun i => (machineEps_pos.trans (hpos i)).ne'
  have h8 := getParams_of_spec hp (hpos 0) (hpos 1) (hpos 2)
  obtain ⟨raw, kpath, e2, e3, e4⟩ := hpkot_points hsym (npNorm (conv 0)) (npNorm (conv 1))
    (npNorm (conv 2)) be
  obtain ⟨r, h5, -⟩ := C03_involution prim hpd
  have h4 : pathAndRawPoints lower getData niggli cell atoms data conv (lower convention) =
      .ok (kpath, raw) := by
    unfold pathAndRawPoints hpkotGetPoints
    rw [if_neg (by rw [hcv]; decide), if_pos hcv]
    simp only [h6, h8, e2, e3, bind, Except.bind, pure, Except.pure]
  exact path_returned hd hs.number hcell h2 h3 h4 h5 e4 t rel

/-- C77, Setyawan-Curtarolo: for every crystal whose conventional cell can be made and whose atoms
are further apart than the tolerance, path and points are returned, unless the cell lies on the
boundary between two variations: then, and only then, `ValueError`. -/
theorem C77_sc (hl : lower "SC" = "sc") (hl' : lower "sc" = "sc")
    (hcv : lower convention = "sc") (hnig : ∀ r r', niggli r = .ok r' → SameLattice r r')
    (hres : resolveData lower getData cell atoms (some data) = .ok data)
    (hcell : cell.det ≠ 0) (tol : ℝ) (htol : 0 ≤ tol)
    (ht1 : data.angleTolerance = -1 → tol = 1 / 10 ^ 4)
    (ht2 : data.angleTolerance ≠ -1 → tol = data.angleTolerance)
    {conv : Cell ℝ} {ca : Atoms ℝ}
    (hconv : getConventional lower getData niggli cell atoms convention (some data) =
      .ok (conv, ca))
    {a b c alpha be ga x y z ka kb kg : ℝ} {r : Cell ℝ}
    (hp : HasParams conv a b c alpha be ga)
    (ha : machineEps < a) (hb : machineEps < b) (hc : machineEps < c)
    (hr : getReciprocal conv = .ok r) (hk : HasParams r x y z ka kb kg)
    (hx : machineEps < x) (hy : machineEps < y) (hz : machineEps < z)
    (hsp : ∀ matrix, primitiveMatrix (lower convention)
        (data.crystalFamily ++ data.centringType) = .ok matrix →
      Sparse (data.symprec + 1 / 10 ^ 8) (matrix.transpose * conv) data.given ∧
      ∀ r', getReciprocal (matrix.transpose * conv) = .ok r' → ∀ i, machineEps < npNorm (r' i))
    (t rel : Bool) :
    (¬ OnBoundary (data.crystalFamily ++ data.centringType) data.symprec tol a b c alpha ka kb →
      ∃ path pts, getPathAndPoints lower getData niggli cell atoms given convention t rel =
        .ok (path, pts)) ∧
    (OnBoundary (data.crystalFamily ++ data.centringType) data.symprec tol a b c alpha ka kb →
      getPathAndPoints lower getData niggli cell atoms given convention t rel =
        .error .valueError) := by
  have hne : "sc" ≠ "hpkot" := by decide
  obtain ⟨prim, pa, h3, hpd, matrix, q2, q3⟩ := C77_primitive hres hs hnig hres (.inr hcv) (by rw [hcv, hl'])
    (fun e => absurd (hcv.symm.trans e) hne) hconv (fun m hm => (hsp m hm).1)
  obtain ⟨r', h5, -⟩ := C03_involution prim hpd
  have hconv' : getConventional lower getData niggli cell atoms "SC" (some data) =
      .ok (conv, ca) := by rw [getConventional_lower (t := convention) (by rw [hcv, hl]), hconv]
  have hprim' : getPrimitive lower getData niggli cell atoms "SC" (some data) =
      .ok (prim, pa) := by rw [getPrimitive_lower (t := convention) (by rw [hcv, hl]), h3]
  have hpp := params_pos hp ha hb hc
  have hkk := params_pos hk hx hy hz
  have tail : ∀ v, scGetVariation lower getData niggli cell atoms (some data) = .ok (some v) →
      ∃ path pts, getPathAndPoints lower getData niggli cell atoms given convention t rel =
        .ok (path, pts) := by
    intro v hv
    obtain ⟨s, e, -, a', b', c', al', kp', ka', kb', kg', hsv, -⟩ := C41_variation lower hl getData
      niggli cell atoms (some data) data (.inl rfl) hs.number hs.family hs.centring tol htol ht1 ht2
      _ hv
    cases e
    obtain ⟨short, q1, raw, kpath, e2, e3, e4⟩ := sc_points hsv a b c alpha
    have h4 : pathAndRawPoints lower getData niggli cell atoms data conv (lower convention) =
        .ok (kpath, raw) := by
      unfold pathAndRawPoints scGetPoints
      rw [if_pos hcv]
      simp only [hv, hpp, q1, e2, e3, bind, Except.bind, pure, Except.pure]
    exact path_returned hd hs.number hcell hconv h3 h4 h5 e4 t rel
  by_cases hw : data.crystalFamily ++ data.centringType ∈ ["tI", "oF", "hR", "aP"]
  · obtain ⟨k1, k2⟩ := C41_boundary lower hl getData niggli cell atoms (some data) data (.inl rfl)
      hs.number hs.family hs.centring tol htol ht1 ht2 hres hw conv ca hconv' a b c alpha be ga hpp
      r x y z ka kb kg hr hkk
    refine ⟨fun h => ?_, fun h => ?_⟩
    · obtain ⟨v, hv⟩ := k2 h
      exact tail v hv
    · have hv := k1.2 h
      have h4 : pathAndRawPoints lower getData niggli cell atoms data conv (lower convention) =
          .error .valueError := by
        unfold pathAndRawPoints
        rw [if_pos hcv]
        simp only [hv, bind, Except.bind]
      unfold getPathAndPoints
      simp only [hd, hconv, h3, h4, bind, Except.bind]
  · have hnb : ¬ OnBoundary (data.crystalFamily ++ data.centringType) data.symprec tol a b c alpha
        ka kb := by
      rintro (⟨e, -⟩ | ⟨e, -⟩ | ⟨e, -⟩ | ⟨e, -⟩) <;> exact hw (by rw [e]; decide)
    refine ⟨fun _ => ?_, fun h => absurd h hnb⟩
    by_cases hm : data.crystalFamily ++ data.centringType = "mC"
    · have hlen := (hsp matrix q2).2 r' (by rw [← q3]; exact h5)
      obtain ⟨kal, kbe, kga, hpk⟩ := exists_params (c := r') fun i =>
        (machineEps_pos.trans (hlen i)).ne'
      obtain ⟨v, hv⟩ := C41_mclc lower hl getData niggli cell atoms (some data) data (.inl rfl)
        hs.number hs.family hs.centring tol htol ht1 ht2 hres hm conv prim ca pa hconv' hprim' _ hpp
        r' _ h5 (getParams_of_spec hpk (hlen 0) (hlen 1) (hlen 2))
      exact tail v hv
    · have hbl : data.crystalFamily ++ data.centringType ∈ bravaisLattices := by
        rw [hs.family, hs.centring]
        exact symbols_inside _ (Finset.mem_Icc.2 hs.number)
      have hv' : data.crystalFamily ++ data.centringType ∉ ["tI", "oF", "hR", "mC", "aP"] := by
        simp only [List.mem_cons, List.not_mem_nil, or_false, not_or] at hw ⊢
        exact ⟨hw.1, hw.2.1, hw.2.2.1, hm, hw.2.2.2⟩
      obtain ⟨v, e, -⟩ := short_names hbl hv'
      refine tail v ?_
      unfold scGetVariation
      simp only [hres, bind, Except.bind, pure, Except.pure]
      rw [if_neg hv', e]

/-- C77: when the conventional cell of Setyawan and Curtarolo can be made. `x y z al be ga` are the
parameters of spglib's cell (rhombohedral crystals: the primitive one). Nothing is asked of cubic,
tetragonal and hexagonal cells; the edges that are to be sorted have to differ; one of the axes of a
monoclinic cell has to be orthogonal to the two others; edges and angles of a rhombohedral cell have
to be equal. -/
theorem C77_sc_conventional (hcv : lower convention = "sc") (tol : ℝ) (htol : 0 ≤ tol)
    (ht1 : data.angleTolerance = -1 → tol = 1 / 10 ^ 4)
    (ht2 : data.angleTolerance ≠ -1 → tol = data.angleTolerance)
    {x y z al be ga : ℝ} (hp : HasParams (sourceOf "sc" data).1 x y z al be ga)
    (hx : machineEps < x) (hy : machineEps < y) (hz : machineEps < z)
    (ho : data.crystalFamily = "o" → (al = 90 ∧ be = 90 ∧ ga = 90) ∧
      (data.centringType ≠ "A" → x ≠ y) ∧ (data.centringType ≠ "C" → y ≠ z) ∧
      (data.centringType ≠ "A" → data.centringType ≠ "C" → x ≠ z))
    (hm : data.crystalFamily = "m" → (|be - 90| ≤ tol ∧ |ga - 90| ≤ tol) ∨
      (|al - 90| ≤ tol ∧ |ga - 90| ≤ tol) ∨
      (|al - 90| ≤ tol ∧ |be - 90| ≤ tol ∧ data.centringType ≠ "C"))
    (ha : data.crystalFamily = "a" → ∃ r, getReciprocal data.conventionalCell = .ok r ∧
      ∀ i, machineEps < npNorm (r i))
    (hR : data.crystalFamily = "h" → data.centringType = "R" →
      |x - y| ≤ data.symprec ∧ |x - z| ≤ data.symprec ∧ |y - z| ≤ data.symprec ∧
      |al - be| ≤ tol ∧ |al - ga| ≤ tol) :
    ∃ conv ca, getConventional lower getData niggli cell atoms convention given = .ok (conv, ca) := by
  have htt := angleTol_eq data tol ht1 ht2
  have key : ∃ q, conventionalParts niggli (lower convention) data = .ok q := by
    unfold conventionalParts
    rw [if_neg (by rw [hcv]; decide), if_pos hcv, htt]
    unfold sourceOf at hp
    by_cases hr : data.crystalFamily = "h" ∧ data.centringType = "R"
    · rw [if_pos ⟨rfl, hr⟩] at hp
      obtain ⟨k1, k2, k3, k4, k5⟩ := hR hr.1 hr.2
      have e : scConventionalHR data.primitiveCell tol data.symprec =
          .ok (applyT 1 data.primitiveCell) := by
        unfold scConventionalHR
        simp only [params_pos hp hx hy hz, bind, Except.bind, pure, Except.pure]
        rw [if_neg, if_pos]
        · simp only [Bool.and_eq_true, cwt_eq_iff]
          exact ⟨k4, k5⟩
        · simp only [Bool.or_eq_true, cwt_ne_iff, not_or, not_lt]
          exact ⟨⟨k1, k2⟩, k3⟩
      have hdet : (applyT 1 data.primitiveCell).det ≠ 0 := by
        rw [(hR_proper e).sameLattice.2]
        exact hs.primitive_det
      rw [if_pos hr, e]
      unfold rebase npInv
      simp only [bind, Except.bind, if_neg hdet, pure, Except.pure]
      exact ⟨_, rfl⟩
    · rw [if_neg (by rintro ⟨-, k⟩; exact hr k)] at hp
      have e : ∃ d, scConventionalNoHR data.conventionalCell data.crystalFamily data.centringType
          tol = .ok d := by
        have hpairs := family_pairs _ (Finset.mem_Icc.2 hs.number)
        rw [← hs.family, ← hs.centring] at hpairs
        by_cases h1 : data.crystalFamily = "c" ∨ data.crystalFamily = "t" ∨
            (data.crystalFamily = "h" ∧ data.centringType = "P")
        · unfold scConventionalNoHR
          rw [if_pos h1]
          exact ⟨_, rfl⟩
        by_cases h2 : data.crystalFamily = "o"
        · obtain ⟨⟨rfl, rfl, rfl⟩, o1, o2, o3⟩ := ho h2
          rw [h2] at hpairs ⊢
          have hc : (data.centringType = "P" ∨ data.centringType = "F" ∨ data.centringType = "I") ∨
              data.centringType = "C" ∨ data.centringType = "A" := by
            simpa [or_assoc] using hpairs
          rcases hc with hc | hc | hc
          · have hA : data.centringType ≠ "A" := by
              rcases hc with e | e | e <;> rw [e] <;> decide
            have hC : data.centringType ≠ "C" := by
              rcases hc with e | e | e <;> rw [e] <;> decide
            obtain ⟨d, -, -, -, k, -⟩ := (C37_orthorhombic _ x y z tol hp hx hy hz _ hc).1 (o1 hA)
              (o3 hA hC) (o2 hC)
            exact ⟨d, k⟩
          · rw [hc] at o1 ⊢
            obtain ⟨d, -, -, k, -⟩ := (C37_base_centred _ x y z tol hp hx hy hz).1 (o1 (by decide))
            exact ⟨d, k⟩
          · rw [hc] at o2 ⊢
            obtain ⟨d, -, -, k, -⟩ := (C37_base_centred _ x y z tol hp hx hy hz).2.2.1
              (o2 (by decide))
            exact ⟨d, k⟩
        by_cases h3 : data.crystalFamily = "m"
        · rw [h3]
          obtain ⟨d, -, -, -, -, -, -, k, -⟩ := C37_monoclinic _ x y z al be ga tol htol hp hx hy hz
            data.centringType (hm h3)
          exact ⟨d, k⟩
        by_cases h4 : data.crystalFamily = "a"
        · obtain ⟨r, q1, q2⟩ := ha h4
          rw [h4]
          obtain ⟨d, -, -, -, -, -, -, -, k, -⟩ := C38_sc _ r tol htol data.centringType q1 q2
          exact ⟨d, k⟩
        exfalso
        simp only [List.mem_cons, List.not_mem_nil, or_false, Prod.mk.injEq] at hpairs
        simp only [not_or, not_and] at h1 hr
        rcases hpairs with k | k | k | k | k | k | k | k | k | k | k | k | k | k | k
        · exact h1.1 k.1
        · exact h1.1 k.1
        · exact h1.1 k.1
        · exact h1.2.1 k.1
        · exact h1.2.1 k.1
        · exact h2 k.1
        · exact h2 k.1
        · exact h2 k.1
        · exact h2 k.1
        · exact h2 k.1
        · exact h1.2.2 k.1 k.2
        · exact hr k.1 k.2
        · exact h3 k.1
        · exact h3 k.1
        · exact h4 k.1
      obtain ⟨d, e⟩ := e
      have hdet : d.det ≠ 0 := by
        rw [(noHR_proper e).sameLattice.2]
        exact hs.conventional_det
      rw [if_neg hr, e]
      unfold rebase npInv
      simp only [bind, Except.bind, if_neg hdet, pure, Except.pure]
      exact ⟨_, rfl⟩
  obtain ⟨⟨conv, ps, ts⟩, key⟩ := key
  exact ⟨_, C77_conventional hd hs key⟩

/-- C77: the orthorhombic crystals that are refused: two of the edges to be sorted are equal. -/
theorem C77_sc_refused (hcv : lower convention = "sc") {x y z : ℝ}
    (hp : HasParams data.conventionalCell x y z 90 90 90)
    (hx : machineEps < x) (hy : machineEps < y) (hz : machineEps < z)
    (ho : data.crystalFamily = "o")
    (h : (data.centringType ≠ "A" ∧ x = y) ∨ (data.centringType ≠ "C" ∧ y = z) ∨
      (data.centringType ≠ "A" ∧ data.centringType ≠ "C" ∧ x = z)) :
    getConventional lower getData niggli cell atoms convention given = .error .potentialBug := by
  have e : scConventionalNoHR data.conventionalCell data.crystalFamily data.centringType
      (angleTol data) = .error .potentialBug := by
    have hpairs := family_pairs _ (Finset.mem_Icc.2 hs.number)
    rw [← hs.family, ← hs.centring] at hpairs
    rw [ho] at hpairs ⊢
    have hc : (data.centringType = "P" ∨ data.centringType = "F" ∨ data.centringType = "I") ∨
        data.centringType = "C" ∨ data.centringType = "A" := by
      simpa [or_assoc] using hpairs
    rcases hc with hc | hc | hc
    · refine (C37_orthorhombic _ x y z _ hp hx hy hz _ hc).2 ?_
      rcases h with ⟨-, h⟩ | ⟨-, h⟩ | ⟨-, -, h⟩
      · exact .inl h
      · exact .inr (.inr h)
      · exact .inr (.inl h)
    · rw [hc] at h ⊢
      refine (C37_base_centred _ x y z _ hp hx hy hz).2.1 ?_
      rcases h with ⟨-, h⟩ | ⟨h, -⟩ | ⟨-, h, -⟩
      · exact h
      · exact absurd rfl h
      · exact absurd rfl h
    · rw [hc] at h ⊢
      refine (C37_base_centred _ x y z _ hp hx hy hz).2.2.2 ?_
      rcases h with ⟨h, -⟩ | ⟨-, h⟩ | ⟨h, -⟩
      · exact absurd rfl h
      · exact h
      · exact absurd rfl h
  unfold getConventional conventionalParts
  simp only [hd, bind, Except.bind, hcv, ho]
  rw [if_neg (by decide), if_pos trivial, if_neg (by rintro ⟨k, -⟩; exact absurd k (by decide)), ← ho,
    e]

/-- C77: `Kpoints.from_crystal` returns whenever path and points are returned. -/
theorem C77_kpoints (hl : lower "HPKOT" = "hpkot") (hl' : lower "SC" = "sc")
    (htol : data.angleTolerance = -1 ∨ 0 ≤ data.angleTolerance) (hcell : cell.det ≠ 0) (t : Bool)
    (n : ℤ) (h : ∃ path pts, getPathAndPoints lower getData niggli cell atoms given convention t
      true = .ok (path, pts)) :
    ∃ k, Kpoints.fromCrystal lower getData niggli cell atoms convention t n given = .ok k := by
  obtain ⟨path, pts, h⟩ := h
  obtain ⟨r, hr, -⟩ := C03_involution cell hcell
  have hd' : given = some data ∨ (given = none ∧ getData cell atoms = .ok data) := by
    rcases (resolveData_ok hd).2 with ⟨e, k⟩ | ⟨e, -⟩
    · exact .inr ⟨e, k⟩
    · exact .inl e
  obtain ⟨k, hk, -⟩ := C45_from_crystal lower hl hl' getData niggli cell atoms given data hd'
    hs.number hs.family hs.centring htol convention t n path pts h r hr
  exact ⟨k, hk⟩

end

/-- C77: where the hypotheses come from. If spglib accepts the crystal and does what it documents,
its data are those the theorems above ask for. -/
theorem C77_data {lib : SpglibLib} {lower : String → String} {symprec angtol : ℝ} {cell : Cell ℝ}
    {atoms : Atoms ℝ} {data : SpglibData} (hsym : 0 ≤ symprec)
    (h : getSpglibData lib lower cell atoms symprec angtol = .ok data)
    (hdoc : Documented lib symprec angtol cell data.original.positions data.original.types)
    (h1 : data.conventionalCell.det ≠ 0) (h2 : data.primitiveCell.det ≠ 0)
    (h3 : data.conventionalTypes.length = data.conventionalPositions.length)
    (h4 : data.primitiveTypes.length = data.primitivePositions.length)
    (h5 : DistinctSites data.conventionalPositions) (h6 : DistinctSites data.primitivePositions)
    (h7 : data.conventionalPositions ≠ []) (h8 : data.primitivePositions ≠ []) :
    SoundData data atoms ∧ ∀ G, resolveData lower G cell atoms (some data) = .ok data := by
  obtain ⟨-, k2, k3, k4, k5, k6, k7, -, k9, d, pc, -, -, -, -, -, k10⟩ := C63_data h
  obtain ⟨l1, l2, -⟩ := types_lengths k3
  exact ⟨⟨k4, k5, k6, k9, l1, l2, (k10 hdoc).1, h1, h2, h3, h4, h5, h6, h7, h8, by rw [k7]; exact hsym⟩,
    fun G => resolve_own (spglibData_ok h).1⟩

/-! ## Cases -/

/-- A crystal with one atom at the origin of a primitive cell. -/
noncomputable def oneData (c : Cell ℝ) (n : ℤ) (family centring : String) : SpglibData :=
  { original := { cell := c, positions := [0], types := [1] },
    spaceGroupNumber := n, crystalFamily := family, centringType := centring,
    conventionalCell := c, conventionalPositions := [0], conventionalTypes := [1],
    primitiveCell := c, primitivePositions := [0], primitiveTypes := [1], symprec := 1 / 10 ^ 5,
    angleTolerance := -1 }

theorem one_resolve (lower : String → String) (getData : Cell ℝ → Atoms ℝ → Except Err SpglibData)
    (c : Cell ℝ) (n : ℤ) (family centring : String) :
    resolveData lower getData c boxAtoms (some (oneData c n family centring)) =
      .ok (oneData c n family centring) := by
  have hv : validateAtoms boxAtoms.toDict ["positions"] true = .ok true := by
    simp only [Atoms.toDict, boxAtoms]
    decide +kernel
  have hv' : validateAtoms boxAtoms.toDict [] true = .ok true := by
    simp only [Atoms.toDict, boxAtoms]
    decide +kernel
  have ho : originalData lower c boxAtoms = .ok (oneData c n family centring).original := by
    unfold originalData
    rw [hv]
    unfold getSpglibTypes
    rw [hv']
    rfl
  unfold resolveData
  rw [hv]
  simp only [bind, Except.bind]
  rw [C32_same lower _ boxAtoms _ ho]
  rfl

theorem one_sound (c : Cell ℝ) (hc : c.det ≠ 0) (n : ℤ) (hn : 1 ≤ n ∧ n ≤ 230)
    {fam cen : String} (hf : fam = family n) (hcen : cen = centring n)
    (hP : hpkotLetter (family n ++ centring n) = 'P') :
    SoundData (oneData c n fam cen) boxAtoms where
  number := hn
  family := hf
  centring := hcen
  types := by intro l hl; cases hl; rfl
  names := by intro l hl; cases hl
  species := by intro l hl; cases hl
  standardised := by
    have hm : crystal c [0] [(1 : ℤ)] = moved 0 (crystal c [0] [(1 : ℤ)]) := by simp [moved]
    refine ⟨⟨0, hm⟩, ⟨0, hm⟩, ?_⟩
    intro t ht
    change t ∈ translations ℝ (hpkotLetter (_root_.Spec.family n ++ _root_.Spec.centring n)) at ht
    rw [hP] at ht
    simp only [translations, List.mem_singleton] at ht
    subst ht
    have : cartesian (oneData c n fam cen).conventionalCell ![0, 0, 0] = 0 := by ext j; simp [cartesian]
    rw [this]
    simp [Symmetry, moved]
  conventional_det := hc
  primitive_det := hc
  conventional_len := rfl
  primitive_len := rfl
  conventional_distinct := by
    intro i j p q hp hq _
    have one : ∀ (k : ℕ) (t : Vec ℝ), ([0] : List (Vec ℝ))[k]? = some t → k = 0 := by
      intro k t hk
      rcases k with _ | k
      · rfl
      · simp at hk
    rw [one i p hp, one j q hq]
  primitive_distinct := by
    intro i j p q hp hq _
    have one : ∀ (k : ℕ) (t : Vec ℝ), ([0] : List (Vec ℝ))[k]? = some t → k = 0 := by
      intro k t hk
      rcases k with _ | k
      · rfl
      · simp at hk
    rw [one i p hp, one j q hq]
  conventional_some := by simp [oneData]
  primitive_some := by simp [oneData]
  symprec := by simp [oneData]

theorem one_sparse {c : Cell ℝ} (hc : c.det ≠ 0) (tol : ℝ) (h : tol < 1) :
    Sparse tol c (crystal c [0] [(1 : ℤ)]) := by
  rintro ⟨l, x⟩ ⟨i, p, n, h1, h2, h3⟩ ⟨l', y⟩ ⟨i', p', n', h1', h2', h3'⟩ e he hxy
  have one : ∀ (k : ℕ) (t : ℤ), ([1] : List ℤ)[k]? = some t → k = 0 ∧ t = 1 := by
    intro k t hk
    rcases k with _ | k
    · simpa [eq_comm] using hk
    · simp at hk
  obtain ⟨rfl, rfl⟩ := one i l h1
  obtain ⟨rfl, rfl⟩ := one i' l' h1'
  simp only [List.getElem?_cons_zero, Option.some.injEq] at h2 h2'
  subst h2 h2'
  simp only at h3 h3' hxy
  rw [h3, h3', ← cartesian_sub] at hxy
  have hq := cartesian_inj hc hxy
  have hn : ∀ j, n j = n' j := by
    intro j
    have a := congrFun hq j
    simp only [Pi.zero_apply, zero_add] at a
    have b := he j
    rw [← a] at b
    have : |((n j - n' j : ℤ) : ℝ)| < 1 := by push_cast; linarith
    have : |n j - n' j| < 1 := by exact_mod_cast this
    have := Int.abs_lt_one_iff.1 this
    omega
  rw [h3, h3', funext hn]

theorem one_matrix {convention fam : String} (h : fam ++ "P" ∈ ["aP", "oP", "tP"]) :
    primitiveMatrix convention (fam ++ "P") = .ok (1 : Cell ℝ) := by
  rw [one_fin_three]
  unfold primitiveMatrix
  simp only [List.mem_cons, List.not_mem_nil, or_false] at h
  rcases h with e | e | e <;> rw [e] <;> split_ifs <;> rfl

theorem norm_above {v : Vec ℝ} (h : 1 ≤ dot v v) : machineEps < npNorm v := by
  rw [npNorm_eq, Real.lt_sqrt machineEps_pos.le]
  have := machineEps_lt_one
  nlinarith [machineEps_pos]

/-- One atom in a box, P222: HPKOT has a path. -/
example (t rel : Bool) : ∃ path pts, getPathAndPoints String.toLower
    (fun _ _ => .error .runtimeError) (fun c => .ok c) !![3, 0, 0; 0, 5, 0; 0, 0, 4] boxAtoms
    (some (oneData !![3, 0, 0; 0, 5, 0; 0, 0, 4] 16 "o" "P")) "HPKOT" t rel = .ok (path, pts) := by
  set c : Cell ℝ := !![3, 0, 0; 0, 5, 0; 0, 0, 4] with hcell
  have hdet : c.det ≠ 0 := by simp [hcell, det_fin_three]
  have hl : String.toLower "HPKOT" = "hpkot" := by decide +kernel
  have hsnd : SoundData (oneData c 16 "o" "P") boxAtoms :=
    one_sound _ hdet 16 (by norm_num) (by decide +kernel) (by decide +kernel) (by decide +kernel)
  have hconv := (C36_unchanged (fun c => .ok c) (oneData c 16 "o" "P")).2 (by simp [oneData])
  rw [← hl] at hconv
  obtain ⟨ca, hca⟩ := C77_conventional (one_resolve String.toLower
    (fun _ _ => .error .runtimeError) _ 16 "o" "P") hsnd hconv
  refine C77_hpkot (one_resolve _ _ _ _ _ _) hsnd hl (by decide +kernel) hl ?_
    (one_resolve _ _ _ _ _ _) (by decide +kernel) hdet (fun h => absurd h (by simp [oneData])) ?_ ?_ t rel
  · intro r r' h; cases h; rfl
  · intro conv ca' h
    rw [hca] at h
    cases h
    intro i
    refine norm_above ?_
    fin_cases i <;> simp [oneData, hcell, dot] <;> norm_num
  · intro conv ca' m h hm
    rw [hca] at h
    cases h
    rw [show (oneData c 16 "o" "P").crystalFamily ++ (oneData c 16 "o" "P").centringType = "o" ++ "P"
      from rfl, one_matrix (by decide)] at hm
    cases hm
    rw [transpose_one, one_mul]
    exact one_sparse hdet _ (by norm_num [oneData])

theorem one_recip (x y z : ℝ) (hd : x * y * z ≠ 0) :
    getReciprocal !![x, 0, 0; 0, y, 0; 0, 0, z] =
      .ok !![2 * Real.pi / x, 0, 0; 0, 2 * Real.pi / y, 0; 0, 0, 2 * Real.pi / z] := by
  have hdet : (!![x, 0, 0; 0, y, 0; 0, 0, z] : Cell ℝ).det ≠ 0 := by
    simpa [det_fin_three] using hd
  have hx : x ≠ 0 := by rintro rfl; simp at hd
  have hy : y ≠ 0 := by rintro rfl; simp at hd
  have hz : z ≠ 0 := by rintro rfl; simp at hd
  obtain ⟨r, hr, -, hu⟩ := C02_dual_unique _ hdet
  rw [hr]
  congr 1
  symm
  apply hu
  rw [isDual_iff]
  ext i j
  fin_cases i <;> fin_cases j <;>
    simp [Matrix.mul_apply, Fin.sum_univ_three, Matrix.smul_apply] <;> field_simp

theorem box_recip_above {x : ℝ} (h : 0 < x) (h' : x ≤ 5) : 1 ≤ 2 * Real.pi / x := by
  rw [le_div_iff₀ h]
  have := Real.two_le_pi
  have := Real.pi_gt_three
  linarith

/-- One atom in a box, Setyawan-Curtarolo: the tetragonal crystal P4 has a path; the crystal P1 with
the same cell is on the boundary between the variations and is refused. -/
example (t rel : Bool) : (∃ path pts, getPathAndPoints String.toLower
    (fun _ _ => .error .runtimeError) (fun c => .ok c) !![3, 0, 0; 0, 3, 0; 0, 0, 4] boxAtoms
    (some (oneData !![3, 0, 0; 0, 3, 0; 0, 0, 4] 75 "t" "P")) "SC" t rel = .ok (path, pts)) ∧
    getPathAndPoints String.toLower (fun _ _ => .error .runtimeError) (fun c => .ok c)
      !![3, 0, 0; 0, 3, 0; 0, 0, 4] boxAtoms (some (oneData !![3, 0, 0; 0, 3, 0; 0, 0, 4] 1 "a" "P"))
      "SC" t rel = .error .valueError := by
  set c : Cell ℝ := !![3, 0, 0; 0, 3, 0; 0, 0, 4] with hcell
  have hdet : c.det ≠ 0 := by simp [hcell, det_fin_three]
  have hl : String.toLower "SC" = "sc" := by decide +kernel
  have h3 : machineEps < 3 := machineEps_lt_one.trans (by norm_num)
  have h4 : machineEps < 4 := machineEps_lt_one.trans (by norm_num)
  have hp : HasParams c 3 3 4 90 90 90 := hasParams_box (by norm_num) (by norm_num) (by norm_num)
  have hr := one_recip 3 3 4 (by norm_num)
  rw [← hcell] at hr
  have q3 := box_recip_above (x := 3) (by norm_num) (by norm_num)
  have q4 := box_recip_above (x := 4) (by norm_num) (by norm_num)
  have he := machineEps_lt_one
  have hk : HasParams !![2 * Real.pi / 3, 0, 0; 0, 2 * Real.pi / 3, 0; 0, 0, 2 * Real.pi / 4]
      (2 * Real.pi / 3) (2 * Real.pi / 3) (2 * Real.pi / 4) 90 90 90 :=
    hasParams_box (by linarith) (by linarith) (by linarith)
  have hinv : npInv c = .ok c⁻¹ := by simp only [npInv, hdet, if_false]
  have key : ∀ (n : ℤ) (f : String), SoundData (oneData c n f "P") boxAtoms →
      f ++ "P" ∈ ["aP", "oP", "tP"] →
      scConventionalNoHR c f "P" (1 / 10 ^ 4) = .ok c → f ≠ "h" →
      (¬ OnBoundary (f ++ "P") (1 / 10 ^ 5) (1 / 10 ^ 4) 3 3 4 90 90 90 →
        ∃ path pts, getPathAndPoints String.toLower (fun _ _ => .error .runtimeError)
          (fun c => .ok c) c boxAtoms (some (oneData c n f "P")) "SC" t rel = .ok (path, pts)) ∧
      (OnBoundary (f ++ "P") (1 / 10 ^ 5) (1 / 10 ^ 4) 3 3 4 90 90 90 →
        getPathAndPoints String.toLower (fun _ _ => .error .runtimeError) (fun c => .ok c) c
          boxAtoms (some (oneData c n f "P")) "SC" t rel = .error .valueError) := by
    intro n f hsnd hf hsc hh
    have hparts : conventionalParts (fun c => .ok c) (String.toLower "SC") (oneData c n f "P") =
        .ok (c, [vecMat (vecMat 0 c) c⁻¹], [1]) := by
      rw [hl]
      unfold conventionalParts
      rw [if_neg (by decide), if_pos rfl, if_neg (by simp [oneData, hh])]
      simp only [oneData, angleTol, if_true, hsc, bind, Except.bind, pure, Except.pure, rebase, hinv,
        List.map_cons, List.map_nil]
    obtain ⟨ca, hca⟩ := C77_conventional (one_resolve String.toLower
      (fun _ _ => .error .runtimeError) _ n f "P") hsnd hparts
    refine C77_sc (one_resolve _ _ _ _ _ _) hsnd hl (by decide +kernel) hl ?_
      (one_resolve _ _ _ _ _ _) hdet (1 / 10 ^ 4) (by norm_num) (fun _ => rfl)
      (fun h => absurd rfl h) hca hp h3 h3 h4 hr hk (by linarith) (by linarith) (by linarith) ?_ t rel
    · intro r r' h; cases h; rfl
    · intro m hm
      rw [show (oneData c n f "P").crystalFamily ++ (oneData c n f "P").centringType = f ++ "P"
        from rfl, one_matrix hf] at hm
      cases hm
      rw [transpose_one, one_mul]
      refine ⟨one_sparse hdet _ (by norm_num [oneData]), ?_⟩
      intro r' h i
      rw [hr] at h
      cases h
      refine norm_above ?_
      fin_cases i <;> simp [dot] <;> nlinarith
  constructor
  · refine (key 75 "t" (one_sound _ hdet 75 (by norm_num) (by decide +kernel) (by decide +kernel)
      (by decide +kernel)) (by decide) (by simp [scConventionalNoHR]) (by decide)).1 ?_
    rintro (⟨e, -⟩ | ⟨e, -⟩ | ⟨e, -⟩ | ⟨e, -⟩) <;> exact absurd e (by decide)
  · refine (key 1 "a" (one_sound _ hdet 1 (by norm_num) (by decide +kernel) (by decide +kernel)
      (by decide +kernel)) (by decide) ?_ (by decide)).2 ?_
    · unfold scConventionalNoHR
      rw [if_neg (by simp), if_neg (by decide), if_neg (by decide), if_pos rfl]
      unfold scConventionalA
      obtain ⟨r, e1, -, e2⟩ := C03_involution c hdet
      rw [hr] at e1
      cases e1
      have hkk := getParams_of_spec hk (by linarith) (by linarith) (by linarith)
      have s1 : signMatrix 90 90 90 = .ok 1 := by simp [signMatrix]
      have s2 : extremeMatrix 90 90 90 (1 / 10 ^ 4) = .ok 1 := by
        simp [extremeMatrix, cwt]
      simp only [hr, hkk, s1, applyT_one, s2, e2, bind, Except.bind, pure, Except.pure]
    · exact .inr (.inr (.inr ⟨by decide, .inl (by norm_num)⟩))

end Wulfric
