import Verif.Lemmas.PrimitiveCell
import Verif.Props.C88_Tiling

/-! # C89: the Brillouin zone of the primitive cell that the package produces -/

namespace Wulfric

open Matrix _root_.Spec Wulfric.Spec

/-- What `get_brillouin_zone` returns for a cell: the corners and the edges of the Brillouin zone,
the body of volume `(2π)³ / V` around them that fills reciprocal space. -/
structure ZoneOf (lib : PlotLib) (prim r : Cell ℝ) (vs : List (Vec ℝ)) (edges : List (ℕ × ℕ)) :
    Prop where
  /-- the reciprocal basis -/
  dual : IsDual r prim
  /-- the answer of the call -/
  answer : getBrillouinZone lib prim = .ok (vs, edges)
  /-- the pairs of indices are the edges of the zone -/
  frame : WireFrame (region (latticePoints r)) vs edges
  /-- the points are the corners of the zone -/
  body : ∃ V, getVolume (.one prim) = .ok V ∧ 0 < V ∧
    ZoneCorners vs (latticePoints r) ((2 * Real.pi) ^ 3 / V)

/-- Enough lattice points are used: the answer is right. -/
theorem zoneOf_enough (lib : PlotLib) (horder : ∀ l, (lib.order l).Perm l) (prim r : Cell ℝ)
    (hr : getReciprocal prim = .ok r) (he : Enough r)
    (hlib : ∀ P, getLatticePoints r (fun _ => 10) = .flat P → VoronoiAnswer lib P (index000 10)) :
    ∃ vs edges, ZoneOf lib prim r vs edges := by
  have hdet := (recip_ok hr).1
  obtain ⟨r', hr', hd, -⟩ := C02_dual_unique prim hdet
  rw [hr] at hr'
  cases hr'
  obtain ⟨vs, edges, hok, hw⟩ := C67_wigner_seitz lib horder r (recip_det hr) he hlib
  have hz := zoneCorners_of_wireFrame r (recip_det hr) he vs edges hw
  have hV : |r.det| = (2 * Real.pi) ^ 3 / |prim.det| := by
    rw [eq_div_iff (abs_pos.2 hdet).ne', ← abs_mul, (C03_volume prim r hr).1,
      abs_of_pos (by positivity)]
  refine ⟨vs, edges, hd, ?_, hw, |prim.det|, rfl, abs_pos.2 hdet, hV ▸ hz⟩
  unfold getBrillouinZone
  simp only [bind, Except.bind, hr]
  exact hok

theorem dual_reciprocal {prim r : Cell ℝ} (h : IsDual r prim) : getReciprocal prim = .ok r := by
  have hdet : prim.det ≠ 0 := by
    intro h0
    have e := congrArg Matrix.det ((isDual_iff r prim).1 h)
    rw [det_mul, det_transpose, h0, mul_zero, det_smul, det_one, mul_one] at e
    exact pow_ne_zero _ two_pi_ne e.symm
  obtain ⟨r', h1, -, h2⟩ := C02_dual_unique prim hdet
  rw [h1, h2 r h]

/-- A point of the zone, and a point on its boundary, in terms of the drawn body. -/
theorem zone_point {lib : PlotLib} {prim r : Cell ℝ} {vs : List (Vec ℝ)} {edges : List (ℕ × ℕ)}
    (hz : ZoneOf lib prim r vs edges) {k : Vec ℝ} :
    (InZone r k → k ∈ convexHull ℝ {v | v ∈ vs}) ∧
      (OnZoneBoundary r k → k ∈ frontier (convexHull ℝ {v | v ∈ vs})) := by
  obtain ⟨V, -, -, hc⟩ := hz.body
  have hin : InZone r k → k ∈ convexHull ℝ {v | v ∈ vs} := by
    intro h
    rw [hc.hull]
    exact fun g hg => h g hg
  refine ⟨hin, fun h => ⟨subset_closure (hin h.1), fun hi => ?_⟩⟩
  rw [hc.hull] at hi
  obtain ⟨-, g, hg, hg0, he⟩ := h
  have h1 := ws_inner hg hg0 hi
  have h2 : dot (k - g) (k - g) = dot k k - 2 * dot k g + dot g g := by simp [dot]; ring
  linarith

section
variable (lower : String → String) (getData : Cell ℝ → Atoms ℝ → Except Err SpglibData)
  (niggli : Cell ℝ → Except Err (Cell ℝ)) (cell : Cell ℝ) (atoms : Atoms ℝ)
  (data : SpglibData)
  (hn : 1 ≤ data.spaceGroupNumber ∧ data.spaceGroupNumber ≤ 230)
  (hf : data.crystalFamily = family data.spaceGroupNumber)
  (hc : data.centringType = centring data.spaceGroupNumber) (convention : String)

include hn hf hc

/-- The lattice points that `get_brillouin_zone` uses are enough, HPKOT. -/
theorem hpkot_primitive_enough (hl' : lower "hpkot" = "hpkot") (hconv : lower convention = "hpkot")
    (hstd : StandardCell (family data.spaceGroupNumber ++ centring data.spaceGroupNumber)
      data.conventionalCell)
    (hnig : family data.spaceGroupNumber = "a" → ∀ r r1,
      getReciprocal data.conventionalCell = .ok r → niggli r = .ok r1 → PairReduced r1)
    (prim : Cell ℝ) (pa : Atoms ℝ)
    (hprim : getPrimitive lower getData niggli cell atoms convention (some data) = .ok (prim, pa)) :
    ∃ r, getReciprocal prim = .ok r ∧ Enough r := by
  obtain ⟨hd, h⟩ := hpkot_primitive_cell lower getData niggli cell atoms data hn hf hc convention
    hl' hconv prim pa hprim
  obtain ⟨r, hr, -⟩ := C03_involution prim hd
  refine ⟨r, hr, ?_⟩
  rcases h with ⟨hfa, h⟩ | ⟨haP, matrix, h1, h2⟩
  · obtain ⟨r', z1, z2, -⟩ := hpkotA_zone h (hnig hfa)
    rw [hr] at z1
    cases z1
    exact enough_tri hr z2
  · exact hpkot_enough (symbols_inside _ (Finset.mem_Icc.2 hn)) haP hstd h1 h2 hr

/-- The lattice points that `get_brillouin_zone` uses are enough, SC. -/
theorem sc_primitive_enough (hl' : lower "sc" = "sc") (hconv : lower convention = "sc")
    (htol : data.angleTolerance = -1 ∨ 0 ≤ data.angleTolerance)
    (prim conv : Cell ℝ) (pa ca : Atoms ℝ)
    (hprim : getPrimitive lower getData niggli cell atoms convention (some data) = .ok (prim, pa))
    (hcv : getConventional lower getData niggli cell atoms convention (some data) =
      .ok (conv, ca))
    (hcell : ScCell (family data.spaceGroupNumber ++ centring data.spaceGroupNumber) conv)
    (hred : family data.spaceGroupNumber = "a" → IsNiggli data.conventionalCell ∨
      ∀ r0, getReciprocal data.conventionalCell = .ok r0 → PairReduced r0) :
    ∃ r, getReciprocal prim = .ok r ∧ Enough r := by
  obtain ⟨hd, h⟩ := sc_primitive_cell lower getData niggli cell atoms data hn hf hc convention
    hl' hconv prim conv pa ca hprim hcv
  obtain ⟨r, hr, -⟩ := C03_involution prim hd
  refine ⟨r, hr, ?_⟩
  rcases h with ⟨hfa, h⟩ | ⟨haP, matrix, h1, h2⟩
  · rcases hred hfa with h1 | h1
    · obtain ⟨m1, m2, r0, o1, o2, -, e1, e2⟩ := scA_order h
      rw [hr] at e2
      cases e2
      exact enough_applyT o2 (enough_applyT o1 (C52_brillouin _ r0 h1 e1))
    · obtain ⟨m1, m2, r0, -, -, -, e1, -⟩ := scA_order h
      obtain ⟨r', z1, z2⟩ := scA_zone (angleTol_nonneg htol) h e1 (h1 r0 e1)
      rw [hr] at z1
      cases z1
      exact enough_tri hr z2
  · exact sc_enough (symbols_inside _ (Finset.mem_Icc.2 hn)) haP hcell h1 h2 hr

/-- C89, HPKOT: for the primitive cell of any of the 230 space groups `get_brillouin_zone` returns
the corners and the edges of the Brillouin zone: the body between the corners is the set of the
points of space nearest to the origin, it fills reciprocal space, and its volume times the volume of
the primitive cell is `(2π)³`. -/
theorem C89_hpkot (lib : PlotLib) (horder : ∀ l, (lib.order l).Perm l)
    (hl' : lower "hpkot" = "hpkot") (hconv : lower convention = "hpkot")
    (hstd : StandardCell (family data.spaceGroupNumber ++ centring data.spaceGroupNumber)
      data.conventionalCell)
    (hnig : family data.spaceGroupNumber = "a" → ∀ r r1,
      getReciprocal data.conventionalCell = .ok r → niggli r = .ok r1 → PairReduced r1)
    (prim : Cell ℝ) (pa : Atoms ℝ)
    (hprim : getPrimitive lower getData niggli cell atoms convention (some data) = .ok (prim, pa))
    (hlib : ∀ r P, IsDual r prim → getLatticePoints r (fun _ => 10) = .flat P →
      VoronoiAnswer lib P (index000 10)) :
    ∃ r vs edges, ZoneOf lib prim r vs edges := by
  obtain ⟨r, hr, he⟩ := hpkot_primitive_enough lower getData niggli cell atoms data hn hf hc
    convention hl' hconv hstd hnig prim pa hprim
  obtain ⟨r', hr', hd, -⟩ := C02_dual_unique prim (recip_ok hr).1
  rw [hr] at hr'
  cases hr'
  exact ⟨r, zoneOf_enough lib horder prim r hr he (fun P hP => hlib r P hd hP)⟩

/-- C89, SC: the same for the primitive cell of the SC convention. For a triclinic crystal spglib's cell
is reduced, or its reciprocal cell is. -/
theorem C89_sc (lib : PlotLib) (horder : ∀ l, (lib.order l).Perm l)
    (hl' : lower "sc" = "sc") (hconv : lower convention = "sc")
    (htol : data.angleTolerance = -1 ∨ 0 ≤ data.angleTolerance)
    (prim conv : Cell ℝ) (pa ca : Atoms ℝ)
    (hprim : getPrimitive lower getData niggli cell atoms convention (some data) = .ok (prim, pa))
    (hcv : getConventional lower getData niggli cell atoms convention (some data) =
      .ok (conv, ca))
    (hcell : ScCell (family data.spaceGroupNumber ++ centring data.spaceGroupNumber) conv)
    (hred : family data.spaceGroupNumber = "a" → IsNiggli data.conventionalCell ∨
      ∀ r0, getReciprocal data.conventionalCell = .ok r0 → PairReduced r0)
    (hlib : ∀ r P, IsDual r prim → getLatticePoints r (fun _ => 10) = .flat P →
      VoronoiAnswer lib P (index000 10)) :
    ∃ r vs edges, ZoneOf lib prim r vs edges := by
  obtain ⟨r, hr, he⟩ := sc_primitive_enough lower getData niggli cell atoms data hn hf hc
    convention hl' hconv htol prim conv pa ca hprim hcv hcell hred
  obtain ⟨r', hr', hd, -⟩ := C02_dual_unique prim (recip_ok hr).1
  rw [hr] at hr'
  cases hr'
  exact ⟨r, zoneOf_enough lib horder prim r hr he (fun P hP => hlib r P hd hP)⟩

/-- C89, HPKOT: the points of the default path and the zone drawn for the primitive cell. Every
point lies between the corners; all but GAMMA (and `Z` of the lattice `aP2`, which the code puts at
the origin) lie on the surface of the body. -/
theorem C89_hpkot_points (lib : PlotLib) (hl : lower "HPKOT" = "hpkot")
    (hl' : lower "hpkot" = "hpkot") (hconv : lower convention = "hpkot")
    (given : Option SpglibData)
    (hd : given = some data ∨ (given = none ∧ getData cell atoms = .ok data))
    (hstd : StandardCell (family data.spaceGroupNumber ++ centring data.spaceGroupNumber)
      data.conventionalCell)
    (hnig : family data.spaceGroupNumber = "a" → ∀ r r1,
      getReciprocal data.conventionalCell = .ok r → niggli r = .ok r1 → PairReduced r1)
    (prim r : Cell ℝ) (pa : Atoms ℝ)
    (hprim : getPrimitive lower getData niggli cell atoms convention (some data) = .ok (prim, pa))
    (vs : List (Vec ℝ)) (edges : List (ℕ × ℕ)) (hz : ZoneOf lib prim r vs edges)
    (t : Bool) (path : String) (pts : PyDict String (Vec ℝ))
    (h : getPathAndPoints lower getData niggli cell atoms given convention t false =
      .ok (path, pts)) (k : String) (v : Vec ℝ) (hv : pts.get? k = some v) :
    v ∈ convexHull ℝ {v | v ∈ vs} ∧
      (k = "GAMMA" ∨ v ∈ frontier (convexHull ℝ {v | v ∈ vs}) ∨
        (family data.spaceGroupNumber = "a" ∧ (k = "Z" ∨ k = "Z_P") ∧ v = 0)) := by
  have hr : getReciprocal prim = .ok r := dual_reciprocal hz.dual
  obtain ⟨h1, h2⟩ := C55_hpkot lower getData niggli cell atoms given data hd hn hf hc convention hl
    hl' hconv t path pts h hstd hnig prim r pa hprim hr k v hv
  refine ⟨(zone_point hz).1 h1, ?_⟩
  rcases h2 with h2 | h2 | h2
  · exact .inl h2
  · exact .inr (.inl ((zone_point hz).2 h2))
  · exact .inr (.inr h2)

/-- C89, SC: the same for the points of the SC convention, under the conditions of
`C55_sc_partial`. -/
theorem C89_sc_points (lib : PlotLib) (hl : lower "SC" = "sc") (hl' : lower "sc" = "sc")
    (hconv : lower convention = "sc")
    (htol : data.angleTolerance = -1 ∨ 0 ≤ data.angleTolerance) (hsym : 0 ≤ data.symprec)
    (given : Option SpglibData)
    (hd : given = some data ∨ (given = none ∧ getData cell atoms = .ok data))
    (prim r conv : Cell ℝ) (pa ca : Atoms ℝ) (s : String)
    (hprim : getPrimitive lower getData niggli cell atoms convention (some data) = .ok (prim, pa))
    (hcv : getConventional lower getData niggli cell atoms convention (some data) =
      .ok (conv, ca))
    (hvar : scGetVariation lower getData niggli cell atoms (some data) = .ok (some s))
    (hcell : ScCell (family data.spaceGroupNumber ++ centring data.spaceGroupNumber) conv)
    (htie : TieMet s conv r)
    (hred : family data.spaceGroupNumber = "a" → ∀ r0,
      getReciprocal data.conventionalCell = .ok r0 → PairReduced r0)
    (vs : List (Vec ℝ)) (edges : List (ℕ × ℕ)) (hz : ZoneOf lib prim r vs edges)
    (t : Bool) (path : String) (pts : PyDict String (Vec ℝ))
    (h : getPathAndPoints lower getData niggli cell atoms given convention t false =
      .ok (path, pts)) (k : String) (v : Vec ℝ) (hv : pts.get? k = some v)
    (hmC : family data.spaceGroupNumber ++ centring data.spaceGroupNumber = "mC" →
      k ≠ "F3" ∧ k ≠ "F3_P")
    (haN : family data.spaceGroupNumber = "a" → k = "N" ∨ k = "N_P" →
      dot (r 0) (r 1) ≤ dot (r 0) (r 2) ∧ dot (r 0) (r 1) ≤ dot (r 1) (r 2)) :
    v ∈ convexHull ℝ {v | v ∈ vs} ∧
      (k ≠ "GAMMA" → v ∈ frontier (convexHull ℝ {v | v ∈ vs})) := by
  have hr : getReciprocal prim = .ok r := dual_reciprocal hz.dual
  obtain ⟨h1, h2⟩ := C55_sc_partial lower getData niggli cell atoms given data hd hn hf hc
    convention hl hl' hconv htol hsym t path pts h prim r conv pa ca s hprim hr hcv hvar hcell htie
    hred k v hv hmC haN
  exact ⟨(zone_point hz).1 h1, fun hk => (zone_point hz).2 (h2 hk)⟩

end

end Wulfric
