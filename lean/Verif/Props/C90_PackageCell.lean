import Verif.Props.C68_PathInZone
import Verif.Props.C89_PackageZone

/-! # C90: the Wigner-Seitz cell of the primitive cell that the package produces, and one picture
for both conventions -/

namespace Wulfric

open Matrix _root_.Spec Wulfric.Spec

/-- What `get_wigner_seitz_cell` returns for a cell: the corners and the edges of the Wigner-Seitz
cell, the body with the volume of the cell that fills space. -/
structure CellOf (lib : PlotLib) (prim : Cell ℝ) (vs : List (Vec ℝ)) (edges : List (ℕ × ℕ)) :
    Prop where
  /-- the answer of the call -/
  answer : getWignerSeitzCell lib prim = .ok (vs, edges)
  /-- the pairs of indices are the edges of the body -/
  frame : WireFrame (region (latticePoints prim)) vs edges
  /-- the points are its corners -/
  body : ∃ V, getVolume (.one prim) = .ok V ∧ 0 < V ∧ ZoneCorners vs (latticePoints prim) V

theorem cellOf_enough (lib : PlotLib) (horder : ∀ l, (lib.order l).Perm l) (prim : Cell ℝ)
    (hdet : prim.det ≠ 0) (he : Enough prim)
    (hlib : ∀ P, getLatticePoints prim (fun _ => 10) = .flat P →
      VoronoiAnswer lib P (index000 10)) : ∃ vs edges, CellOf lib prim vs edges := by
  obtain ⟨vs, edges, hok, hw⟩ := C67_wigner_seitz lib horder prim hdet he hlib
  exact ⟨vs, edges, hok, hw, |prim.det|, rfl, abs_pos.2 hdet,
    zoneCorners_of_wireFrame prim hdet he vs edges hw⟩

theorem reciprocal_dual {p r : Cell ℝ} (h : getReciprocal p = .ok r) : IsDual r p := by
  obtain ⟨r', h1, h2, -⟩ := C02_dual_unique p (recip_ok h).1
  rw [h] at h1
  cases h1
  exact h2

/-- The two drawings show the same body: the same corners and the same edges. -/
def SameDrawing (vs : List (Vec ℝ)) (edges : List (ℕ × ℕ)) (vs' : List (Vec ℝ))
    (edges' : List (ℕ × ℕ)) : Prop :=
  vs.Perm vs' ∧
    ∀ s, (∃ e ∈ edges, ∃ u v, vs[e.1]? = some u ∧ vs[e.2]? = some v ∧ s = segment ℝ u v) ↔
      ∃ e ∈ edges', ∃ u v, vs'[e.1]? = some u ∧ vs'[e.2]? = some v ∧ s = segment ℝ u v

theorem sameDrawing {lib lib' : PlotLib} (horder : ∀ l, (lib.order l).Perm l)
    (horder' : ∀ l, (lib'.order l).Perm l) {c d : Cell ℝ} (hc : c.det ≠ 0) (hd : d.det ≠ 0)
    (hs : SameLattice c d) (hce : Enough c) (hde : Enough d)
    (hclib : ∀ P, getLatticePoints c (fun _ => 10) = .flat P → VoronoiAnswer lib P (index000 10))
    (hdlib : ∀ P, getLatticePoints d (fun _ => 10) = .flat P → VoronoiAnswer lib' P (index000 10))
    {vs vs' : List (Vec ℝ)} {edges edges' : List (ℕ × ℕ)}
    (h : getWignerSeitzCell lib c = .ok (vs, edges))
    (h' : getWignerSeitzCell lib' d = .ok (vs', edges')) : SameDrawing vs edges vs' edges' := by
  obtain ⟨ws, fs, ws', fs', h1, h2, h3, h4⟩ := C88_same_lattice lib lib' horder horder' c d hc hd hs
    hce hde hclib hdlib
  rw [h] at h1
  rw [h'] at h2
  cases h1
  cases h2
  exact ⟨h3, h4⟩

section
variable (lower : String → String) (getData : Cell ℝ → Atoms ℝ → Except Err SpglibData)
  (niggli : Cell ℝ → Except Err (Cell ℝ)) (cell : Cell ℝ) (atoms : Atoms ℝ)
  (data : SpglibData)
  (hn : 1 ≤ data.spaceGroupNumber ∧ data.spaceGroupNumber ≤ 230)
  (hf : data.crystalFamily = family data.spaceGroupNumber)
  (hc : data.centringType = centring data.spaceGroupNumber)

include hn hf hc

/-- The lattice points that `get_wigner_seitz_cell` uses are enough, HPKOT. -/
theorem hpkot_cell_enough (convention : String) (hl' : lower "hpkot" = "hpkot")
    (hconv : lower convention = "hpkot")
    (hstd : StandardCell (family data.spaceGroupNumber ++ centring data.spaceGroupNumber)
      data.conventionalCell)
    (hnig : family data.spaceGroupNumber = "a" → ∀ r r1,
      getReciprocal data.conventionalCell = .ok r → niggli r = .ok r1 → IsNiggli r1)
    (prim : Cell ℝ) (pa : Atoms ℝ)
    (hprim : getPrimitive lower getData niggli cell atoms convention (some data) = .ok (prim, pa)) :
    prim.det ≠ 0 ∧ Enough prim := by
  obtain ⟨hd, h⟩ := hpkot_primitive_cell lower getData niggli cell atoms data hn hf hc convention
    hl' hconv prim pa hprim
  refine ⟨hd, ?_⟩
  rcases h with ⟨hfa, h⟩ | ⟨haP, matrix, h1, h2⟩
  · exact hpkotA_direct h (hnig hfa)
  · exact hpkot_direct (symbols_inside _ (Finset.mem_Icc.2 hn)) haP hstd h1 h2 hd

/-- The lattice points that `get_wigner_seitz_cell` uses are enough, SC. -/
theorem sc_cell_enough (convention : String) (hl' : lower "sc" = "sc")
    (hconv : lower convention = "sc")
    (prim conv : Cell ℝ) (pa ca : Atoms ℝ)
    (hprim : getPrimitive lower getData niggli cell atoms convention (some data) = .ok (prim, pa))
    (hcv : getConventional lower getData niggli cell atoms convention (some data) =
      .ok (conv, ca))
    (hcell : ScCell (family data.spaceGroupNumber ++ centring data.spaceGroupNumber) conv)
    (hred : family data.spaceGroupNumber = "a" → IsNiggli data.conventionalCell) :
    prim.det ≠ 0 ∧ Enough prim := by
  obtain ⟨hd, h⟩ := sc_primitive_cell lower getData niggli cell atoms data hn hf hc convention
    hl' hconv prim conv pa ca hprim hcv
  refine ⟨hd, ?_⟩
  rcases h with ⟨hfa, h⟩ | ⟨haP, matrix, h1, h2⟩
  · obtain ⟨m1, m2, r0, o1, o2, rfl, -⟩ := scA_order h
    exact enough_applyT o2 (enough_applyT o1 (C52_reduced _ (hred hfa) 10 (by norm_num)))
  · exact sc_direct (symbols_inside _ (Finset.mem_Icc.2 hn)) haP hcell h1 h2 hd

/-- C90, HPKOT: for the primitive cell of any of the 230 space groups `get_wigner_seitz_cell`
returns the corners and the edges of the Wigner-Seitz cell. -/
theorem C90_hpkot (convention : String) (lib : PlotLib) (horder : ∀ l, (lib.order l).Perm l)
    (hl' : lower "hpkot" = "hpkot") (hconv : lower convention = "hpkot")
    (hstd : StandardCell (family data.spaceGroupNumber ++ centring data.spaceGroupNumber)
      data.conventionalCell)
    (hnig : family data.spaceGroupNumber = "a" → ∀ r r1,
      getReciprocal data.conventionalCell = .ok r → niggli r = .ok r1 → IsNiggli r1)
    (prim : Cell ℝ) (pa : Atoms ℝ)
    (hprim : getPrimitive lower getData niggli cell atoms convention (some data) = .ok (prim, pa))
    (hlib : ∀ P, getLatticePoints prim (fun _ => 10) = .flat P →
      VoronoiAnswer lib P (index000 10)) :
    ∃ vs edges, CellOf lib prim vs edges := by
  obtain ⟨hd, he⟩ := hpkot_cell_enough lower getData niggli cell atoms data hn hf hc convention hl'
    hconv hstd hnig prim pa hprim
  exact cellOf_enough lib horder prim hd he hlib

/-- C90, SC: the same for the primitive cell of the SC convention. -/
theorem C90_sc (convention : String) (lib : PlotLib) (horder : ∀ l, (lib.order l).Perm l)
    (hl' : lower "sc" = "sc") (hconv : lower convention = "sc")
    (prim conv : Cell ℝ) (pa ca : Atoms ℝ)
    (hprim : getPrimitive lower getData niggli cell atoms convention (some data) = .ok (prim, pa))
    (hcv : getConventional lower getData niggli cell atoms convention (some data) =
      .ok (conv, ca))
    (hcell : ScCell (family data.spaceGroupNumber ++ centring data.spaceGroupNumber) conv)
    (hred : family data.spaceGroupNumber = "a" → IsNiggli data.conventionalCell)
    (hlib : ∀ P, getLatticePoints prim (fun _ => 10) = .flat P →
      VoronoiAnswer lib P (index000 10)) :
    ∃ vs edges, CellOf lib prim vs edges := by
  obtain ⟨hd, he⟩ := sc_cell_enough lower getData niggli cell atoms data hn hf hc convention hl'
    hconv prim conv pa ca hprim hcv hcell hred
  exact cellOf_enough lib horder prim hd he hlib

/-- C90: when the two primitive cells are bases of one lattice (C83), the Wigner-Seitz cell is drawn
with the same corners and the same edges whichever convention is used. -/
theorem C90_conventions_cell (c1 c2 : String) (lib : PlotLib)
    (horder : ∀ l, (lib.order l).Perm l)
    (hl1 : lower "hpkot" = "hpkot") (hl2 : lower "sc" = "sc")
    (hc1 : lower c1 = "hpkot") (hc2 : lower c2 = "sc")
    (hstd : StandardCell (family data.spaceGroupNumber ++ centring data.spaceGroupNumber)
      data.conventionalCell)
    (hnig : family data.spaceGroupNumber = "a" → ∀ r r1,
      getReciprocal data.conventionalCell = .ok r → niggli r = .ok r1 → IsNiggli r1)
    (p1 p2 conv : Cell ℝ) (a1 a2 ca : Atoms ℝ)
    (h1 : getPrimitive lower getData niggli cell atoms c1 (some data) = .ok (p1, a1))
    (h2 : getPrimitive lower getData niggli cell atoms c2 (some data) = .ok (p2, a2))
    (hcv : getConventional lower getData niggli cell atoms c2 (some data) = .ok (conv, ca))
    (hcell : ScCell (family data.spaceGroupNumber ++ centring data.spaceGroupNumber) conv)
    (hred : family data.spaceGroupNumber = "a" → IsNiggli data.conventionalCell)
    (hs : SameLattice p1 p2)
    (hlib : ∀ c P, c = p1 ∨ c = p2 → getLatticePoints c (fun _ => 10) = .flat P →
      VoronoiAnswer lib P (index000 10)) :
    ∃ vs edges vs' edges', getWignerSeitzCell lib p1 = .ok (vs, edges) ∧
      getWignerSeitzCell lib p2 = .ok (vs', edges') ∧ SameDrawing vs edges vs' edges' := by
  obtain ⟨d1, e1⟩ := hpkot_cell_enough lower getData niggli cell atoms data hn hf hc c1 hl1 hc1
    hstd hnig p1 a1 h1
  obtain ⟨d2, e2⟩ := sc_cell_enough lower getData niggli cell atoms data hn hf hc c2 hl2 hc2 p2 conv
    a2 ca h2 hcv hcell hred
  obtain ⟨vs, edges, w1, -⟩ := C67_wigner_seitz lib horder p1 d1 e1 (fun P => hlib p1 P (.inl rfl))
  obtain ⟨vs', edges', w2, -⟩ := C67_wigner_seitz lib horder p2 d2 e2
    (fun P => hlib p2 P (.inr rfl))
  exact ⟨vs, edges, vs', edges', w1, w2, sameDrawing horder horder d1 d2 hs e1 e2
    (fun P => hlib p1 P (.inl rfl)) (fun P => hlib p2 P (.inr rfl)) w1 w2⟩

/-- C90: likewise for the Brillouin zone. -/
theorem C90_conventions_zone (c1 c2 : String) (lib : PlotLib)
    (horder : ∀ l, (lib.order l).Perm l)
    (hl1 : lower "hpkot" = "hpkot") (hl2 : lower "sc" = "sc")
    (hc1 : lower c1 = "hpkot") (hc2 : lower c2 = "sc")
    (htol : data.angleTolerance = -1 ∨ 0 ≤ data.angleTolerance)
    (hstd : StandardCell (family data.spaceGroupNumber ++ centring data.spaceGroupNumber)
      data.conventionalCell)
    (hnig : family data.spaceGroupNumber = "a" → ∀ r r1,
      getReciprocal data.conventionalCell = .ok r → niggli r = .ok r1 → PairReduced r1)
    (p1 p2 conv : Cell ℝ) (a1 a2 ca : Atoms ℝ)
    (h1 : getPrimitive lower getData niggli cell atoms c1 (some data) = .ok (p1, a1))
    (h2 : getPrimitive lower getData niggli cell atoms c2 (some data) = .ok (p2, a2))
    (hcv : getConventional lower getData niggli cell atoms c2 (some data) = .ok (conv, ca))
    (hcell : ScCell (family data.spaceGroupNumber ++ centring data.spaceGroupNumber) conv)
    (hred : family data.spaceGroupNumber = "a" → IsNiggli data.conventionalCell ∨
      ∀ r0, getReciprocal data.conventionalCell = .ok r0 → PairReduced r0)
    (hs : SameLattice p1 p2)
    (hlib : ∀ r P, IsDual r p1 ∨ IsDual r p2 → getLatticePoints r (fun _ => 10) = .flat P →
      VoronoiAnswer lib P (index000 10)) :
    ∃ vs edges vs' edges', getBrillouinZone lib p1 = .ok (vs, edges) ∧
      getBrillouinZone lib p2 = .ok (vs', edges') ∧ SameDrawing vs edges vs' edges' := by
  obtain ⟨r1, k1, f1⟩ := hpkot_primitive_enough lower getData niggli cell atoms data hn hf hc c1 hl1
    hc1 hstd hnig p1 a1 h1
  obtain ⟨r2, k2, f2⟩ := sc_primitive_enough lower getData niggli cell atoms data hn hf hc c2 hl2 hc2
    htol p2 conv a2 ca h2 hcv hcell hred
  have l1 (P) : getLatticePoints r1 (fun _ => 10) = .flat P → VoronoiAnswer lib P (index000 10) :=
    hlib r1 P (.inl (reciprocal_dual k1))
  have l2 (P) : getLatticePoints r2 (fun _ => 10) = .flat P → VoronoiAnswer lib P (index000 10) :=
    hlib r2 P (.inr (reciprocal_dual k2))
  obtain ⟨vs, edges, z1, -⟩ := C67_wigner_seitz lib horder r1 (recip_det k1) f1 l1
  obtain ⟨vs', edges', z2, -⟩ := C67_wigner_seitz lib horder r2 (recip_det k2) f2 l2
  refine ⟨vs, edges, vs', edges', ?_, ?_, sameDrawing horder horder (recip_det k1) (recip_det k2)
    (recip_sameLattice hs k1 k2) f1 f2 l1 l2 z1 z2⟩
  · unfold getBrillouinZone
    simp only [Bind.bind, Except.bind, k1]
    exact z1
  · unfold getBrillouinZone
    simp only [Bind.bind, Except.bind, k2]
    exact z2

end

end Wulfric
