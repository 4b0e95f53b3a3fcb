import Verif.Props.C46_Sampling
import Verif.Props.C55_BrillouinZone
import Verif.Props.C60_ScShape
import Verif.Props.C61_NiggliUnique
import Verif.Props.C64_Figure
import Verif.Props.C66_Colours
import Verif.Lemmas.Atoms
import Verif.Spec.Voronoi
import Mathlib.Analysis.Convex.Basic

/-! # C68: the default path stays in the first Brillouin zone -/

namespace Wulfric
open Matrix _root_.Spec Wulfric.Spec

theorem inZone_iff (r : Cell ℝ) (x : Vec ℝ) :
    InZone r x ↔ ∀ g ∈ latticePoints r, 2 * dot x g ≤ dot g g := by
  refine forall₂_congr fun g _ => ?_
  have : dot (x - g) (x - g) = dot x x - 2 * dot x g + dot g g := by
    simp only [dot, Pi.sub_apply]; ring
  rw [this]
  constructor <;> intro h <;> linarith

/-- The zone has no dents. -/
theorem inZone_convex (r : Cell ℝ) : Convex ℝ {x | InZone r x} := by
  intro x hx y hy a b ha hb hab
  simp only [Set.mem_setOf_eq, inZone_iff] at hx hy ⊢
  intro g hg
  have e : dot (a • x + b • y) g = a * dot x g + b * dot y g := by
    simp only [dot, Pi.add_apply, Pi.smul_apply, smul_eq_mul]; ring
  rw [e]
  have h1 := mul_le_mul_of_nonneg_left (hx g hg) ha
  have h2 := mul_le_mul_of_nonneg_left (hy g hg) hb
  have hb' : b = 1 - a := by linarith
  subst hb'
  nlinarith

/-- The zone is the Wigner-Seitz cell of the reciprocal lattice, whose edges are the subject of
C67. -/
theorem zone_eq (r : Cell ℝ) : {x | InZone r x} = wignerSeitz r := rfl

/-- The points of `linspace` are between its ends. -/
theorem linspace_between {a b : Vec ℝ} {num : ℤ} {l : List (Vec ℝ)} (h : linspace a b num = .ok l) :
    ∀ v ∈ l, ∃ t : ℝ, 0 ≤ t ∧ t ≤ 1 ∧ v = a + t • (b - a) := by
  unfold linspace at h
  split at h
  · simp at h
  rename_i hnum
  simp only [Except.ok.injEq] at h
  subst h
  intro v hv
  obtain ⟨i, hi, rfl⟩ := List.mem_map.1 hv
  rw [List.mem_range] at hi
  split
  · exact ⟨1, zero_le_one, le_rfl, by simp⟩
  · split
    · rename_i h1 h2
      have h3 : (0 : ℝ) < (num : ℝ) - 1 := by
        have : (1 : ℝ) < (num : ℝ) := by exact_mod_cast h2
        linarith
      have h4 : (i : ℝ) ≤ (num : ℝ) - 1 := by
        have : (i : ℤ) ≤ num - 1 := by omega
        exact_mod_cast this
      exact ⟨_, by positivity, (div_le_one h3).2 h4, rfl⟩
    · rename_i h1 h2
      have : i = 0 := by omega
      subst this
      exact ⟨0, le_rfl, zero_le_one, by simp⟩

theorem pointsRest_convex {coordinates : PyDict String (Vec ℝ)} {cell : Cell ℝ} {n : ℤ}
    {W : Set (Vec ℝ)} (hW : Convex ℝ W) (sub : List String)
    (hsub : ∀ m ∈ sub, ∀ v, coordinates.get? m = some v → v ᵥ* cell ∈ W) :
    ∀ acc out, pointsRest coordinates cell n sub acc = .ok out →
      (∀ l, acc = some l → ∀ v ∈ l, v ∈ W) → ∀ l, out = some l → ∀ v ∈ l, v ∈ W := by
  induction sub with
  | nil =>
    intro acc out h hacc
    simp only [pointsRest, Except.ok.injEq] at h
    exact h ▸ hacc
  | cons a rest ih =>
    match rest, ih with
    | [], _ =>
      intro acc out h hacc
      simp only [pointsRest, Except.ok.injEq] at h
      exact h ▸ hacc
    | b :: rest, ih =>
      intro acc out h hacc
      rw [pointsRest] at h
      simp only [bind, Except.bind] at h
      cases ha : coordinates.getItem a with
      | error e => simp [ha] at h
      | ok pa =>
      cases hb : coordinates.getItem b with
      | error e => simp [ha, hb] at h
      | ok pb =>
      simp only [ha, hb] at h
      cases hl : linspace (vecMat pa cell) (vecMat pb cell) (n + 2) with
      | error e => simp [hl] at h
      | ok new =>
      simp only [hl] at h
      refine ih (fun m hm => hsub m (List.mem_cons_of_mem _ hm)) _ out h ?_
      have ga : coordinates.get? a = some pa := by
        unfold PyDict.getItem at ha
        split at ha <;> simp_all
      have gb : coordinates.get? b = some pb := by
        unfold PyDict.getItem at hb
        split at hb <;> simp_all
      have hnew : ∀ v ∈ new, v ∈ W := by
        intro v hv
        obtain ⟨t, h0, h1, rfl⟩ := linspace_between hl v hv
        have wa := hsub a (by simp) pa ga
        have wb := hsub b (by simp) pb gb
        rw [vecMat_eq, vecMat_eq]
        have := hW wa wb (by linarith : (0 : ℝ) ≤ 1 - t) h0 (by ring)
        convert this using 1
        module
      intro l hl v hv
      cases acc with
      | none =>
        simp only [Option.some.injEq] at hl
        exact hnew v (hl ▸ hv)
      | some l0 =>
        simp only [Option.some.injEq] at hl
        rw [← hl] at hv
        rcases List.mem_append.1 hv with hv | hv
        · exact hacc l0 rfl v hv
        · exact hnew v hv

theorem pointsLoop_convex {coordinates : PyDict String (Vec ℝ)} {cell : Cell ℝ} {n : ℤ}
    {W : Set (Vec ℝ)} (hW : Convex ℝ W) (path : List (List String))
    (hpath : ∀ sub ∈ path, ∀ m ∈ sub, ∀ v, coordinates.get? m = some v → v ᵥ* cell ∈ W) :
    ∀ acc out, pointsLoop coordinates cell n path acc = .ok out →
      (∀ l, acc = some l → ∀ v ∈ l, v ∈ W) → ∀ l, out = some l → ∀ v ∈ l, v ∈ W := by
  induction path with
  | nil =>
    intro acc out h hacc
    simp only [pointsLoop, Except.ok.injEq] at h
    exact h ▸ hacc
  | cons sub subs ih =>
    intro acc out h hacc
    rw [pointsLoop] at h
    simp only [bind, Except.bind] at h
    cases h1 : pointsRest coordinates cell n sub acc with
    | error e => simp [h1] at h
    | ok acc' =>
    simp only [h1] at h
    exact ih (fun s hs => hpath s (List.mem_cons_of_mem _ hs)) _ _ h
      (pointsRest_convex hW sub (hpath sub (by simp)) _ _ h1 hacc)

/-- C68: if the named points of the path are in a convex set, so is every point returned by
`points`, for every number of points per step. -/
theorem C68_convex (k : Kpoints) (W : Set (Vec ℝ)) (hW : Convex ℝ W)
    (h : ∀ sub ∈ k.path, ∀ m ∈ sub, ∀ v, k.hsCoordinates.get? m = some v → v ᵥ* k.rcell ∈ W)
    (l : List (Vec ℝ)) (hl : k.points false = .ok (some l)) : ∀ v ∈ l, v ∈ W :=
  pointsLoop_convex (cell := k.basis false) hW k.path (by simpa [Kpoints.basis] using h) none
    (some l) hl (by simp) l rfl

section
variable (lower : String → String) (hl : lower "HPKOT" = "hpkot") (hl' : lower "SC" = "sc")
  (getData : Cell ℝ → Atoms ℝ → Except Err SpglibData)
  (niggli : Cell ℝ → Except Err (Cell ℝ)) (cell : Cell ℝ) (atoms : Atoms ℝ)
  (given : Option SpglibData) (data : SpglibData)
  (hd : given = some data ∨ (given = none ∧ getData cell atoms = .ok data))
  (hn : 1 ≤ data.spaceGroupNumber ∧ data.spaceGroupNumber ≤ 230)
  (hf : data.crystalFamily = family data.spaceGroupNumber)
  (hc : data.centringType = centring data.spaceGroupNumber)
  (htol : data.angleTolerance = -1 ∨ 0 ≤ data.angleTolerance) (convention : String)
include hl hl' hd hn hf hc htol

/-- The absolute coordinates can be asked for whenever the relative ones can. -/
theorem absolute_of_relative (t : Bool) (path : String) (pts : PyDict String (Vec ℝ))
    (h : getPathAndPoints lower getData niggli cell atoms given convention t true =
      .ok (path, pts)) (q : Cell ℝ) (hq : getReciprocal cell = .ok q) :
    ∃ abs, getPathAndPoints lower getData niggli cell atoms given convention t false =
      .ok (path, abs) ∧ abs.keys = pts.keys ∧
      ∀ k w, pts.get? k = some w → abs.get? k = some (w ᵥ* q) := by
  obtain ⟨kpath, raw, prim, a, rprim, -, -, hg, hs⟩ := path_steps lower hl hl' getData niggli cell
    atoms given data hd hn hf hc htol convention _ t true h
  have hex : ∃ path' abs, getPathAndPoints lower getData niggli cell atoms given convention t false =
      .ok (path', abs) := by
    rw [hs]
    obtain ⟨e, he⟩ := allCoordinates_exists (recip_ok hq).1 (r := rprim) (rel := false) raw
    simp only [he, bind, Except.bind]
    by_cases hi : centrosymmetric data.spaceGroupNumber = true ∨ t = true
    · rw [extend_same hi]
      exact ⟨_, _, rfl⟩
    · rw [not_or, Bool.not_eq_true, Bool.not_eq_true] at hi
      rw [hi.1, hi.2]
      obtain ⟨p, path', e', -, he', -⟩ := extend_spec hg (allCoordinates_ok he).1
      exact ⟨_, _, he'⟩
  obtain ⟨path', abs, habs⟩ := hex
  obtain ⟨pts', h1, h2, h3⟩ := C43_relative lower hl hl' getData niggli cell atoms given data hd hn hf
    hc htol convention path' abs t habs q hq
  rw [h] at h1
  cases h1
  refine ⟨abs, habs, h2.symm, fun k w hw => ?_⟩
  have hk : k ∈ abs.keys := by
    rw [← h2, ← PyDict.get?_isSome, hw]; rfl
  rw [← PyDict.get?_isSome, Option.isSome_iff_exists] at hk
  obtain ⟨v, hv⟩ := hk
  obtain ⟨w', hw', e⟩ := h3 k v hv
  rw [hw] at hw'
  cases hw'
  rw [hv, e]

/-- What `from_crystal` was built from. -/
theorem from_crystal_parts (t : Bool) (n : ℤ) (k : Kpoints)
    (hk : Kpoints.fromCrystal lower getData niggli cell atoms convention t n given = .ok k) :
    ∃ path abs, getPathAndPoints lower getData niggli cell atoms given convention t false =
      .ok (path, abs) ∧ getReciprocal cell = .ok k.rcell ∧ PathDefined k ∧
      k.hsNames = abs.keys ∧
      ∀ m w, k.hsCoordinates.get? m = some w → abs.get? m = some (w ᵥ* k.rcell) := by
  have hk' := hk
  unfold Kpoints.fromCrystal at hk'
  simp only [bind, Except.bind] at hk'
  cases h1 : getPathAndPoints lower getData niggli cell atoms given convention t true with
  | error e => simp [h1] at hk'
  | ok res =>
  obtain ⟨path, pts⟩ := res
  simp only [h1] at hk'
  cases h2 : pts.keys.mapM fun name => hsPlotNames.getItem name with
  | error e => simp [h2] at hk'
  | ok labels =>
  simp only [h2] at hk'
  cases h3 : getReciprocal cell with
  | error e => simp [h3] at hk'
  | ok q =>
  obtain ⟨k', e1, e2, -, e3, e4, -, -, e5, -⟩ := C45_from_crystal lower hl hl' getData niggli cell
    atoms given data hd hn hf hc htol convention t n path pts h1 q h3
  rw [hk] at e1
  cases e1
  obtain ⟨abs, a1, a2, a3⟩ := absolute_of_relative lower hl hl' getData niggli cell
    atoms given data hd hn hf hc htol convention t path pts h1 q h3
  rw [e2]
  refine ⟨path, abs, a1, rfl, e5, by rw [e4, a2], fun m w hw => a3 m w (e3 ▸ hw)⟩

/-- C68, HPKOT: every point of the default path, not only the named ones, is in the first Brillouin
zone of the primitive cell, in Cartesian coordinates of the given crystal, for every number of
points per step, with time reversal or without. -/
theorem C68_hpkot (hl'' : lower "hpkot" = "hpkot") (hconv : lower convention = "hpkot") (t : Bool)
    (n : ℤ) (k : Kpoints)
    (hk : Kpoints.fromCrystal lower getData niggli cell atoms convention t n given = .ok k)
    (hstd : StandardCell (family data.spaceGroupNumber ++ centring data.spaceGroupNumber)
      data.conventionalCell)
    (hnig : family data.spaceGroupNumber = "a" → ∀ r r1,
      getReciprocal data.conventionalCell = .ok r → niggli r = .ok r1 → PairReduced r1)
    (prim r : Cell ℝ) (pa : Atoms ℝ)
    (hprim : getPrimitive lower getData niggli cell atoms convention (some data) = .ok (prim, pa))
    (hr : getReciprocal prim = .ok r) :
    (∀ m ∈ k.hsNames, InZone r (k.position false m)) ∧
    ∀ l, k.points false = .ok (some l) → ∀ v ∈ l, InZone r v := by
  obtain ⟨path, abs, h1, h2, h3, h4, h5⟩ := from_crystal_parts lower hl hl' getData niggli cell
    atoms given data hd hn hf hc htol convention t n k hk
  have key : ∀ m v, abs.get? m = some v → InZone r v := fun m v hv =>
    (C55_hpkot lower getData niggli cell atoms given data hd hn hf hc convention hl hl'' hconv t
      path abs h1 hstd hnig prim r pa hprim hr m v hv).1
  have hz : InZone r 0 := by
    rw [inZone_iff]
    intro g _
    have : 0 ≤ dot g g := by
      unfold dot
      nlinarith [mul_self_nonneg (g 0), mul_self_nonneg (g 1), mul_self_nonneg (g 2)]
    simpa [dot] using this
  constructor
  · intro m hm
    unfold Kpoints.position
    rw [if_neg (by simp)]
    cases hw : k.hsCoordinates.get? m with
    | none => simpa using hz
    | some w => exact key m _ (h5 m w hw)
  · intro l hl v hv
    exact C68_convex k {x | InZone r x} (inZone_convex r)
      (fun sub _ m _ w hw => key m _ (h5 m w hw)) l hl v hv

/-- C68, SC: the same, with the exceptions of C55: the base-centred monoclinic and the triclinic
lattices. -/
theorem C68_sc (hl'' : lower "sc" = "sc") (hconv : lower convention = "sc") (t : Bool)
    (n : ℤ) (k : Kpoints)
    (hk : Kpoints.fromCrystal lower getData niggli cell atoms convention t n given = .ok k)
    (hsym : 0 ≤ data.symprec)
    (hstd : StandardCell (family data.spaceGroupNumber ++ centring data.spaceGroupNumber)
      data.conventionalCell)
    (hR : family data.spaceGroupNumber ++ centring data.spaceGroupNumber = "hR" →
      ∃ x t, HasParams data.primitiveCell x x x t t t)
    (hm : family data.spaceGroupNumber = "m" → ∀ x y z be,
      HasParams data.conventionalCell x y z 90 be 90 → be = 90 ∨ angleTol data < be - 90)
    (hmC : family data.spaceGroupNumber ++ centring data.spaceGroupNumber ≠ "mC")
    (ha : family data.spaceGroupNumber ≠ "a")
    (prim r conv : Cell ℝ) (pa ca : Atoms ℝ) (s : String)
    (hprim : getPrimitive lower getData niggli cell atoms convention (some data) = .ok (prim, pa))
    (hr : getReciprocal prim = .ok r)
    (hcv : getConventional lower getData niggli cell atoms convention (some data) =
      .ok (conv, ca))
    (hvar : scGetVariation lower getData niggli cell atoms (some data) = .ok (some s))
    (htie : TieMet s conv r) :
    (∀ m ∈ k.hsNames, InZone r (k.position false m)) ∧
    ∀ l, k.points false = .ok (some l) → ∀ v ∈ l, InZone r v := by
  obtain ⟨path, abs, h1, h2, h3, h4, h5⟩ := from_crystal_parts lower hl hl' getData niggli cell
    atoms given data hd hn hf hc htol convention t n k hk
  have key : ∀ m v, abs.get? m = some v → InZone r v := fun m v hv =>
    (C55_from_spglib_partial hd hn hf hc hconv hl' hl'' htol hsym hstd hR hm t path abs h1 prim r conv
      pa ca s hprim hr hcv hvar htie (fun e => absurd e ha) m v hv (fun e => absurd e hmC)
      (fun e => absurd e ha)).1
  have hz : InZone r 0 := by
    rw [inZone_iff]
    intro g _
    have : 0 ≤ dot g g := by
      unfold dot
      nlinarith [mul_self_nonneg (g 0), mul_self_nonneg (g 1), mul_self_nonneg (g 2)]
    simpa [dot] using this
  constructor
  · intro m hm
    unfold Kpoints.position
    rw [if_neg (by simp)]
    cases hw : k.hsCoordinates.get? m with
    | none => simpa using hz
    | some w => exact key m _ (h5 m w hw)
  · intro l hl v hv
    exact C68_convex k {x | InZone r x} (inZone_convex r)
      (fun sub _ m _ w hw => key m _ (h5 m w hw)) l hl v hv

end

/-- Two bases of one lattice have reciprocal cells that are bases of one lattice. -/
theorem recip_sameLattice {prim cell r q : Cell ℝ} (h : SameLattice prim cell)
    (hr : getReciprocal prim = .ok r) (hq : getReciprocal cell = .ok q) : SameLattice r q := by
  change latticePoints r = latticePoints q
  obtain ⟨dp, er⟩ := recip_ok hr
  obtain ⟨dc, eq⟩ := recip_ok hq
  obtain ⟨M, hM, rfl⟩ := h.unimodular dp
  have hu : IsUnit M.det := by rcases hM with h | h <;> simp [h]
  have hMi : (M⁻¹).map (Int.cast : ℤ → ℝ) * M.map (Int.cast : ℤ → ℝ) = 1 := by
    have h1 : (M⁻¹ * M).map (Int.castRingHom ℝ) =
        (M⁻¹).map (Int.castRingHom ℝ) * M.map (Int.castRingHom ℝ) := Matrix.map_mul
    rw [Matrix.nonsing_inv_mul M hu] at h1
    have h2 : (1 : Matrix (Fin 3) (Fin 3) ℤ).map (Int.castRingHom ℝ) = 1 := by simp
    exact h1.symm.trans h2
  have hinv : (M.map (Int.cast : ℤ → ℝ))⁻¹ = (M⁻¹).map (Int.cast : ℤ → ℝ) :=
    Matrix.inv_eq_left_inv hMi
  have e : q = ((M⁻¹)ᵀ).map (Int.cast : ℤ → ℝ) * r := by
    rw [eq, er, Matrix.mul_inv_rev, hinv, Matrix.transpose_mul, Matrix.transpose_map,
      Matrix.mul_smul]
  rw [e]
  refine (sameLattice_of_unimodular (M⁻¹)ᵀ ?_ r).symm
  rw [Matrix.det_transpose]
  exact Matrix.isUnit_nonsing_inv_det M hu

/-- C68: the zone is that of the lattice: every cell of the lattice of the primitive cell, such as a
primitive cell given by the user, has the same one. -/
theorem C68_zone_of_lattice (prim cell r q : Cell ℝ) (h : SameLattice prim cell)
    (hr : getReciprocal prim = .ok r) (hq : getReciprocal cell = .ok q) (v : Vec ℝ) :
    InZone r v ↔ InZone q v := by
  unfold InZone
  rw [show latticePoints r = latticePoints q from recip_sameLattice h hr hq]

/-- C68: so `plot_kpath` draws no line that leaves the zone. -/
theorem C68_drawn (lib : PlotLib) (e : Engine) (s : Style) (k : Kpoints) (r : Cell ℝ)
    (hne : k.path ≠ [])
    (hpath : ∀ sub ∈ k.path, sub ≠ [] ∧ ∀ m ∈ sub, ∃ c, k.hsCoordinates.get? m = some c)
    (hz : ∀ sub ∈ k.path, ∀ m ∈ sub, InZone r (k.position false m)) :
    ∃ ts, (e.call lib s (.kpath k 0)).1.traces = e.traces ++ ts ∧ ts.length = k.path.length ∧
      ∀ t ∈ ts, t.kind = .lines ∧ ∀ p ∈ t.points, ∀ p' ∈ t.points, segment ℝ p p' ⊆
        {x | InZone r x} := by
  obtain ⟨-, ts, h1, h2⟩ := C64_kpath lib e s k 0 hne hpath
  refine ⟨ts, h1, h2.length_eq, fun t ht => ?_⟩
  obtain ⟨sub, hs, h3, h4⟩ := forall₂_left h2 t ht
  have key : ∀ p ∈ t.points, InZone r p := by
    intro p hp
    obtain ⟨m, hm, c, hc, e1⟩ := forall₂_left h4 p hp
    have := hz sub hs m hm
    unfold Kpoints.position at this
    rw [if_neg (by simp), hc] at this
    convert this using 1
    funext j
    rw [e1]
    simp [Matrix.vecMul, dotProduct]
  exact ⟨h3, fun p hp p' hp' => (inZone_convex r).segment_subset (key p hp) (key p' hp')⟩

/-- The hypotheses of `C68_hpkot` are met: P222, 3 x 5 x 4, any number of points. -/
example (n : ℤ) : ∃ k r, Kpoints.fromCrystal String.toLower (fun _ _ => .error .runtimeError)
    (fun c => .ok c) !![3, 0, 0; 0, 5, 0; 0, 0, 4] boxAtoms "HPKOT" false n
    (some (boxData 3 5 4 16 "o" "P")) = .ok k ∧ k.n = n ∧
    getReciprocal (!![3, 0, 0; 0, 5, 0; 0, 0, 4] : Cell ℝ) = .ok r ∧
    ∀ l, k.points false = .ok (some l) → ∀ v ∈ l, InZone r v := by
  obtain ⟨⟨path, pts⟩, h⟩ := sample_path false true
  obtain ⟨b, h2⟩ := box_primitive String.toLower (fun _ _ => .error .runtimeError)
    (fun c => .ok c) 3 5 4 16 (by decide +kernel) (by decide +kernel) (by norm_num)
  obtain ⟨q, hq, -⟩ := C03_involution (!![3, 0, 0; 0, 5, 0; 0, 0, 4] : Cell ℝ)
    (by simp [det_fin_three])
  have hfa : family (boxData 3 5 4 16 "o" "P").spaceGroupNumber ≠ "a" := by
    show family 16 ≠ "a"
    decide +kernel
  have ht : (boxData 3 5 4 16 "o" "P").angleTolerance = -1 ∨
      0 ≤ (boxData 3 5 4 16 "o" "P").angleTolerance := .inl rfl
  obtain ⟨k, e1, -, e2, -⟩ := C45_from_crystal String.toLower (by decide +kernel)
    (by decide +kernel) _ _ _ _ _ (boxData 3 5 4 16 "o" "P") (.inl rfl)
    ⟨by decide, by decide⟩ rfl rfl ht "HPKOT" false n path pts h q hq
  refine ⟨k, q, e1, e2, hq, ?_⟩
  exact (C68_hpkot String.toLower (by decide +kernel) (by decide +kernel) _ _ _ _ _
    (boxData 3 5 4 16 "o" "P") (.inl rfl) ⟨by decide, by decide⟩ rfl rfl ht "HPKOT"
    (by decide +kernel) (by decide +kernel) false n k e1
    (.orthorhombic (a := 3) (b := 5) (c := 4) (by show family 16 ++ centring 16 ∈ _; decide +kernel)
      (hasParams_box (by norm_num) (by norm_num) (by norm_num)))
    (fun e => absurd e hfa) _ q b h2 hq).2

end Wulfric
