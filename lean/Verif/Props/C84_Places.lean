import Verif.Lemmas.PlacesHpkot
import Verif.Lemmas.PlacesSc
import Verif.Props.C55_BrillouinZone

/-!
# C84: every named point is where the geometry of the lattice puts it

The lists `hpkotPlaces` and `scPlaces` say for every name which vectors of the reciprocal lattice
are as close to the point as the origin. No formula of the code appears in them.
-/

namespace Wulfric

open Matrix _root_.Spec Wulfric.Spec

/-! ## The list determines the point -/

/-- The vectors of a place are independent. -/
def independent : Where → Bool
  | .origin => true
  | .half _ => true
  | .edge g h => (g.2.1 * h.2.2 - g.2.2 * h.2.1, g.2.2 * h.1 - g.1 * h.2.2,
      g.1 * h.2.1 - g.2.1 * h.1) != (0, 0, 0)
  | .vertex g h k => k.1 * (g.2.1 * h.2.2 - g.2.2 * h.2.1) +
      k.2.1 * (g.2.2 * h.1 - g.1 * h.2.2) + k.2.2 * (g.1 * h.2.1 - g.2.1 * h.1) != 0
  | .between g h k g' h' k' => (k.1 * (g.2.1 * h.2.2 - g.2.2 * h.2.1) +
      k.2.1 * (g.2.2 * h.1 - g.1 * h.2.2) + k.2.2 * (g.1 * h.2.1 - g.2.1 * h.1) != 0) &&
      (k'.1 * (g'.2.1 * h'.2.2 - g'.2.2 * h'.2.1) + k'.2.1 * (g'.2.2 * h'.1 - g'.1 * h'.2.2) +
        k'.2.2 * (g'.1 * h'.2.1 - g'.2.1 * h'.1) != 0)

theorem rows_det (r : Cell ℝ) (g h k : ℤ × ℤ × ℤ) :
    (Matrix.of ![gvec r g, gvec r h, gvec r k]).det =
      ((k.1 * (g.2.1 * h.2.2 - g.2.2 * h.2.1) + k.2.1 * (g.2.2 * h.1 - g.1 * h.2.2) +
        k.2.2 * (g.1 * h.2.1 - g.2.1 * h.1) : ℤ) : ℝ) * r.det := by
  have e : (Matrix.of ![gvec r g, gvec r h, gvec r k]) =
      !![(g.1 : ℝ), g.2.1, g.2.2; h.1, h.2.1, h.2.2; k.1, k.2.1, k.2.2] * r := by
    ext i j
    fin_cases i <;> simp [Matrix.mul_apply, Fin.sum_univ_three, gvec]
  rw [e, det_mul, det_fin_three]
  simp only [of_apply, cons_val]
  push_cast
  ring

theorem equidistant_diff {r : Cell ℝ} {n : ℤ × ℤ × ℤ} {v w : Vec ℝ} (hv : Equidistant r n v)
    (hw : Equidistant r n w) : dot (gvec r n) (v - w) = 0 := by
  unfold Equidistant at hv hw
  simp only [dot, Pi.sub_apply] at *
  linear_combination (1 / 2 : ℝ) * (hv - hw)

theorem corner_unique {r : Cell ℝ} (hd : r.det ≠ 0) {g h k : ℤ × ℤ × ℤ}
    (hi : k.1 * (g.2.1 * h.2.2 - g.2.2 * h.2.1) + k.2.1 * (g.2.2 * h.1 - g.1 * h.2.2) +
        k.2.2 * (g.1 * h.2.1 - g.2.1 * h.1) ≠ 0) {v w : Vec ℝ}
    (hv : Equidistant r g v ∧ Equidistant r h v ∧ Equidistant r k v)
    (hw : Equidistant r g w ∧ Equidistant r h w ∧ Equidistant r k w) : v = w := by
  have e1 := equidistant_diff hv.1 hw.1
  have e2 := equidistant_diff hv.2.1 hw.2.1
  have e3 := equidistant_diff hv.2.2 hw.2.2
  have hz : (Matrix.of ![gvec r g, gvec r h, gvec r k]) *ᵥ (v - w) = 0 := by
    funext i
    fin_cases i <;> simpa [Matrix.mulVec, dotProduct, dot, Fin.sum_univ_three] using
      (by assumption)
  have := Matrix.eq_zero_of_mulVec_eq_zero
    (by rw [rows_det]; exact mul_ne_zero (Int.cast_ne_zero.2 hi) hd) hz
  exact sub_eq_zero.1 this

theorem third_vector {g h : ℤ × ℤ × ℤ} (hi : (g.2.1 * h.2.2 - g.2.2 * h.2.1,
    g.2.2 * h.1 - g.1 * h.2.2, g.1 * h.2.1 - g.2.1 * h.1) ≠ ((0, 0, 0) : ℤ × ℤ × ℤ)) :
    ∃ k : ℤ × ℤ × ℤ, k.1 * (g.2.1 * h.2.2 - g.2.2 * h.2.1) +
      k.2.1 * (g.2.2 * h.1 - g.1 * h.2.2) + k.2.2 * (g.1 * h.2.1 - g.2.1 * h.1) ≠ 0 := by
  obtain ⟨k, hk⟩ : ∃ k : ℤ × ℤ × ℤ, k = (g.2.1 * h.2.2 - g.2.2 * h.2.1,
    g.2.2 * h.1 - g.1 * h.2.2, g.1 * h.2.1 - g.2.1 * h.1) := ⟨_, rfl⟩
  refine ⟨k, ?_⟩
  rw [← hk] at hi
  have h1 : k.1 = g.2.1 * h.2.2 - g.2.2 * h.2.1 := by rw [hk]
  have h2 : k.2.1 = g.2.2 * h.1 - g.1 * h.2.2 := by rw [hk]
  have h3 : k.2.2 = g.1 * h.2.1 - g.2.1 * h.1 := by rw [hk]
  rw [← h1, ← h2, ← h3]
  intro h0
  apply hi
  have p1 := mul_self_nonneg k.1
  have p2 := mul_self_nonneg k.2.1
  have p3 := mul_self_nonneg k.2.2
  exact Prod.ext (mul_self_eq_zero.1 (by omega)) (Prod.ext (mul_self_eq_zero.1 (by omega))
    (mul_self_eq_zero.1 (by omega)))

theorem edge_unique {r : Cell ℝ} (hd : r.det ≠ 0) {g h : ℤ × ℤ × ℤ}
    (hi : (g.2.1 * h.2.2 - g.2.2 * h.2.1, g.2.2 * h.1 - g.1 * h.2.2,
      g.1 * h.2.1 - g.2.1 * h.1) ≠ ((0, 0, 0) : ℤ × ℤ × ℤ)) {v w : Vec ℝ}
    (hv : (Where.edge g h).At r v) (hw : (Where.edge g h).At r w) : v = w := by
  obtain ⟨v1, v2, v3⟩ := hv
  obtain ⟨w1, w2, w3⟩ := hw
  have e1 := equidistant_diff v1 w1
  have e2 := equidistant_diff v2 w2
  obtain ⟨d, hd'⟩ : ∃ d, v - w = d := ⟨_, rfl⟩
  have e3 : (Matrix.of ![d, gvec r g, gvec r h]).det = 0 := by
    rw [← hd']
    rw [det_fin_three] at v3 w3 ⊢
    simp only [of_apply, cons_val, Pi.sub_apply] at *
    linear_combination v3 - w3
  rw [hd'] at e1 e2
  obtain ⟨k, hpos⟩ := third_vector hi
  have hdet : (Matrix.of ![gvec r g, gvec r h, gvec r k]).det ≠ 0 := by
    rw [rows_det]
    exact mul_ne_zero (Int.cast_ne_zero.2 hpos) hd
  obtain ⟨M, hM⟩ : ∃ M : Cell ℝ, M = Matrix.of ![gvec r g, gvec r h, gvec r k] := ⟨_, rfl⟩
  rw [← hM] at hdet
  obtain ⟨c, hc⟩ : ∃ c : Vec ℝ, c ᵥ* M = d := ⟨d ᵥ* M⁻¹, by
    rw [vecMul_vecMul, nonsing_inv_mul _ (isUnit_iff_ne_zero.2 hdet), vecMul_one]⟩
  have hrow : ∀ j, d j = c 0 * gvec r g j + c 1 * gvec r h j + c 2 * gvec r k j := by
    intro j
    rw [← hc, hM]
    simp [Matrix.vecMul, dotProduct, Fin.sum_univ_three]
  have hc2 : c 2 * M.det = 0 := by
    rw [hM]
    rw [det_fin_three] at e3 ⊢
    simp only [of_apply, cons_val, hrow] at *
    linear_combination e3
  have hc2 := (mul_eq_zero.1 hc2).resolve_right hdet
  have hdd : d 0 * d 0 + d 1 * d 1 + d 2 * d 2 = 0 := by
    simp only [dot] at e1 e2
    have h0 := hrow 0
    have h1 := hrow 1
    have h2 := hrow 2
    rw [hc2] at h0 h1 h2
    linear_combination d 0 * h0 + d 1 * h1 + d 2 * h2 + c 0 * e1 + c 1 * e2
  have p1 := mul_self_nonneg (d 0)
  have p2 := mul_self_nonneg (d 1)
  have p3 := mul_self_nonneg (d 2)
  have hd0 : d = 0 := by
    funext j
    fin_cases j
    · exact mul_self_eq_zero.1 (show d 0 * d 0 = 0 by linarith)
    · exact mul_self_eq_zero.1 (show d 1 * d 1 = 0 by linarith)
    · exact mul_self_eq_zero.1 (show d 2 * d 2 = 0 by linarith)
  rw [hd0] at hd'
  exact sub_eq_zero.1 hd'

theorem place_unique {r : Cell ℝ} (hd : r.det ≠ 0) {u : Where} (hu : independent u = true)
    {v w : Vec ℝ} (hv : u.At r v) (hw : u.At r w) : v = w := by
  cases u with
  | origin => exact Eq.trans hv (Eq.symm hw)
  | half g => exact Eq.trans hv (Eq.symm hw)
  | edge g h => exact edge_unique hd (by simpa only [independent, bne_iff_ne] using hu) hv hw
  | vertex g h k =>
    exact corner_unique hd (by simpa only [independent, bne_iff_ne] using hu) hv hw
  | between g h k g' h' k' =>
    simp only [independent, Bool.and_eq_true, bne_iff_ne] at hu
    obtain ⟨x, y, hx, hy, rfl⟩ := hv
    obtain ⟨x', y', hx', hy', rfl⟩ := hw
    rw [corner_unique hd hu.1 hx hx', corner_unique hd hu.2 hy hy']

theorem lists_independent : ∀ e ∈ hpkotPlaces ++ scPlaces, ∀ p ∈ e.2, ∀ u, p.2 = some u →
    independent u = true := by
  have key : ∀ e ∈ hpkotPlaces ++ scPlaces, ∀ p ∈ e.2,
      (match p.2 with | none => true | some u => independent u) = true := by decide +kernel
  intro e he p hp u hu
  have := key e he p hp
  rw [hu] at this
  exact this

/-- C84: a place of the lists determines a point. -/
theorem C84_unique (r : Cell ℝ) (hd : r.det ≠ 0) (s : String) (l : List (String × Option Where))
    (hl : (s, l) ∈ hpkotPlaces ++ scPlaces) (k : String) (u : Where) (hk : (k, some u) ∈ l)
    (v w : Vec ℝ) (hv : u.At r v) (hw : u.At r w) : v = w :=
  place_unique hd (lists_independent _ hl _ hk u rfl) hv hw

/-- C84: each symbol has one list, each name one entry in it, and only two names have no place:
`Z` of `aP2`, which the code puts at the origin (`C43_aP2_origin`), and `F3` of `MCLC1` and
`MCLC2`, which is outside of the zone (`C55_F3_outside`). -/
theorem C84_lists : (hpkotPlaces.map Prod.fst).Nodup ∧ (scPlaces.map Prod.fst).Nodup ∧
    (∀ e ∈ hpkotPlaces ++ scPlaces, (e.2.map Prod.fst).Nodup) ∧
    ∀ e ∈ hpkotPlaces ++ scPlaces, ∀ p ∈ e.2, p.2.isNone = true →
      (e.1, p.1) ∈ [("aP2", "Z"), ("MCLC1", "F3"), ("MCLC2", "F3")] := by
  decide +kernel

/-! ## The points -/

theorem hpkot_at_aP {conv rprim : Cell ℝ} {a b c be : ℝ} {n : ℤ} {ra rb rg : ℝ} {s bl : String}
    {raw : PyDict String (Vec ℝ)} (hbl : bl = "aP") (hr : getReciprocal conv = .ok rprim)
    (hs : HpkotSymbol bl n a b c be ra rb rg s) (hraw : hpkotPointsOf a b c be bl s = .ok raw) :
    ∃ l, (s, l) ∈ hpkotPlaces ∧ List.Forall₂ (PlacedAt rprim) raw l := by
  subst hbl
  cases hs with
  | aP2 q0 q1 q2 q3 =>
    have hraw' : hpkotPointsOf a b c be "aP" "aP2" = .ok hpkotTable91 := by simp [hpkotPointsOf]
    rw [hraw'] at hraw
    cases hraw
    exact ⟨_, by simp only [hpkotPlaces, List.mem_cons, true_or, or_true],
      (form_tri hr).allPlaced hr places_aP2⟩
  | aP3 q0 q1 q2 q3 =>
    have hraw' : hpkotPointsOf a b c be "aP" "aP3" = .ok hpkotTable92 := by simp [hpkotPointsOf]
    rw [hraw'] at hraw
    cases hraw
    exact ⟨_, by simp only [hpkotPlaces, List.mem_cons, true_or, or_true],
      (form_tri hr).allPlaced hr places_aP3⟩
  | _ q => exact absurd q (by decide)

theorem sc_at_aP {conv rprim : Cell ℝ} {a b c al kp ka kb kg t u : ℝ} {s bl : String}
    {raw : PyDict String (Vec ℝ)} (hbl : bl = "aP") (hr : getReciprocal conv = .ok rprim)
    (hs : ScVariation bl t u a b c al kp ka kb kg s)
    (hraw : scPointsOf a b c al "TRI" (some s) = .ok raw) :
    ∃ l, (s, l) ∈ scPlaces ∧ List.Forall₂ (PlacedAt rprim) raw l := by
  subst hbl
  cases hs with
  | tri1a q0 q1 q2 q3 q4 q5 =>
    have hraw' : scPointsOf a b c al "TRI" (some "TRI1a") = .ok scTable20 := by simp [scPointsOf]
    rw [hraw'] at hraw
    cases hraw
    exact ⟨_, by simp only [scPlaces, List.mem_cons, true_or, or_true],
      (form_tri hr).allPlaced hr places_TRIa⟩
  | tri1b q0 q1 q2 q3 q4 q5 =>
    have hraw' : scPointsOf a b c al "TRI" (some "TRI1b") = .ok scTable21 := by simp [scPointsOf]
    rw [hraw'] at hraw
    cases hraw
    exact ⟨_, by simp only [scPlaces, List.mem_cons, true_or, or_true],
      (form_tri hr).allPlaced hr places_TRIb⟩
  | tri2a q0 q1 q2 q3 =>
    have hraw' : scPointsOf a b c al "TRI" (some "TRI2a") = .ok scTable20 := by simp [scPointsOf]
    rw [hraw'] at hraw
    cases hraw
    exact ⟨_, by simp only [scPlaces, List.mem_cons, true_or, or_true],
      (form_tri hr).allPlaced hr places_TRIa⟩
  | tri2b q0 q1 q2 q3 =>
    have hraw' : scPointsOf a b c al "TRI" (some "TRI2b") = .ok scTable21 := by simp [scPointsOf]
    rw [hraw'] at hraw
    cases hraw
    exact ⟨_, by simp only [scPlaces, List.mem_cons, true_or, or_true],
      (form_tri hr).allPlaced hr places_TRIb⟩
  | orcc q => exact absurd q (by decide)
  | _ q => exact absurd q (by decide)

theorem forall₂_partner {α β : Type*} {R : α → β → Prop} {l : List α} {m : List β}
    (h : List.Forall₂ R l m) {x : α} (hx : x ∈ l) : ∃ y ∈ m, R x y := by
  induction h with
  | nil => cases hx
  | cons h0 _ ih =>
    rcases List.mem_cons.1 hx with rfl | hx
    · exact ⟨_, List.mem_cons_self, h0⟩
    · obtain ⟨y, hy, e⟩ := ih hx
      exact ⟨y, List.mem_cons_of_mem _ hy, e⟩

theorem names_of_table {cell rprim : Cell ℝ} {kpath path : String}
    {raw pts : PyDict String (Vec ℝ)} {inv t rel : Bool} (hg : GoodTable kpath raw)
    (h : (do
        let points ← allCoordinates cell rprim rel raw
        extendPath inv t kpath points) = Except.ok (path, pts)) (k : String) (hk : k ∈ raw.keys) :
    ∃ v, pts.get? k = some v := by
  cases he : allCoordinates cell rprim rel raw with
  | error _ => simp [he, bind, Except.bind] at h
  | ok e =>
  simp only [he, bind, Except.bind] at h
  obtain ⟨k1, -⟩ := allCoordinates_ok he
  rw [← Option.isSome_iff_exists, PyDict.get?_isSome]
  rw [← k1] at hk
  by_cases hi : inv = true ∨ t = true
  · rw [extend_same hi] at h
    cases h
    exact hk
  · rw [not_or, Bool.not_eq_true, Bool.not_eq_true] at hi
    rw [hi.1, hi.2] at h
    obtain ⟨p, path', e', hp, he', -, e2, -⟩ := extend_spec hg k1
    rw [he'] at h
    cases h
    rw [e2]
    exact List.mem_append_left _ hk

/-- What the list of a symbol says about the points returned. -/
def AsListed (r : Cell ℝ) (l : List (String × Option Where)) (pts : PyDict String (Vec ℝ)) :
    Prop :=
  (∀ k ∈ l.map Prod.fst, ∃ v, pts.get? k = some v) ∧
  ∀ k v, pts.get? k = some v → ∃ n p, (n, p) ∈ l ∧
    ((k = n ∧ ∀ u, p = some u → u.At r v) ∨
      (n ≠ "GAMMA" ∧ k = n ++ "_P" ∧ ∀ u, p = some u → u.At r (-v)))

theorem asListed {cell rprim : Cell ℝ} {kpath path : String}
    {raw pts : PyDict String (Vec ℝ)} {inv t : Bool} (hg : GoodTable kpath raw)
    (h : (do
        let points ← allCoordinates cell rprim false raw
        extendPath inv t kpath points) = Except.ok (path, pts))
    {l : List (String × Option Where)} (hl : List.Forall₂ (PlacedAt rprim) raw l) :
    AsListed rprim l pts := by
  constructor
  · intro k hk
    apply names_of_table hg h
    have e : raw.keys = l.map Prod.fst := by
      clear hg h hk
      induction hl with
      | nil => rfl
      | cons h0 _ ih => exact congrArg₂ List.cons h0.1 ih
    rw [e]
    exact hk
  · intro k v hv
    obtain ⟨x, hx, h1⟩ := points_of_table hg h k v hv
    obtain ⟨⟨n, p⟩, hy, e1, e2⟩ := forall₂_partner hl hx
    dsimp only at e1 e2
    refine ⟨n, p, hy, ?_⟩
    rcases h1 with ⟨rfl, rfl⟩ | ⟨h1, rfl, rfl⟩
    · exact .inl ⟨e1, e2⟩
    · rw [neg_neg]
      exact .inr ⟨e1 ▸ h1, by rw [e1], e2⟩

section
variable (lower : String → String) (getData : Cell ℝ → Atoms ℝ → Except Err SpglibData)
  (niggli : Cell ℝ → Except Err (Cell ℝ)) (cell : Cell ℝ) (atoms : Atoms ℝ)
  (given : Option SpglibData) (data : SpglibData)
  (hd : given = some data ∨ (given = none ∧ getData cell atoms = .ok data))
  (hn : 1 ≤ data.spaceGroupNumber ∧ data.spaceGroupNumber ≤ 230)
  (hf : data.crystalFamily = family data.spaceGroupNumber)
  (hc : data.centringType = centring data.spaceGroupNumber) (convention : String)

include hd hn hf hc

/-- C84, HPKOT: with spglib's standardised cell in its standard shape (any cell, if triclinic),
the points are those of the list of the extended symbol, each at its place in the reciprocal
lattice of the primitive cell, and the primed points at the opposite one. -/
theorem C84_hpkot (hl : lower "HPKOT" = "hpkot") (hl' : lower "hpkot" = "hpkot")
    (hconv : lower convention = "hpkot") (t : Bool) (path : String)
    (pts : PyDict String (Vec ℝ))
    (h : getPathAndPoints lower getData niggli cell atoms given convention t false =
      .ok (path, pts))
    (hstd : family data.spaceGroupNumber ≠ "a" →
      StandardCell (family data.spaceGroupNumber ++ centring data.spaceGroupNumber)
        data.conventionalCell)
    (prim r : Cell ℝ) (pa : Atoms ℝ) (s : String)
    (hprim : getPrimitive lower getData niggli cell atoms convention (some data) = .ok (prim, pa))
    (hr : getReciprocal prim = .ok r)
    (hsym : hpkotGetExtendedBlSymbol lower getData niggli cell atoms (some data) = .ok s) :
    ∃ l, (s, l) ∈ hpkotPlaces ∧ AsListed r l pts := by
  obtain ⟨kpath, raw, prim', pa', rprim, conv, ca, matrix, a, b, c, al, be, ga, ra, rb, rg, s',
    s1, s2, s3, s4, s5, s6, s7, s8, s9, ⟨s10, -, s12⟩, s11⟩ := hpkot_path_steps lower getData
      niggli cell atoms given data hd hn hf hc convention hl hl' hconv t false path pts h
  rw [hprim] at s1
  cases s1
  rw [hr] at s2
  cases s2
  rw [hsym] at s12
  cases s12
  have hbl := symbols_inside _ (Finset.mem_Icc.2 hn)
  rw [hf, hc] at s4 s7 s8 s9
  by_cases haP : family data.spaceGroupNumber ++ centring data.spaceGroupNumber = "aP"
  · rw [haP] at s4
    obtain rfl : !![1, 0, 0; 0, 1, 0; 0, 0, 1] = matrix := Option.some.inj s4
    rw [one_literal, transpose_one, one_mul] at s5
    subst s5
    obtain ⟨l, l1, l2⟩ := hpkot_at_aP haP hr s7 s9
    exact ⟨l, l1, asListed s10 s11 l2⟩
  · have hfa : family data.spaceGroupNumber ≠ "a" :=
      fun e => haP (family_a _ (Finset.mem_Icc.2 hn) e)
    obtain ⟨d2, ps, ts, g1, g2, -⟩ := getConventional_steps s3
    obtain rfl := resolve_given (.inl rfl) g1
    rw [hconv] at g2
    unfold conventionalParts at g2
    rw [if_pos (by decide), if_neg (fun e => hfa (hf.symm.trans e.2))] at g2
    cases g2
    obtain ⟨l, l1, l2⟩ := hpkot_at hbl haP (hstd hfa) s4 s5 hr s6 s7 s9
    exact ⟨l, l1, asListed s10 s11 l2⟩

/-- C84, SC: with the conventional cell in the shape of the SC convention (any cell, if
triclinic), the points are those of the list of the variation, each at its place in the
reciprocal lattice of the primitive cell, and the primed points at the opposite one. -/
theorem C84_sc (hl : lower "SC" = "sc") (hl' : lower "sc" = "sc")
    (hconv : lower convention = "sc")
    (htol : data.angleTolerance = -1 ∨ 0 ≤ data.angleTolerance) (hsp : 0 ≤ data.symprec)
    (t : Bool) (path : String) (pts : PyDict String (Vec ℝ))
    (h : getPathAndPoints lower getData niggli cell atoms given convention t false =
      .ok (path, pts))
    (prim r conv : Cell ℝ) (pa ca : Atoms ℝ) (s : String)
    (hprim : getPrimitive lower getData niggli cell atoms convention (some data) = .ok (prim, pa))
    (hr : getReciprocal prim = .ok r)
    (hcv : getConventional lower getData niggli cell atoms convention (some data) =
      .ok (conv, ca))
    (hvar : scGetVariation lower getData niggli cell atoms (some data) = .ok (some s))
    (hcell : family data.spaceGroupNumber ≠ "a" →
      ScCell (family data.spaceGroupNumber ++ centring data.spaceGroupNumber) conv) :
    ∃ l, (s, l) ∈ scPlaces ∧ AsListed r l pts := by
  obtain ⟨kpath, raw, prim', pa', rprim, conv', ca', matrix, a, b, c, al, be, ga, kp, ka, kb, kg,
    short, s', s1, s2, s3, s4, s5, s6, s6', s7, s8, s9, s10, s11, ⟨s12, -⟩, s13⟩ :=
      sc_path_steps lower getData niggli cell
      atoms given data hd hn hf hc convention hl hl' hconv htol t false path pts h
  rw [hprim] at s1
  cases s1
  rw [hr] at s2
  cases s2
  rw [hcv] at s3
  cases s3
  rw [hvar] at s6'
  cases s6'
  have hu : 0 ≤ angleTol data := angleTol_nonneg htol
  have hbl := symbols_inside _ (Finset.mem_Icc.2 hn)
  rw [hf, hc] at s4 s7 s8 s9 s10
  by_cases haP : family data.spaceGroupNumber ++ centring data.spaceGroupNumber = "aP"
  · rw [haP] at s4 s10
    obtain rfl : "TRI" = short := Option.some.inj s10
    obtain rfl : !![1, 0, 0; 0, 1, 0; 0, 0, 1] = matrix := Option.some.inj s4
    rw [one_literal, transpose_one, one_mul] at s5
    subst s5
    obtain ⟨l, l1, l2⟩ := sc_at_aP haP hr s7 s11
    exact ⟨l, l1, asListed s12 s13 l2⟩
  · have hfa : family data.spaceGroupNumber ≠ "a" :=
      fun e => haP (family_a _ (Finset.mem_Icc.2 hn) e)
    subst s5
    obtain ⟨l, l1, l2⟩ := sc_at hbl haP (hcell hfa) hsp hu s4 hr s6 s7 s8 s10 s11
    exact ⟨l, l1, asListed s12 s13 l2⟩

end

/-- The hypotheses of `C84_hpkot` are met: P222, and the point `U` is half of `(1, 0, 1)`. -/
example : ∃ path pts prim pa r, getPathAndPoints String.toLower
    (fun _ _ => .error .runtimeError) (fun c => .ok c) !![3, 0, 0; 0, 5, 0; 0, 0, 4] boxAtoms
    (some (boxData 3 5 4 16 "o" "P")) "HPKOT" false false = .ok (path, pts) ∧
    getPrimitive String.toLower (fun _ _ => .error .runtimeError) (fun c => .ok c)
      !![3, 0, 0; 0, 5, 0; 0, 0, 4] boxAtoms "HPKOT" (some (boxData 3 5 4 16 "o" "P")) =
      .ok (prim, pa) ∧ getReciprocal prim = .ok r ∧
    ∀ s, hpkotGetExtendedBlSymbol String.toLower (fun _ _ => .error .runtimeError)
      (fun c => .ok c) !![3, 0, 0; 0, 5, 0; 0, 0, 4] boxAtoms
      (some (boxData 3 5 4 16 "o" "P")) = .ok s → ∃ l, (s, l) ∈ hpkotPlaces ∧
        AsListed r l pts := by
  obtain ⟨⟨path, pts⟩, h⟩ := sample_path false false
  obtain ⟨b, h2⟩ := box_primitive String.toLower (fun _ _ => .error .runtimeError)
    (fun c => .ok c) 3 5 4 16 (by decide +kernel) (by decide +kernel) (by norm_num)
  obtain ⟨q, hq, -⟩ := C03_involution (!![3, 0, 0; 0, 5, 0; 0, 0, 4] : Cell ℝ)
    (by simp [det_fin_three])
  refine ⟨path, pts, _, b, q, h, h2, hq, fun s hs => ?_⟩
  exact C84_hpkot String.toLower _ _ _ _ _ (boxData 3 5 4 16 "o" "P") (.inl rfl)
    ⟨by decide, by decide⟩ rfl rfl "HPKOT" (by decide +kernel) (by decide +kernel)
    (by decide +kernel) false path pts h
    (fun _ => .orthorhombic (a := 3) (b := 5) (c := 4)
      (by show family 16 ++ centring 16 ∈ _; decide +kernel)
      (hasParams_box (by norm_num) (by norm_num) (by norm_num)))
    _ q b s h2 hq hs

/-- The hypotheses of `C84_sc` are met: P4. -/
example : ∃ path pts prim pa r l, getPathAndPoints String.toLower
    (fun _ _ => .error .runtimeError) (fun c => .ok c) boxT boxAtoms
    (some (boxData 3 3 4 75 "t" "P")) "SC" false false = .ok (path, pts) ∧
    getPrimitive String.toLower (fun _ _ => .error .runtimeError) (fun c => .ok c)
      boxT boxAtoms "SC" (some (boxData 3 3 4 75 "t" "P")) = .ok (prim, pa) ∧
    getReciprocal prim = .ok r ∧ ("TET", l) ∈ scPlaces ∧ AsListed r l pts := by
  obtain ⟨⟨path, pts⟩, h⟩ := boxT_path false false
  obtain ⟨a, h1, -⟩ := boxT_conventional "SC" (by decide +kernel)
  obtain ⟨b, h2⟩ := boxT_primitive
  obtain ⟨q, hq, -⟩ := C03_involution boxT boxT_det
  obtain ⟨l, l1, l2⟩ := C84_sc String.toLower _ _ _ _ _ (boxData 3 3 4 75 "t" "P") (.inl rfl)
    ⟨by decide, by decide⟩ rfl rfl "SC" (by decide +kernel) (by decide +kernel)
    (by decide +kernel) (.inl rfl) (by simp [boxData]) false path pts h _ q _ b a _ h2 hq h1
    boxT_variation
    (fun _ => .tetragonal (a := 3) (c := 4) (by show family 75 ++ centring 75 ∈ _; decide +kernel)
      (hasParams_box (by norm_num) (by norm_num) (by norm_num)))
  exact ⟨path, pts, _, b, q, l, h, h2, hq, l1, l2⟩

end Wulfric
