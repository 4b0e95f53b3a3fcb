import Verif.Lemmas.LepageBound
import Verif.Props.C92_Examples

/-!
# C92: monoclinic lattices, primitive and centred, from any basis

The primitive ones are always recognised. A centred one is recognised unless the axis is itself a
vector of the Niggli-reduced basis and another vector of that basis is perpendicular to it: then it
is reported as triclinic.
-/

namespace Spec

/-- The axis `b` is, up to the sign, a vector of the basis, and another one is perpendicular to it. -/
def AxisInBasis (s : Matrix (Fin 3) (Fin 3) ℝ) (b : Fin 3 → ℝ) : Prop :=
  ∃ i j, (s i = b ∨ s i = -b) ∧ j ≠ i ∧ dot (s j) b = 0

/-- The lattice is monoclinic, with `b` the shortest lattice vector along its only twofold axis. -/
structure MonoclinicAlong (cell : Matrix (Fin 3) (Fin 3) ℝ) (b : Fin 3 → ℝ) : Prop where
  mem : b ∈ latticePoints cell
  indivisible : Indivisible cell b
  twofold : TwofoldAxis cell b
  only : AxesAlong cell [b]

end Spec

namespace Wulfric

open Matrix _root_.Spec

theorem monoclinic_congr {c d : Cell ℝ} (h : SameLattice c d) {b : Fin 3 → ℝ} :
    MonoclinicAlong c b ↔ MonoclinicAlong d b := by
  have e : latticePoints c = latticePoints d := h
  constructor
  · rintro ⟨h1, h2, h3, h4⟩
    exact ⟨e ▸ h1, by unfold Indivisible at *; rwa [← e], by unfold TwofoldAxis at *; rwa [← e],
      (axesAlong_congr h).1 h4⟩
  · rintro ⟨h1, h2, h3, h4⟩
    exact ⟨e ▸ h1, by unfold Indivisible at *; rwa [e], by unfold TwofoldAxis at *; rwa [e],
      (axesAlong_congr h).2 h4⟩

theorem primitive_congr {c d : Cell ℝ} (h : SameLattice c d) {b : Fin 3 → ℝ} :
    PrimitiveAlong c b ↔ PrimitiveAlong d b := by
  unfold PrimitiveAlong
  rw [show latticePoints c = latticePoints d from h]

/-! ### The planes with an index 2 -/

theorem plane_two : ∀ h ∈ millerIndices 2, ∀ i, |h i| = 2 → (∀ j, j ≠ i → |h j| = 1) →
    ((plane h).map (fun x => -x) = (plane h).reverse ∧ (plane h).Nodup) ∧ 3 ≤ (plane h).length ∧
    ∀ x ∈ plane h, ∀ y ∈ plane h,
      y = x ∨ y = -x ∨ crossZ x y = h ∨ crossZ x y = -h ∨ diagonals h x y = true := by
  decide +kernel

theorem plane_short : ∀ h ∈ millerIndices 2, ∀ i, |h i| = 2 → (∀ j, j ≠ i → |h j| ≤ 1) →
    (∃ j, |h j| = 1) → (∃ j, h j = 0) → (plane h).length ≤ 2 := by
  decide +kernel

theorem prim_two : ∀ h ∈ millerIndices 2, (∃ j, |h j| = 1) → primZ h = true := by
  decide +kernel

theorem small_one : ∀ h ∈ millerIndices 2, (∀ j, |h j| ≤ 1) → h ∈ millerIndices 1 := by
  decide +kernel

variable {niggli : Cell ℝ → Except Err (Cell ℝ)} {cell c : Cell ℝ} {tol limit : ℝ}

theorem single_vec (c : Cell ℝ) (i : Fin 3) : latticeVec c (Pi.single i 1) = c i := by
  funext j
  fin_cases i <;> simp [latticeVec, Pi.single_apply]

theorem neg_vec (c : Cell ℝ) (u : Fin 3 → ℤ) : latticeVec c (-u) = -latticeVec c u := by
  funext j
  simp [latticeVec]

/-- The search in a Niggli-reduced basis. -/
theorem mono_reduced (h0 : tol ≠ 0) (hl0 : 0 < limit) (hl90 : limit ≤ 90) (hd : c.det ≠ 0)
    (hn : IsNiggli c) (hno : LatticeNoPseudo c limit) {b : Fin 3 → ℝ} (hm : MonoclinicAlong c b)
    (htol : 2 * |tol| ≤ dot b b) (fuel : ℕ) :
    (PrimitiveAlong c b → lepage niggli (fuel + 1) c tol true limit = some (.ok ["MCL"])) ∧
    (¬ PrimitiveAlong c b → ¬ AxisInBasis c b →
      lepage niggli (fuel + 1) c tol true limit = some (.ok ["MCLC"])) ∧
    (¬ PrimitiveAlong c b → AxisInBasis c b →
      lepage niggli (fuel + 1) c tol true limit = some (.ok ["TRI"])) := by
  obtain ⟨⟨u, hu⟩, hind, htw, hax⟩ := hm
  have hu : b = latticeVec c u := hu
  subst hu
  have hp := prim_of_indivisible hind
  have hu0 : u ≠ 0 := by rintro rfl; simp [primZ] at hp
  obtain ⟨h, hh, hi⟩ := turn_indices hd hp htw
  have hb : 0 < dot (latticeVec c u) (latticeVec c u) := vdot_self_pos (latticeVec_ne hd hu0)
  have hub := axis_bound hh hd hn hu0 hi
  have h2 := axis_of_two hh hd hn hu0
  have horth : ∀ j, dot (c j) (latticeVec c u) = 0 ↔ h j = 0 := by
    intro j
    rw [hh j]
    constructor
    · intro e
      have := (mul_eq_zero.1 e).resolve_left (by positivity)
      exact_mod_cast this
    · intro e; rw [e]; simp
  have row : ∀ i, (u = Pi.single i 1 ∨ u = -Pi.single i 1) →
      c i = latticeVec c u ∨ c i = -latticeVec c u := by
    rintro i (e | e)
    · left; rw [e, single_vec]
    · right; rw [e, neg_vec, single_vec, neg_neg]
  have uniq : ∀ i j, (u = Pi.single i 1 ∨ u = -Pi.single i 1) →
      (u = Pi.single j 1 ∨ u = -Pi.single j 1) → j = i := by
    intro i j hi hj
    by_contra hne
    rcases hi with e | e <;> rcases hj with f | f
    all_goals
      have g := congrFun (e.symm.trans f) i
      simp [Ne.symm hne] at g
  have val : ∀ i, (u = Pi.single i 1 ∨ u = -Pi.single i 1) → |h i| = 2 := by
    rintro i (e | e)
    · have : h i = 2 := by
        rw [← hi, e]
        fin_cases i <;> simp [intDot]
      rw [this]; rfl
    · have : -h i = 2 := by
        rw [← hi, e]
        fin_cases i <;> simp [intDot]
      rw [← abs_neg, this]; rfl
  have prim : PrimitiveAlong c (latticeVec c u) ↔ ∀ j, |h j| ≠ 1 := by
    have hle : ∀ j, |h j| ≤ 2 := by
      intro j
      by_contra hc
      have := val j (h2 j (by omega))
      omega
    have key : ∀ (x : Fin 3 → ℤ) (m : ℤ), dot (latticeVec c x - (m : ℝ) • latticeVec c u)
        (latticeVec c u) = 0 ↔ intDot x h = 2 * m := by
      intro x m
      have e : dot (latticeVec c x - (m : ℝ) • latticeVec c u) (latticeVec c u) =
          dot (latticeVec c x) (latticeVec c u) - m * dot (latticeVec c u) (latticeVec c u) := by
        simp only [dot, Pi.sub_apply, Pi.smul_apply, smul_eq_mul]; ring
      rw [e, dot_normal hh]
      constructor
      · intro g
        have : dot (latticeVec c u) (latticeVec c u) * ((intDot x h : ℝ) - 2 * m) = 0 := by
          linear_combination 2 * g
        have := (mul_eq_zero.1 this).resolve_left hb.ne'
        have : (intDot x h : ℝ) = 2 * m := by linarith
        exact_mod_cast this
      · intro g
        rw [g]; push_cast; ring
    constructor
    · intro hpr j hj
      obtain ⟨m, hm⟩ := hpr (c j) ⟨Pi.single j 1, (single_vec c j).symm⟩
      rw [← single_vec c j, key] at hm
      have e : intDot (Pi.single j 1) h = h j := by fin_cases j <;> simp [intDot]
      rw [e] at hm
      rw [hm] at hj
      rcases abs_choice (2 * m) with g | g <;> omega
    · rintro hne x ⟨n, rfl⟩
      have even : ∀ j, ∃ k, h j = 2 * k := by
        intro j
        have a := hle j
        have b := hne j
        rcases abs_choice (h j) with g | g
        · rw [g] at a b
          have : 0 ≤ h j := g ▸ abs_nonneg _
          exact ⟨h j / 2, by omega⟩
        · rw [g] at a b
          have : 0 ≤ -h j := g ▸ abs_nonneg _
          exact ⟨h j / 2, by omega⟩
      choose k hk using even
      refine ⟨intDot n k, (key n _).2 ?_⟩
      simp only [intDot, hk]
      ring
  refine ⟨fun hpr => ?_, ?_⟩
  · -- primitive: all the plane indices are even, the axis is a vector of the basis
    have hne := prim.1 hpr
    obtain ⟨i, hii⟩ : ∃ i, h i ≠ 0 := by
      by_contra hc
      push Not at hc
      simp [intDot, hc] at hi
    have big : ∀ j, h j ≠ 0 → u = Pi.single j 1 ∨ u = -Pi.single j 1 := by
      intro j hj
      apply h2
      have := Int.one_le_abs hj
      have := hne j
      omega
    have hui := big i hii
    have hci := row i hui
    have sq : dot (c i) (c i) = dot (latticeVec c u) (latticeVec c u) := by
      rcases hci with e | e <;> rw [e]
      simp [dot]
    refine mcl_core h0 hl0 hl90 hd i ?_ hno ?_ (by rw [sq]; exact htol) fuel
    · intro j hj
      have z : dot (c j) (latticeVec c u) = 0 := by
        rw [horth]
        by_contra hc
        exact hj (uniq i j hui (big j hc))
      rcases hci with e | e
      · rw [e]; exact z
      · rw [e]
        have : dot (c j) (-latticeVec c u) = -dot (c j) (latticeVec c u) := by
          simp [dot]; ring
        rw [this, z, neg_zero]
    · intro x hx ht
      obtain ⟨d, hd', hs⟩ := hax x hx ht
      rw [List.mem_singleton] at hd'
      subst hd'
      refine ⟨c i, List.mem_singleton_self _, ?_⟩
      rcases hci with e | e
      · rw [e]; exact hs
      · rw [e]
        unfold SameLine at *
        have a : dot x (-latticeVec c u) = -dot x (latticeVec c u) := by simp [dot]; ring
        have b : dot (-latticeVec c u) (-latticeVec c u) =
          dot (latticeVec c u) (latticeVec c u) := by simp [dot]
        rw [a, b, neg_sq, hs]
  · -- centred
    by_cases hpr : PrimitiveAlong c (latticeVec c u)
    · exact ⟨fun g => absurd hpr g, fun g => absurd hpr g⟩
    have hone : ∃ j, |h j| = 1 := by
      by_contra hc
      push Not at hc
      exact hpr (prim.2 hc)
    have hle : ∀ j, |h j| ≤ 2 := by
      intro j
      by_contra hc
      have := val j (h2 j (by omega))
      omega
    have hhm : h ∈ millerIndices 2 := mem_miller'.2 hle
    have hum : u ∈ millerIndices 2 := mem_miller'.2 hub
    have hph := prim_two h hhm hone
    have hh0 : h ≠ 0 := by rintro rfl; simp [intDot] at hi
    set lam := dot (latticeVec c u) (latticeVec c u) / 2 with hlam
    have hlp : 0 < lam := by rw [hlam]; linarith
    have htl : |tol| ≤ lam := by rw [hlam]; linarith
    have htp : 0 < |tol| := abs_pos.2 h0
    obtain ⟨r, hr, _⟩ := C02_dual_unique c hd
    have gap := gap_one hr hl0 hl90 (noPseudo_of_lattice hno) (ex := oneAxis u h)
      (fun x y hx hxy => exact_one hd hr hu0 hh0 hlp.ne' hh (fun x _ ht => by
        obtain ⟨d, hd', hs⟩ := hax _ ⟨x, rfl⟩ ht
        rw [List.mem_singleton] at hd'
        subst hd'
        exact hs) hx hxy)
    obtain ⟨v, hv, hvu⟩ := axes_two' hum hp hhm hph (by rw [hi]; rfl)
    obtain ⟨mu, hmu, hvx⟩ : ∃ mu : ℝ, |tol| ≤ |mu| ∧ ∀ x,
        dot (latticeVec c x) (latticeVec c (halveAxis v)) = mu * (intDot x h : ℝ) := by
      rcases hvu with e | e
      · exact ⟨lam, by rwa [abs_of_pos hlp], fun x => by rw [e, dot_normal hh]⟩
      · refine ⟨-lam, by rwa [abs_neg, abs_of_pos hlp], fun x => ?_⟩
        rw [e, neg_vec]
        have : dot (latticeVec c x) (-latticeVec c u) = -dot (latticeVec c x) (latticeVec c u) := by
          simp [dot]; ring
        rw [this, dot_normal hh]; ring
    have hdet : |intDot (halveAxis v) h| = 2 := by
      rcases hvu with e | e
      · rw [e, hi]; rfl
      · have : intDot (-u) h = -intDot u h := by simp only [intDot, Pi.neg_apply]; ring
        rw [e, this, hi]; rfl
    have others : ∀ i, |h i| = 2 → ∀ j, j ≠ i → |h j| ≤ 1 := by
      intro i hi' j hj
      by_contra hc
      exact hj (uniq i j (h2 i hi'.ge) (h2 j (by omega)))
    constructor
    · intro _ hnot
      refine lepage_delta rfl hr hl0 _ gap hv (classify_third htp hmu hvx ?_ (Or.inr ⟨hdet, rfl⟩)) fuel
      by_cases hbig : ∃ i, |h i| = 2
      · obtain ⟨i, hi2⟩ := hbig
        have odd : ∀ j, j ≠ i → |h j| = 1 := by
          intro j hj
          have := others i hi2 j hj
          by_contra hc
          apply hnot
          refine ⟨i, j, ?_, hj, (horth j).2 (abs_eq_zero.1 ?_)⟩
          · exact row i (h2 i hi2.ge)
          · have := abs_nonneg (h j)
            omega
        obtain ⟨⟨a1, a2⟩, a3, a4⟩ := plane_two h hhm i hi2 odd
        exact first_third' (length_pos hd) a1 a2 a3 a4
      · push Not at hbig
        refine first_third (length_pos hd) (small_one h hhm fun j => ?_) hh0
        have := hle j
        have := hbig j
        omega
    · rintro _ ⟨i, j, hci, hj, hz⟩
      have hui : u = Pi.single i 1 ∨ u = -Pi.single i 1 := by
        rcases hci with e | e
        · left
          have : (fun k => (u k : ℝ)) = fun k => ((Pi.single i 1 : Fin 3 → ℤ) k : ℝ) := by
            apply index_ext hd
            intro k
            have := congrFun ((single_vec c i).trans e) k
            simp only [latticeVec] at this
            exact this.symm
          funext k
          exact_mod_cast congrFun this k
        · right
          have : (fun k => (u k : ℝ)) = fun k => ((-Pi.single i 1 : Fin 3 → ℤ) k : ℝ) := by
            apply index_ext hd
            intro k
            have g : latticeVec c (-Pi.single i 1) = latticeVec c u := by
              rw [neg_vec, single_vec, e, neg_neg]
            have := congrFun g k
            simp only [latticeVec] at this
            exact this.symm
          funext k
          exact_mod_cast congrFun this k
      have hi2 := val i hui
      exact lepage_delta rfl hr hl0 _ gap hv (classify_short htp hmu hvx
        (plane_short h hhm i hi2 (others i hi2) hone ⟨j, (horth j).1 hz⟩)) fuel

theorem det_lattice {c d : Cell ℝ} (h : SameLattice c d) (hd : d.det ≠ 0) : c.det ≠ 0 := by
  intro h0
  have := h.abs_det
  rw [h0, abs_zero, abs_eq_zero] at this
  exact hd this

/-! ### The range of the search -/

theorem exists_prim {u : Fin 3 → ℤ} (hu : u ≠ 0) : ∃ (k : ℤ) (w : Fin 3 → ℤ), k ≠ 0 ∧ u = k • w ∧
    primZ w = true := by
  set g := Int.gcd (u 0) (Int.gcd (u 1) (u 2)) with hg
  have d0 : (g : ℤ) ∣ u 0 := Int.gcd_dvd_left _ _
  have d' : (g : ℤ) ∣ (Int.gcd (u 1) (u 2) : ℤ) := Int.gcd_dvd_right _ _
  have d1 : (g : ℤ) ∣ u 1 := d'.trans (Int.gcd_dvd_left _ _)
  have d2 : (g : ℤ) ∣ u 2 := d'.trans (Int.gcd_dvd_right _ _)
  have dall : ∀ i, (g : ℤ) ∣ u i := by intro i; fin_cases i <;> assumption
  have hg0 : g ≠ 0 := by
    intro e
    apply hu
    funext i
    have := dall i
    rw [e] at this
    simpa using this
  choose w hw using dall
  refine ⟨g, w, by exact_mod_cast hg0, by funext i; simp [hw i], ?_⟩
  unfold primZ
  rw [beq_iff_eq]
  have e : g = g * Int.gcd (w 0) (Int.gcd (w 1) (w 2)) := by
    conv_lhs => rw [hg, hw 0, hw 1, hw 2]
    rw [Int.gcd_mul_left, Int.natAbs_natCast, Nat.cast_mul, Int.gcd_mul_left, Int.natAbs_natCast]
  have := Nat.eq_of_mul_eq_mul_left (Nat.pos_of_ne_zero hg0) ((mul_one g).trans e)
  exact this.symm

theorem axis_reduced (hd : c.det ≠ 0) (hn : IsNiggli c) {x : Fin 3 → ℝ} (hx : x ∈ latticePoints c)
    (ht : TwofoldAxis c x) :
    ∃ u h : Fin 3 → ℤ, (∀ i, |u i| ≤ 2) ∧ (∀ i, |h i| ≤ 2) ∧ intDot u h = 2 ∧
      SameLine x (latticeVec c u) ∧ primZ u = true ∧ (∀ i, dot (c i) (latticeVec c u) =
        dot (latticeVec c u) (latticeVec c u) / 2 * h i) := by
  obtain ⟨n, hn'⟩ := hx
  have hn' : x = latticeVec c n := hn'
  subst hn'
  have hn0 : n ≠ 0 := by
    rintro rfl
    apply ht.1
    funext j; simp [latticeVec]
  obtain ⟨k, u, hk, rfl, hp⟩ := exists_prim hn0
  have e : latticeVec c (k • u) = (k : ℝ) • latticeVec c u := by
    apply latticeVec_smul
    intro i; simp
  have hu0 : u ≠ 0 := by rintro rfl; simp [primZ] at hp
  have hkr : (k : ℝ) ≠ 0 := by exact_mod_cast hk
  have htu : TwofoldAxis c (latticeVec c u) := by
    refine ⟨latticeVec_ne hd hu0, fun y hy => ?_⟩
    have := ht.2 y hy
    have eq : halfTurn (latticeVec c (k • u)) y = halfTurn (latticeVec c u) y := by
      rw [e]
      funext i
      have hb := vdot_self_pos (latticeVec_ne hd hu0)
      have e1 : dot y ((k : ℝ) • latticeVec c u) = k * dot y (latticeVec c u) := by
        simp only [dot, Pi.smul_apply, smul_eq_mul]; ring
      have e2 : dot ((k : ℝ) • latticeVec c u) ((k : ℝ) • latticeVec c u) =
          k ^ 2 * dot (latticeVec c u) (latticeVec c u) := by
        simp only [dot, Pi.smul_apply, smul_eq_mul]; ring
      simp only [halfTurn, e1, e2, Pi.smul_apply, smul_eq_mul]
      field_simp
    rwa [eq] at this
  obtain ⟨h, hh, hi⟩ := turn_indices hd hp htu
  have hb : 0 < dot (latticeVec c u) (latticeVec c u) := vdot_self_pos (latticeVec_ne hd hu0)
  refine ⟨u, h, axis_bound hh hd hn hu0 hi, fun i => ?_, hi, ?_, hp, hh⟩
  · by_contra hc
    have : |h i| = 2 := by
      rcases axis_of_two hh hd hn hu0 i (by omega) with e | e
      · have : h i = 2 := by
          rw [← hi, e]
          fin_cases i <;> simp [intDot]
        rw [this]; rfl
      · have : -h i = 2 := by
          rw [← hi, e]
          fin_cases i <;> simp [intDot]
        rw [← abs_neg, this]; rfl
    omega
  · rw [e]
    unfold SameLine
    simp only [dot, Pi.smul_apply, smul_eq_mul]; ring

/-- C92: the range of the search is enough. In a Niggli-reduced basis every twofold axis of the
lattice is along a lattice vector and along a vector of the reciprocal lattice with indices from -2
to 2, and the sum of the products of their indices is 2. -/
theorem C92_axis_range (hd : c.det ≠ 0) (hn : IsNiggli c) {r : Cell ℝ} (hr : getReciprocal c = .ok r)
    {x : Fin 3 → ℝ} (hx : x ∈ latticePoints c) (ht : TwofoldAxis c x) :
    ∃ u h : Fin 3 → ℤ, (∀ i, |u i| ≤ 2) ∧ (∀ i, |h i| ≤ 2) ∧ ∑ i, u i * h i = 2 ∧
      SameLine x (latticeVec c u) ∧ SameLine (latticeVec c u) (latticeVec r h) := by
  obtain ⟨u, h, h1, h2, h3, h4, hp, hh⟩ := axis_reduced hd hn hx ht
  have hu0 : u ≠ 0 := by rintro rfl; simp [primZ] at hp
  have hb : 0 < dot (latticeVec c u) (latticeVec c u) := vdot_self_pos (latticeVec_ne hd hu0)
  refine ⟨u, h, h1, h2, by rw [Fin.sum_univ_three]; exact h3, h4, ?_⟩
  · have line := normal_line hd hr hh
    have hl : dot (latticeVec c u) (latticeVec c u) / 2 ≠ 0 := by positivity
    have e2 : latticeVec r h = (dot (latticeVec c u) (latticeVec c u) / 2)⁻¹ •
        ((2 * Real.pi) • latticeVec c u) := by
      rw [line, smul_smul, inv_mul_cancel₀ hl, one_smul]
    rw [e2, smul_smul]
    have := smul_sameLine 1 ((dot (latticeVec c u) (latticeVec c u) / 2)⁻¹ * (2 * Real.pi))
      (latticeVec c u)
    rwa [one_smul] at this

section
variable (h0 : tol ≠ 0) (hl0 : 0 < limit) (hl90 : limit ≤ 90) (hd : cell.det ≠ 0)
  (hred : Reduces niggli cell) (hno : LatticeNoPseudo cell limit) {b : Fin 3 → ℝ}
  (hm : MonoclinicAlong cell b) (htol : 2 * |tol| ≤ dot b b)
include h0 hl0 hl90 hd hred hno hm htol

/-- C92: every primitive monoclinic lattice is recognised, from any basis. -/
theorem C92_monoclinic_primitive (hp : PrimitiveAlong cell b) (fuel : ℕ) :
    lepage niggli (fuel + 1) cell tol false limit = some (.ok ["MCL"]) := by
  obtain ⟨r, hr, nr, lr⟩ := hred
  have hdr := det_lattice lr hd
  rw [lepage_reduced hdr nr lr ⟨r, hr, nr, lr⟩]
  exact (mono_reduced h0 hl0 hl90 hdr nr ((latticeNoPseudo_congr lr).2 hno)
    ((monoclinic_congr lr).2 hm) htol fuel).1 ((primitive_congr lr).2 hp)

/-- C92: a centred monoclinic lattice is recognised, from any basis, unless the axis is a vector of
the Niggli-reduced basis `s` and another one is perpendicular to it. -/
theorem C92_monoclinic_centred (hp : ¬ PrimitiveAlong cell b) {s : Cell ℝ} (hs : IsNiggli s)
    (hl : SameLattice s cell) (hb : ¬ AxisInBasis s b) (fuel : ℕ) :
    lepage niggli (fuel + 1) cell tol false limit = some (.ok ["MCLC"]) := by
  have hds := det_lattice hl hd
  rw [lepage_reduced hds hs hl hred]
  exact (mono_reduced h0 hl0 hl90 hds hs ((latticeNoPseudo_congr hl).2 hno)
    ((monoclinic_congr hl).2 hm) htol fuel).2.1 (fun g => hp ((primitive_congr hl).1 g)) hb

/-- C92, where the code is wrong: all the other centred monoclinic lattices are reported as
triclinic. The perpendicular vectors are looked for among those with indices -1, 0 and 1. -/
theorem C92_monoclinic_missed (hp : ¬ PrimitiveAlong cell b) {s : Cell ℝ} (hs : IsNiggli s)
    (hl : SameLattice s cell) (hb : AxisInBasis s b) (fuel : ℕ) :
    lepage niggli (fuel + 1) cell tol false limit = some (.ok ["TRI"]) := by
  have hds := det_lattice hl hd
  rw [lepage_reduced hds hs hl hred]
  exact (mono_reduced h0 hl0 hl90 hds hs ((latticeNoPseudo_congr hl).2 hno)
    ((monoclinic_congr hl).2 hm) htol fuel).2.2 (fun g => hp ((primitive_congr hl).1 g)) hb

end

end Wulfric
