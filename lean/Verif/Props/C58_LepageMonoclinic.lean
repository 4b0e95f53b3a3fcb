import Verif.Lemmas.LepageInteger

/-! # C58: monoclinic and triclinic lattices in the Le Page search

`c` is the cell after the Niggli reduction, or the given one without the reduction. -/

namespace Wulfric

open Matrix _root_.Spec

section
variable {c : Cell ℝ} {u : Fin 3 → ℤ} {lam : ℝ}

/-- The indices of the plane perpendicular to the axis. -/
theorem plane_indices (hlam : ∀ i, dot (c i) (latticeVec c u) = 0 ∨
      dot (c i) (latticeVec c u) = lam ∨ dot (c i) (latticeVec c u) = -lam) :
    ∃ h : Fin 3 → ℤ, h ∈ millerIndices 1 ∧ ∀ i, dot (c i) (latticeVec c u) = lam * h i := by
  have key : ∀ i, ∃ k : ℤ, (k = -1 ∨ k = 0 ∨ k = 1) ∧ dot (c i) (latticeVec c u) = lam * k := by
    intro i
    rcases hlam i with e | e | e
    · exact ⟨0, by simp, by simp [e]⟩
    · exact ⟨1, by simp, by simp [e]⟩
    · exact ⟨-1, by simp, by simp [e]⟩
  choose h h1 h2 using key
  refine ⟨h, ?_, h2⟩
  have e : h = ![h 0, h 1, h 2] := by funext i; fin_cases i <;> rfl
  rw [e]
  rcases h1 0 with a | a | a <;> rcases h1 1 with b | b | b <;> rcases h1 2 with d | d | d <;>
    rw [a, b, d] <;> decide

theorem prim_of_indivisible (hind : Indivisible c (latticeVec c u)) : primZ u = true := by
  unfold primZ
  rw [beq_iff_eq]
  set g := Int.gcd (u 0) (Int.gcd (u 1) (u 2)) with hg
  have d0 : (g : ℤ) ∣ u 0 := Int.gcd_dvd_left _ _
  have d' : (g : ℤ) ∣ (Int.gcd (u 1) (u 2) : ℤ) := Int.gcd_dvd_right _ _
  have d1 : (g : ℤ) ∣ u 1 := d'.trans (Int.gcd_dvd_left _ _)
  have d2 : (g : ℤ) ∣ u 2 := d'.trans (Int.gcd_dvd_right _ _)
  have dall : ∀ i, (g : ℤ) ∣ u i := by intro i; fin_cases i <;> assumption
  choose w hw using dall
  have := hind g (latticeVec c w) ⟨w, rfl⟩ (by
    apply latticeVec_smul
    intro i
    rw [hw i]
    push_cast
    ring)
  have h1 : (g : ℤ).natAbs = 1 := natAbs_of_abs this
  simpa using h1

theorem bezout {u : Fin 3 → ℤ} (hp : primZ u = true) : ∃ w : Fin 3 → ℤ, intDot w u = 1 := by
  unfold primZ at hp
  rw [beq_iff_eq] at hp
  have e1 := Int.gcd_eq_gcd_ab (u 0) (Int.gcd (u 1) (u 2))
  have e2 := Int.gcd_eq_gcd_ab (u 1) (u 2)
  rw [hp] at e1
  set a := Int.gcdA (u 0) (Int.gcd (u 1) (u 2))
  set b := Int.gcdB (u 0) (Int.gcd (u 1) (u 2))
  refine ⟨![a, b * Int.gcdA (u 1) (u 2), b * Int.gcdB (u 1) (u 2)], ?_⟩
  simp only [intDot, cons_val_zero, cons_val_one, cons_val]
  rw [e2] at e1
  push_cast at e1
  linarith

/-- The index of the sublattice of the axis and of the plane is 1 or 2. -/
theorem index_two (hd : c.det ≠ 0) (hp : primZ u = true) {h : Fin 3 → ℤ}
    (hh1 : h ∈ millerIndices 1)
    (hl : ∀ i, dot (c i) (latticeVec c u) = lam * h i) (hu : u ≠ 0)
    (ht : TwofoldAxis c (latticeVec c u)) : |intDot u h| = 1 ∨ |intDot u h| = 2 := by
  have hb := vdot_self_pos (latticeVec_ne hd hu)
  have hbn := dot_normal hl u
  have hlam : lam ≠ 0 := by rintro rfl; rw [zero_mul] at hbn; linarith
  have hn : (intDot u h : ℝ) ≠ 0 := by intro e; rw [e, mul_zero] at hbn; linarith
  have hnz : intDot u h ≠ 0 := by exact_mod_cast hn
  have hh : h ≠ 0 := by rintro rfl; simp [intDot] at hnz
  obtain ⟨w, hw⟩ := bezout hp
  obtain ⟨z, hz⟩ := bezout (small_prim h hh1 hh)
  -- the half turn of the vector with the indices `z`
  obtain ⟨n, hn'⟩ := ht.2 (latticeVec c z) ⟨z, rfl⟩
  have hzb : dot (latticeVec c z) (latticeVec c u) = lam := by rw [dot_normal hl, hz]; simp
  have hco : ∀ i, (n i : ℝ) + z i = 2 / (intDot u h : ℝ) * u i := by
    have : (fun i => (n i : ℝ) + z i) = fun i => 2 / (intDot u h : ℝ) * u i := by
      apply index_ext hd
      intro j
      have := congrFun hn' j
      simp only [halfTurn, hzb, hbn] at this
      have e : lam / (lam * (intDot u h : ℝ)) = 1 / (intDot u h : ℝ) := by field_simp
      rw [e] at this
      simp only [latticeVec, Fin.sum_univ_three] at this ⊢
      have e2 : 2 / (intDot u h : ℝ) = 2 * (1 / (intDot u h : ℝ)) := by ring
      rw [e2]
      linear_combination -this
    exact fun i => congrFun this i
  have hint : ∀ i, intDot u h * (n i + z i) = 2 * u i := by
    intro i
    have := hco i
    have h2 : (intDot u h : ℝ) * ((n i : ℝ) + z i) = 2 * u i := by
      rw [this]; field_simp
    exact_mod_cast h2
  have hdvd : intDot u h ∣ 2 := by
    refine ⟨intDot w (n + z), ?_⟩
    have : intDot u h * intDot w (n + z) = 2 * intDot w u := by
      simp only [intDot, Pi.add_apply]
      have a := hint 0
      have b := hint 1
      have d := hint 2
      simp only [intDot] at a b d
      linear_combination w 0 * a + w 1 * b + w 2 * d
    rw [this, hw]; rfl
  have := Int.natAbs_dvd_natAbs.2 hdvd
  have h2 : (intDot u h).natAbs ≤ 2 := Nat.le_of_dvd (by norm_num) this
  have h3 : (intDot u h).natAbs ≠ 0 := by simpa using hnz
  rw [Int.abs_eq_natAbs]
  omega

/-- The lattice is primitive when the index is 1. -/
theorem primitive_index (hd : c.det ≠ 0) {h : Fin 3 → ℤ} (hh1 : h ∈ millerIndices 1)
    (hl : ∀ i, dot (c i) (latticeVec c u) = lam * h i) (hu : u ≠ 0) :
    PrimitiveAlong c (latticeVec c u) ↔ |intDot u h| = 1 := by
  have hb := vdot_self_pos (latticeVec_ne hd hu)
  have hbn := dot_normal hl u
  have hlam : lam ≠ 0 := by rintro rfl; rw [zero_mul] at hbn; linarith
  have hn : (intDot u h : ℝ) ≠ 0 := by intro e; rw [e, mul_zero] at hbn; linarith
  have hnz : intDot u h ≠ 0 := by exact_mod_cast hn
  have hh : h ≠ 0 := by rintro rfl; simp [intDot] at hnz
  have key : ∀ (x : Fin 3 → ℤ) (m : ℤ), dot (latticeVec c x - (m : ℝ) • latticeVec c u)
      (latticeVec c u) = 0 ↔ intDot x h = m * intDot u h := by
    intro x m
    have e : dot (latticeVec c x - (m : ℝ) • latticeVec c u) (latticeVec c u) =
        dot (latticeVec c x) (latticeVec c u) - m * dot (latticeVec c u) (latticeVec c u) := by
      simp only [dot, Pi.sub_apply, Pi.smul_apply, smul_eq_mul]; ring
    rw [e, dot_normal hl, hbn]
    constructor
    · intro g
      have : lam * ((intDot x h : ℝ) - m * intDot u h) = 0 := by linear_combination g
      have := (mul_eq_zero.1 this).resolve_left hlam
      have : (intDot x h : ℝ) = m * intDot u h := by linarith
      exact_mod_cast this
    · intro g
      rw [g]; push_cast; ring
  constructor
  · intro hp
    obtain ⟨z, hz⟩ := bezout (small_prim h hh1 hh)
    obtain ⟨m, hm⟩ := hp (latticeVec c z) ⟨z, rfl⟩
    rw [key, hz] at hm
    have : IsUnit (intDot u h) := IsUnit.of_mul_eq_one m (by rw [mul_comm]; exact hm.symm)
    exact Int.isUnit_iff_abs_eq.1 this
  · rintro hn1 x ⟨z, rfl⟩
    refine ⟨intDot z h * intDot u h, (key z _).2 ?_⟩
    have : intDot u h * intDot u h = 1 := by
      rw [← abs_mul_abs_self, hn1]; rfl
    rw [mul_assoc, this, mul_one]

end

variable {niggli : Cell ℝ → Except Err (Cell ℝ)} {cell c : Cell ℝ} {tol limit : ℝ}
  {noNiggli : Bool} (hcell : lepageCell niggli cell noNiggli = .ok c) (h0 : tol ≠ 0)
  (hl0 : 0 < limit) (hl90 : limit ≤ 90) (hd : c.det ≠ 0) (hno : NoPseudosymmetry c limit)

include hcell hl0 hl90 hd hno

/-- C58: a lattice without a twofold axis is triclinic. -/
theorem C58_triclinic (hax : ∀ u : Fin 3 → ℤ, (∀ i, |u i| ≤ 2) → ¬ TwofoldAxis c (latticeVec c u))
    (fuel : ℕ) : lepage niggli (fuel + 1) cell tol noNiggli limit = some (.ok ["TRI"]) := by
  obtain ⟨r, hr, _⟩ := C02_dual_unique c hd
  refine lepage_delta hcell hr hl0 (fun _ _ => false) (gap_one hr hl0 hl90 hno ?_) (l := []) ?_ ?_ fuel
  · intro x y hx hxy
    refine ⟨fun hs => ?_, fun e => by simp at e⟩
    exfalso
    have hxy0 : intDot x y ≠ 0 := by rintro e; rw [e] at hxy; simp at hxy
    have hx0 : x ≠ 0 := by rintro rfl; simp [intDot] at hxy0
    have hdel := delta_sameLine hs
    rw [← intMat_eq, ← intMat_eq] at hdel
    have ht := twofold_of_delta hr hxy hdel
    rw [intMat_eq] at ht
    unfold npNormalize at ht
    have hnz : npNorm (latticeVec c x) ≠ 0 := by
      have := npNorm_sq (latticeVec c x)
      have hp := vdot_self_pos (latticeVec_ne hd hx0)
      intro e
      rw [e] at this
      norm_num at this
      linarith
    exact hax x hx (twofold_scale hnz ht)
  · have : exactPairs (fun _ _ => false) = [] := by
      simp [exactPairs]
    rw [this]; rfl
  · have e : exactAxes c [] = [] := rfl
    rw [e]
    unfold classifyAxes
    rw [checkCub_short _ (by simp), checkHex_short _ (by simp), checkTet_short _ (by simp)]
    have h4 : checkRhl (angleMatrix []) [] |tol| = none := by simp [checkRhl]
    have h5 : checkOrc (angleMatrix []) [] |tol| = .ok none := by simp [checkOrc]
    rw [h4, h5]
    rfl

section
variable {u : Fin 3 → ℤ} {lam : ℝ} (hu : ∀ i, |u i| ≤ 2) (hind : Indivisible c (latticeVec c u))
  (honly : OnlyAxis c (latticeVec c u))
  (hlam : ∀ i, dot (c i) (latticeVec c u) = 0 ∨ dot (c i) (latticeVec c u) = lam ∨
    dot (c i) (latticeVec c u) = -lam)
  (htol : 2 * |tol| ≤ dot (latticeVec c u) (latticeVec c u))

include h0 hu hind honly hlam htol

theorem mono_core :
    (PrimitiveAlong c (latticeVec c u) → keptAxis u = true → ∀ fuel,
      lepage niggli (fuel + 1) cell tol noNiggli limit = some (.ok ["MCL"])) ∧
    (PrimitiveAlong c (latticeVec c u) → keptAxis u = false → ∀ fuel,
      lepage niggli (fuel + 1) cell tol noNiggli limit = some (.ok ["MCLC"])) ∧
    (¬ PrimitiveAlong c (latticeVec c u) → ∀ fuel,
      lepage niggli (fuel + 1) cell tol noNiggli limit = some (.ok ["MCLC"])) := by
  obtain ⟨r, hr, _⟩ := C02_dual_unique c hd
  obtain ⟨h, hh1, hl⟩ := plane_indices hlam
  have hu0 : u ≠ 0 := by
    rintro rfl
    apply honly.1.1
    funext j; simp [latticeVec]
  have hp := prim_of_indivisible hind
  have hum : u ∈ millerIndices 2 := mem_miller'.2 hu
  have hb := vdot_self_pos (latticeVec_ne hd hu0)
  have hbn := dot_normal hl u
  have hlam0 : lam ≠ 0 := by rintro rfl; rw [zero_mul] at hbn; linarith
  have hn : (intDot u h : ℝ) ≠ 0 := by intro e; rw [e, mul_zero] at hbn; linarith
  have hnz : intDot u h ≠ 0 := by exact_mod_cast hn
  have hh : h ≠ 0 := by rintro rfl; simp [intDot] at hnz
  have hpi := primitive_index hd hh1 hl hu0
  have hidx := index_two hd hp hh1 hl hu0 honly.1
  have gap := gap_one hr hl0 hl90 hno (ex := oneAxis u h)
    (fun x y hx hxy => exact_one hd hr hu0 hh hlam0 hl honly.2 hx hxy)
  have htl : |tol| ≤ |lam| := by
    have e : dot (latticeVec c u) (latticeVec c u) = |lam| * |(intDot u h : ℝ)| := by
      rw [← abs_mul, ← hbn, abs_of_pos hb]
    have h2 : |(intDot u h : ℝ)| ≤ 2 := by
      rcases hidx with g | g
      · have : |(intDot u h : ℝ)| = 1 := by exact_mod_cast congrArg (fun z : ℤ => (z : ℝ)) g
        linarith
      · have : |(intDot u h : ℝ)| = 2 := by exact_mod_cast congrArg (fun z : ℤ => (z : ℝ)) g
        linarith
    rw [e] at htol
    nlinarith [abs_nonneg lam]
  have htp : 0 < |tol| := abs_pos.2 h0
  -- the class for an axis `k u`
  have cls : ∀ (v : Fin 3 → ℤ) (k : ℤ) (t : String), halveAxis v = k • u → k ≠ 0 →
      ((|k * intDot u h| = 1 ∧ t = "MCL") ∨ (|k * intDot u h| = 2 ∧ t = "MCLC")) →
      classifyAxes c |tol| (angleMatrix (exactAxes c [v])) (exactAxes c [v]) = .ok t := by
    intro v k t hv hk ht
    have hkl : |tol| ≤ |(k : ℝ) * lam| := by
      rw [abs_mul]
      have h1 : (1 : ℝ) ≤ |(k : ℝ)| := by exact_mod_cast Int.one_le_abs hk
      nlinarith [abs_nonneg lam]
    refine classify_mono (v := v) hd htp hh1 hh hkl ?_ ?_
    · intro x
      have e : latticeVec c (k • u) = (k : ℝ) • latticeVec c u := by
        apply latticeVec_smul
        intro i; simp
      rw [hv, e]
      have e2 : dot (latticeVec c x) ((k : ℝ) • latticeVec c u) =
          k * dot (latticeVec c x) (latticeVec c u) := by
        simp only [dot, Pi.smul_apply, smul_eq_mul]; ring
      rw [e2, dot_normal hl]; ring
    · have e : intDot (k • u) h = k * intDot u h := by
        have := intDot_smul k 1 u h
        rwa [one_smul, mul_one] at this
      rw [hv, e]; exact ht
  refine ⟨fun hprim hk fuel => ?_, fun hprim hk fuel => ?_, fun hprim fuel => ?_⟩
  · have h1 := hpi.1 hprim
    obtain ⟨v, hv, g1, -⟩ := axes_one hum hp hh1 h1
    refine lepage_delta hcell hr hl0 _ gap hv ?_ fuel
    rcases g1 hk with g | g
    · exact cls v 1 _ (by rw [g, one_smul]) (by norm_num) (Or.inl ⟨by rw [one_mul, h1], rfl⟩)
    · exact cls v (-1) _ (by rw [g, neg_smul, one_smul]) (by norm_num)
        (Or.inl ⟨by rw [neg_one_mul, abs_neg, h1], rfl⟩)
  · have h1 := hpi.1 hprim
    obtain ⟨v, hv, -, g1⟩ := axes_one hum hp hh1 h1
    refine lepage_delta hcell hr hl0 _ gap hv ?_ fuel
    rcases g1 hk with g | g
    · exact cls v 2 _ (by rw [g]; simp) (by norm_num)
        (Or.inr ⟨by rw [abs_mul, h1]; rfl, rfl⟩)
    · exact cls v (-2) _ (by rw [g]; simp) (by norm_num)
        (Or.inr ⟨by rw [abs_mul, h1]; rfl, rfl⟩)
  · have h2 : |intDot u h| = 2 := hidx.resolve_left fun g => hprim (hpi.2 g)
    obtain ⟨v, hv, g1⟩ := axes_two hum hp hh1 h2
    refine lepage_delta hcell hr hl0 _ gap hv ?_ fuel
    rcases g1 with g | g
    · exact cls v 1 _ (by rw [g, one_smul]) (by norm_num) (Or.inr ⟨by rw [one_mul, h2], rfl⟩)
    · exact cls v (-1) _ (by rw [g, neg_smul, one_smul]) (by norm_num)
        (Or.inr ⟨by rw [neg_one_mul, abs_neg, h2], rfl⟩)

/-- C58: a centred monoclinic lattice is recognised. -/
theorem C58_centred_partial (hc : ¬ PrimitiveAlong c (latticeVec c u)) (fuel : ℕ) :
    lepage niggli (fuel + 1) cell tol noNiggli limit = some (.ok ["MCLC"]) :=
  (mono_core hcell h0 hl0 hl90 hd hno hu hind honly hlam htol).2.2 hc fuel

/-- C58: a primitive monoclinic lattice is recognised, when the axis is one of the vectors of the
cell, or a sum of two of them, or has an index 2. -/
theorem C58_primitive_partial (hc : PrimitiveAlong c (latticeVec c u))
    (hk : (∃ i, |u i| = 2) ∨ ((∃ i, u i = 0) ∧ ((∀ i, 0 ≤ u i) ∨ ∀ i, u i ≤ 0))) (fuel : ℕ) :
    lepage niggli (fuel + 1) cell tol noNiggli limit = some (.ok ["MCL"]) := by
  refine (mono_core hcell h0 hl0 hl90 hd hno hu hind honly hlam htol).1 hc ?_ fuel
  simp only [keptAxis, Bool.or_eq_true, Bool.and_eq_true, decide_eq_true_eq]
  rcases hk with ⟨i, hi⟩ | ⟨hz, hs⟩
  · exact Or.inl ⟨i, by rw [hi]⟩
  · exact Or.inr ⟨hs, hz⟩

/-- C58, where the code is wrong: with any other indices of the axis (a difference of two vectors
of the cell, or a combination of all three) the primitive lattice is reported as a centred one. -/
theorem C58_difference (hc : PrimitiveAlong c (latticeVec c u)) (h1 : ∀ i, |u i| ≤ 1)
    (hs : (∀ i, u i ≠ 0) ∨ ((∃ i, u i < 0) ∧ ∃ i, 0 < u i)) (fuel : ℕ) :
    lepage niggli (fuel + 1) cell tol noNiggli limit = some (.ok ["MCLC"]) := by
  refine (mono_core hcell h0 hl0 hl90 hd hno hu hind honly hlam htol).2.1 hc ?_ fuel
  rw [← Bool.not_eq_true]
  simp only [keptAxis, Bool.or_eq_true, Bool.and_eq_true, decide_eq_true_eq, not_or, not_and]
  refine ⟨?_, ?_⟩
  · rintro ⟨i, hi⟩
    have := h1 i
    omega
  · rintro hsg ⟨i, hi⟩
    rcases hs with hs | ⟨⟨j, hj⟩, k, hk⟩
    · exact hs i hi
    · rcases hsg with g | g
      · have := g j; omega
      · have := g k; omega

end

omit hcell hl0 hl90 hd hno in
/-- The data of a monoclinic cell with integer coordinates. -/
theorem only_int {s : ℝ} {m : Matrix (Fin 3) (Fin 3) ℤ} {u : Fin 3 → ℤ} (hs : 0 < s)
    (hv : volZ m ≠ 0) (hu0 : u ≠ 0) (hax : twofoldZ m (fun x => parZ x u) = true)
    {f : (Fin 3 → ℤ) → Fin 3 → ℤ}
    (hf : ∀ n j, halfTurn (latticeVec (intCell s m) u) (latticeVec (intCell s m) n) j =
      latticeVec (intCell s m) (f n) j) :
    OnlyAxis (intCell s m) (latticeVec (intCell s m) u) := by
  have hd : (intCell s m).det ≠ 0 := by
    rw [det_int]
    exact mul_ne_zero (pow_ne_zero 3 hs.ne') (by exact_mod_cast hv)
  refine ⟨⟨latticeVec_ne hd hu0, ?_⟩, ?_⟩
  · rintro x ⟨n, rfl⟩
    exact ⟨f n, funext (hf n)⟩
  · intro x hx ht
    obtain ⟨k, hk⟩ := smul_of_parZ hu0 (twofold_int hs hv hax hx ht)
    rw [latticeVec_smul hk]
    have := smul_sameLine k 1 (latticeVec (intCell s m) u)
    rwa [one_smul] at this

omit hcell hl0 hl90 hd hno in
/-- C58: a monoclinic cell in any unit of length that is not too large. -/
theorem C58_example_mcl {s : ℝ} (hs : 1 / 50 ≤ s) (fuel : ℕ) :
    lepage niggli (fuel + 1) (intCell s mclZ) (1 / 10000) true 2 = some (.ok ["MCL"]) := by
  have hs0 : 0 < s := by linarith
  have hv : volZ mclZ ≠ 0 := by decide
  have hd : (intCell s mclZ).det ≠ 0 := by
    rw [det_int]
    exact mul_ne_zero (pow_ne_zero 3 hs0.ne') (by exact_mod_cast hv)
  have hbb : dot (latticeVec (intCell s mclZ) ![0, 1, 0]) (latticeVec (intCell s mclZ) ![0, 1, 0]) =
      s ^ 2 := by
    rw [dot_int]; simp [intDot, rowZ, mclZ]
  refine C58_primitive_partial (u := ![0, 1, 0]) (lam := s ^ 2) (c := intCell s mclZ) rfl (by norm_num)
    (by norm_num) (by norm_num) hd (noPseudo_int hs0 hv mclZ_clear) (by decide) ?_
    (only_int hs0 hv (by decide) mclZ_axes (f := fun n => ![-n 0, n 1, -n 2]) ?_) ?_ ?_ ?_
    (Or.inr ⟨⟨0, rfl⟩, Or.inl (by decide)⟩) fuel
  · rintro k x ⟨n, rfl⟩ h
    have := congrFun h 1
    simp only [lat_int, Pi.smul_apply, smul_eq_mul, intCell, Fin.sum_univ_three] at this
    simp [rowZ, mclZ] at this
    have h2 : (1 : ℝ) = k * n 1 := by
      apply mul_left_cancel₀ hs0.ne'
      linarith
    have h3 : k * n 1 = 1 := by exact_mod_cast h2.symm
    exact Int.isUnit_iff_abs_eq.1 (IsUnit.of_mul_eq_one _ h3)
  · intro n j
    simp only [halfTurn]
    rw [dot_int, dot_int]
    simp only [lat_int]
    fin_cases j <;> simp [intDot, rowZ, mclZ] <;> field_simp <;> ring
  · intro i
    rw [dot_row]
    fin_cases i <;> simp [intDot, rowZ, mclZ]
  · rw [hbb, abs_of_pos (by norm_num)]
    nlinarith
  · rintro x ⟨n, rfl⟩
    refine ⟨n 1, ?_⟩
    simp only [dot, lat_int, Pi.sub_apply, Pi.smul_apply, smul_eq_mul, intCell, Fin.sum_univ_three]
    simp [rowZ, mclZ]

omit hcell hl0 hl90 hd hno in
/-- C58, where the code is wrong: the same cell with the lengths in a larger unit (metres instead of
angstroms, say) is reported as triclinic: the tolerance, an angle, is compared with a scalar product
of two lattice vectors. -/
theorem C58_unit {s : ℝ} (hs0 : 0 < s) (hs : s < 1 / 100) (fuel : ℕ) :
    lepage niggli (fuel + 1) (intCell s mclZ) (1 / 10000) true 2 = some (.ok ["TRI"]) := by
  have hv : volZ mclZ ≠ 0 := by decide
  have hd : (intCell s mclZ).det ≠ 0 := by
    rw [det_int]
    exact mul_ne_zero (pow_ne_zero 3 hs0.ne') (by exact_mod_cast hv)
  obtain ⟨r, hr, _⟩ := C02_dual_unique _ hd
  have honly : OnlyAxis (intCell s mclZ) (latticeVec (intCell s mclZ) ![0, 1, 0]) := by
    refine only_int hs0 hv (by decide) mclZ_axes (f := fun n => ![-n 0, n 1, -n 2]) ?_
    intro n j
    simp only [halfTurn]
    rw [dot_int, dot_int]
    simp only [lat_int]
    fin_cases j <;> simp [intDot, rowZ, mclZ] <;> field_simp <;> ring
  have hl : ∀ i, dot (intCell s mclZ i) (latticeVec (intCell s mclZ) ![0, 1, 0]) =
      s ^ 2 * ((![0, 1, 0] : Fin 3 → ℤ) i : ℝ) := by
    intro i
    rw [dot_row]
    fin_cases i <;> simp [intDot, rowZ, mclZ]
  have gap := gap_one hr (by norm_num) (by norm_num) (noPseudo_int hs0 hv mclZ_clear)
    (ex := oneAxis ![0, 1, 0] ![0, 1, 0])
    (fun x y hx hxy => exact_one hd hr (by decide) (by decide) (by positivity) hl honly.2 hx hxy)
  obtain ⟨v, hv1, hk, -⟩ := axes_one (u := ![0, 1, 0]) (h := ![0, 1, 0]) (by decide) (by decide)
    (by decide) (by decide)
  have hhv := hk (by decide)
  refine lepage_delta rfl hr (by norm_num) _ gap hv1 ?_ fuel
  rw [abs_of_pos (by norm_num : (0 : ℝ) < 1 / 10000)]
  set le : (Fin 3 → ℤ) → (Fin 3 → ℤ) → Bool :=
    fun x w => decide (npNorm (intMat x (intCell s mclZ)) ≤ npNorm (intMat w (intCell s mclZ))) with hle
  have hnorm : ∀ x, npNorm (intMat x (intCell s mclZ)) ^ 2 =
      s ^ 2 * (intDot (rowZ mclZ x) (rowZ mclZ x) : ℝ) := by
    intro x
    rw [npNorm_sq, intMat_eq, dot_int]
  have hm : checkMcl (exactAxes (intCell s mclZ) [v]) (1 / 10000) (intCell s mclZ) = none := by
    have e : exactAxes (intCell s mclZ) [v] =
      [{ exactAxis (intCell s mclZ) v with U := halveAxis v }] := rfl
    rw [e]
    unfold checkMcl
    simp only
    have hfull : ((millerIndices 1).filter fun x => decide (x ≠ 0) &&
        decide (|npDot (intMat x (intCell s mclZ)) (intMat (halveAxis v) (intCell s mclZ))| <
          1 / 10000)) = (millerIndices 1).filter fun x => decide (x ≠ 0) := by
      apply List.filter_congr
      intro x hx
      have hx1 : |x 1| ≤ 1 := by
        have : ∀ x ∈ millerIndices 1, |x 1| ≤ 1 := by decide
        exact this x hx
      have hx1' : |(x 1 : ℝ)| ≤ 1 := by exact_mod_cast hx1
      have : |npDot (intMat x (intCell s mclZ)) (intMat (halveAxis v) (intCell s mclZ))| <
          1 / 10000 := by
        rw [npDot_eq_dot, intMat_eq, intMat_eq, dot_int, abs_mul, abs_of_pos (by positivity)]
        have hs2 : s ^ 2 < 1 / 10000 := by nlinarith
        have hb : |(intDot (rowZ mclZ x) (rowZ mclZ (halveAxis v)) : ℝ)| ≤ 1 := by
          rcases hhv with g | g
          · rw [g]
            have : intDot (rowZ mclZ x) (rowZ mclZ ![0, 1, 0]) = x 1 := by
              simp [intDot, rowZ, mclZ]
            rw [this]; exact hx1'
          · rw [g]
            have : intDot (rowZ mclZ x) (rowZ mclZ (-![0, 1, 0])) = -x 1 := by
              simp [intDot, rowZ, mclZ]
            rw [this, Int.cast_neg, abs_neg]; exact hx1'
        nlinarith [abs_nonneg (intDot (rowZ mclZ x) (rowZ mclZ (halveAxis v)) : ℝ), sq_nonneg s]
      simp only [this, decide_true, Bool.and_true]
    have hperp : perpAxes (halveAxis v) (intCell s mclZ) (1 / 10000) =
        ((millerIndices 1).filter fun x => decide (x ≠ 0)).mergeSort le := by
      unfold perpAxes
      rw [hfull]
    rw [hperp]
    have hs1 := List.pairwise_mergeSort (le := le)
      (by intro a b d h1 h2
          simp only [hle, decide_eq_true_eq] at *
          exact h1.trans h2)
      (by intro a b
          simp only [hle, Bool.or_eq_true, decide_eq_true_eq]
          exact le_total _ _) ((millerIndices 1).filter fun x => decide (x ≠ 0))
    have hperm := List.mergeSort_perm ((millerIndices 1).filter fun x => decide (x ≠ 0)) le
    split
    · next a b d rest heq =>
      rw [heq] at hs1 hperm
      have hmem : ∀ x, x ∈ a :: b :: d :: rest ↔ x ∈ (millerIndices 1).filter fun x => decide (x ≠ 0) :=
        fun x => hperm.mem_iff
      have ha := (hmem a).1 (by simp)
      have hb := (hmem ![0, 1, 0]).2 (by decide)
      have hmin : npNorm (intMat a (intCell s mclZ)) ≤ npNorm (intMat ![0, 1, 0] (intCell s mclZ)) := by
        rcases List.mem_cons.1 hb with g | g
        · rw [g]
        · have := (List.pairwise_cons.1 hs1).1 _ g
          simpa only [hle, decide_eq_true_eq] using this
      have hq : intDot (rowZ mclZ a) (rowZ mclZ a) ≤ 1 := by
        have h1 : npNorm (intMat a (intCell s mclZ)) ^ 2 ≤
            npNorm (intMat ![0, 1, 0] (intCell s mclZ)) ^ 2 :=
          pow_le_pow_left₀ (Real.sqrt_nonneg _) hmin 2
        rw [hnorm, hnorm] at h1
        have h2 := le_of_mul_le_mul_left h1 (by positivity : 0 < s ^ 2)
        have e1 : intDot (rowZ mclZ ![0, 1, 0]) (rowZ mclZ ![0, 1, 0]) = 1 := by decide
        rw [e1] at h2
        exact_mod_cast h2
      have haa : a = ![0, 1, 0] ∨ a = -![0, 1, 0] := by
        have : ∀ x ∈ (millerIndices 1).filter fun x => decide (x ≠ 0),
            intDot (rowZ mclZ x) (rowZ mclZ x) ≤ 1 → x = ![0, 1, 0] ∨ x = -![0, 1, 0] := by decide
        exact this a ha hq
      have hdet : (Matrix.of ![a, halveAxis v, d]).det = 0 := by
        rw [det_crossZ]
        rcases haa with g | g <;> rcases hhv with g' | g' <;> rw [g, g'] <;>
          simp [intDot, crossZ]
      rw [hdet]
      simp
    · rfl
  have hlen : (exactAxes (intCell s mclZ) [v]).length = 1 := rfl
  unfold classifyAxes
  rw [checkCub_short _ (by omega), checkHex_short _ (by omega), checkTet_short _ (by omega), hm]
  have h4 : checkRhl (angleMatrix (exactAxes (intCell s mclZ) [v])) (exactAxes (intCell s mclZ) [v])
      (1 / 10000) = none := by
    unfold checkRhl
    rw [if_neg (by rintro ⟨g, -⟩; omega)]
  have h5 : checkOrc (angleMatrix (exactAxes (intCell s mclZ) [v])) (exactAxes (intCell s mclZ) [v])
      (1 / 10000) = .ok none := by
    unfold checkOrc
    rw [if_neg (by omega)]
  rw [h4, h5]
  rfl

omit hcell hl0 hl90 hd hno in
/-- C58: another cell of the same lattice is reported as a centred one, although the two cells
generate the same lattice. -/
theorem C58_example_wrong (fuel : ℕ) :
    SameLattice (intCell 1 mclZ) (intCell 1 mclZ') ∧
    lepage niggli (fuel + 1) (intCell 1 mclZ) (1 / 10000) true 2 = some (.ok ["MCL"]) ∧
    lepage niggli (fuel + 1) (intCell 1 mclZ') (1 / 10000) true 2 = some (.ok ["MCLC"]) := by
  have hv : volZ mclZ' ≠ 0 := by decide
  have hd : (intCell 1 mclZ').det ≠ 0 := by
    rw [det_int]
    exact mul_ne_zero (pow_ne_zero 3 one_ne_zero) (by exact_mod_cast hv)
  refine ⟨?_, C58_example_mcl (by norm_num) fuel, ?_⟩
  · unfold SameLattice
    ext x
    constructor
    · rintro ⟨n, rfl⟩
      refine ⟨![n 0, n 2 - n 1, n 1], ?_⟩
      funext j
      fin_cases j <;> simp [intCell, mclZ, mclZ', Fin.sum_univ_three] <;> ring
    · rintro ⟨n, rfl⟩
      refine ⟨![n 0, n 2, n 1 + n 2], ?_⟩
      funext j
      fin_cases j <;> simp [intCell, mclZ, mclZ', Fin.sum_univ_three] <;> ring
  · refine C58_difference (u := ![0, -1, 1]) (lam := 1) (c := intCell 1 mclZ') rfl (by norm_num)
      (by norm_num) (by norm_num) hd (noPseudo_int one_pos hv mclZ'_clear) (by decide) ?_
      (only_int one_pos hv (by decide) mclZ'_axes
        (f := fun n => ![-n 0, -n 1 - 2 * n 2, n 2]) ?_) ?_ ?_ ?_
      (by decide) (Or.inr ⟨⟨1, by decide⟩, ⟨2, by decide⟩⟩) fuel
    · rintro k x ⟨n, rfl⟩ h
      have := congrFun h 1
      simp only [lat_int, Pi.smul_apply, smul_eq_mul, intCell, Fin.sum_univ_three] at this
      simp [rowZ, mclZ'] at this
      have h3 : k * n 2 = 1 := by exact_mod_cast this.symm
      exact Int.isUnit_iff_abs_eq.1 (IsUnit.of_mul_eq_one _ h3)
    · intro n j
      simp only [halfTurn]
      rw [dot_int, dot_int]
      simp only [lat_int]
      fin_cases j <;> simp [intDot, rowZ, mclZ'] <;> ring
    · intro i
      rw [dot_row]
      fin_cases i <;> simp [intDot, rowZ, mclZ']
    · rw [dot_int]
      simp [intDot, rowZ, mclZ']
      norm_num
    · rintro x ⟨n, rfl⟩
      refine ⟨n 2, ?_⟩
      simp only [dot, lat_int, Pi.sub_apply, Pi.smul_apply, smul_eq_mul, intCell, Fin.sum_univ_three]
      simp [rowZ, mclZ']

omit hcell hl0 hl90 hd hno in
/-- C58: a centred monoclinic and a triclinic cell. -/
theorem C58_examples (fuel : ℕ) :
    lepage niggli (fuel + 1) (intCell 1 mclcZ) (1 / 10000) true 2 = some (.ok ["MCLC"]) ∧
    lepage niggli (fuel + 1) (intCell 1 triZ) (1 / 10000) true 2 = some (.ok ["TRI"]) := by
  constructor
  · have hv : volZ mclcZ ≠ 0 := by decide
    have hd : (intCell 1 mclcZ).det ≠ 0 := by
      rw [det_int]
      exact mul_ne_zero (pow_ne_zero 3 one_ne_zero) (by exact_mod_cast hv)
    refine C58_centred_partial (u := ![1, 1, 0]) (lam := 2) (c := intCell 1 mclcZ) rfl (by norm_num)
      (by norm_num) (by norm_num) hd (noPseudo_int one_pos hv mclcZ_clear) (by decide) ?_
      (only_int one_pos hv (by decide) mclcZ_axes (f := fun n => ![n 1, n 0, -n 2]) ?_) ?_ ?_ ?_ fuel
    · rintro k x ⟨n, rfl⟩ h
      have a0 := congrFun h 0
      have a1 := congrFun h 1
      have a2 := congrFun h 2
      simp only [lat_int, Pi.smul_apply, smul_eq_mul, intCell, Fin.sum_univ_three] at a0 a1 a2
      simp [rowZ, mclcZ] at a0 a1 a2
      have b1 : (2 : ℤ) = k * (n 0 + n 1) := by
        have : (2 : ℝ) = k * ((n 0 : ℝ) + n 1) := by linarith
        exact_mod_cast this
      have hk : k ≠ 0 := by rintro rfl; simp at b1
      have hn2 : n 2 = 0 := a2.resolve_left hk
      rw [hn2] at a0
      have b0 : k * (n 0 * 2 + -(n 1 * 2) + 0) = 0 := by
        rcases a0 with g | g
        · rw [g, zero_mul]
        · have : ((n 0 * 2 + -(n 1 * 2) + 0 : ℤ) : ℝ) = 0 := by push_cast; simpa using g
          have : n 0 * 2 + -(n 1 * 2) + 0 = 0 := by exact_mod_cast this
          rw [this, mul_zero]
      have : n 0 = n 1 := by
        have := (mul_eq_zero.1 b0).resolve_left hk
        omega
      rw [this] at b1
      have h3 : k * n 1 = 1 := by linarith
      exact Int.isUnit_iff_abs_eq.1 (IsUnit.of_mul_eq_one _ h3)
    · intro n j
      simp only [halfTurn]
      rw [dot_int, dot_int]
      simp only [lat_int]
      fin_cases j <;> simp [intDot, rowZ, mclcZ] <;> ring
    · intro i
      rw [dot_row]
      fin_cases i <;> simp [intDot, rowZ, mclcZ]
    · rw [dot_int]
      simp [intDot, rowZ, mclcZ]
      norm_num
    · intro h
      obtain ⟨m, hm⟩ := h (latticeVec (intCell 1 mclcZ) ![1, 0, 0]) ⟨_, rfl⟩
      simp only [dot, lat_int, Pi.sub_apply, Pi.smul_apply, smul_eq_mul] at hm
      simp [rowZ, mclcZ] at hm
      have : (1 : ℝ) = 2 * m := by linarith
      have : (1 : ℤ) = 2 * m := by exact_mod_cast this
      omega
  · have hv : volZ triZ ≠ 0 := by decide
    have hd : (intCell 1 triZ).det ≠ 0 := by
      rw [det_int]
      exact mul_ne_zero (pow_ne_zero 3 one_ne_zero) (by exact_mod_cast hv)
    refine C58_triclinic (c := intCell 1 triZ) rfl (by norm_num) (by norm_num) hd
      (noPseudo_int one_pos hv triZ_clear) ?_ fuel
    intro u hu ht
    exact absurd (twofold_int one_pos hv triZ_axes hu ht) (by simp)

end Wulfric
