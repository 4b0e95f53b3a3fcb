import Verif.Spec.Scale
import Verif.Lemmas.Turn

/-!
# Another unit of length
-/

namespace Wulfric

open Matrix _root_.Spec

variable {s : ℝ}

section Both

variable {α β γ δ : Type}

theorem both_of_eq {f : α → β} {x : Except Err α} {y : Except Err β} (h : y = x.map f) :
    BothReturn f x y := by
  rintro a b rfl rfl
  cases h; rfl

theorem both_bind {f : α → β} {g : γ → δ} {x : Except Err α} {y : Except Err β}
    {h : α → Except Err γ} {k : β → Except Err δ} (hx : BothReturn f x y)
    (hk : ∀ a, x = .ok a → y = .ok (f a) → BothReturn g (h a) (k (f a))) :
    BothReturn g (x >>= h) (y >>= k) := by
  intro c d h1 h2
  cases x with
  | error e => cases h1
  | ok a =>
    cases y with
    | error e => cases h2
    | ok b =>
      obtain rfl := hx a b rfl rfl
      exact hk a rfl rfl c d h1 h2

theorem both_ok {f : α → β} (a : α) : BothReturn f (.ok a) (.ok (f a)) := by
  rintro _ _ ⟨⟩ ⟨⟩; rfl

theorem both_pure {f : α → β} (a : α) : BothReturn f (pure a) (pure (f a)) := both_ok a

theorem both_id (x : Except Err α) : BothReturn id x x := by
  rintro a b h1 h2; rw [h1] at h2; cases h2; rfl

theorem both_left {f : α → β} (e : Err) (y : Except Err β) : BothReturn f (.error e) y := by
  rintro a b ⟨⟩

theorem both_right {f : α → β} (x : Except Err α) (e : Err) : BothReturn f x (.error e) := by
  rintro a b _ ⟨⟩

end Both

theorem npDot_smul (s : ℝ) (u v : Vec ℝ) : npDot (s • u) (s • v) = s ^ 2 * npDot u v := by
  simp only [npDot, Fin.sum_univ_three, Pi.smul_apply, smul_eq_mul]; ring

theorem npNorm_scale (hs : 0 < s) (v : Vec ℝ) : npNorm (s • v) = s * npNorm v := by
  unfold npNorm
  rw [npDot_smul, Real.sqrt_mul (by positivity), Real.sqrt_sq hs.le]

theorem smul_row (s : ℝ) (c : Cell ℝ) (i : Fin 3) : (s • c) i = s • c i := rfl

theorem getAngle_scale (hs : 0 < s) (u v : Vec ℝ) :
    BothReturn id (getAngle u v) (getAngle (s • u) (s • v)) := by
  intro a b h1 h2
  unfold getAngle at h1 h2
  simp only [Bool.false_eq_true, if_false] at h1 h2
  split_ifs at h1 with g1
  split_ifs at h2 with g2
  simp only [Except.ok.injEq] at h1 h2
  simp only [npNorm_scale hs, Pi.smul_apply, smul_eq_mul, mul_div_mul_left _ _ hs.ne'] at h2
  rw [← h1, ← h2]; rfl

/-- The six parameters in the other unit. -/
def scaleParams (s : ℝ) (p : ℝ × ℝ × ℝ × ℝ × ℝ × ℝ) : ℝ × ℝ × ℝ × ℝ × ℝ × ℝ :=
  (s * p.1, s * p.2.1, s * p.2.2.1, p.2.2.2)

theorem getParams_scale (hs : 0 < s) (c : Cell ℝ) :
    BothReturn (scaleParams s) (getParams c) (getParams (s • c)) := by
  unfold getParams
  simp only [smul_row, npNorm_scale hs]
  refine both_bind (getAngle_scale hs _ _) fun al _ _ => ?_
  refine both_bind (getAngle_scale hs _ _) fun be _ _ => ?_
  refine both_bind (getAngle_scale hs _ _) fun ga _ _ => ?_
  exact both_pure (f := scaleParams s) (npNorm (c 0), npNorm (c 1), npNorm (c 2), al, be, ga)

theorem getAngle_pos {u v : Vec ℝ} {a : ℝ} (h : getAngle u v = .ok a) :
    0 < npNorm u ∧ 0 < npNorm v := by
  unfold getAngle at h
  simp only [Bool.false_eq_true, if_false] at h
  split_ifs at h with g
  push Not at g
  have e : 0 < machineEps := by unfold machineEps; positivity
  have n1 : 0 ≤ npNorm u := Real.sqrt_nonneg _
  have n2 : 0 ≤ npNorm v := Real.sqrt_nonneg _
  rw [abs_of_nonneg n1, abs_of_nonneg n2] at g
  exact ⟨e.trans g.1, e.trans g.2⟩

theorem getParams_lengths_pos {c : Cell ℝ} {p : ℝ × ℝ × ℝ × ℝ × ℝ × ℝ} (h : getParams c = .ok p) :
    0 < p.1 ∧ 0 < p.2.1 ∧ 0 < p.2.2.1 := by
  unfold getParams at h
  simp only [bind, Except.bind] at h
  cases h1 : getAngle (c 1) (c 2) with
  | error e => rw [h1] at h; cases h
  | ok al =>
    simp only [h1] at h
    cases h2 : getAngle (c 0) (c 2) with
    | error e => rw [h2] at h; cases h
    | ok be =>
      simp only [h2] at h
      cases h3 : getAngle (c 0) (c 1) with
      | error e => rw [h3] at h; cases h
      | ok ga =>
        simp only [h3] at h
        cases h
        exact ⟨(getAngle_pos h3).1, (getAngle_pos h3).2, (getAngle_pos h1).2⟩

theorem npInv_scale (hs : s ≠ 0) (c : Cell ℝ) :
    npInv (s • c) = (npInv c).map fun i => s⁻¹ • i := by
  unfold npInv
  have hd : (s • c).det = s ^ 3 * c.det := by simp [det_smul]
  by_cases h : c.det = 0
  · rw [if_pos h, if_pos (by rw [hd, h, mul_zero])]; rfl
  · rw [if_neg h, if_neg (by rw [hd]; exact mul_ne_zero (pow_ne_zero _ hs) h)]
    simp only [Except.map]
    congr 1
    refine Matrix.inv_eq_right_inv ?_
    rw [smul_mul_smul_comm, mul_inv_cancel₀ hs, one_smul, Matrix.mul_nonsing_inv _ (Ne.isUnit h)]

theorem getReciprocal_scale (hs : s ≠ 0) (c : Cell ℝ) :
    getReciprocal (s • c) = (getReciprocal c).map fun r => s⁻¹ • r := by
  unfold getReciprocal
  rw [npInv_scale hs]
  cases npInv c with
  | error e => rfl
  | ok i =>
    simp only [Except.map, Matrix.transpose_smul]
    rw [smul_comm]

theorem applyT_scale (s : ℝ) (m : Matrix (Fin 3) (Fin 3) ℤ) (c : Cell ℝ) :
    applyT m (s • c) = s • applyT m c := by
  unfold applyT; rw [Matrix.mul_smul]

theorem dotMatrix_scale {t : ℝ} (ht : 0 < t) (x y z : ℝ) :
    dotMatrix (t * x) (t * y) (t * z) = dotMatrix x y z := by
  unfold dotMatrix
  simp only [mul_le_mul_iff_right₀ ht]

/-- `f` commutes with the change of the unit by the factor `s`. -/
def ScalesWith (s : ℝ) (f : Cell ℝ → Except Err (Cell ℝ)) : Prop :=
  ∀ c, BothReturn (fun r => s • r) (f c) (f (s • c))

theorem hpkotConventionalA_scale (hs : 0 < s) {niggli : Cell ℝ → Except Err (Cell ℝ)} (c : Cell ℝ)
    (hn : NiggliAt s niggli c) :
    BothReturn (fun r => s • r) (hpkotConventionalA niggli c)
      (hpkotConventionalA niggli (s • c)) := by
  have hi : 0 < s⁻¹ := inv_pos.2 hs
  unfold hpkotConventionalA
  refine both_bind (both_of_eq (getReciprocal_scale hs.ne' c)) fun r hr _ => ?_
  refine both_bind (hn r hr) fun r1 _ _ => ?_
  refine both_bind (both_of_eq (getReciprocal_scale hi.ne' r1)) fun c1 _ _ => ?_
  simp only [smul_row, npDot_smul, abs_mul, abs_pow, abs_of_pos hi, inv_inv]
  rw [dotMatrix_scale (by positivity)]
  refine both_bind (both_id _) fun m2 _ _ => ?_
  simp only [id, applyT_scale]
  refine both_bind (both_of_eq (getReciprocal_scale hs.ne' _)) fun r2 _ _ => ?_
  refine both_bind (getParams_scale hi _) fun p _ _ => ?_
  simp only [scaleParams]
  refine both_bind (both_id _) fun m3 _ _ => ?_
  simp only [id]
  exact both_pure (f := fun r : Cell ℝ => s • r) _

theorem scConventionalOPFI_scale (hs : 0 < s) : ScalesWith s scConventionalOPFI := by
  intro c
  unfold scConventionalOPFI
  refine both_bind (getParams_scale hs _) fun p _ _ => ?_
  simp only [scaleParams, applyT_scale, mul_lt_mul_iff_right₀ hs]
  split_ifs <;> first | exact both_pure (f := fun r : Cell ℝ => s • r) _ | exact both_left _ _

theorem scConventionalOC_scale (hs : 0 < s) : ScalesWith s scConventionalOC := by
  intro c
  unfold scConventionalOC
  refine both_bind (getParams_scale hs _) fun p _ _ => ?_
  simp only [scaleParams, applyT_scale, mul_lt_mul_iff_right₀ hs]
  split_ifs <;> first | exact both_pure (f := fun r : Cell ℝ => s • r) _ | exact both_left _ _

theorem scConventionalM_scale (hs : 0 < s) (centring : String) (tol : ℝ) :
    ScalesWith s fun c => scConventionalM c centring tol := by
  intro c
  simp only [scConventionalM]
  refine both_bind (getParams_scale hs _) fun p _ _ => ?_
  simp only [scaleParams]
  refine both_bind (both_id _) fun m1 _ _ => ?_
  simp only [id, applyT_scale]
  refine both_bind (getParams_scale hs _) fun p _ _ => ?_
  simp only [scaleParams, mul_le_mul_iff_right₀ hs]
  rw [← apply_ite (fun x : Cell ℝ => s • x)]
  refine both_bind (getParams_scale hs _) fun p _ _ => ?_
  simp only [scaleParams, applyT_scale]
  split_ifs <;> exact both_pure (f := fun r : Cell ℝ => s • r) _

theorem scConventionalA_scale (hs : 0 < s) (tol : ℝ) :
    ScalesWith s fun c => scConventionalA c tol := by
  intro c
  have hi : 0 < s⁻¹ := inv_pos.2 hs
  simp only [scConventionalA]
  refine both_bind (both_of_eq (getReciprocal_scale hs.ne' c)) fun r _ _ => ?_
  refine both_bind (getParams_scale hi _) fun p _ _ => ?_
  simp only [scaleParams]
  refine both_bind (both_id _) fun m1 _ _ => ?_
  simp only [id, applyT_scale]
  refine both_bind (getParams_scale hi _) fun p _ _ => ?_
  simp only [scaleParams]
  refine both_bind (both_id _) fun m2 _ _ => ?_
  simp only [id]
  refine both_bind (both_of_eq (getReciprocal_scale hi.ne' _)) fun c1 _ _ => ?_
  simp only [inv_inv, applyT_scale]
  exact both_pure (f := fun r : Cell ℝ => s • r) _

theorem scConventionalHR_scale (hs : 0 < s) (x y₁ y₂ : ℝ) (c : Cell ℝ) :
    BothReturn (fun r => s • r) (scConventionalHR c x y₁) (scConventionalHR (s • c) x y₂) := by
  simp only [scConventionalHR]
  refine both_bind (getParams_scale hs _) fun p _ _ => ?_
  simp only [scaleParams, applyT_scale]
  split_ifs <;> first | exact both_pure (f := fun r : Cell ℝ => s • r) _ | exact both_left _ _ |
    exact both_right _ _

theorem scConventionalNoHR_scale (hs : 0 < s) (family centring : String) (tol : ℝ) :
    ScalesWith s fun c => scConventionalNoHR c family centring tol := by
  intro c
  simp only [scConventionalNoHR, applyT_scale]
  split_ifs
  · exact both_ok (f := fun r : Cell ℝ => s • r) c
  · exact scConventionalOPFI_scale hs c
  · exact scConventionalOC_scale hs c
  · exact scConventionalOC_scale hs _
  · exact both_left _ _
  · exact scConventionalM_scale hs centring tol c
  · exact scConventionalA_scale hs tol c
  · exact both_left _ _

theorem vecMat_smul (v : Vec ℝ) (s : ℝ) (m : Cell ℝ) : vecMat v (s • m) = s • vecMat v m := by
  funext j
  simp [vecMat]; ring

theorem smul_vecMat (v : Vec ℝ) (s : ℝ) (m : Cell ℝ) : vecMat (s • v) m = s • vecMat v m := by
  funext j
  simp [vecMat]; ring

theorem vecMat_scale (hs : s ≠ 0) (v : Vec ℝ) (m n : Cell ℝ) :
    vecMat (vecMat v (s • m)) (s⁻¹ • n) = vecMat (vecMat v m) n := by
  rw [vecMat_smul, vecMat_smul, smul_vecMat, smul_smul, inv_mul_cancel₀ hs, one_smul]

theorem vecMat_scale' (hs : s ≠ 0) (v : Vec ℝ) (m n : Cell ℝ) :
    vecMat (vecMat v (s⁻¹ • m)) (s • n) = vecMat (vecMat v m) n := by
  rw [vecMat_smul, vecMat_smul, smul_vecMat, smul_smul, mul_inv_cancel₀ hs, one_smul]

theorem rebase_scale (hs : s ≠ 0) (ps : List (Vec ℝ)) (c d : Cell ℝ) :
    rebase ps (s • c) (s • d) = rebase ps c d := by
  unfold rebase
  rw [npInv_scale hs]
  cases npInv d with
  | error e => rfl
  | ok i => simp only [Except.map, bind, Except.bind, vecMat_scale hs]

/-- The data in the other unit, with another `symprec`. -/
noncomputable def SpglibData.scale (s symprec : ℝ) (d : SpglibData) : SpglibData :=
  { d with original := { d.original with cell := s • d.original.cell },
           conventionalCell := s • d.conventionalCell, primitiveCell := s • d.primitiveCell,
           symprec := symprec }

variable {lower : String → String} {getData : Cell ℝ → Atoms ℝ → Except Err SpglibData}
  {niggli : Cell ℝ → Except Err (Cell ℝ)} {sp : ℝ}

theorem conventionalParts_scale (hs : 0 < s) (convention : String)
    (data : SpglibData) (hn : data.crystalFamily = "a" → NiggliAt s niggli data.conventionalCell) :
    BothReturn (fun p => (s • p.1, p.2)) (conventionalParts niggli convention data)
      (conventionalParts niggli convention (data.scale s sp)) := by
  unfold conventionalParts
  have ha : angleTol (data.scale s sp) = angleTol data := rfl
  simp only [ha]
  by_cases h1 : convention = "spglib" ∨ convention = "hpkot"
  · rw [if_pos h1, if_pos h1]
    by_cases h2 : convention = "hpkot" ∧ data.crystalFamily = "a"
    · rw [if_pos h2, if_pos (show convention = "hpkot" ∧ (data.scale s sp).crystalFamily = "a" from h2)]
      refine both_bind (hpkotConventionalA_scale hs data.conventionalCell (hn h2.2)) fun c _ _ => ?_
      rw [show rebase (data.scale s sp).conventionalPositions (data.scale s sp).conventionalCell
        (s • c) = _ from rebase_scale hs.ne' data.conventionalPositions data.conventionalCell c]
      refine both_bind (both_id _) fun ps _ _ => ?_
      exact both_pure (f := fun p : Cell ℝ × List (Vec ℝ) × List ℤ => (s • p.1, p.2))
        (c, ps, data.conventionalTypes)
    · rw [if_neg h2, if_neg (show ¬(convention = "hpkot" ∧ (data.scale s sp).crystalFamily = "a") from h2)]
      exact both_ok (f := fun p : Cell ℝ × List (Vec ℝ) × List ℤ => (s • p.1, p.2))
        (data.conventionalCell, data.conventionalPositions, data.conventionalTypes)
  · rw [if_neg h1, if_neg h1]
    by_cases h3 : convention = "sc"
    · rw [if_pos h3, if_pos h3]
      by_cases h4 : data.crystalFamily = "h" ∧ data.centringType = "R"
      · rw [if_pos h4, if_pos (show (data.scale s sp).crystalFamily = "h" ∧ (data.scale s sp).centringType = "R" from h4)]
        refine both_bind (scConventionalHR_scale hs _ _ _ data.primitiveCell) fun c _ _ => ?_
        rw [show rebase (data.scale s sp).primitivePositions (data.scale s sp).primitiveCell
          (s • c) = _ from rebase_scale hs.ne' data.primitivePositions data.primitiveCell c]
        refine both_bind (both_id _) fun ps _ _ => ?_
        exact both_pure (f := fun p : Cell ℝ × List (Vec ℝ) × List ℤ => (s • p.1, p.2))
          (c, ps, data.primitiveTypes)
      · rw [if_neg h4, if_neg (show ¬((data.scale s sp).crystalFamily = "h" ∧ (data.scale s sp).centringType = "R") from h4)]
        refine both_bind (scConventionalNoHR_scale hs _ _ _ data.conventionalCell) fun c _ _ => ?_
        rw [show rebase (data.scale s sp).conventionalPositions (data.scale s sp).conventionalCell
          (s • c) = _ from rebase_scale hs.ne' data.conventionalPositions data.conventionalCell c]
        refine both_bind (both_id _) fun ps _ _ => ?_
        exact both_pure (f := fun p : Cell ℝ × List (Vec ℝ) × List ℤ => (s • p.1, p.2))
          (c, ps, data.conventionalTypes)
    · rw [if_neg h3, if_neg h3]
      exact both_left _ _

theorem resolve_scale (cell : Cell ℝ) (atoms : Atoms ℝ) (data : SpglibData) :
    BothReturn (SpglibData.scale s sp) (resolveData lower getData cell atoms (some data))
      (resolveData lower getData (s • cell) atoms (some (data.scale s sp))) := by
  intro a b h1 h2
  rw [resolve_some h1, resolve_some h2]

/-- The two ways to get the data agree: `none` and the data of `get_spglib_data`. -/
def DataScale (s sp : ℝ) (G G' : Cell ℝ → Atoms ℝ → Except Err SpglibData) (cell : Cell ℝ)
    (atoms : Atoms ℝ) (g g' : Option SpglibData) : Prop :=
  BothReturn (SpglibData.scale s sp) (resolveData lower G cell atoms g)
    (resolveData lower G' (s • cell) atoms g')

/-- The Niggli reduction does not depend on the unit either; needed for triclinic crystals only. -/
def NiggliOk (lower : String → String) (s : ℝ) (niggli : Cell ℝ → Except Err (Cell ℝ))
    (G : Cell ℝ → Atoms ℝ → Except Err SpglibData) (cell : Cell ℝ) (atoms : Atoms ℝ)
    (g : Option SpglibData) : Prop :=
  ∀ d, resolveData lower G cell atoms g = .ok d → d.crystalFamily = "a" →
    NiggliAt s niggli d.conventionalCell

theorem niggliOk_some {G : Cell ℝ → Atoms ℝ → Except Err SpglibData} {cell : Cell ℝ}
    {atoms : Atoms ℝ} {d : SpglibData} (h : d.crystalFamily = "a" →
    NiggliAt s niggli d.conventionalCell) :
    NiggliOk lower s niggli G cell atoms (some d) := by
  intro d' hd'
  rw [resolve_some hd']
  exact h

theorem getConventional_scale (hs : 0 < s)
    {G G' : Cell ℝ → Atoms ℝ → Except Err SpglibData} {g g' : Option SpglibData} (cell : Cell ℝ)
    (atoms : Atoms ℝ) (h : DataScale (lower := lower) s sp G G' cell atoms g g')
    (hn : NiggliOk lower s niggli G cell atoms g)
    (convention : String) :
    BothReturn (fun p => (s • p.1, p.2)) (getConventional lower G niggli cell atoms convention g)
      (getConventional lower G' niggli (s • cell) atoms convention g') := by
  unfold getConventional
  refine both_bind h fun d hd _ => ?_
  refine both_bind (conventionalParts_scale hs _ _ (hn d hd)) fun p _ _ => ?_
  refine both_bind (both_id _) fun a _ _ => ?_
  exact both_pure (f := fun p : Cell ℝ × Atoms ℝ => (s • p.1, p.2)) (p.1, a)

theorem dataScale_some (G G' : Cell ℝ → Atoms ℝ → Except Err SpglibData) (cell : Cell ℝ)
    (atoms : Atoms ℝ) (d : SpglibData) :
    DataScale (lower := lower) s sp G G' cell atoms (some d) (some (d.scale s sp)) := by
  intro a b h1 h2
  rw [resolve_some h1, resolve_some h2]

/-- The cell of `get_primitive` is scaled; its atoms are the same if the tolerance is. -/
theorem primitiveParts_scale (hs : 0 < s)
    {G G' : Cell ℝ → Atoms ℝ → Except Err SpglibData} (cell : Cell ℝ)
    (atoms : Atoms ℝ) (convention : String) (data : SpglibData)
    (hn : data.crystalFamily = "a" → NiggliAt s niggli data.conventionalCell) :
    ∀ p q, primitiveParts lower G niggli cell atoms convention data = .ok p →
      primitiveParts lower G' niggli (s • cell) atoms convention (data.scale s sp) = .ok q →
      q.1 = s • p.1 ∧ (sp = data.symprec → q.2 = p.2) := by
  intro p q h1 h2
  unfold primitiveParts at h1 h2
  split_ifs at h1 h2
  · cases h1; cases h2; exact ⟨rfl, fun _ => rfl⟩
  · simp only [bind, Except.bind] at h1 h2
    cases k1 : getConventional lower G niggli cell atoms convention (some data) with
    | error e => rw [k1] at h1; cases h1
    | ok u =>
    cases k2 : getConventional lower G' niggli (s • cell) atoms convention
        (some (data.scale s sp)) with
    | error e => rw [k2] at h2; cases h2
    | ok v =>
    obtain rfl := getConventional_scale hs cell atoms
      (dataScale_some G G' cell atoms data) (niggliOk_some hn) convention u v k1 k2
    simp only [k1, k2] at h1 h2
    simp only [SpglibData.scale] at h2
    cases k3 : primitiveMatrix convention (data.crystalFamily ++ data.centringType) with
    | error e => rw [k3] at h1; cases h1
    | ok m =>
    cases k4 : u.2.getPositions with
    | error e => rw [k3] at h1; simp only [k4] at h1; cases h1
    | ok ps =>
    simp only [k3, k4, Matrix.mul_smul, npInv_scale hs.ne'] at h1 h2
    cases k5 : npInv (m.transpose * u.1) with
    | error e => rw [k5] at h1; cases h1
    | ok i =>
    have hdet : (s • u.1).det / (s • (m.transpose * u.1)).det =
        u.1.det / (m.transpose * u.1).det := by
      simp only [det_smul, Fintype.card_fin]
      rw [mul_div_mul_left _ _ (pow_ne_zero _ hs.ne')]
    simp only [k5, Except.map, vecMat_scale hs.ne', hdet] at h1 h2
    cases k6 : getUnique (ps.map fun x => vecMat (vecMat x u.1) i) (u.2.spglibTypes.getD [])
        |u.1.det / (m.transpose * u.1).det| data.symprec with
    | error e => rw [k6] at h1; cases h1
    | ok w =>
    cases k7 : getUnique (ps.map fun x => vecMat (vecMat x u.1) i) (u.2.spglibTypes.getD [])
        |u.1.det / (m.transpose * u.1).det| sp with
    | error e => rw [k7] at h2; cases h2
    | ok w' =>
    rw [k6] at h1
    rw [k7] at h2
    cases h1; cases h2
    refine ⟨rfl, fun e => ?_⟩
    rw [e, k6] at k7
    cases k7; rfl

theorem getPrimitive_scale (hs : 0 < s)
    {G G' : Cell ℝ → Atoms ℝ → Except Err SpglibData} {g g' : Option SpglibData} (cell : Cell ℝ)
    (atoms : Atoms ℝ) (h : DataScale (lower := lower) s sp G G' cell atoms g g')
    (hn : NiggliOk lower s niggli G cell atoms g)
    (convention : String) (p q : Cell ℝ × Atoms ℝ)
    (h1 : getPrimitive lower G niggli cell atoms convention g = .ok p)
    (h2 : getPrimitive lower G' niggli (s • cell) atoms convention g' = .ok q) :
    q.1 = s • p.1 ∧
      ((∀ d, resolveData lower G cell atoms g = .ok d → d.symprec = sp) → q.2 = p.2) := by
  unfold getPrimitive at h1 h2
  simp only [bind, Except.bind] at h1 h2
  cases k1 : resolveData lower G cell atoms g with
  | error e => rw [k1] at h1; cases h1
  | ok d =>
  cases k2 : resolveData lower G' (s • cell) atoms g' with
  | error e => rw [k2] at h2; cases h2
  | ok d' =>
  obtain rfl := h d d' k1 k2
  simp only [k1, k2] at h1 h2
  cases k3 : primitiveParts lower G niggli cell atoms (lower convention) d with
  | error e => rw [k3] at h1; cases h1
  | ok u =>
  cases k4 : primitiveParts lower G' niggli (s • cell) atoms (lower convention) (d.scale s sp) with
  | error e => rw [k4] at h2; cases h2
  | ok v =>
  obtain ⟨e1, e2⟩ := primitiveParts_scale hs cell atoms _ d (hn d k1) u v k3 k4
  simp only [k3, k4] at h1 h2
  cases k5 : newAtoms atoms (firstIndex d.original.types) u.2.1 u.2.2 with
  | error e => rw [k5] at h1; cases h1
  | ok a =>
  cases k6 : newAtoms atoms (firstIndex (d.scale s sp).original.types) v.2.1 v.2.2 with
  | error e => rw [k6] at h2; cases h2
  | ok a' =>
  rw [k5] at h1
  rw [k6] at h2
  cases h1; cases h2
  refine ⟨e1, fun hsp => ?_⟩
  rw [e2 (hsp d rfl).symm] at k6
  have : (d.scale s sp).original.types = d.original.types := rfl
  rw [this, k5] at k6
  cases k6; rfl

theorem lengthSymbol_scale (hs : 0 < s) {a b c : ℝ} (t : String) (beta : ℝ) :
    hpkotLengthSymbol t (s * a) (s * b) (s * c) beta = hpkotLengthSymbol t a b c beta := by
  unfold hpkotLengthSymbol
  have e : ∀ x : ℝ, 1 / (s * x) ^ 2 = (s ^ 2)⁻¹ * (1 / x ^ 2) := by
    intro x; rw [mul_pow, one_div, one_div, mul_inv]
  have hp : 0 < (s ^ 2)⁻¹ := by positivity
  have e1 : ∀ x y z : ℝ, 1 / (s * x) ^ 2 + 1 / (s * y) ^ 2 < 1 / (s * z) ^ 2 ↔
      1 / x ^ 2 + 1 / y ^ 2 < 1 / z ^ 2 := by
    intro x y z
    rw [e, e, e, ← mul_add, mul_lt_mul_iff_right₀ hp]
  have e2 : Real.sqrt 3 * (s * a) ≤ Real.sqrt 2 * (s * c) ↔
      Real.sqrt 3 * a ≤ Real.sqrt 2 * c := by
    rw [mul_left_comm, mul_left_comm _ s, mul_le_mul_iff_right₀ hs]
  have e3 : s * b ≤ s * a * Real.sin (beta * toRadians) ↔ b ≤ a * Real.sin (beta * toRadians) := by
    rw [mul_assoc, mul_le_mul_iff_right₀ hs]
  have e4 : -(s * a) * Real.cos (beta * toRadians) / (s * c) =
      -a * Real.cos (beta * toRadians) / c := by
    rw [← mul_neg, mul_assoc, mul_div_mul_left _ _ hs.ne']
  have e5 : s * a * Real.sin (beta * toRadians) / (s * b) =
      a * Real.sin (beta * toRadians) / b := by
    rw [mul_assoc, mul_div_mul_left _ _ hs.ne']
  simp only [e1, e2, e3, e4, e5, mul_le_mul_iff_right₀ hs]

theorem symbol_scale (hs : 0 < s)
    {G G' : Cell ℝ → Atoms ℝ → Except Err SpglibData} {g g' : Option SpglibData} (cell : Cell ℝ)
    (atoms : Atoms ℝ) (h : DataScale (lower := lower) s sp G G' cell atoms g g')
    (hn : NiggliOk lower s niggli G cell atoms g) :
    BothReturn id (hpkotGetExtendedBlSymbol lower G niggli cell atoms g)
      (hpkotGetExtendedBlSymbol lower G' niggli (s • cell) atoms g') := by
  have hi : 0 < s⁻¹ := inv_pos.2 hs
  unfold hpkotGetExtendedBlSymbol
  refine both_bind h fun d hd _ => ?_
  simp only [show (d.scale s sp).crystalFamily = d.crystalFamily from rfl,
    show (d.scale s sp).centringType = d.centringType from rfl,
    show (d.scale s sp).spaceGroupNumber = d.spaceGroupNumber from rfl]
  cases hpkotSimpleSymbol (d.crystalFamily ++ d.centringType) d.spaceGroupNumber with
  | some r => exact both_id _
  | none =>
    refine both_bind (getConventional_scale hs cell atoms (dataScale_some G G' cell atoms d)
      (niggliOk_some (hn d hd)) _)
      fun p _ _ => ?_
    refine both_bind (getParams_scale hs _) fun q _ _ => ?_
    simp only [scaleParams, lengthSymbol_scale hs]
    cases hpkotLengthSymbol (d.crystalFamily ++ d.centringType) q.1 q.2.1 q.2.2.1 q.2.2.2.2.1 with
    | some r => exact both_id _
    | none =>
      simp only
      split_ifs
      · unfold hpkotTriclinicSymbol
        refine both_bind (both_of_eq (getReciprocal_scale hs.ne' _)) fun r _ _ => ?_
        refine both_bind (getParams_scale hi _) fun q _ _ => ?_
        exact both_id _
      · exact both_left _ _

theorem bctVariation_scale (hs : 0 < s) (a c : ℝ) :
    bctVariation (s * a) (s * c) = bctVariation a c := by
  unfold bctVariation
  simp only [mul_lt_mul_iff_right₀ hs]

theorem mclcVariation_scale (hs : 0 < s) (a b c alpha k x y : ℝ) :
    mclcVariation (s * a) (s * b) (s * c) alpha k x y = mclcVariation a b c alpha k x y := by
  unfold mclcVariation
  have e1 : s * b * Real.cos (alpha * toRadians) / (s * c) =
      b * Real.cos (alpha * toRadians) / c := by
    rw [mul_assoc, mul_div_mul_left _ _ hs.ne']
  have e2 : (s * b) ^ 2 * Real.sin (alpha * toRadians) ^ 2 / (s * a) ^ 2 =
      b ^ 2 * Real.sin (alpha * toRadians) ^ 2 / a ^ 2 := by
    rw [mul_pow, mul_pow, mul_assoc, mul_div_mul_left _ _ (pow_ne_zero _ hs.ne')]
  simp only [e1, e2]

/-- Quotients of the same degree. -/
theorem ratio_scale (hs : s ≠ 0) (x y : ℝ) : s * x / (s * y) = x / y := mul_div_mul_left _ _ hs

theorem hpkotTable73_scale (hs : s ≠ 0) (a c : ℝ) (ha : a ≠ 0) (hc : c ≠ 0) :
    hpkotTable73 (s * a) (s * c) = hpkotTable73 a c := by
  have e0 : (1 + ((s * c) / (s * a)) ^ 2) / 4 =
      (1 + (c / a) ^ 2) / 4 := by
    field_simp
  unfold hpkotTable73
  simp only [e0]

theorem hpkotTable74_scale (hs : s ≠ 0) (a c : ℝ) (ha : a ≠ 0) (hc : c ≠ 0) :
    hpkotTable74 (s * a) (s * c) = hpkotTable74 a c := by
  have e0 : (1 + ((s * a) / (s * c)) ^ 2) / 4 =
      (1 + (a / c) ^ 2) / 4 := by
    field_simp
  have e1 : ((s * a) / (s * c)) ^ 2 / 2 =
      (a / c) ^ 2 / 2 := by
    field_simp
  unfold hpkotTable74
  simp only [e0, e1]

theorem hpkotTable76_scale (hs : s ≠ 0) (a b c : ℝ) (ha : a ≠ 0) (hb : b ≠ 0) (hc : c ≠ 0) :
    hpkotTable76 (s * a) (s * b) (s * c) = hpkotTable76 a b c := by
  have e0 : (1 + ((s * a) / (s * b)) ^ 2 - ((s * a) / (s * c)) ^ 2) / 4 =
      (1 + (a / b) ^ 2 - (a / c) ^ 2) / 4 := by
    field_simp
  have e1 : (1 + ((s * a) / (s * b)) ^ 2 + ((s * a) / (s * c)) ^ 2) / 4 =
      (1 + (a / b) ^ 2 + (a / c) ^ 2) / 4 := by
    field_simp
  unfold hpkotTable76
  simp only [e0, e1]

theorem hpkotTable77_scale (hs : s ≠ 0) (a b c : ℝ) (ha : a ≠ 0) (hb : b ≠ 0) (hc : c ≠ 0) :
    hpkotTable77 (s * a) (s * b) (s * c) = hpkotTable77 a b c := by
  have e0 : (1 + ((s * c) / (s * a)) ^ 2 - ((s * c) / (s * b)) ^ 2) / 4 =
      (1 + (c / a) ^ 2 - (c / b) ^ 2) / 4 := by
    field_simp
  have e1 : (1 + ((s * c) / (s * a)) ^ 2 + ((s * c) / (s * b)) ^ 2) / 4 =
      (1 + (c / a) ^ 2 + (c / b) ^ 2) / 4 := by
    field_simp
  unfold hpkotTable77
  simp only [e0, e1]

theorem hpkotTable78_scale (hs : s ≠ 0) (a b c : ℝ) (ha : a ≠ 0) (hb : b ≠ 0) (hc : c ≠ 0) :
    hpkotTable78 (s * a) (s * b) (s * c) = hpkotTable78 a b c := by
  have e0 : (1 + ((s * a) / (s * b)) ^ 2 - ((s * a) / (s * c)) ^ 2) / 4 =
      (1 + (a / b) ^ 2 - (a / c) ^ 2) / 4 := by
    field_simp
  have e1 : (1 + ((s * b) / (s * a)) ^ 2 - ((s * b) / (s * c)) ^ 2) / 4 =
      (1 + (b / a) ^ 2 - (b / c) ^ 2) / 4 := by
    field_simp
  have e2 : (1 + ((s * c) / (s * b)) ^ 2 - ((s * c) / (s * a)) ^ 2) / 4 =
      (1 + (c / b) ^ 2 - (c / a) ^ 2) / 4 := by
    field_simp
  unfold hpkotTable78
  simp only [e0, e1, e2]

theorem hpkotTable79_scale (hs : s ≠ 0) (a b c : ℝ) (ha : a ≠ 0) (hb : b ≠ 0) (hc : c ≠ 0) :
    hpkotTable79 (s * a) (s * b) (s * c) = hpkotTable79 a b c := by
  have e0 : (1 + ((s * a) / (s * c)) ^ 2) / 4 =
      (1 + (a / c) ^ 2) / 4 := by
    field_simp
  have e1 : (1 + ((s * b) / (s * c)) ^ 2) / 4 =
      (1 + (b / c) ^ 2) / 4 := by
    field_simp
  have e2 : ((s * b) ^ 2 - (s * a) ^ 2) / 4 / (s * c) ^ 2 =
      (b ^ 2 - a ^ 2) / 4 / c ^ 2 := by
    field_simp
  have e3 : ((s * a) ^ 2 + (s * b) ^ 2) / 4 / (s * c) ^ 2 =
      (a ^ 2 + b ^ 2) / 4 / c ^ 2 := by
    field_simp
  unfold hpkotTable79
  simp only [e0, e1, e2, e3]

theorem hpkotTable80_scale (hs : s ≠ 0) (a b c : ℝ) (ha : a ≠ 0) (hb : b ≠ 0) (hc : c ≠ 0) :
    hpkotTable80 (s * a) (s * b) (s * c) = hpkotTable80 a b c := by
  have e0 : (1 + ((s * b) / (s * a)) ^ 2) / 4 =
      (1 + (b / a) ^ 2) / 4 := by
    field_simp
  have e1 : (1 + ((s * c) / (s * a)) ^ 2) / 4 =
      (1 + (c / a) ^ 2) / 4 := by
    field_simp
  have e2 : ((s * c) ^ 2 - (s * b) ^ 2) / 4 / (s * a) ^ 2 =
      (c ^ 2 - b ^ 2) / 4 / a ^ 2 := by
    field_simp
  have e3 : ((s * b) ^ 2 + (s * c) ^ 2) / 4 / (s * a) ^ 2 =
      (b ^ 2 + c ^ 2) / 4 / a ^ 2 := by
    field_simp
  unfold hpkotTable80
  simp only [e0, e1, e2, e3]

theorem hpkotTable81_scale (hs : s ≠ 0) (a b c : ℝ) (ha : a ≠ 0) (hb : b ≠ 0) (hc : c ≠ 0) :
    hpkotTable81 (s * a) (s * b) (s * c) = hpkotTable81 a b c := by
  have e0 : (1 + ((s * c) / (s * b)) ^ 2) / 4 =
      (1 + (c / b) ^ 2) / 4 := by
    field_simp
  have e1 : (1 + ((s * a) / (s * b)) ^ 2) / 4 =
      (1 + (a / b) ^ 2) / 4 := by
    field_simp
  have e2 : ((s * a) ^ 2 - (s * c) ^ 2) / 4 / (s * b) ^ 2 =
      (a ^ 2 - c ^ 2) / 4 / b ^ 2 := by
    field_simp
  have e3 : ((s * c) ^ 2 + (s * a) ^ 2) / 4 / (s * b) ^ 2 =
      (c ^ 2 + a ^ 2) / 4 / b ^ 2 := by
    field_simp
  unfold hpkotTable81
  simp only [e0, e1, e2, e3]

theorem hpkotTable85_scale (hs : s ≠ 0) (a c : ℝ) (ha : a ≠ 0) (hc : c ≠ 0) :
    hpkotTable85 (s * a) (s * c) = hpkotTable85 a c := by
  have e0 : ((s * a) / (s * c)) ^ 2 / 4 =
      (a / c) ^ 2 / 4 := by
    field_simp
  unfold hpkotTable85
  simp only [e0]

theorem hpkotTable86_scale (hs : s ≠ 0) (a c : ℝ) (ha : a ≠ 0) (hc : c ≠ 0) :
    hpkotTable86 (s * a) (s * c) = hpkotTable86 a c := by
  have e0 : 1 / 6 - ((s * c) / (s * a)) ^ 2 / 9 =
      1 / 6 - (c / a) ^ 2 / 9 := by
    field_simp
  unfold hpkotTable86
  simp only [e0]

theorem hpkotTable87_scale (hs : s ≠ 0) (a c beta : ℝ) (ha : a ≠ 0) (hc : c ≠ 0) :
    hpkotTable87 (s * a) (s * c) beta = hpkotTable87 a c beta := by
  have e1 : ∀ beta : ℝ, (1 + (s * a) / (s * c) * Real.cos beta) / 2 / Real.sin beta ^ 2 =
      (1 + a / c * Real.cos beta) / 2 / Real.sin beta ^ 2 := by
    intro beta; field_simp
  have e2 : ∀ beta eta : ℝ, 1 / 2 + eta * (s * c) * Real.cos beta / (s * a) =
      1 / 2 + eta * c * Real.cos beta / a := by
    intro beta eta; field_simp
  unfold hpkotTable87
  simp only [e1, e2]

theorem hpkotTable88_scale (hs : s ≠ 0) (a b c beta : ℝ) (ha : a ≠ 0) (hb : b ≠ 0) (hc : c ≠ 0) :
    hpkotTable88 (s * a) (s * b) (s * c) beta = hpkotTable88 a b c beta := by
  have e1 : ∀ beta : ℝ, (2 + (s * a) / (s * c) * Real.cos beta) / 4 / Real.sin beta ^ 2 =
      (2 + a / c * Real.cos beta) / 4 / Real.sin beta ^ 2 := by
    intro beta; field_simp
  have e2 : ∀ beta zeta : ℝ, 1 / 2 - 2 * zeta * (s * c) * Real.cos beta / (s * a) =
      1 / 2 - 2 * zeta * c * Real.cos beta / a := by
    intro beta zeta; field_simp
  have e3 : ∀ beta : ℝ, 3 / 4 - (s * b) ^ 2 / 4 / (s * a) ^ 2 / Real.sin beta ^ 2 =
      3 / 4 - b ^ 2 / 4 / a ^ 2 / Real.sin beta ^ 2 := by
    intro beta; field_simp
  have e4 : ∀ beta psi : ℝ, psi - (3 / 4 - psi) * (s * a) * Real.cos beta / (s * c) =
      psi - (3 / 4 - psi) * a * Real.cos beta / c := by
    intro beta psi; field_simp
  unfold hpkotTable88
  simp only [e1, e2, e3, e4]

theorem hpkotTable89_scale (hs : s ≠ 0) (a b c beta : ℝ) (ha : a ≠ 0) (hb : b ≠ 0) (hc : c ≠ 0) :
    hpkotTable89 (s * a) (s * b) (s * c) beta = hpkotTable89 a b c beta := by
  have e1 : (1 + ((s * a) / (s * b)) ^ 2) / 4 =
      (1 + (a / b) ^ 2) / 4 := by
    field_simp
  have e2 : ∀ beta : ℝ, -(s * a) * (s * c) * Real.cos beta / 2 / (s * b) ^ 2 =
      -a * c * Real.cos beta / 2 / b ^ 2 := by
    intro beta; field_simp
  have e3 : ∀ beta : ℝ, (((s * a) / (s * b)) ^ 2 + (1 + (s * a) / (s * c) * Real.cos beta) / Real.sin beta ^ 2) / 4 =
      ((a / b) ^ 2 + (1 + a / c * Real.cos beta) / Real.sin beta ^ 2) / 4 := by
    intro beta; field_simp
  have e4 : ∀ beta zeta : ℝ, 1 / 2 - 2 * zeta * (s * c) * Real.cos beta / (s * a) =
      1 / 2 - 2 * zeta * c * Real.cos beta / a := by
    intro beta zeta; field_simp
  unfold hpkotTable89
  simp only [e1, e2, e3, e4]

theorem hpkotTable90_scale (hs : s ≠ 0) (a b c beta : ℝ) (ha : a ≠ 0) (hb : b ≠ 0) (hc : c ≠ 0) :
    hpkotTable90 (s * a) (s * b) (s * c) beta = hpkotTable90 a b c beta := by
  have e1 : ∀ beta : ℝ, (((s * a) / (s * b)) ^ 2 + (1 + (s * a) / (s * c) * Real.cos beta) / Real.sin beta ^ 2) / 4 =
      ((a / b) ^ 2 + (1 + a / c * Real.cos beta) / Real.sin beta ^ 2) / 4 := by
    intro beta; field_simp
  have e2 : ∀ zeta : ℝ, 1 - zeta * ((s * b) / (s * a)) ^ 2 =
      1 - zeta * (b / a) ^ 2 := by
    intro zeta; field_simp
  have e3 : ∀ beta zeta : ℝ, 1 / 2 - 2 * zeta * (s * c) * Real.cos beta / (s * a) =
      1 / 2 - 2 * zeta * c * Real.cos beta / a := by
    intro beta zeta; field_simp
  have e4 : ∀ beta eta : ℝ, eta / 2 + ((s * a) / (s * b)) ^ 2 / 4 + (s * a) * (s * c) * Real.cos beta / 2 / (s * b) ^ 2 =
      eta / 2 + (a / b) ^ 2 / 4 + a * c * Real.cos beta / 2 / b ^ 2 := by
    intro beta eta; field_simp
  have e6 : ∀ beta nu : ℝ, (s * c) * (1 - 4 * nu + ((s * a) / (s * b)) ^ 2 * Real.sin beta ^ 2) / 2 / (s * a) / Real.cos beta =
      c * (1 - 4 * nu + (a / b) ^ 2 * Real.sin beta ^ 2) / 2 / a / Real.cos beta := by
    intro beta nu; field_simp
  have e7 : ∀ beta zeta omega : ℝ, -1 / 4 + omega / 2 - zeta * ((s * c) / (s * a)) * Real.cos beta =
      -1 / 4 + omega / 2 - zeta * (c / a) * Real.cos beta := by
    intro beta zeta omega; field_simp
  unfold hpkotTable90
  simp only [e1, e2, e3, e4, e6, e7]

theorem scTable6_scale (hs : s ≠ 0) (a c : ℝ) (ha : a ≠ 0) (hc : c ≠ 0) :
    scTable6 (s * a) (s * c) = scTable6 a c := by
  have e0 : (1 + (s * c) ^ 2 / (s * a) ^ 2) / 4 =
      (1 + c ^ 2 / a ^ 2) / 4 := by
    field_simp
  unfold scTable6
  simp only [e0]

theorem scTable7_scale (hs : s ≠ 0) (a c : ℝ) (ha : a ≠ 0) (hc : c ≠ 0) :
    scTable7 (s * a) (s * c) = scTable7 a c := by
  have e0 : (1 + (s * a) ^ 2 / (s * c) ^ 2) / 4 =
      (1 + a ^ 2 / c ^ 2) / 4 := by
    field_simp
  have e1 : (s * a) ^ 2 / (2 * (s * c) ^ 2) =
      a ^ 2 / (2 * c ^ 2) := by
    field_simp
  unfold scTable7
  simp only [e0, e1]

theorem scTable9_scale (hs : s ≠ 0) (a b c : ℝ) (ha : a ≠ 0) (hb : b ≠ 0) (hc : c ≠ 0) :
    scTable9 (s * a) (s * b) (s * c) = scTable9 a b c := by
  have e0 : (1 + (s * a) ^ 2 / (s * b) ^ 2 + (s * a) ^ 2 / (s * c) ^ 2) / 4 =
      (1 + a ^ 2 / b ^ 2 + a ^ 2 / c ^ 2) / 4 := by
    field_simp
  have e1 : (1 + (s * a) ^ 2 / (s * b) ^ 2 - (s * a) ^ 2 / (s * c) ^ 2) / 4 =
      (1 + a ^ 2 / b ^ 2 - a ^ 2 / c ^ 2) / 4 := by
    field_simp
  unfold scTable9
  simp only [e0, e1]

theorem scTable10_scale (hs : s ≠ 0) (a b c : ℝ) (ha : a ≠ 0) (hb : b ≠ 0) (hc : c ≠ 0) :
    scTable10 (s * a) (s * b) (s * c) = scTable10 a b c := by
  have e0 : (1 + (s * a) ^ 2 / (s * b) ^ 2 - (s * a) ^ 2 / (s * c) ^ 2) / 4 =
      (1 + a ^ 2 / b ^ 2 - a ^ 2 / c ^ 2) / 4 := by
    field_simp
  have e1 : (1 + (s * b) ^ 2 / (s * a) ^ 2 - (s * b) ^ 2 / (s * c) ^ 2) / 4 =
      (1 + b ^ 2 / a ^ 2 - b ^ 2 / c ^ 2) / 4 := by
    field_simp
  have e2 : (1 + (s * c) ^ 2 / (s * b) ^ 2 - (s * c) ^ 2 / (s * a) ^ 2) / 4 =
      (1 + c ^ 2 / b ^ 2 - c ^ 2 / a ^ 2) / 4 := by
    field_simp
  unfold scTable10
  simp only [e0, e1, e2]

theorem scTable11_scale (hs : s ≠ 0) (a b c : ℝ) (ha : a ≠ 0) (hb : b ≠ 0) (hc : c ≠ 0) :
    scTable11 (s * a) (s * b) (s * c) = scTable11 a b c := by
  have e0 : (1 + (s * a) ^ 2 / (s * c) ^ 2) / 4 =
      (1 + a ^ 2 / c ^ 2) / 4 := by
    field_simp
  have e1 : (1 + (s * b) ^ 2 / (s * c) ^ 2) / 4 =
      (1 + b ^ 2 / c ^ 2) / 4 := by
    field_simp
  have e2 : ((s * b) ^ 2 - (s * a) ^ 2) / (4 * (s * c) ^ 2) =
      (b ^ 2 - a ^ 2) / (4 * c ^ 2) := by
    field_simp
  have e3 : ((s * a) ^ 2 + (s * b) ^ 2) / (4 * (s * c) ^ 2) =
      (a ^ 2 + b ^ 2) / (4 * c ^ 2) := by
    field_simp
  unfold scTable11
  simp only [e0, e1, e2, e3]

theorem scTable12_scale (hs : s ≠ 0) (a b : ℝ) (ha : a ≠ 0) (hb : b ≠ 0) :
    scTable12 (s * a) (s * b) = scTable12 a b := by
  have e0 : (1 + (s * a) ^ 2 / (s * b) ^ 2) / 4 =
      (1 + a ^ 2 / b ^ 2) / 4 := by
    field_simp
  unfold scTable12
  simp only [e0]

theorem scTable16_scale (hs : s ≠ 0) (b c alpha : ℝ) (hb : b ≠ 0) (hc : c ≠ 0) :
    scTable16 (s * b) (s * c) alpha = scTable16 b c alpha := by
  have e1 : ∀ alpha : ℝ, (1 - (s * b) * Real.cos alpha / (s * c)) / (2 * Real.sin alpha ^ 2) =
      (1 - b * Real.cos alpha / c) / (2 * Real.sin alpha ^ 2) := by
    intro alpha; field_simp
  have e2 : ∀ alpha eta : ℝ, 1 / 2 - eta * (s * c) * Real.cos alpha / (s * b) =
      1 / 2 - eta * c * Real.cos alpha / b := by
    intro alpha eta; field_simp
  unfold scTable16
  simp only [e1, e2]

theorem scTable17_scale (hs : s ≠ 0) (a b c alpha : ℝ) (ha : a ≠ 0) (hb : b ≠ 0) (hc : c ≠ 0) :
    scTable17 (s * a) (s * b) (s * c) alpha = scTable17 a b c alpha := by
  have e1 : ∀ alpha : ℝ, (2 - (s * b) * Real.cos alpha / (s * c)) / (4 * Real.sin alpha ^ 2) =
      (2 - b * Real.cos alpha / c) / (4 * Real.sin alpha ^ 2) := by
    intro alpha; field_simp
  have e2 : ∀ alpha zeta : ℝ, 1 / 2 + 2 * zeta * (s * c) * Real.cos alpha / (s * b) =
      1 / 2 + 2 * zeta * c * Real.cos alpha / b := by
    intro alpha zeta; field_simp
  have e3 : ∀ alpha : ℝ, 3 / 4 - (s * a) ^ 2 / (4 * (s * b) ^ 2 * Real.sin alpha ^ 2) =
      3 / 4 - a ^ 2 / (4 * b ^ 2 * Real.sin alpha ^ 2) := by
    intro alpha; field_simp
  have e4 : ∀ alpha psi : ℝ, psi + (3 / 4 - psi) * (s * b) * Real.cos alpha / (s * c) =
      psi + (3 / 4 - psi) * b * Real.cos alpha / c := by
    intro alpha psi; field_simp
  unfold scTable17
  simp only [e1, e2, e3, e4]

theorem scTable18_scale (hs : s ≠ 0) (a b c alpha : ℝ) (ha : a ≠ 0) (hb : b ≠ 0) (hc : c ≠ 0) :
    scTable18 (s * a) (s * b) (s * c) alpha = scTable18 a b c alpha := by
  have e1 : (1 + (s * b) ^ 2 / (s * a) ^ 2) / 4 =
      (1 + b ^ 2 / a ^ 2) / 4 := by
    field_simp
  have e2 : ∀ alpha : ℝ, (s * b) * (s * c) * Real.cos alpha / (2 * (s * a) ^ 2) =
      b * c * Real.cos alpha / (2 * a ^ 2) := by
    intro alpha; field_simp
  have e3 : ∀ alpha mu : ℝ, mu - 1 / 4 + (1 - (s * b) * Real.cos alpha / (s * c)) / (4 * Real.sin alpha ^ 2) =
      mu - 1 / 4 + (1 - b * Real.cos alpha / c) / (4 * Real.sin alpha ^ 2) := by
    intro alpha mu; field_simp
  have e4 : ∀ alpha zeta : ℝ, 1 / 2 + 2 * zeta * (s * c) * Real.cos alpha / (s * b) =
      1 / 2 + 2 * zeta * c * Real.cos alpha / b := by
    intro alpha zeta; field_simp
  unfold scTable18
  simp only [e1, e2, e3, e4]

theorem scTable19_scale (hs : s ≠ 0) (a b c alpha : ℝ) (ha : a ≠ 0) (hb : b ≠ 0) (hc : c ≠ 0) :
    scTable19 (s * a) (s * b) (s * c) alpha = scTable19 a b c alpha := by
  have e1 : ∀ alpha : ℝ, ((s * b) ^ 2 / (s * a) ^ 2 + (1 - (s * b) * Real.cos alpha / (s * c)) / Real.sin alpha ^ 2) / 4 =
      (b ^ 2 / a ^ 2 + (1 - b * Real.cos alpha / c) / Real.sin alpha ^ 2) / 4 := by
    intro alpha; field_simp
  have e2 : ∀ alpha zeta : ℝ, 1 / 2 + 2 * zeta * (s * c) * Real.cos alpha / (s * b) =
      1 / 2 + 2 * zeta * c * Real.cos alpha / b := by
    intro alpha zeta; field_simp
  have e3 : ∀ alpha eta : ℝ, eta / 2 + (s * b) ^ 2 / (4 * (s * a) ^ 2) - (s * b) * (s * c) * Real.cos alpha / (2 * (s * a) ^ 2) =
      eta / 2 + b ^ 2 / (4 * a ^ 2) - b * c * Real.cos alpha / (2 * a ^ 2) := by
    intro alpha eta; field_simp
  have e5 : ∀ zeta : ℝ, 1 - zeta * (s * a) ^ 2 / (s * b) ^ 2 =
      1 - zeta * a ^ 2 / b ^ 2 := by
    intro zeta; field_simp
  have e6 : ∀ alpha nu : ℝ, (4 * nu - 1 - (s * b) ^ 2 * Real.sin alpha ^ 2 / (s * a) ^ 2) * (s * c) / (2 * (s * b) * Real.cos alpha) =
      (4 * nu - 1 - b ^ 2 * Real.sin alpha ^ 2 / a ^ 2) * c / (2 * b * Real.cos alpha) := by
    intro alpha nu; field_simp
  have e7 : ∀ alpha zeta omega : ℝ, zeta * (s * c) * Real.cos alpha / (s * b) + omega / 2 - 1 / 4 =
      zeta * c * Real.cos alpha / b + omega / 2 - 1 / 4 := by
    intro alpha zeta omega; field_simp
  unfold scTable19
  simp only [e1, e2, e3, e5, e6, e7]


theorem hpkotPointsOf_scale (hs : s ≠ 0) (a b c beta : ℝ) (ha : a ≠ 0) (hb : b ≠ 0) (hc : c ≠ 0)
    (t v : String) :
    hpkotPointsOf (s * a) (s * b) (s * c) beta t v = hpkotPointsOf a b c beta t v := by
  unfold hpkotPointsOf hpkotZeta82 hpkotZeta83
  simp only [hpkotTable73_scale hs a c ha hc, hpkotTable74_scale hs a c ha hc,
    hpkotTable76_scale hs a b c ha hb hc, hpkotTable77_scale hs a b c ha hb hc,
    hpkotTable78_scale hs a b c ha hb hc, hpkotTable79_scale hs a b c ha hb hc,
    hpkotTable80_scale hs a b c ha hb hc, hpkotTable81_scale hs a b c ha hb hc,
    hpkotTable85_scale hs a c ha hc, hpkotTable86_scale hs a c ha hc,
    hpkotTable87_scale hs a c beta ha hc, hpkotTable88_scale hs a b c beta ha hb hc,
    hpkotTable89_scale hs a b c beta ha hb hc, hpkotTable90_scale hs a b c beta ha hb hc,
    mul_div_mul_left _ _ hs]

theorem scPointsOf_scale (hs : s ≠ 0) (a b c alpha : ℝ) (ha : a ≠ 0) (hb : b ≠ 0) (hc : c ≠ 0)
    (t : String) (v : Option String) :
    scPointsOf (s * a) (s * b) (s * c) alpha t v = scPointsOf a b c alpha t v := by
  unfold scPointsOf
  simp only [scTable6_scale hs a c ha hc, scTable7_scale hs a c ha hc,
    scTable9_scale hs a b c ha hb hc, scTable10_scale hs a b c ha hb hc,
    scTable11_scale hs a b c ha hb hc, scTable12_scale hs a b ha hb,
    scTable16_scale hs b c alpha hb hc, scTable17_scale hs a b c alpha ha hb hc,
    scTable18_scale hs a b c alpha ha hb hc, scTable19_scale hs a b c alpha ha hb hc]

theorem hpkotGetPoints_scale (hs : 0 < s) (conv : Cell ℝ) (t v : String) :
    BothReturn id (hpkotGetPoints conv t v) (hpkotGetPoints (s • conv) t v) := by
  unfold hpkotGetPoints
  refine both_bind (getParams_scale hs _) fun p hp _ => ?_
  obtain ⟨h1, h2, h3⟩ := getParams_lengths_pos hp
  simp only [scaleParams]
  rw [hpkotPointsOf_scale hs.ne' _ _ _ _ h1.ne' h2.ne' h3.ne']
  exact both_id _

theorem scGetPoints_scale (hs : 0 < s) (conv : Cell ℝ) (t : String) (v : Option String) :
    BothReturn id (scGetPoints conv t v) (scGetPoints (s • conv) t v) := by
  unfold scGetPoints
  refine both_bind (getParams_scale hs _) fun p hp _ => ?_
  obtain ⟨h1, h2, h3⟩ := getParams_lengths_pos hp
  simp only [scaleParams]
  cases scBravaisLatticeShortNames.get? t with
  | none => exact both_id _
  | some short =>
    simp only
    rw [scPointsOf_scale hs.ne' _ _ _ _ h1.ne' h2.ne' h3.ne']
    exact both_id _

theorem orcfVariation_scale (hs : 0 < s) {a b c tol : ℝ} (h : ClearOrcf s tol a b c) :
    BothReturn id (orcfVariation a b c tol) (orcfVariation (s * a) (s * b) (s * c) tol) := by
  obtain ⟨h0, h1, h2⟩ := h
  unfold orcfVariation
  have e : 1 / (s * a) ^ 2 - 1 / (s * b) ^ 2 - 1 / (s * c) ^ 2 =
      (1 / a ^ 2 - 1 / b ^ 2 - 1 / c ^ 2) / s ^ 2 := by
    rw [mul_pow, mul_pow, mul_pow]; simp only [one_div, mul_inv]; ring
  simp only [e]
  generalize 1 / a ^ 2 - 1 / b ^ 2 - 1 / c ^ 2 = x at *
  have hp : 0 < s ^ 2 := by positivity
  have hx : |x / s ^ 2| = |x| / s ^ 2 := by rw [abs_div, abs_of_pos hp]
  by_cases g1 : (cwt a .ge b tol || cwt b .ge c tol) = true
  · rw [if_pos g1]; exact both_left _ _
  by_cases g2 : (cwt (s * a) .ge (s * b) tol || cwt (s * b) .ge (s * c) tol) = true
  · rw [if_pos g2]; exact both_right _ _
  rw [if_neg g1, if_neg g2]
  rw [← hx] at h2
  rcases lt_trichotomy x 0 with hn | hn | hn
  · have hq : x / s ^ 2 < 0 := div_neg_of_neg_of_pos hn hp
    rw [abs_of_neg hn] at h1
    rw [abs_of_neg hq] at h2
    have : ∀ y : ℝ, y < 0 → tol < -y → cwt y .eq 0 tol = false ∧ cwt y .gt 0 tol = false ∧
        cwt y .lt 0 tol = true := by
      intro y hy ht
      simp only [cwt, decide_eq_false_iff_not, decide_eq_true_eq, Bool.not_eq_false',
        Bool.and_eq_false_iff, Bool.and_eq_true, Bool.not_eq_true']
      refine ⟨?_, ?_, ?_⟩ <;> grind
    obtain ⟨a1, a2, a3⟩ := this _ hn h1
    obtain ⟨b1, b2, b3⟩ := this _ hq h2
    simp only [a1, a2, a3, b1, b2, b3]
    exact both_id _
  · rw [hn, abs_zero] at h1; exact absurd h0 (not_le.2 h1)
  · have hq : 0 < x / s ^ 2 := by positivity
    rw [abs_of_pos hn] at h1
    rw [abs_of_pos hq] at h2
    have : ∀ y : ℝ, 0 < y → tol < y → cwt y .eq 0 tol = false ∧ cwt y .gt 0 tol = true := by
      intro y hy ht
      simp only [cwt, decide_eq_false_iff_not, decide_eq_true_eq, Bool.not_eq_false',
        Bool.and_eq_false_iff, Bool.and_eq_true, Bool.not_eq_true']
      refine ⟨?_, ?_⟩ <;> grind
    obtain ⟨a1, a2⟩ := this _ hn h1
    obtain ⟨b1, b2⟩ := this _ hq h2
    simp only [a1, a2, b1, b2]
    exact both_id _

theorem variation_scale (hs : 0 < s)
    {G G' : Cell ℝ → Atoms ℝ → Except Err SpglibData} {g g' : Option SpglibData} (cell : Cell ℝ)
    (atoms : Atoms ℝ) (h : DataScale (lower := lower) s sp G G' cell atoms g g')
    (hn : NiggliOk lower s niggli G cell atoms g)
    (hsp : ∀ d, resolveData lower G cell atoms g = .ok d → d.symprec = sp)
    (hc : ∀ d p, resolveData lower G cell atoms g = .ok d →
      getConventional lower G niggli cell atoms "SC" (some d) = .ok p → ScClear s d p.1) :
    BothReturn id (scGetVariation lower G niggli cell atoms g)
      (scGetVariation lower G' niggli (s • cell) atoms g') := by
  have hi : 0 < s⁻¹ := inv_pos.2 hs
  unfold scGetVariation
  refine both_bind h fun d hd _ => ?_
  have h2 := hc d
  have h1 := hsp d hd
  obtain rfl := h1
  by_cases hm : d.crystalFamily ++ d.centringType ∈ ["tI", "oF", "hR", "mC", "aP"]
  · rw [if_pos hm, if_pos (show (d.scale s d.symprec).crystalFamily ++
      (d.scale s d.symprec).centringType ∈ ["tI", "oF", "hR", "mC", "aP"] from hm)]
    refine both_bind (getConventional_scale hs cell atoms (dataScale_some G G' cell atoms d)
      (niggliOk_some (hn d hd)) _)
      fun p hp _ => ?_
    have h3 := h2 p hd hp
    unfold scVariationOf
    refine both_bind (getParams_scale hs _) fun q hq _ => ?_
    simp only [scaleParams]
    simp only [show (d.scale s d.symprec).crystalFamily ++ (d.scale s d.symprec).centringType =
      d.crystalFamily ++ d.centringType from rfl,
      show angleTol (d.scale s d.symprec) = angleTol d from rfl,
      show (d.scale s d.symprec).symprec = d.symprec from rfl]
    by_cases k1 : d.crystalFamily ++ d.centringType = "tI"
    · rw [if_pos k1, if_pos k1, bctVariation_scale hs]; exact both_id _
    rw [if_neg k1, if_neg k1]
    by_cases k2 : d.crystalFamily ++ d.centringType = "oF"
    · rw [if_pos k2, if_pos k2]; exact orcfVariation_scale hs (h3 k2 q hq)
    rw [if_neg k2, if_neg k2]
    by_cases k3 : d.crystalFamily ++ d.centringType = "hR"
    · rw [if_pos k3, if_pos k3]; exact both_id _
    rw [if_neg k3, if_neg k3]
    by_cases k4 : d.crystalFamily ++ d.centringType = "mC"
    · rw [if_pos k4, if_pos k4]
      have hpr : BothReturn (fun u : Cell ℝ × Atoms ℝ => (s • u.1, u.2))
          (getPrimitive lower G niggli cell atoms "SC" (some d))
          (getPrimitive lower G' niggli (s • cell) atoms "SC" (some (d.scale s d.symprec))) := by
        intro u v hu hv
        obtain ⟨e1, e2⟩ := getPrimitive_scale hs cell atoms
          (dataScale_some G G' cell atoms d) (niggliOk_some (hn d hd)) "SC" u v hu hv
        exact Prod.ext e1 (e2 fun d' hd' => by rw [resolve_some hd'])
      refine both_bind hpr fun u _ _ => ?_
      refine both_bind (both_of_eq (getReciprocal_scale hs.ne' _)) fun r _ _ => ?_
      refine both_bind (getParams_scale hi _) fun t _ _ => ?_
      simp only [scaleParams, mclcVariation_scale hs]
      exact both_id _
    rw [if_neg k4, if_neg k4]
    refine both_bind (both_of_eq (getReciprocal_scale hs.ne' _)) fun r _ _ => ?_
    refine both_bind (getParams_scale hi _) fun t _ _ => ?_
    exact both_id _
  · rw [if_neg hm, if_neg (show ¬ (d.scale s d.symprec).crystalFamily ++
      (d.scale s d.symprec).centringType ∈ ["tI", "oF", "hR", "mC", "aP"] from hm)]
    exact both_id _

theorem rawPoints_scale (hs : 0 < s)
    {G G' : Cell ℝ → Atoms ℝ → Except Err SpglibData} (cell : Cell ℝ)
    (atoms : Atoms ℝ) (d : SpglibData) (conv : Cell ℝ) (convention : String)
    (hn : d.crystalFamily = "a" →
    NiggliAt s niggli d.conventionalCell)
    (hc : ConventionClear lower niggli s sp cell atoms G convention d) :
    BothReturn id (pathAndRawPoints lower G niggli cell atoms d conv (lower convention))
      (pathAndRawPoints lower G' niggli (s • cell) atoms (d.scale s sp) (s • conv)
        (lower convention)) := by
  unfold pathAndRawPoints
  by_cases k1 : lower convention = "sc"
  · rw [if_pos k1, if_pos k1]
    obtain ⟨h1, h2⟩ := hc k1
    refine both_bind (variation_scale hs cell atoms (dataScale_some G G' cell atoms d)
      (niggliOk_some hn) ?_ ?_)
      fun v _ _ => ?_
    · intro d' hd'; rw [resolve_some hd']; exact h1
    · intro d' p hd' hp; obtain rfl := resolve_some hd'; exact h2 p hp
    refine both_bind (scGetPoints_scale hs _ _ _) fun ps _ _ => ?_
    exact both_id _
  rw [if_neg k1, if_neg k1]
  by_cases k2 : lower convention = "hpkot"
  · rw [if_pos k2, if_pos k2]
    refine both_bind (symbol_scale hs cell atoms (dataScale_some G G' cell atoms d)
      (niggliOk_some hn))
      fun v _ _ => ?_
    refine both_bind (hpkotGetPoints_scale hs _ _ _) fun ps _ _ => ?_
    exact both_id _
  rw [if_neg k2]
  exact both_left _ _

/-- The points in the other unit. -/
noncomputable def scalePoints (s : ℝ) (relative : Bool) (l : PyDict String (Vec ℝ)) :
    PyDict String (Vec ℝ) :=
  if relative then l else l.map fun p => (p.1, s⁻¹ • p.2)

theorem allCoordinates_scale (hs : s ≠ 0) (cell r : Cell ℝ) (relative : Bool)
    (l : PyDict String (Vec ℝ)) :
    allCoordinates (s • cell) (s⁻¹ • r) relative l =
      (allCoordinates cell r relative l).map (scalePoints s relative) := by
  induction l with
  | nil => cases relative <;> rfl
  | cons p l ih =>
    obtain ⟨name, v⟩ := p
    simp only [allCoordinates, bind, Except.bind, ih]
    cases relative with
    | false =>
      simp only [pointCoordinates, Bool.false_eq_true, if_false, pure, Except.pure]
      cases allCoordinates cell r false l with
      | error e => rfl
      | ok w => simp [Except.map, scalePoints, vecMat_smul]
    | true =>
      simp only [pointCoordinates, if_true, pure, Except.pure, bind, Except.bind,
        getReciprocal_scale hs]
      cases getReciprocal cell with
      | error e => rfl
      | ok r' =>
        simp only [Except.map, npInv_scale (inv_ne_zero hs), inv_inv]
        cases npInv r' with
        | error e => rfl
        | ok i =>
          simp only [vecMat_scale' hs]
          cases allCoordinates cell r true l with
          | error e => rfl
          | ok w => simp [scalePoints]

theorem addNegated_scale (t : ℝ) (l d : PyDict String (Vec ℝ)) :
    addNegated (l.map fun p => (p.1, t • p.2)) (d.map fun p => (p.1, t • p.2)) =
      (addNegated l d).map fun p => (p.1, t • p.2) := by
  induction l generalizing d with
  | nil => rfl
  | cons p l ih =>
    simp only [List.map_cons, addNegated]
    rw [← ih]
    congr 1
    split_ifs
    · rw [← smul_neg]
      exact setItem_map (fun v => t • v) d _ _
    · rfl

theorem extendPath_scale (i t : Bool) (kpath : String) (relative : Bool)
    (l : PyDict String (Vec ℝ)) :
    extendPath i t kpath (scalePoints s relative l) =
      (extendPath i t kpath l).map fun p => (p.1, scalePoints s relative p.2) := by
  unfold extendPath
  split_ifs
  · cases getPathAsList kpath with
    | error e => rfl
    | ok e =>
      cases relative with
      | true => rfl
      | false =>
        simp only [scalePoints, Bool.false_eq_true, if_false, bind, Except.bind, Except.map, pure,
          Except.pure, addNegated_scale]
  · rfl

theorem pathAndPoints_scale (hs : 0 < s)
    {G G' : Cell ℝ → Atoms ℝ → Except Err SpglibData} {g g' : Option SpglibData} (cell : Cell ℝ)
    (atoms : Atoms ℝ) (h : DataScale (lower := lower) s sp G G' cell atoms g g')
    (hn : NiggliOk lower s niggli G cell atoms g)
    (convention : String) (hc : ∀ d, resolveData lower G cell atoms g = .ok d →
      ConventionClear lower niggli s sp cell atoms G convention d) (wtr relative : Bool) :
    BothReturn (fun p => (p.1, scalePoints s relative p.2))
      (getPathAndPoints lower G niggli cell atoms g convention wtr relative)
      (getPathAndPoints lower G' niggli (s • cell) atoms g' convention wtr relative) := by
  unfold getPathAndPoints
  refine both_bind h fun d hd _ => ?_
  refine both_bind (getConventional_scale hs cell atoms (dataScale_some G G' cell atoms d)
      (niggliOk_some (hn d hd)) _)
      fun p _ _ => ?_
  intro x y hx hy
  simp only [bind, Except.bind] at hx hy
  cases k1 : getPrimitive lower G niggli cell atoms convention (some d) with
  | error e => rw [k1] at hx; cases hx
  | ok u =>
  cases k2 : getPrimitive lower G' niggli (s • cell) atoms convention (some (d.scale s sp)) with
  | error e => rw [k2] at hy; cases hy
  | ok v =>
  have e1 := (getPrimitive_scale hs cell atoms (dataScale_some G G' cell atoms d)
    (niggliOk_some (hn d hd)) _ u v k1 k2).1
  simp only [k1] at hx
  simp only [k2, e1] at hy
  have key := both_bind (g := fun p : String × PyDict String (Vec ℝ) => (p.1, scalePoints s relative p.2))
      (h := fun q : String × PyDict String (Vec ℝ) => do
        let rprim ← getReciprocal u.1
        let points ← allCoordinates cell rprim relative q.2
        let inversion ← inversionSymmetry.getItem d.spaceGroupNumber
        extendPath inversion wtr q.1 points)
      (k := fun q : String × PyDict String (Vec ℝ) => do
        let rprim ← getReciprocal (s • u.1)
        let points ← allCoordinates (s • cell) rprim relative q.2
        let inversion ← inversionSymmetry.getItem d.spaceGroupNumber
        extendPath inversion wtr q.1 points)
      (rawPoints_scale hs cell atoms d p.1 convention (hn d hd) (hc d hd) (G' := G')) fun q _ _ => by
        refine both_bind (both_of_eq (getReciprocal_scale hs.ne' _)) fun r _ _ => ?_
        refine both_bind (both_of_eq (allCoordinates_scale hs.ne' _ _ _ _)) fun l _ _ => ?_
        refine both_bind (both_id _) fun i _ _ => ?_
        exact both_of_eq (extendPath_scale _ _ _ _ _)
  exact key x y hx hy

theorem kpoints_init_scale (t : ℝ) (r : Cell ℝ) (cs : List (Vec ℝ)) (ns ls : Option (List String))
    (path : Option PathArg) (n : ℤ) :
    Kpoints.init (t • r) cs ns ls path n =
      (Kpoints.init r cs ns ls path n).map fun k => { k with rcell := t • k.rcell } := by
  unfold Kpoints.init Kpoints.setPath
  cases initLabels cs.length ns ls with
  | error e => rfl
  | ok l =>
    simp only [bind, Except.bind]
    cases initNames cs.length ns with
    | error e => rfl
    | ok names =>
      simp only
      cases pathOfArg (path.getD (.string (pyJoin "-" names))) with
      | error e => rfl
      | ok q =>
        simp only
        cases checkPath names (pyDict (names.zip cs)) q with
        | error e => rfl
        | ok u => rfl

theorem fromCrystal_scale (hs : 0 < s)
    {G G' : Cell ℝ → Atoms ℝ → Except Err SpglibData} {g g' : Option SpglibData} (cell : Cell ℝ)
    (atoms : Atoms ℝ) (h : DataScale (lower := lower) s sp G G' cell atoms g g')
    (hn : NiggliOk lower s niggli G cell atoms g)
    (convention : String) (hc : ∀ d, resolveData lower G cell atoms g = .ok d →
      ConventionClear lower niggli s sp cell atoms G convention d) (wtr : Bool) (n : ℤ) :
    BothReturn (fun k => { k with rcell := s⁻¹ • k.rcell })
      (Kpoints.fromCrystal lower G niggli cell atoms convention wtr n g)
      (Kpoints.fromCrystal lower G' niggli (s • cell) atoms convention wtr n g') := by
  unfold Kpoints.fromCrystal
  refine both_bind (pathAndPoints_scale hs cell atoms h hn convention hc wtr true) fun p _ _ => ?_
  simp only [scalePoints, if_true]
  refine both_bind (both_id _) fun labels _ _ => ?_
  refine both_bind (both_of_eq (getReciprocal_scale hs.ne' _)) fun r _ _ => ?_
  exact both_of_eq (kpoints_init_scale _ _ _ _ _ _ _)

/-! ## The Le Page algorithm -/

theorem intMat_scale (u : Fin 3 → ℤ) (s : ℝ) (c : Cell ℝ) : intMat u (s • c) = s • intMat u c :=
  vecMat_smul _ s c

theorem potentialAxes_scale (hs : 0 < s) (cell r : Cell ℝ) (limit : ℝ) :
    potentialAxes (s • cell) (s⁻¹ • r) limit = potentialAxes cell r limit := by
  have hd : ∀ t tau : Vec ℝ, lepageDelta (s • t) (s⁻¹ • tau) = lepageDelta t tau := by
    intro t tau
    have e1 : crossProduct (s • t) (s⁻¹ • tau) = crossProduct t tau := by
      rw [map_smul, LinearMap.map_smul₂, smul_smul, inv_mul_cancel₀ hs.ne', one_smul]
    have e2 : npDot (s • t) (s⁻¹ • tau) = npDot t tau := by
      simp only [npDot, Fin.sum_univ_three, Pi.smul_apply, smul_eq_mul]
      field_simp
    unfold lepageDelta
    rw [e1, e2]
  have hn : ∀ t : Vec ℝ, npNormalize (s • t) = npNormalize t := by
    intro t
    funext i
    unfold npNormalize
    rw [npNorm_scale hs, Pi.smul_apply, smul_eq_mul, mul_div_mul_left _ _ hs.ne']
  unfold potentialAxes
  simp only [intMat_scale, hd, hn]

theorem lepageAxes_error {cell : Cell ℝ} {limit : ℝ} {e : Err} (h : getReciprocal cell = .error e) :
    lepageAxes cell limit = .error e := by
  unfold lepageAxes
  rw [h]
  rfl

theorem lepageAxes_ok {cell r : Cell ℝ} {limit : ℝ} (h : getReciprocal cell = .ok r) :
    lepageAxes cell limit = .ok (dropTwins (sortAxes (potentialAxes cell r limit))) := by
  unfold lepageAxes
  rw [h]
  rfl

theorem lepageAxes_scale (hs : 0 < s) (cell : Cell ℝ) (limit : ℝ) :
    lepageAxes (s • cell) limit = lepageAxes cell limit := by
  have e := getReciprocal_scale hs.ne' cell
  cases h : getReciprocal cell with
  | error x =>
    rw [h] at e
    rw [lepageAxes_error h, lepageAxes_error (e.trans rfl)]
  | ok r =>
    rw [h] at e
    rw [lepageAxes_ok h, lepageAxes_ok (e.trans rfl), potentialAxes_scale hs]

theorem perpAxes_scale (hs : 0 < s) (v : Fin 3 → ℤ) (cell : Cell ℝ) (tol : ℝ) :
    perpAxes v (s • cell) (s ^ 2 * tol) = perpAxes v cell tol := by
  unfold perpAxes
  have hp : 0 < s ^ 2 := by positivity
  simp only [intMat_scale, npDot_smul, npNorm_scale hs, mul_le_mul_iff_right₀ hs, abs_mul,
    abs_of_pos hp, mul_lt_mul_iff_right₀ hp]

theorem checkMcl_names {axes : List LAxis} {tol : ℝ} {cell : Cell ℝ} :
    (match checkMcl axes tol cell with | some r => r | none => "TRI") ∈ ["MCL", "MCLC", "TRI"] := by
  unfold checkMcl
  split
  · rename_i r hr
    split at hr
    · cases hr
    · split at hr
      · simp only at hr
        split_ifs at hr
        · cases hr; decide
        · cases hr; decide
      · cases hr
  · decide

theorem classifyAxes_scale (hs : 0 < s) (cell : Cell ℝ) (tol : ℝ) (angles : ℕ → ℕ → ℝ)
    (axes : List LAxis) :
    (∃ e, classifyAxes cell tol angles axes = .error e ∧
      classifyAxes (s • cell) tol angles axes = .error e) ∨
    ∃ r r', AlmostSame r r' ∧ classifyAxes cell tol angles axes = .ok r ∧
      classifyAxes (s • cell) tol angles axes = .ok r' := by
  have htet : checkTet angles axes tol (s • cell) = checkTet angles axes tol cell := by
    unfold checkTet
    simp only [intMat_scale, npNorm_scale hs, mul_le_mul_iff_right₀ hs]
  unfold classifyAxes
  simp only [htet, bind, Except.bind, pure, Except.pure]
  cases checkCub angles axes tol with
  | error e => exact Or.inl ⟨e, rfl, rfl⟩
  | ok o =>
  cases o with
  | some r => exact Or.inr ⟨r, r, Or.inl rfl, rfl, rfl⟩
  | none =>
  simp only
  cases checkHex angles axes tol with
  | some r => exact Or.inr ⟨r, r, Or.inl rfl, rfl, rfl⟩
  | none =>
  simp only
  cases checkTet angles axes tol cell with
  | error e => exact Or.inl ⟨e, rfl, rfl⟩
  | ok o =>
  cases o with
  | some r => exact Or.inr ⟨r, r, Or.inl rfl, rfl, rfl⟩
  | none =>
  simp only
  cases checkRhl angles axes tol with
  | some r => exact Or.inr ⟨r, r, Or.inl rfl, rfl, rfl⟩
  | none =>
  simp only
  cases checkOrc angles axes tol with
  | error e => exact Or.inl ⟨e, rfl, rfl⟩
  | ok o =>
  cases o with
  | some r => exact Or.inr ⟨r, r, Or.inl rfl, rfl, rfl⟩
  | none =>
  refine Or.inr ⟨_, _, Or.inr ⟨checkMcl_names (axes := axes) (tol := tol) (cell := cell),
    checkMcl_names (axes := axes) (tol := tol) (cell := s • cell)⟩, ?_, ?_⟩
  · simp only; cases checkMcl axes tol cell <;> rfl
  · simp only; cases checkMcl axes tol (s • cell) <;> rfl

theorem lepageLoop_scale {f g : List LAxis → Except Err String} {tol : ℝ}
    (h : ∀ l, (∃ e, f l = .error e ∧ g l = .error e) ∨
      ∃ r r', AlmostSame r r' ∧ f l = .ok r ∧ g l = .ok r') (fuel : ℕ) (l : List LAxis) :
    (lepageLoop f tol fuel l = none ∧ lepageLoop g tol fuel l = none) ∨
    (∃ e, lepageLoop f tol fuel l = some (.error e) ∧ lepageLoop g tol fuel l = some (.error e)) ∨
    ∃ a b, List.Forall₂ AlmostSame a b ∧ lepageLoop f tol fuel l = some (.ok a) ∧
      lepageLoop g tol fuel l = some (.ok b) := by
  induction fuel generalizing l with
  | zero => exact Or.inl ⟨rfl, rfl⟩
  | succ k ih =>
    rcases h l with ⟨e, h1, h2⟩ | ⟨r, r', hr, h1, h2⟩
    · simp only [lepageLoop, h1, h2]
      exact Or.inr (Or.inl ⟨e, rfl, rfl⟩)
    · simp only [lepageLoop, h1, h2]
      split_ifs
      · rcases ih (removeWorst l) with ⟨i1, i2⟩ | ⟨e, i1, i2⟩ | ⟨a, b, hab, i1, i2⟩
        · rw [i1, i2]; exact Or.inl ⟨rfl, rfl⟩
        · rw [i1, i2]; exact Or.inr (Or.inl ⟨e, rfl, rfl⟩)
        · rw [i1, i2]; exact Or.inr (Or.inr ⟨r :: a, r' :: b, List.Forall₂.cons hr hab, rfl, rfl⟩)
      · exact Or.inr (Or.inr ⟨[r], [r'], List.Forall₂.cons hr .nil, rfl, rfl⟩)

end Wulfric
