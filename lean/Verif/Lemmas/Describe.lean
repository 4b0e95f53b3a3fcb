import Verif.Spec.Describe
import Verif.Model.PathPoints
import Verif.Lemmas.Atoms
import Verif.Lemmas.Inherit

/-!
# Two descriptions of one crystal
-/

namespace Wulfric

open Matrix _root_.Spec

section Such

variable {α β γ δ : Type}

theorem such_bind {r : α → β → Prop} {q : γ → δ → Prop} {x : Except Err α} {y : Except Err β}
    {h : α → Except Err γ} {k : β → Except Err δ} (hx : BothSuch r x y)
    (hk : ∀ a b, r a b → BothSuch q (h a) (k b)) : BothSuch q (x >>= h) (y >>= k) := by
  intro c d h1 h2
  cases x with
  | error e => cases h1
  | ok a =>
    cases y with
    | error e => cases h2
    | ok b => exact hk a b (hx a b rfl rfl) c d h1 h2

theorem such_pure {r : α → β → Prop} {a : α} {b : β} (h : r a b) :
    BothSuch r (pure a : Except Err α) (pure b) := by
  rintro _ _ ⟨⟩ ⟨⟩; exact h

theorem such_ok {r : α → β → Prop} {a : α} {b : β} (h : r a b) :
    BothSuch r (.ok a : Except Err α) (.ok b) := by
  rintro _ _ ⟨⟩ ⟨⟩; exact h

theorem such_same (x : Except Err α) : BothSuch (fun a b => b = a) x x := by
  rintro a b h1 h2; rw [h1] at h2; cases h2; rfl

theorem such_left {r : α → β → Prop} (e : Err) (y : Except Err β) :
    BothSuch r (.error e) y := by rintro a b ⟨⟩

theorem such_imp {r q : α → β → Prop} {x : Except Err α} {y : Except Err β} (h : BothSuch r x y)
    (hrq : ∀ a b, r a b → q a b) : BothSuch q x y :=
  fun a b h1 h2 => hrq a b (h a b h1 h2)

end Such

/-- The part of the data that does not speak about atoms is the same. -/
structure FrameEq (d₁ d₂ : SpglibData) : Prop where
  number : d₂.spaceGroupNumber = d₁.spaceGroupNumber
  family : d₂.crystalFamily = d₁.crystalFamily
  centring : d₂.centringType = d₁.centringType
  conventional : d₂.conventionalCell = d₁.conventionalCell
  primitive : d₂.primitiveCell = d₁.primitiveCell
  symprec : d₂.symprec = d₁.symprec
  angle : d₂.angleTolerance = d₁.angleTolerance

variable {lower : String → String} {G G' : Cell ℝ → Atoms ℝ → Except Err SpglibData}
  {niggli : Cell ℝ → Except Err (Cell ℝ)} {c₁ c₂ : Cell ℝ} {a₁ a₂ : Atoms ℝ}
  {g₁ g₂ : Option SpglibData}

theorem frame_data {lib : SpglibLib} {symprec angtol : ℝ}
    (h : ∀ o₁ o₂, originalData lower c₁ a₁ = .ok o₁ → originalData lower c₂ a₂ = .ok o₂ →
      SameFrame lib symprec angtol c₁ o₁.positions o₁.types c₂ o₂.positions o₂.types) :
    BothSuch FrameEq (getSpglibData lib lower c₁ a₁ symprec angtol)
      (getSpglibData lib lower c₂ a₂ symprec angtol) := by
  intro d₁ d₂ h1 h2
  unfold getSpglibData at h1 h2
  cases k1 : originalData lower c₁ a₁ with
  | error e => rw [k1] at h1; cases h1
  | ok o₁ =>
  cases k2 : originalData lower c₂ a₂ with
  | error e => rw [k2] at h2; cases h2
  | ok o₂ =>
  have hf := h o₁ o₂ k1 k2
  simp only [k1, k2, bind, Except.bind] at h1 h2
  cases k3 : lib.symDataset c₁ o₁.positions o₁.types symprec angtol with
  | none => rw [k3] at h1; cases h1
  | some s₁ =>
  cases k4 : lib.symDataset c₂ o₂.positions o₂.types symprec angtol with
  | none => rw [k4] at h2; cases h2
  | some s₂ =>
  obtain ⟨e1, e2, e3⟩ := hf.dataset s₁ s₂ k3 k4
  simp only [k3, k4, e1] at h1 h2
  cases k5 : crystalFamily.getItem s₁.number with
  | error e => rw [k5] at h1; cases h1
  | ok f =>
  cases k6 : centringType.getItem s₁.number with
  | error e => rw [k5, k6] at h1; cases h1
  | ok c =>
  simp only [k5, k6] at h1 h2
  cases k7 : lib.findPrimitive c₁ o₁.positions o₁.types symprec angtol with
  | none => rw [k7] at h1; cases h1
  | some q₁ =>
  cases k8 : lib.findPrimitive c₂ o₂.positions o₂.types symprec angtol with
  | none => rw [k8] at h2; cases h2
  | some q₂ =>
  have e4 := hf.primitive q₁ q₂ k7 k8
  simp only [k7, k8] at h1 h2
  cases h1; cases h2
  exact ⟨rfl, rfl, rfl, by simp only [e2, e3], by simp only [e3, e4], rfl, rfl⟩

theorem frame_none (h : BothSuch FrameEq (G c₁ a₁) (G' c₂ a₂)) :
    BothSuch FrameEq (resolveData lower G c₁ a₁ none) (resolveData lower G' c₂ a₂ none) := by
  unfold resolveData
  exact such_bind (r := fun _ _ => True) (fun _ _ _ _ => trivial) fun _ _ _ => h

theorem frame_some {d₁ d₂ : SpglibData} (h : FrameEq d₁ d₂) :
    BothSuch FrameEq (resolveData lower G c₁ a₁ (some d₁)) (resolveData lower G' c₂ a₂ (some d₂)) := by
  unfold resolveData
  refine such_bind (r := fun _ _ => True) (fun _ _ _ _ => trivial) fun _ _ _ => ?_
  exact such_bind (r := fun _ _ => True) (fun _ _ _ _ => trivial) fun _ _ _ => such_pure h

theorem FrameEq.angleTol {d₁ d₂ : SpglibData} (h : FrameEq d₁ d₂) :
    Wulfric.angleTol d₂ = Wulfric.angleTol d₁ := by
  unfold Wulfric.angleTol; rw [h.angle]

theorem frame_parts {d₁ d₂ : SpglibData} (h : FrameEq d₁ d₂) (convention : String) :
    BothSuch (fun p q => q.1 = p.1) (conventionalParts niggli convention d₁)
      (conventionalParts niggli convention d₂) := by
  unfold conventionalParts
  rw [h.family, h.centring, h.conventional, h.primitive, h.symprec, h.angleTol]
  split_ifs
  · refine such_bind (such_same _) ?_
    rintro _ a rfl
    exact such_bind (r := fun _ _ => True) (fun _ _ _ _ => trivial) fun _ _ _ => such_pure rfl
  · exact such_ok rfl
  · refine such_bind (such_same _) ?_
    rintro _ a rfl
    exact such_bind (r := fun _ _ => True) (fun _ _ _ _ => trivial) fun _ _ _ => such_pure rfl
  · refine such_bind (such_same _) ?_
    rintro _ a rfl
    exact such_bind (r := fun _ _ => True) (fun _ _ _ _ => trivial) fun _ _ _ => such_pure rfl
  · exact such_left _ _

theorem frame_conventional
    (h : BothSuch FrameEq (resolveData lower G c₁ a₁ g₁) (resolveData lower G' c₂ a₂ g₂))
    (convention : String) :
    BothSuch (fun p q => q.1 = p.1) (getConventional lower G niggli c₁ a₁ convention g₁)
      (getConventional lower G' niggli c₂ a₂ convention g₂) := by
  unfold getConventional
  refine such_bind h fun d₁ d₂ hd => ?_
  refine such_bind (frame_parts hd _) fun p q e => ?_
  exact such_bind (r := fun _ _ => True) (fun _ _ _ _ => trivial) fun _ _ _ => such_pure e

theorem frame_primitive
    (h : BothSuch FrameEq (resolveData lower G c₁ a₁ g₁) (resolveData lower G' c₂ a₂ g₂))
    (convention : String) :
    BothSuch (fun p q => q.1 = p.1) (getPrimitive lower G niggli c₁ a₁ convention g₁)
      (getPrimitive lower G' niggli c₂ a₂ convention g₂) := by
  unfold getPrimitive
  refine such_bind h fun d₁ d₂ hd => ?_
  refine such_bind (r := fun p q : Cell ℝ × List (Vec ℝ) × List ℤ => q.1 = p.1) ?_ fun p q e =>
    such_bind (r := fun _ _ => True) (fun _ _ _ _ => trivial) fun _ _ _ => such_pure e
  unfold primitiveParts
  split_ifs
  · exact such_ok hd.primitive
  · simp only [hd.family, hd.centring]
    refine such_bind (frame_conventional (frame_some hd) _) fun u v e => ?_
    refine such_bind (such_same _) ?_
    rintro _ m rfl
    simp only [e]
    refine such_bind (r := fun _ _ => True) (fun _ _ _ _ => trivial) fun _ _ _ => ?_
    refine such_bind (r := fun _ _ => True) (fun _ _ _ _ => trivial) fun _ _ _ => ?_
    exact such_bind (r := fun _ _ => True) (fun _ _ _ _ => trivial) fun _ _ _ => such_pure rfl
  · exact such_left _ _

theorem frame_symbol
    (h : BothSuch FrameEq (resolveData lower G c₁ a₁ g₁) (resolveData lower G' c₂ a₂ g₂)) :
    BothSuch (fun p q => q = p) (hpkotGetExtendedBlSymbol lower G niggli c₁ a₁ g₁)
      (hpkotGetExtendedBlSymbol lower G' niggli c₂ a₂ g₂) := by
  unfold hpkotGetExtendedBlSymbol
  refine such_bind h fun d₁ d₂ hd => ?_
  simp only [hd.family, hd.centring, hd.number]
  cases hpkotSimpleSymbol (d₁.crystalFamily ++ d₁.centringType) d₁.spaceGroupNumber with
  | some r => exact such_same _
  | none =>
    refine such_bind (frame_conventional (frame_some hd) _) fun u v e => ?_
    simp only [e]
    exact such_same _

theorem frame_variation
    (h : BothSuch FrameEq (resolveData lower G c₁ a₁ g₁) (resolveData lower G' c₂ a₂ g₂)) :
    BothSuch (fun p q => q = p) (scGetVariation lower G niggli c₁ a₁ g₁)
      (scGetVariation lower G' niggli c₂ a₂ g₂) := by
  unfold scGetVariation
  refine such_bind h fun d₁ d₂ hd => ?_
  simp only [hd.family, hd.centring]
  split_ifs
  · refine such_bind (frame_conventional (frame_some hd) _) fun u v e => ?_
    simp only [e]
    unfold scVariationOf
    refine such_bind (such_same _) ?_
    rintro _ p rfl
    simp only [hd.symprec, hd.angleTol]
    split_ifs
    · exact such_same _
    · exact such_same _
    · exact such_same _
    · refine such_bind (frame_primitive (frame_some hd) _) fun u v e => ?_
      simp only [e]
      exact such_same _
    · exact such_same _
  · exact such_same _

theorem frame_raw {d₁ d₂ : SpglibData} (hd : FrameEq d₁ d₂) (conv : Cell ℝ) (convention : String) :
    BothSuch (fun p q => q = p) (pathAndRawPoints lower G niggli c₁ a₁ d₁ conv convention)
      (pathAndRawPoints lower G' niggli c₂ a₂ d₂ conv convention) := by
  unfold pathAndRawPoints
  simp only [hd.family, hd.centring]
  split_ifs
  · refine such_bind (frame_variation (frame_some hd)) ?_
    rintro _ p rfl
    exact such_same _
  · refine such_bind (frame_symbol (frame_some hd)) ?_
    rintro _ p rfl
    exact such_same _
  · exact such_left _ _

/-- The coordinates of the points, as vectors of the reciprocal space. -/
theorem frame_coordinates (rprim : Cell ℝ) (l : PyDict String (Vec ℝ)) :
    BothSuch (fun p q => q = p) (allCoordinates c₁ rprim false l) (allCoordinates c₂ rprim false l) ∧
    ∀ r₁ r₂, getReciprocal c₁ = .ok r₁ → getReciprocal c₂ = .ok r₂ →
      BothSuch (SameVectors r₁ r₂) (allCoordinates c₁ rprim true l)
        (allCoordinates c₂ rprim true l) := by
  constructor
  · induction l with
    | nil => exact such_ok rfl
    | cons a l ih =>
      unfold allCoordinates
      refine such_bind (r := fun p q => q = p) (such_same _) ?_
      rintro _ w rfl
      refine such_bind ih ?_
      rintro _ p rfl
      exact such_pure rfl
  · intro r₁ r₂ h1 h2
    induction l with
    | nil => exact such_ok .nil
    | cons a l ih =>
      unfold allCoordinates
      refine such_bind (r := fun p q : Vec ℝ => q ᵥ* r₂ = p ᵥ* r₁) ?_ fun p q e =>
        such_bind ih fun l₁ l₂ hl => such_pure (.cons ⟨rfl, e⟩ hl)
      have ok : ∀ c r, getReciprocal c = .ok r → ∀ w,
          pointCoordinates c rprim true a.2 = .ok w → w ᵥ* r = a.2 ᵥ* rprim := by
        intro c r hr w hw
        unfold pointCoordinates at hw
        simp only [if_true, hr, bind, Except.bind, npInv] at hw
        by_cases hd : r.det = 0
        · rw [if_pos hd] at hw; cases hw
        · rw [if_neg hd] at hw
          cases hw
          rw [vecMat_eq, vecMat_eq, Matrix.vecMul_vecMul, Matrix.nonsing_inv_mul _ (isUnit_iff_ne_zero.2 hd),
            Matrix.vecMul_one]
      intro p q hp hq
      rw [ok c₂ r₂ h2 q hq, ok c₁ r₁ h1 p hp]

theorem sameVectors_get {r₁ r₂ : Cell ℝ} {l₁ l₂ : PyDict String (Vec ℝ)} (h : SameVectors r₁ r₂ l₁ l₂)
    (name : String) :
    (l₂.get? name).map (· ᵥ* r₂) = (l₁.get? name).map (· ᵥ* r₁) := by
  unfold SameVectors at h
  induction h with
  | nil => rfl
  | cons hxy _ ih =>
    rename_i x y l₁ l₂ _
    simp only [PyDict.get?, hxy.1] at ih ⊢
    split
    · simp [hxy.2]
    · exact ih

theorem sameVectors_setItem {r₁ r₂ : Cell ℝ} {l₁ l₂ : PyDict String (Vec ℝ)}
    (h : SameVectors r₁ r₂ l₁ l₂) (name : String) {v w : Vec ℝ} (hv : w ᵥ* r₂ = v ᵥ* r₁) :
    SameVectors r₁ r₂ (l₁.setItem name v) (l₂.setItem name w) := by
  unfold SameVectors at *
  induction h with
  | nil => exact .cons ⟨rfl, hv⟩ .nil
  | cons hxy _ ih => 
    rename_i x y l₁ l₂ _
    obtain ⟨x1, x2⟩ := x
    obtain ⟨y1, y2⟩ := y
    obtain ⟨rfl, e⟩ := hxy
    unfold PyDict.setItem
    split
    · exact .cons ⟨rfl, hv⟩ (by assumption)
    · exact .cons ⟨rfl, e⟩ ih

theorem addNegated_same {r₁ r₂ : Cell ℝ} {l₁ l₂ : List (String × Vec ℝ)}
    (h : SameVectors r₁ r₂ l₁ l₂) :
    ∀ {m₁ m₂ : PyDict String (Vec ℝ)}, SameVectors r₁ r₂ m₁ m₂ →
      SameVectors r₁ r₂ (addNegated l₁ m₁) (addNegated l₂ m₂) := by
  unfold SameVectors at h
  induction h with
  | nil => exact fun hm => hm
  | cons hxy _ ih =>
    rename_i x y l₁ l₂ _
    obtain ⟨x1, x2⟩ := x
    obtain ⟨y1, y2⟩ := y
    obtain ⟨h1, e⟩ := hxy
    simp only at h1 e
    subst h1
    intro m₁ m₂ hm
    unfold addNegated
    apply ih
    split_ifs
    · exact sameVectors_setItem hm _ (by rw [Matrix.neg_vecMul, Matrix.neg_vecMul, e])
    · exact hm

theorem frame_path
    (h : BothSuch FrameEq (resolveData lower G c₁ a₁ g₁) (resolveData lower G' c₂ a₂ g₂))
    (convention : String) (wtr : Bool) :
    BothSuch (fun p q => q = p) (getPathAndPoints lower G niggli c₁ a₁ g₁ convention wtr false)
      (getPathAndPoints lower G' niggli c₂ a₂ g₂ convention wtr false) ∧
    ∀ r₁ r₂, getReciprocal c₁ = .ok r₁ → getReciprocal c₂ = .ok r₂ →
      BothSuch (fun p q => q.1 = p.1 ∧ SameVectors r₁ r₂ p.2 q.2)
        (getPathAndPoints lower G niggli c₁ a₁ g₁ convention wtr true)
        (getPathAndPoints lower G' niggli c₂ a₂ g₂ convention wtr true) := by
  unfold getPathAndPoints
  constructor
  · refine such_bind h fun d₁ d₂ hd => ?_
    refine such_bind (frame_conventional (frame_some hd) _) fun u v e => ?_
    refine such_bind (frame_primitive (frame_some hd) _) fun u' v' e' => ?_
    simp only [e, e']
    refine such_bind (frame_raw hd _ _) ?_
    rintro _ p rfl
    refine such_bind (such_same _) ?_
    rintro _ r rfl
    refine such_bind (frame_coordinates r p.2).1 ?_
    rintro _ l rfl
    rw [hd.number]
    exact such_same _
  · intro r₁ r₂ h1 h2
    refine such_bind h fun d₁ d₂ hd => ?_
    refine such_bind (frame_conventional (frame_some hd) _) fun u v e => ?_
    refine such_bind (frame_primitive (frame_some hd) _) fun u' v' e' => ?_
    simp only [e, e']
    refine such_bind (frame_raw hd _ _) ?_
    rintro _ p rfl
    refine such_bind (such_same _) ?_
    rintro _ r rfl
    refine such_bind ((frame_coordinates r p.2).2 r₁ r₂ h1 h2) fun l₁ l₂ hl => ?_
    rw [hd.number]
    refine such_bind (such_same _) ?_
    rintro _ i rfl
    unfold extendPath
    split_ifs
    · refine such_bind (such_same _) ?_
      rintro _ extra rfl
      exact such_pure ⟨rfl, addNegated_same hl hl⟩
    · exact such_pure ⟨rfl, hl⟩

/-- Two objects with the same names, labels, path and number of points, and coordinates that stand
for the same vectors. -/
structure KSame (k₁ k₂ : Kpoints) : Prop where
  names : k₂.hsNames = k₁.hsNames
  labels : k₂.hsLabels = k₁.hsLabels
  path : k₂.path = k₁.path
  n : k₂.n = k₁.n
  vectors : SameVectors k₁.rcell k₂.rcell k₁.hsCoordinates k₂.hsCoordinates

theorem sameVectors_keys {r₁ r₂ : Cell ℝ} {l₁ l₂ : PyDict String (Vec ℝ)}
    (h : SameVectors r₁ r₂ l₁ l₂) : l₂.keys = l₁.keys := by
  unfold SameVectors at h
  induction h with
  | nil => rfl
  | cons hxy _ ih =>
    simp only [PyDict.keys, List.map_cons, hxy.1] at ih ⊢
    rw [ih]

theorem sameVectors_zip {r₁ r₂ : Cell ℝ} {l₁ l₂ : PyDict String (Vec ℝ)}
    (h : SameVectors r₁ r₂ l₁ l₂) : ∀ (names : List String) {m₁ m₂ : PyDict String (Vec ℝ)},
      SameVectors r₁ r₂ m₁ m₂ → SameVectors r₁ r₂
        ((names.zip (l₁.map Prod.snd)).foldl (fun d p => d.setItem p.1 p.2) m₁)
        ((names.zip (l₂.map Prod.snd)).foldl (fun d p => d.setItem p.1 p.2) m₂) := by
  unfold SameVectors at h
  induction h with
  | nil => intro names m₁ m₂ hm; simpa using hm
  | cons hxy _ ih =>
    intro names m₁ m₂ hm
    cases names with
    | nil => simpa using hm
    | cons a names =>
      simp only [List.map_cons, List.zip_cons_cons, List.foldl_cons]
      exact ih names (sameVectors_setItem hm a hxy.2)

theorem init_same {r₁ r₂ : Cell ℝ} {l₁ l₂ : PyDict String (Vec ℝ)} (h : SameVectors r₁ r₂ l₁ l₂)
    (names labels : Option (List String)) (path : Option PathArg) (n : ℤ) :
    BothSuch KSame (Kpoints.init r₁ (l₁.map Prod.snd) names labels path n)
      (Kpoints.init r₂ (l₂.map Prod.snd) names labels path n) := by
  have hlen : (l₂.map Prod.snd).length = (l₁.map Prod.snd).length := by
    rw [List.length_map, List.length_map]; exact h.length_eq.symm
  unfold Kpoints.init
  rw [hlen]
  refine such_bind (such_same _) ?_
  rintro _ ls rfl
  refine such_bind (such_same _) ?_
  rintro _ ns rfl
  unfold Kpoints.setPath
  simp only
  cases pathOfArg (path.getD (.string (pyJoin "-" ns))) with
  | error e => exact such_left _ _
  | ok p =>
    simp only
    cases checkPath ns (pyDict (ns.zip (l₁.map Prod.snd))) p with
    | error e => exact such_left _ _
    | ok u =>
      cases checkPath ns (pyDict (ns.zip (l₂.map Prod.snd))) p with
      | error e => rintro _ _ _ ⟨⟩
      | ok u =>
        exact such_pure ⟨rfl, rfl, rfl, rfl, sameVectors_zip h ns .nil⟩

theorem frame_kpoints
    (h : BothSuch FrameEq (resolveData lower G c₁ a₁ g₁) (resolveData lower G' c₂ a₂ g₂))
    (convention : String) (wtr : Bool) (n : ℤ) :
    BothSuch KSame (Kpoints.fromCrystal lower G niggli c₁ a₁ convention wtr n g₁)
      (Kpoints.fromCrystal lower G' niggli c₂ a₂ convention wtr n g₂) := by
  intro k₁ k₂ h1 h2
  cases e1 : getReciprocal c₁ with
  | error e =>
    unfold Kpoints.fromCrystal at h1
    simp only [bind, Except.bind, e1] at h1
    split at h1
    · cases h1
    · split at h1 <;> cases h1
  | ok r₁ =>
  cases e2 : getReciprocal c₂ with
  | error e =>
    unfold Kpoints.fromCrystal at h2
    simp only [bind, Except.bind, e2] at h2
    split at h2
    · cases h2
    · split at h2 <;> cases h2
  | ok r₂ =>
  revert k₁ k₂ h1 h2
  show BothSuch _ _ _
  unfold Kpoints.fromCrystal
  refine such_bind ((frame_path h convention wtr).2 r₁ r₂ e1 e2) ?_
  rintro ⟨p, l₁⟩ ⟨q, l₂⟩ ⟨e, hl⟩
  simp only at e hl
  subst e
  simp only [sameVectors_keys hl, e1, e2]
  refine such_bind (such_same _) ?_
  rintro _ ls rfl
  exact init_same hl _ _ _ _

section Loops

variable {r₁ r₂ : Cell ℝ} {l₁ l₂ : PyDict String (Vec ℝ)}

theorem sameVectors_getItem (h : SameVectors r₁ r₂ l₁ l₂) (name : String) :
    (∃ e, l₁.getItem name = .error e ∧ l₂.getItem name = .error e) ∨
    ∃ v w, l₁.getItem name = .ok v ∧ l₂.getItem name = .ok w ∧ vecMat w r₂ = vecMat v r₁ := by
  have := sameVectors_get h name
  unfold PyDict.getItem
  cases h1 : l₁.get? name with
  | none =>
    cases h2 : l₂.get? name with
    | none => exact Or.inl ⟨_, rfl, rfl⟩
    | some w => rw [h1, h2] at this; cases this
  | some v =>
    cases h2 : l₂.get? name with
    | none => rw [h1, h2] at this; cases this
    | some w =>
      rw [h1, h2] at this
      simp only [Option.map_some, Option.some.injEq] at this
      exact Or.inr ⟨v, w, rfl, rfl, by rw [vecMat_eq, vecMat_eq, this]⟩

theorem ticksRest_same (h : SameVectors r₁ r₂ l₁ l₂) : ∀ (sub : List String) (acc : List ℝ),
    ticksRest l₂ r₂ sub acc = ticksRest l₁ r₁ sub acc
  | [], _ => by simp [ticksRest]
  | [_], _ => by simp [ticksRest]
  | a :: b :: rest, acc => by
    have ih := ticksRest_same h (b :: rest)
    unfold ticksRest
    rcases sameVectors_getItem h b with ⟨e, h1, h2⟩ | ⟨v, w, h1, h2, h3⟩
    · rw [h1, h2]; rfl
    · rcases sameVectors_getItem h a with ⟨e, h4, h5⟩ | ⟨v', w', h4, h5, h6⟩
      · rw [h1, h2, h4, h5]; rfl
      · rw [h1, h2, h4, h5]
        simp only [bind, Except.bind, h3, h6, ih]

theorem ticksLoop_same (h : SameVectors r₁ r₂ l₁ l₂) : ∀ (path : List (List String)) (first : Bool)
    (acc : List ℝ), ticksLoop l₂ r₂ first path acc = ticksLoop l₁ r₁ first path acc
  | [], _, _ => by simp [ticksLoop]
  | sub :: subs, first, acc => by
    have ih := ticksLoop_same h subs
    unfold ticksLoop
    simp only [ticksRest_same h, ih]

theorem pointsRest_same (h : SameVectors r₁ r₂ l₁ l₂) (n : ℤ) :
    ∀ (sub : List String) (acc : Option (List (Vec ℝ))),
    pointsRest l₂ r₂ n sub acc = pointsRest l₁ r₁ n sub acc
  | [], _ => by simp [pointsRest]
  | [_], _ => by simp [pointsRest]
  | a :: b :: rest, acc => by
    have ih := pointsRest_same h n (b :: rest)
    unfold pointsRest
    rcases sameVectors_getItem h a with ⟨e, h1, h2⟩ | ⟨v, w, h1, h2, h3⟩
    · rw [h1, h2]; rfl
    · rcases sameVectors_getItem h b with ⟨e, h4, h5⟩ | ⟨v', w', h4, h5, h6⟩
      · rw [h1, h2, h4, h5]; rfl
      · rw [h1, h2, h4, h5]
        simp only [bind, Except.bind, h3, h6, ih]

theorem pointsLoop_same (h : SameVectors r₁ r₂ l₁ l₂) (n : ℤ) : ∀ (path : List (List String))
    (acc : Option (List (Vec ℝ))), pointsLoop l₂ r₂ n path acc = pointsLoop l₁ r₁ n path acc
  | [], _ => by simp [pointsLoop]
  | sub :: subs, acc => by
    have ih := pointsLoop_same h n subs
    unfold pointsLoop
    simp only [pointsRest_same h, ih]

theorem flatRest_same (h : SameVectors r₁ r₂ l₁ l₂) (n : ℤ) :
    ∀ (sub : List String) (first : Bool) (acc : Option (List ℝ)),
    flatRest l₂ r₂ n first sub acc = flatRest l₁ r₁ n first sub acc
  | [], _, _ => by simp [flatRest]
  | [_], _, _ => by simp [flatRest]
  | a :: b :: rest, first, acc => by
    have ih := flatRest_same h n (b :: rest)
    unfold flatRest
    rcases sameVectors_getItem h a with ⟨e, h1, h2⟩ | ⟨v, w, h1, h2, h3⟩
    · rw [h1, h2]; rfl
    · rcases sameVectors_getItem h b with ⟨e, h4, h5⟩ | ⟨v', w', h4, h5, h6⟩
      · rw [h1, h2, h4, h5]; rfl
      · rw [h1, h2, h4, h5]
        simp only [bind, Except.bind, h3, h6, ih]

theorem flatLoop_same (h : SameVectors r₁ r₂ l₁ l₂) (n : ℤ) : ∀ (path : List (List String))
    (first : Bool) (acc : Option (List ℝ)),
    flatLoop l₂ r₂ n first path acc = flatLoop l₁ r₁ n first path acc
  | [], _, _ => by simp [flatLoop]
  | sub :: subs, first, acc => by
    have ih := flatLoop_same h n subs
    unfold flatLoop
    simp only [flatRest_same h, ih]

end Loops

theorem KSame.plots {k₁ k₂ : Kpoints} (h : KSame k₁ k₂) :
    k₂.points false = k₁.points false ∧ k₂.ticks false = k₁.ticks false ∧
      k₂.flatPoints false = k₁.flatPoints false ∧ k₂.labels = k₁.labels ∧
      k₂.pathString = k₁.pathString := by
  refine ⟨?_, ?_, ?_, ?_, ?_⟩
  · simp only [Kpoints.points, Kpoints.basis, Bool.false_eq_true, if_false, h.path, h.n,
      pointsLoop_same h.vectors]
  · simp only [Kpoints.ticks, Kpoints.basis, Bool.false_eq_true, if_false, h.path,
      ticksLoop_same h.vectors]
  · simp only [Kpoints.flatPoints, Kpoints.basis, Bool.false_eq_true, if_false, h.path, h.n,
      flatLoop_same h.vectors]
  · simp only [Kpoints.labels, h.labels, h.path]
  · simp only [Kpoints.pathString, h.path]

end Wulfric
