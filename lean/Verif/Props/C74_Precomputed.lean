import Verif.Props.C73_Describe

/-!
# C74: precomputed symmetry data

Every function that takes `spglib_data` gives the same result with `spglib_data=None` and with the
data computed beforehand. Data computed with other tolerances give what a computation with those
tolerances gives.
-/

namespace Wulfric

open Matrix _root_.Spec Wulfric.Spec

/-- With the data given, the way they would be computed does not matter. -/
theorem given_ignores (lower : String → String) (G G' : Cell ℝ → Atoms ℝ → Except Err SpglibData)
    (niggli : Cell ℝ → Except Err (Cell ℝ)) (cell : Cell ℝ) (atoms : Atoms ℝ) (d : SpglibData) :
    (∀ c, getConventional lower G niggli cell atoms c (some d) =
      getConventional lower G' niggli cell atoms c (some d)) ∧
    (∀ c, getPrimitive lower G niggli cell atoms c (some d) =
      getPrimitive lower G' niggli cell atoms c (some d)) ∧
    hpkotGetExtendedBlSymbol lower G niggli cell atoms (some d) =
      hpkotGetExtendedBlSymbol lower G' niggli cell atoms (some d) ∧
    scGetVariation lower G niggli cell atoms (some d) =
      scGetVariation lower G' niggli cell atoms (some d) ∧
    (∀ c b r, getPathAndPoints lower G niggli cell atoms (some d) c b r =
      getPathAndPoints lower G' niggli cell atoms (some d) c b r) ∧
    (∀ c b n, Kpoints.fromCrystal lower G niggli cell atoms c b n (some d) =
      Kpoints.fromCrystal lower G' niggli cell atoms c b n (some d)) :=
  ⟨fun _ => rfl, fun _ => rfl, rfl, rfl, fun _ _ _ => rfl, fun _ _ _ => rfl⟩

/-- Data that the function would find itself. -/
theorem given_or_none {lower : String → String} {G : Cell ℝ → Atoms ℝ → Except Err SpglibData}
    (niggli : Cell ℝ → Except Err (Cell ℝ)) {cell : Cell ℝ} {atoms : Atoms ℝ} {d : SpglibData}
    (h : resolveData lower G cell atoms (some d) = resolveData lower G cell atoms none) :
    (∀ c, getConventional lower G niggli cell atoms c (some d) =
      getConventional lower G niggli cell atoms c none) ∧
    (∀ c, getPrimitive lower G niggli cell atoms c (some d) =
      getPrimitive lower G niggli cell atoms c none) ∧
    hpkotGetExtendedBlSymbol lower G niggli cell atoms (some d) =
      hpkotGetExtendedBlSymbol lower G niggli cell atoms none ∧
    scGetVariation lower G niggli cell atoms (some d) =
      scGetVariation lower G niggli cell atoms none ∧
    (∀ c b r, getPathAndPoints lower G niggli cell atoms (some d) c b r =
      getPathAndPoints lower G niggli cell atoms none c b r) ∧
    (∀ c b n, Kpoints.fromCrystal lower G niggli cell atoms c b n (some d) =
      Kpoints.fromCrystal lower G niggli cell atoms c b n none) := by
  have path : ∀ c b r, getPathAndPoints lower G niggli cell atoms (some d) c b r =
      getPathAndPoints lower G niggli cell atoms none c b r := by
    intro c b r; unfold getPathAndPoints; rw [h]
  refine ⟨?_, ?_, ?_, ?_, path, ?_⟩
  · intro c; unfold getConventional; rw [h]
  · intro c; unfold getPrimitive; rw [h]
  · unfold hpkotGetExtendedBlSymbol; rw [h]
  · unfold scGetVariation; rw [h]
  · intro c b n; unfold Kpoints.fromCrystal; rw [path]

/-- C74: data computed with the tolerances `symprec₂`, `angtol₂` and given to a function that would
use `symprec₁`, `angtol₁` itself: the result is that of a function which computes the data with
`symprec₂`, `angtol₂`; errors included. With equal tolerances this says that the argument
`spglib_data` never changes the result. -/
theorem C74_precomputed {lib : SpglibLib} {lower : String → String}
    {symprec₁ angtol₁ symprec₂ angtol₂ : ℝ} (niggli : Cell ℝ → Except Err (Cell ℝ)) {cell : Cell ℝ}
    {atoms : Atoms ℝ} {d : SpglibData}
    (hd : getSpglibData lib lower cell atoms symprec₂ angtol₂ = .ok d) :
    let G₁ := fun c a => getSpglibData lib lower c a symprec₁ angtol₁
    let G₂ := fun c a => getSpglibData lib lower c a symprec₂ angtol₂
    (∀ c, getConventional lower G₁ niggli cell atoms c (some d) =
      getConventional lower G₂ niggli cell atoms c none) ∧
    (∀ c, getPrimitive lower G₁ niggli cell atoms c (some d) =
      getPrimitive lower G₂ niggli cell atoms c none) ∧
    hpkotGetExtendedBlSymbol lower G₁ niggli cell atoms (some d) =
      hpkotGetExtendedBlSymbol lower G₂ niggli cell atoms none ∧
    scGetVariation lower G₁ niggli cell atoms (some d) =
      scGetVariation lower G₂ niggli cell atoms none ∧
    (∀ c b r, getPathAndPoints lower G₁ niggli cell atoms (some d) c b r =
      getPathAndPoints lower G₂ niggli cell atoms none c b r) ∧
    (∀ c b n, Kpoints.fromCrystal lower G₁ niggli cell atoms c b n (some d) =
      Kpoints.fromCrystal lower G₂ niggli cell atoms c b n none) := by
  intro G₁ G₂
  have ho := (spglibData_ok hd).1
  obtain ⟨v, hv⟩ := valid_of_original ho
  have hr : resolveData lower G₂ cell atoms (some d) = resolveData lower G₂ cell atoms none := by
    rw [resolve_own ho]
    unfold resolveData
    rw [hv]
    exact hd.symm
  exact given_or_none niggli hr

/-- C74: if the data cannot be computed, every function raises the same error. -/
theorem C74_error {lib : SpglibLib} {lower : String → String} {symprec angtol : ℝ}
    (niggli : Cell ℝ → Except Err (Cell ℝ)) {cell : Cell ℝ} {atoms : Atoms ℝ} {e : Err}
    (h : getSpglibData lib lower cell atoms symprec angtol = .error e) :
    let G := fun c a => getSpglibData lib lower c a symprec angtol
    (∀ c, getConventional lower G niggli cell atoms c none = .error e) ∧
    (∀ c, getPrimitive lower G niggli cell atoms c none = .error e) ∧
    hpkotGetExtendedBlSymbol lower G niggli cell atoms none = .error e ∧
    scGetVariation lower G niggli cell atoms none = .error e ∧
    (∀ c b r, getPathAndPoints lower G niggli cell atoms none c b r = .error e) ∧
    (∀ c b n, Kpoints.fromCrystal lower G niggli cell atoms c b n none = .error e) := by
  intro G
  have hr : resolveData lower G cell atoms none = .error e := by
    unfold resolveData
    cases hv : validateAtoms atoms.toDict ["positions"] true with
    | error e' =>
      have : getSpglibData lib lower cell atoms symprec angtol = .error e' := by
        unfold getSpglibData originalData
        rw [hv]
        rfl
      rw [h] at this
      cases this; rfl
    | ok v => exact h
  have path : ∀ c b r, getPathAndPoints lower G niggli cell atoms none c b r = .error e := by
    intro c b r; unfold getPathAndPoints; rw [hr]; rfl
  refine ⟨?_, ?_, ?_, ?_, path, ?_⟩
  · intro c; unfold getConventional; rw [hr]; rfl
  · intro c; unfold getPrimitive; rw [hr]; rfl
  · unfold hpkotGetExtendedBlSymbol; rw [hr]; rfl
  · unfold scGetVariation; rw [hr]; rfl
  · intro c b n; unfold Kpoints.fromCrystal; rw [path]; rfl

/-- C74: data of a crystal that does not fit the arguments (see C32 for what is compared) are
refused by every function with the error of `validate_spglib_data`. -/
theorem C74_refused {lower : String → String} (G : Cell ℝ → Atoms ℝ → Except Err SpglibData)
    (niggli : Cell ℝ → Except Err (Cell ℝ)) {cell : Cell ℝ} {atoms : Atoms ℝ} {d : SpglibData}
    {e : Err} (hv : ValidAtoms atoms.toDict ["positions"])
    (h : validateSpglibData lower cell atoms d.original = .error e) :
    (∀ c, getConventional lower G niggli cell atoms c (some d) = .error e) ∧
    (∀ c, getPrimitive lower G niggli cell atoms c (some d) = .error e) ∧
    hpkotGetExtendedBlSymbol lower G niggli cell atoms (some d) = .error e ∧
    scGetVariation lower G niggli cell atoms (some d) = .error e ∧
    (∀ c b r, getPathAndPoints lower G niggli cell atoms (some d) c b r = .error e) ∧
    (∀ c b n, Kpoints.fromCrystal lower G niggli cell atoms c b n (some d) = .error e) := by
  have hr : resolveData lower G cell atoms (some d) = .error e := by
    unfold resolveData
    rcases validate_cases atoms ["positions"] with ⟨-, k⟩ | ⟨k, -⟩
    · rw [k]
      simp only [bind, Except.bind, h]
    · exact absurd hv k
  have path : ∀ c b r, getPathAndPoints lower G niggli cell atoms (some d) c b r = .error e := by
    intro c b r; unfold getPathAndPoints; rw [hr]; rfl
  refine ⟨?_, ?_, ?_, ?_, path, ?_⟩
  · intro c; unfold getConventional; rw [hr]; rfl
  · intro c; unfold getPrimitive; rw [hr]; rfl
  · unfold hpkotGetExtendedBlSymbol; rw [hr]; rfl
  · unfold scGetVariation; rw [hr]; rfl
  · intro c b n; unfold Kpoints.fromCrystal; rw [path]; rfl

/-- C74: the name of the convention is read without regard to case. -/
theorem C74_convention {lower : String → String} (G : Cell ℝ → Atoms ℝ → Except Err SpglibData)
    (niggli : Cell ℝ → Except Err (Cell ℝ)) (cell : Cell ℝ) (atoms : Atoms ℝ)
    (given : Option SpglibData) {c c' : String} (h : lower c = lower c') :
    getConventional lower G niggli cell atoms c given =
      getConventional lower G niggli cell atoms c' given ∧
    getPrimitive lower G niggli cell atoms c given =
      getPrimitive lower G niggli cell atoms c' given ∧
    (∀ b r, getPathAndPoints lower G niggli cell atoms given c b r =
      getPathAndPoints lower G niggli cell atoms given c' b r) ∧
    (∀ b n, Kpoints.fromCrystal lower G niggli cell atoms c b n given =
      Kpoints.fromCrystal lower G niggli cell atoms c' b n given) := by
  have e1 : ∀ g, getConventional lower G niggli cell atoms c g =
      getConventional lower G niggli cell atoms c' g := by
    intro g; unfold getConventional; rw [h]
  have e2 : ∀ g, getPrimitive lower G niggli cell atoms c g =
      getPrimitive lower G niggli cell atoms c' g := by
    intro g; unfold getPrimitive; rw [h]
  have e3 : ∀ b r, getPathAndPoints lower G niggli cell atoms given c b r =
      getPathAndPoints lower G niggli cell atoms given c' b r := by
    intro b r; unfold getPathAndPoints; simp only [e1, e2, h]
  exact ⟨e1 _, e2 _, e3, fun b n => by unfold Kpoints.fromCrystal; rw [e3]⟩

/-- An instance of `C74_precomputed`: data exist. -/
example (lower : String → String) : ∃ d, getSpglibData poLib lower !![1, 0, 0; 0, 1, 0; 0, 0, 2]
    (poAtoms [0, ![0, 0, 1 / 2]] ["Po", "Po"]) (1 / 10 ^ 3) (-1) = .ok d := by
  have h3 : crystalFamily.getItem 221 = .ok "c" := by decide +kernel
  have h4 : centringType.getItem 221 = .ok "P" := by decide +kernel
  unfold getSpglibData
  rw [po_two lower !![1, 0, 0; 0, 1, 0; 0, 0, 2] 0 ![0, 0, 1 / 2]]
  simp only [bind, Except.bind, poLib, h3, h4, pure, Except.pure]
  exact ⟨_, rfl⟩

/-- An instance of `C74_refused`: the data of one crystal given with the cell of another one. -/
example (lower : String → String) (d : SpglibData)
    (hd : originalData lower 1 (poAtoms [0] ["Po"]) = .ok d.original) :
    validateSpglibData lower ((2 : ℝ) • (1 : Cell ℝ)) (poAtoms [0] ["Po"]) d.original =
      .error .valueError := by
  rw [po_one] at hd
  rw [validateSpglibData_cases, ← Except.ok.inj hd, if_neg]
  simp only [cellClose, npClose, decide_eq_true_eq, not_forall]
  refine ⟨0, 0, ?_⟩
  simp
  norm_num

/-- An instance of `C74_convention`. -/
example : String.toLower "Hpkot" = String.toLower "HPKOT" := by decide +kernel

end Wulfric
