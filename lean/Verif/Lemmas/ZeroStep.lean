import Verif.Lemmas.ZonePath
import Verif.Spec.Steps

/-! # Neighbours on a path: reduction to the tables -/

namespace Wulfric
open Matrix _root_.Spec Wulfric.Spec

/-- The steps of a piece of a path. -/
def steps : List String → List (String × String)
  | a :: b :: l => (a, b) :: steps (b :: l)
  | _ => []

theorem mem_pairs_of {l : List String} {a b : String} :
    (a, b) ∈ steps l ↔ ∃ i, l[i]? = some a ∧ l[i + 1]? = some b := by
  induction l with
  | nil => simp [steps]
  | cons x l ih =>
    cases l with
    | nil => simp [steps]
    | cons y l =>
      rw [steps, List.mem_cons, ih]
      constructor
      · rintro (h | ⟨i, h⟩)
        · cases h; exact ⟨0, rfl, rfl⟩
        · exact ⟨i + 1, h⟩
      · rintro ⟨i, h1, h2⟩
        cases i with
        | zero =>
          simp only [List.getElem?_cons_zero, Option.some.injEq, zero_add,
            List.getElem?_cons_succ] at h1 h2
          exact .inl (by rw [h1, h2])
        | succ i => exact .inr ⟨i, h1, h2⟩

theorem steps_map (f : String → String) (l : List String) :
    steps (l.map f) = (steps l).map fun s => (f s.1, f s.2) := by
  induction l with
  | nil => rfl
  | cons x l ih =>
    cases l with
    | nil => rfl
    | cons y l =>
      simp only [List.map_cons, steps] at ih ⊢
      rw [ih]

theorem steps_mem {l : List String} {s : String × String} (h : s ∈ steps l) : s.1 ∈ l ∧ s.2 ∈ l := by
  obtain ⟨a, b⟩ := s
  obtain ⟨i, h1, h2⟩ := mem_pairs_of.1 h
  exact ⟨List.mem_of_getElem? h1, List.mem_of_getElem? h2⟩

/-- The steps of a path. -/
def allSteps (p : List (List String)) : List (String × String) := p.flatMap steps

theorem zeroStep_iff (p : List (List String)) (f : String → Option (Vec ℝ)) :
    ZeroStep p f ↔ ∃ s ∈ allSteps p, ∃ v, f s.1 = some v ∧ f s.2 = some v := by
  unfold ZeroStep allSteps
  simp only [List.mem_flatMap, Prod.exists]
  constructor
  · rintro ⟨sub, h, i, k, k', v, h1, h2, h3, h4⟩
    exact ⟨k, k', ⟨sub, h, mem_pairs_of.2 ⟨i, h1, h2⟩⟩, v, h3, h4⟩
  · rintro ⟨k, k', ⟨sub, h, h1⟩, v, h3, h4⟩
    obtain ⟨i, h1, h2⟩ := mem_pairs_of.1 h1
    exact ⟨sub, h, i, k, k', v, h1, h2, h3, h4⟩

/-- A path of the library and the list of its steps. -/
def stepsOf (path : String) : List (String × String) :=
  match getPathAsList path with
  | .ok p => allSteps p
  | .error _ => []

theorem stepsOf_ok {path : String} {p : List (List String)} (h : getPathAsList path = .ok p) :
    allSteps p = stepsOf path := by
  unfold stepsOf
  rw [h]

/-- Different points of the table have different coordinates. -/
theorem pointCoordinates_inj {cell r : Cell ℝ} (hr : r.det ≠ 0) {rel : Bool} {v v' w : Vec ℝ}
    (h : pointCoordinates cell r rel v = .ok w) (h' : pointCoordinates cell r rel v' = .ok w) :
    v = v' := by
  have key : vecMat v r = vecMat v' r := by
    cases rel with
    | false => rw [← pointCoordinates_absolute h, ← pointCoordinates_absolute h']
    | true =>
      cases hq : getReciprocal cell with
      | error _ => simp [pointCoordinates, hq, bind, Except.bind] at h
      | ok q => rw [← pointCoordinates_relative hq h, ← pointCoordinates_relative hq h']
  rw [vecMat_row, vecMat_row] at key
  exact vecMul_injective_of_isUnit ((isUnit_iff_isUnit_det r).2 (isUnit_iff_ne_zero.2 hr)) key

/-- The returned path has neighbours that coincide exactly if the path of the table has. -/
theorem zero_transfer {cell prim rprim : Cell ℝ} {kpath path : String}
    {raw pts : PyDict String (Vec ℝ)} {inv t rel : Bool} (hg : GoodTable kpath raw)
    (hr : getReciprocal prim = .ok rprim)
    (h : (do
        let points ← allCoordinates cell rprim rel raw
        extendPath inv t kpath points) = Except.ok (path, pts)) (p : List (List String))
    (hp : getPathAsList path = .ok p) :
    ZeroStep p pts.get? ↔ ∃ s ∈ stepsOf kpath, raw.get? s.1 = raw.get? s.2 := by
  have hdet := recip_det hr
  cases he : allCoordinates cell rprim rel raw with
  | error _ => simp [he, bind, Except.bind] at h
  | ok e =>
  simp only [he, bind, Except.bind] at h
  obtain ⟨k1, k2⟩ := allCoordinates_ok he
  obtain ⟨p0, hp0, -, g2, -⟩ := hg.spec
  have hsub : ∀ s ∈ stepsOf kpath, ∃ v v', raw.get? s.1 = some v ∧ raw.get? s.2 = some v' := by
    intro s hs
    rw [← stepsOf_ok hp0] at hs
    obtain ⟨sub, h1, h2⟩ := List.mem_flatMap.1 hs
    obtain ⟨m1, m2⟩ := steps_mem h2
    have a1 := g2 sub h1 _ m1
    have a2 := g2 sub h1 _ m2
    rw [← PyDict.get?_isSome, Option.isSome_iff_exists] at a1 a2
    obtain ⟨v, hv⟩ := a1
    obtain ⟨v', hv'⟩ := a2
    exact ⟨v, v', hv, hv'⟩
  have main : ∀ s ∈ stepsOf kpath, (∃ v, e.get? s.1 = some v ∧ e.get? s.2 = some v) ↔
      raw.get? s.1 = raw.get? s.2 := by
    intro s hs
    obtain ⟨v, v', hv, hv'⟩ := hsub s hs
    obtain ⟨w, hw, hc⟩ := k2 _ _ hv
    obtain ⟨w', hw', hc'⟩ := k2 _ _ hv'
    rw [hv, hv', hw, hw']
    constructor
    · rintro ⟨u, e1, e2⟩
      cases e1
      cases e2
      rw [pointCoordinates_inj hdet hc hc']
    · intro e1
      cases e1
      rw [hc] at hc'
      cases hc'
      exact ⟨w, rfl, rfl⟩
  by_cases hi : inv = true ∨ t = true
  · rw [extend_same hi] at h
    cases h
    rw [zeroStep_iff, stepsOf_ok hp]
    exact ⟨fun ⟨s, hs, q⟩ => ⟨s, hs, (main s hs).1 q⟩, fun ⟨s, hs, q⟩ => ⟨s, hs, (main s hs).2 q⟩⟩
  · rw [not_or, Bool.not_eq_true, Bool.not_eq_true] at hi
    rw [hi.1, hi.2] at h
    obtain ⟨p1, path', e', hp1, he', e1, e2, e3, e4⟩ := extend_spec hg k1
    rw [he'] at h
    cases h
    rw [e1] at hp
    cases hp
    rw [hp1] at hp0
    cases hp0
    have hG : e.get? "GAMMA" = some 0 := by
      obtain ⟨w, hw, hc⟩ := k2 _ _ hg.gamma
      rw [hw, pointCoordinates_zero hc]
    have hkey : ∀ s ∈ stepsOf kpath, s.1 ∈ e.keys ∧ s.2 ∈ e.keys := by
      intro s hs
      obtain ⟨v, v', hv, hv'⟩ := hsub s hs
      rw [k1, ← PyDict.get?_isSome, hv, ← PyDict.get?_isSome, hv']
      exact ⟨rfl, rfl⟩
    have hneg : ∀ k ∈ e.keys, ∃ v, e.get? k = some v ∧ pts.get? (negative k) = some (-v) := by
      intro k hk
      have hk' := hk
      rw [← PyDict.get?_isSome, Option.isSome_iff_exists] at hk'
      obtain ⟨v, hv⟩ := hk'
      refine ⟨v, hv, ?_⟩
      unfold negative
      split_ifs with q
      · subst q
        rw [hG] at hv
        cases hv
        rw [e3 _ hk, hG, neg_zero]
      · exact e4 k v q hv
    have hall : allSteps (p0 ++ p0.map fun sub => sub.map negative) =
        stepsOf kpath ++ (stepsOf kpath).map fun s => (negative s.1, negative s.2) := by
      rw [← stepsOf_ok hp1]
      unfold allSteps
      rw [List.flatMap_append, List.flatMap_map, List.map_flatMap]
      simp only [steps_map]
    rw [zeroStep_iff, hall]
    constructor
    · rintro ⟨s, hs, v, h1, h2⟩
      rcases List.mem_append.1 hs with hs | hs
      · obtain ⟨a1, a2⟩ := hkey s hs
        rw [e3 _ a1] at h1
        rw [e3 _ a2] at h2
        exact ⟨s, hs, (main s hs).1 ⟨v, h1, h2⟩⟩
      · obtain ⟨s, hs', rfl⟩ := List.mem_map.1 hs
        obtain ⟨a1, a2⟩ := hkey s hs'
        obtain ⟨w, b1, b2⟩ := hneg _ a1
        obtain ⟨w', b3, b4⟩ := hneg _ a2
        rw [b2] at h1
        rw [b4] at h2
        have : w = w' := by
          rw [← neg_inj, Option.some.inj h1, Option.some.inj h2]
        exact ⟨s, hs', (main s hs').1 ⟨w, b1, this ▸ b3⟩⟩
    · rintro ⟨s, hs, h1⟩
      obtain ⟨v, h2, h3⟩ := (main s hs).2 h1
      obtain ⟨a1, a2⟩ := hkey s hs
      exact ⟨s, List.mem_append.2 (.inl hs), v, by rw [e3 _ a1, h2], by rw [e3 _ a2, h3]⟩

end Wulfric
