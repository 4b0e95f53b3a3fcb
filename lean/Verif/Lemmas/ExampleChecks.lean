import Verif.Lemmas.HpkotExamples
import Verif.Spec.Example
import Mathlib.Tactic.Ring
import Mathlib.Tactic.Linarith
import Mathlib.Tactic.FieldSimp
import Mathlib.Tactic.Positivity
import Mathlib.Tactic.FinCases

/-!
# Checks of the numbers in the files of `hpkot_get_example`

Each check works with integers and comes with a proof that it decides what the specification says.
-/

namespace Wulfric
open Matrix Spec

/-- The three integers as a vector. -/
def vecOf (l : List ℤ) : Vec ℚ := fun k => (l.getD k 0 : ℚ) / exampleUnit

theorem unit_pos : (0 : ℚ) < exampleUnit := by unfold exampleUnit; norm_num

theorem sameVec_eq {v : Vec ℚ} {l : List ℤ} (h : sameVec v l = true) : v = vecOf l := by
  unfold sameVec at h
  split at h
  · rename_i x y z
    simp only [Bool.and_eq_true, decide_eq_true_eq] at h
    obtain ⟨⟨h0, h1⟩, h2⟩ := h
    have hu := unit_pos
    funext k
    unfold vecOf
    rw [eq_div_iff hu.ne']
    match k with
    | 0 => exact h0
    | 1 => exact h1
    | 2 => exact h2
  · cases h

theorem sameRows_eq : ∀ {vs : List (Vec ℚ)} {ls : List (List ℤ)}, sameRows vs ls = true →
    vs = ls.map vecOf
  | [], [], _ => rfl
  | v :: vs, l :: ls, h => by
    simp only [sameRows, Bool.and_eq_true] at h
    rw [List.map_cons, ← sameVec_eq h.1, ← sameRows_eq h.2]
  | [], _ :: _, h => by cases h
  | _ :: _, [], h => by cases h

/-- The atoms as names with positions. -/
def ExampleData.placed (d : ExampleData) : List (String × Vec ℚ) :=
  d.atoms.map fun a => (a.1, vecOf a.2)

/-- What is read from a file with the given numbers. -/
theorem readsAs_spec {text : List Char} {d : ExampleData} (h : readsAs text d = true) :
    ∃ c a comment, loadPoscar true text = .ok (c, a, comment) ∧
      [c 0, c 1, c 2] = d.cell.map vecOf ∧ a.names = some (d.placed.map Prod.fst) ∧
      a.positions = some (d.placed.map Prod.snd) ∧ a.species = none ∧ a.spglibTypes = none := by
  unfold readsAs at h
  split at h
  · rename_i c a comment e
    simp only [Bool.and_eq_true, decide_eq_true_eq, Option.isNone_iff_eq_none] at h
    obtain ⟨⟨⟨⟨h0, h1⟩, h2⟩, h3⟩, h4⟩ := h
    refine ⟨c, a, comment, e, sameRows_eq h0, ?_, ?_, h2, h3⟩
    · rw [h1]
      simp [ExampleData.placed, Function.comp_def]
    · split at h4
      · rename_i p hp
        rw [hp, sameRows_eq h4]
        simp [ExampleData.placed, Function.comp_def]
      · cases h4
  · cases h

/-! ### Places -/

/-- The number is a multiple of the unit, up to `tol`. -/
def nearUnit (tol : ℤ) (x : ℤ) : Bool :=
  decide (x % exampleUnit ≤ tol) || decide (exampleUnit - x % exampleUnit ≤ tol)

theorem nearUnit_iff {tol x : ℤ} :
    nearUnit tol x = true ↔ ∃ n : ℤ, |x - n * exampleUnit| ≤ tol := by
  unfold nearUnit
  simp only [Bool.or_eq_true, decide_eq_true_eq]
  have hu : (0 : ℤ) < exampleUnit := by unfold exampleUnit; norm_num
  have hm := Int.emod_nonneg x hu.ne'
  have hl := Int.emod_lt_of_pos x hu
  have he := Int.mul_ediv_add_emod x exampleUnit
  generalize (exampleUnit : ℤ) = u at *
  constructor
  · rintro (h | h)
    · refine ⟨x / u, ?_⟩
      have : x - x / u * u = x % u := by linarith [mul_comm u (x / u)]
      rw [this, abs_of_nonneg hm]
      exact h
    · refine ⟨x / u + 1, ?_⟩
      have : x - (x / u + 1) * u = -(u - x % u) := by linarith [mul_comm u (x / u)]
      rw [this, abs_neg, abs_of_nonneg (by omega)]
      exact h
  · rintro ⟨n, hn⟩
    rw [abs_le] at hn
    by_contra hc
    push Not at hc
    rcases le_or_gt n (x / u) with h | h
    · nlinarith [mul_le_mul_of_nonneg_right h hu.le]
    · nlinarith [mul_le_mul_of_nonneg_right (show x / u + 1 ≤ n by omega) hu.le]

/-- `s * a + t` is at `b`, up to `tol`. -/
def atPlace (tol s : ℤ) (t a b : List ℤ) : Bool :=
  nearUnit tol (s * a.getD 0 0 + t.getD 0 0 - b.getD 0 0) &&
    nearUnit tol (s * a.getD 1 0 + t.getD 1 0 - b.getD 1 0) &&
    nearUnit tol (s * a.getD 2 0 + t.getD 2 0 - b.getD 2 0)

theorem near_scaled (tol s a t b : ℤ) : nearUnit tol (s * a + t - b) = true ↔
    ∃ n : ℤ, |(s : ℚ) * (a / exampleUnit) + t / exampleUnit - b / exampleUnit - n| ≤
      tol / exampleUnit := by
  rw [nearUnit_iff]
  have hu := unit_pos
  refine exists_congr fun n => ?_
  have e : (s : ℚ) * (a / exampleUnit) + t / exampleUnit - b / exampleUnit - n =
      ((s * a + t - b - n * exampleUnit : ℤ) : ℚ) / exampleUnit := by
    push_cast
    field_simp
  rw [e, abs_div, abs_of_pos hu, div_le_div_iff_of_pos_right hu]
  exact_mod_cast Iff.rfl

theorem atPlace_iff {tol s : ℤ} {t a b : List ℤ} : atPlace tol s t a b = true ↔
    SamePlace (tol / exampleUnit) (fun k => s * vecOf a k + vecOf t k) (vecOf b) := by
  unfold atPlace SamePlace
  simp only [Bool.and_eq_true, near_scaled, vecOf, Fin.forall_fin_succ, Fin.isValue]
  simp [and_assoc]

/-! ### Motions -/

/-- Each position of each species is moved to a position of the species. -/
def isMotion (tol s : ℤ) (t : List ℤ) (groups : List (String × List (List ℤ))) : Bool :=
  groups.all fun g => g.2.all fun a => g.2.any fun b => atPlace tol s t a b

theorem placed_mem {d : ExampleData} {x : String × Vec ℚ} :
    x ∈ d.placed ↔ ∃ g ∈ d.groups, ∃ p ∈ g.2, (g.1, vecOf p) = x := by
  unfold ExampleData.placed ExampleData.atoms
  simp only [List.mem_map, List.mem_flatMap]
  constructor
  · rintro ⟨a, ⟨g, hg, p, hp, rfl⟩, rfl⟩
    exact ⟨g, hg, p, hp, rfl⟩
  · rintro ⟨g, hg, p, hp, rfl⟩
    exact ⟨_, ⟨g, hg, p, hp, rfl⟩, rfl⟩

theorem isMotion_iff {d : ExampleData} (hd : (d.groups.map Prod.fst).Nodup) {tol s : ℤ}
    {t : List ℤ} : isMotion tol s t d.groups = true ↔
      IsMotion (tol / exampleUnit) s (vecOf t) d.placed := by
  unfold isMotion IsMotion
  simp only [List.all_eq_true, List.any_eq_true, atPlace_iff]
  constructor
  · intro h a ha
    obtain ⟨g, hg, p, hp, rfl⟩ := placed_mem.1 ha
    obtain ⟨q, hq, hs⟩ := h g hg p hp
    exact ⟨_, placed_mem.2 ⟨g, hg, q, hq, rfl⟩, rfl, hs⟩
  · intro h g hg p hp
    obtain ⟨b, hb, e, hs⟩ := h _ (placed_mem.2 ⟨g, hg, p, hp, rfl⟩)
    obtain ⟨g', hg', q, hq, rfl⟩ := placed_mem.1 hb
    obtain rfl : g' = g := List.inj_on_of_nodup_map hd hg' hg e
    exact ⟨q, hq, hs⟩

theorem samePlace_trans {δ ε : ℚ} {p q r : Vec ℚ} (h : SamePlace δ p q) (h' : SamePlace ε q r) :
    SamePlace (δ + ε) p r := by
  intro k
  obtain ⟨n, hn⟩ := h k
  obtain ⟨m, hm⟩ := h' k
  refine ⟨n + m, ?_⟩
  rw [abs_le] at hn hm ⊢
  push_cast
  constructor <;> linarith [hn.1, hn.2, hm.1, hm.2]

/-- The group with the fewest positions. -/
def smallest : List (String × List (List ℤ)) → String × List (List ℤ) → String × List (List ℤ)
  | [], g => g
  | h :: rest, g => smallest rest (if h.2.length < g.2.length then h else g)

theorem smallest_mem : ∀ (l : List (String × List (List ℤ))) (g : String × List (List ℤ)),
    smallest l g ∈ g :: l
  | [], g => by simp [smallest]
  | h :: rest, g => by
    have := smallest_mem rest (if h.2.length < g.2.length then h else g)
    unfold smallest
    split at this
    · rename_i hlt
      rw [if_pos hlt]
      exact List.mem_cons_of_mem _ this
    · rename_i hlt
      rw [if_neg hlt]
      rcases List.mem_cons.1 this with e | e
      · rw [e]; simp
      · exact List.mem_cons_of_mem _ (List.mem_cons_of_mem _ e)

/-- `q - s * p`. -/
def shift (s : ℤ) (p q : List ℤ) : List ℤ :=
  [q.getD 0 0 - s * p.getD 0 0, q.getD 1 0 - s * p.getD 1 0, q.getD 2 0 - s * p.getD 2 0]

theorem vecOf_shift (s : ℤ) (p q : List ℤ) (k : Fin 3) :
    vecOf (shift s p q) k = vecOf q k - s * vecOf p k := by
  have hu := unit_pos
  unfold vecOf shift
  match k with
  | 0 => simp; field_simp
  | 1 => simp; field_simp
  | 2 => simp; field_simp

/-- The motions that move the first position of the smallest group to a position of it. -/
def candidates (s : ℤ) (groups : List (String × List (List ℤ))) : List (List ℤ) :=
  match groups with
  | [] => []
  | g :: rest =>
    match (smallest rest g).2 with
    | [] => []
    | p :: l => shift s p p :: l.map (shift s p)

/-- There is an atom in the smallest group. -/
def occupied (groups : List (String × List (List ℤ))) : Bool :=
  match groups with
  | [] => false
  | g :: rest => !(smallest rest g).2.isEmpty

/-- Each motion is near one of the candidates, and the candidate is a motion as well. -/
theorem candidates_complete {d : ExampleData} (hd : (d.groups.map Prod.fst).Nodup)
    (ho : occupied d.groups = true) {tol s : ℤ} {t : Vec ℚ}
    (h : IsMotion (tol / exampleUnit) s t d.placed) :
    ∃ t' ∈ candidates s d.groups, SamePlace (tol / exampleUnit) t (vecOf t') ∧
      isMotion (2 * tol) s t' d.groups = true := by
  obtain ⟨g, rest, hg⟩ : ∃ g rest, d.groups = g :: rest := by
    cases e : d.groups with
    | nil => rw [e] at ho; cases ho
    | cons g rest => exact ⟨g, rest, rfl⟩
  have hmem : smallest rest g ∈ d.groups := hg ▸ smallest_mem rest g
  obtain ⟨p, l, hp⟩ : ∃ p l, (smallest rest g).2 = p :: l := by
    cases e : (smallest rest g).2 with
    | nil => rw [hg] at ho; simp [occupied, e] at ho
    | cons p l => exact ⟨p, l, rfl⟩
  obtain ⟨b, hb, e, hs⟩ := h _ (placed_mem.2 ⟨_, hmem, p, by rw [hp]; simp, rfl⟩)
  obtain ⟨g', hg', q, hq, rfl⟩ := placed_mem.1 hb
  obtain rfl : g' = smallest rest g := List.inj_on_of_nodup_map hd hg' hmem e
  have hnear : SamePlace (tol / exampleUnit) t (vecOf (shift s p q)) := by
    intro k
    obtain ⟨n, hn⟩ := hs k
    refine ⟨n, ?_⟩
    rw [vecOf_shift]
    simpa [sub_sub_eq_add_sub, add_comm, add_left_comm] using hn
  refine ⟨shift s p q, ?_, hnear, ?_⟩
  · unfold candidates
    rw [hg]
    simp only [hp]
    rw [hp] at hq
    rcases List.mem_cons.1 hq with rfl | hq
    · simp
    · exact List.mem_cons_of_mem _ (List.mem_map_of_mem hq)
  · rw [isMotion_iff hd]
    intro a ha
    obtain ⟨b, hb, e, hs⟩ := h a ha
    refine ⟨b, hb, e, fun k => ?_⟩
    obtain ⟨n, hn⟩ := hs k
    obtain ⟨m, hm⟩ := hnear k
    refine ⟨n - m, ?_⟩
    rw [abs_le] at hn hm ⊢
    push_cast
    have : (2 * (tol : ℚ)) / exampleUnit = tol / exampleUnit + tol / exampleUnit := by ring
    rw [this]
    constructor <;> linarith [hn.1, hn.2, hm.1, hm.2]

end Wulfric
