import Verif.Model.Kpoints
import Verif.Lemmas.Python
import Verif.Lemmas.Paths
import Verif.Spec.Kpoints

/-! # Lemmas about `Kpoints`: closed forms of the loops -/

namespace Wulfric
open Matrix Spec

theorem getItem_some {V : Type} {d : PyDict String V} {k : String} {v : V}
    (h : d.get? k = some v) : d.getItem k = .ok v := by
  simp [PyDict.getItem, h]

theorem subSteps_of_short {l : List String} (h : ¬ 2 ≤ l.length) (j : Bool) :
    subSteps j l = [] := by
  match l, h with
  | [], _ => rfl
  | [_], _ => rfl
  | _ :: _ :: _, h => simp at h

theorem mem_subSteps {l : List String} {j : Bool} {s : Step} (h : s ∈ subSteps j l) :
    s.start ∈ l ∧ s.stop ∈ l := by
  induction l generalizing j with
  | nil => simp [subSteps] at h
  | cons a l ih =>
    cases l with
    | nil => simp [subSteps] at h
    | cons b l =>
      simp only [subSteps, List.mem_cons] at h
      rcases h with rfl | h
      · simp
      · have := ih h
        exact ⟨List.mem_cons_of_mem _ this.1, List.mem_cons_of_mem _ this.2⟩

theorem mem_steps {p : List (List String)} {s : Step} (h : s ∈ steps p) :
    (∃ sub ∈ p, s.start ∈ sub) ∧ ∃ sub ∈ p, s.stop ∈ sub := by
  cases p with
  | nil => simp [steps] at h
  | cons sub p =>
    simp only [steps, laterSteps, List.mem_append, List.mem_flatMap] at h
    rcases h with h | ⟨q, hq, h⟩
    · have := mem_subSteps h
      exact ⟨⟨sub, by simp, this.1⟩, ⟨sub, by simp, this.2⟩⟩
    · have := mem_subSteps h
      exact ⟨⟨q, by simp [hq], this.1⟩, ⟨q, by simp [hq], this.2⟩⟩

/-- `acc` or the list so far. -/
def addTo {α : Type} (acc : Option (List α)) (new : List α) : Option (List α) :=
  some (acc.getD [] ++ new)

theorem npNorm_len (v : Vec ℝ) : npNorm v = len v := by
  unfold npNorm len npDot
  rw [Fin.sum_univ_three]
  congr 1
  ring

theorem len_smul {t : ℝ} (ht : 0 ≤ t) (v : Vec ℝ) : len (t • v) = t * len v := by
  unfold len
  have : (t • v) 0 ^ 2 + (t • v) 1 ^ 2 + (t • v) 2 ^ 2 = t ^ 2 * (v 0 ^ 2 + v 1 ^ 2 + v 2 ^ 2) := by
    simp only [Pi.smul_apply, smul_eq_mul]; ring
  rw [this, Real.sqrt_mul (by positivity), Real.sqrt_sq ht]

theorem len_nonneg (v : Vec ℝ) : 0 ≤ len v := Real.sqrt_nonneg _

theorem vecMat_vecMul (u : Vec ℝ) (m : Cell ℝ) : vecMat u m = u ᵥ* m := by
  funext j
  simp [vecMat, vecMul, dotProduct, Fin.sum_univ_three]

/-- `linspace` with at least two points. -/
theorem linspace_ok (a b : Vec ℝ) (n : ℕ) :
    linspace a b ((n : ℤ) + 2) =
      .ok ((List.range (n + 2)).map fun i : ℕ => between a b ((i : ℝ) / ((n : ℝ) + 1))) := by
  unfold linspace
  rw [if_neg (by omega)]
  have e : ((n : ℤ) + 2).toNat = n + 2 := by omega
  rw [e]
  congr 1
  apply List.map_congr_left
  intro i hi
  have hn : ((n : ℝ) + 1) ≠ 0 := by positivity
  by_cases h : i = n + 1
  · rw [if_pos ⟨by omega, by omega⟩]
    subst h
    have : ((n + 1 : ℕ) : ℝ) / ((n : ℝ) + 1) = 1 := by
      push_cast; exact div_self hn
    rw [this]
    unfold between
    simp
  · rw [if_neg (by omega), if_pos (by omega)]
    have : (((n : ℤ) + 2 : ℤ) : ℝ) - 1 = (n : ℝ) + 1 := by push_cast; ring
    rw [this]
    unfold between
    funext j
    simp only [Pi.add_apply, Pi.smul_apply, Pi.sub_apply, smul_eq_mul]
    ring

section closed
variable {coords : PyDict String (Vec ℝ)} {cell : Cell ℝ} {pos : String → Vec ℝ}

/-- The ends of the steps of a sub-path in the chosen basis. -/
def Located (coords : PyDict String (Vec ℝ)) (cell : Cell ℝ) (pos : String → Vec ℝ)
    (sub : List String) : Prop :=
  ∀ m ∈ sub, ∃ v, coords.get? m = some v ∧ pos m = v ᵥ* cell

theorem Located.tail {a : String} {sub : List String} (h : Located coords cell pos (a :: sub)) :
    Located coords cell pos sub := fun m hm => h m (List.mem_cons_of_mem _ hm)

theorem pointsRest_ok {num : ℤ} {f : Vec ℝ → Vec ℝ → List (Vec ℝ)}
    (hf : ∀ a b, linspace a b (num + 2) = .ok (f a b)) (sub : List String)
    (h : Located coords cell pos sub) (j : Bool) (acc : Option (List (Vec ℝ))) :
    pointsRest coords cell num sub acc =
      .ok (if subSteps j sub = [] then acc
        else addTo acc ((subSteps j sub).flatMap fun s => f (pos s.start) (pos s.stop))) := by
  induction sub generalizing acc j with
  | nil => simp [pointsRest, subSteps]
  | cons a sub ih =>
    cases sub with
    | nil => simp [pointsRest, subSteps]
    | cons b sub =>
      obtain ⟨va, ha, ea⟩ := h a (by simp)
      obtain ⟨vb, hb, eb⟩ := h b (by simp)
      unfold pointsRest
      simp only [getItem_some ha, getItem_some hb, vecMat_vecMul, ← ea, ← eb, hf, bind,
        Except.bind]
      rw [ih h.tail false]
      simp only [subSteps, List.cons_ne_nil, if_false, List.flatMap_cons]
      cases acc with
      | none =>
        split_ifs with q
        · simp [q, addTo]
        · simp [addTo]
      | some l =>
        split_ifs with q
        · simp [q, addTo]
        · simp [addTo]

theorem pointsLoop_ok {num : ℤ} {f : Vec ℝ → Vec ℝ → List (Vec ℝ)}
    (hf : ∀ a b, linspace a b (num + 2) = .ok (f a b)) (p : List (List String))
    (h : ∀ sub ∈ p, Located coords cell pos sub) (acc : Option (List (Vec ℝ))) :
    pointsLoop coords cell num p acc =
      .ok (if laterSteps p = [] then acc
        else addTo acc ((laterSteps p).flatMap fun s => f (pos s.start) (pos s.stop))) := by
  induction p generalizing acc with
  | nil => simp [pointsLoop, laterSteps]
  | cons sub p ih =>
    unfold pointsLoop
    rw [pointsRest_ok hf sub (h sub (by simp)) true]
    simp only [bind, Except.bind]
    rw [ih fun q hq => h q (by simp [hq])]
    have e : laterSteps (sub :: p) = subSteps true sub ++ laterSteps p := by
      simp [laterSteps]
    rw [e]
    by_cases q1 : subSteps true sub = [] <;> by_cases q2 : laterSteps p = [] <;>
      simp [q1, q2, addTo]

/-- The flag does not matter for the ends. -/
theorem flatMap_flag {α : Type} (g : String → String → List α) (sub : List String) (j j' : Bool) :
    ((subSteps j sub).flatMap fun s => g s.start s.stop) =
      (subSteps j' sub).flatMap fun s => g s.start s.stop := by
  match sub with
  | [] => rfl
  | [_] => rfl
  | a :: b :: rest => rfl

theorem subSteps_flag_nil (sub : List String) (j j' : Bool) :
    subSteps j sub = [] ↔ subSteps j' sub = [] := by
  match sub with
  | [] => simp [subSteps]
  | [_] => simp [subSteps]
  | a :: b :: rest => simp [subSteps]

theorem flatMap_steps {α : Type} (g : String → String → List α) (p : List (List String)) :
    ((laterSteps p).flatMap fun s => g s.start s.stop) =
      (steps p).flatMap fun s => g s.start s.stop := by
  cases p with
  | nil => rfl
  | cons sub p =>
    simp only [laterSteps, steps, List.flatMap_cons, List.flatMap_append]
    rw [flatMap_flag g sub true false]

theorem steps_nil_iff (p : List (List String)) : laterSteps p = [] ↔ steps p = [] := by
  cases p with
  | nil => simp [laterSteps, steps]
  | cons sub p =>
    simp only [laterSteps, steps, List.flatMap_cons, List.append_eq_nil_iff]
    rw [subSteps_flag_nil sub true false]

/-- The entries of blocks of one size. -/
theorem getElem_blocks {α β : Type} (f : α → List β) (m : ℕ) (l : List α)
    (hf : ∀ a ∈ l, (f a).length = m) (j i : ℕ) (hi : i < m) (a : α) (ha : l[j]? = some a) :
    (l.flatMap f)[j * m + i]? = (f a)[i]? := by
  induction l generalizing j with
  | nil => simp at ha
  | cons x l ih =>
    rw [List.flatMap_cons]
    have hx := hf x (by simp)
    cases j with
    | zero =>
      simp only [List.getElem?_cons_zero, Option.some.injEq] at ha
      subst ha
      rw [List.getElem?_append_left (by omega)]
      simp
    | succ j =>
      rw [List.getElem?_append_right (by rw [hx]; nlinarith)]
      have : (j + 1) * m + i - (f x).length = j * m + i := by
        rw [hx]
        have : (j + 1) * m = j * m + m := by ring
        omega
      rw [this]
      exact ih (fun a ha => hf a (by simp [ha])) j (by simpa using ha)

theorem length_blocks {α β : Type} (f : α → List β) (m : ℕ) (l : List α)
    (hf : ∀ a ∈ l, (f a).length = m) : (l.flatMap f).length = l.length * m := by
  induction l with
  | nil => simp
  | cons x l ih =>
    rw [List.flatMap_cons, List.length_append, ih fun a ha => hf a (by simp [ha]),
      hf x (by simp), List.length_cons]
    ring

/-! ### Flat points -/

/-- The flat points of a list of steps, from the distance `t`. -/
noncomputable def flatSteps (pos : String → Vec ℝ) (n : ℕ) : ℝ → List Step → List ℝ
  | _, [] => []
  | t, s :: l =>
    (List.range (n + 2)).map (fun i : ℕ => (i : ℝ) / ((n : ℝ) + 1) * stepLen pos s + t) ++
      flatSteps pos n (stepLen pos s + t) l

theorem flatSteps_append (n : ℕ) (l l' : List Step) (t : ℝ) :
    flatSteps pos n t (l ++ l') =
      flatSteps pos n t l ++ flatSteps pos n ((l.map (stepLen pos)).sum + t) l' := by
  induction l generalizing t with
  | nil => simp [flatSteps]
  | cons s l ih =>
    simp only [List.cons_append, flatSteps, ih, List.append_assoc, List.map_cons, List.sum_cons]
    congr 3
    ring

theorem between_norm (a b : Vec ℝ) {t : ℝ} (ht : 0 ≤ t) :
    npNorm (between a b t - a) = t * len (b - a) := by
  have : between a b t - a = t • (b - a) := by
    unfold between
    funext j
    simp only [Pi.add_apply, Pi.smul_apply, Pi.sub_apply, smul_eq_mul]
    ring
  rw [this, npNorm_len, len_smul ht]

theorem flatRest_first (n : ℕ) (a b : String) (sub : List String)
    (h : Located coords cell pos (a :: b :: sub)) (acc : Option (List ℝ)) (j : Bool) :
    flatRest coords cell n true (a :: b :: sub) acc =
      flatRest coords cell n false (b :: sub)
        (some (flatSteps pos n 0 [⟨a, b, j⟩])) := by
  obtain ⟨va, ha, ea⟩ := h a (by simp)
  obtain ⟨vb, hb, eb⟩ := h b (by simp)
  rw [flatRest]
  simp only [getItem_some ha, getItem_some hb, vecMat_vecMul, ← ea, ← eb, linspace_ok, bind,
    Except.bind, flatAppend, if_true, List.map_map]
  congr 2
  simp only [flatSteps, List.append_nil]
  apply List.map_congr_left
  intro i _
  simp only [Function.comp, add_zero]
  rw [between_norm _ _ (by positivity)]
  rfl

theorem flatRest_ok (n : ℕ) (sub : List String) (h : Located coords cell pos sub) (j : Bool)
    (l : List ℝ) (t : ℝ) (hl : l.getLast? = some t) :
    flatRest coords cell n false sub (some l) =
      .ok (some (l ++ flatSteps pos n t (subSteps j sub))) := by
  induction sub generalizing l t j with
  | nil => simp [flatRest, subSteps, flatSteps]
  | cons a sub ih =>
    cases sub with
    | nil => simp [flatRest, subSteps, flatSteps]
    | cons b sub =>
      obtain ⟨va, ha, ea⟩ := h a (by simp)
      obtain ⟨vb, hb, eb⟩ := h b (by simp)
      rw [flatRest]
      simp only [getItem_some ha, getItem_some hb, vecMat_vecMul, ← ea, ← eb, linspace_ok, bind,
        Except.bind, flatAppend, Bool.false_eq_true, if_false, List.map_map, hl]
      have e : (List.range (n + 2)).map ((fun d => d + t) ∘ (fun p => npNorm (p - pos a)) ∘
          fun i : ℕ => between (pos a) (pos b) ((i : ℝ) / ((n : ℝ) + 1))) =
          (List.range (n + 2)).map (fun i : ℕ =>
            (i : ℝ) / ((n : ℝ) + 1) * stepLen pos ⟨a, b, j⟩ + t) := by
        apply List.map_congr_left
        intro i _
        simp only [Function.comp]
        rw [between_norm _ _ (by positivity)]
        rfl
      rw [e, ih h.tail false _ (stepLen pos ⟨a, b, j⟩ + t)]
      · simp only [subSteps, flatSteps, List.append_assoc]
      · rw [List.getLast?_append_of_ne_nil _ (by simp), List.range_succ, List.map_append,
          List.map_singleton, List.getLast?_concat]
        have hn : ((n : ℝ) + 1) ≠ 0 := by positivity
        have : ((n + 1 : ℕ) : ℝ) / ((n : ℝ) + 1) = 1 := by
          push_cast; exact div_self hn
        rw [this, one_mul]

theorem flatSteps_last (n : ℕ) (l : List Step) (t : ℝ) (hl : l ≠ []) :
    (flatSteps pos n t l).getLast? = some ((l.map (stepLen pos)).sum + t) := by
  induction l generalizing t with
  | nil => exact absurd rfl hl
  | cons s l ih =>
    simp only [flatSteps]
    by_cases h : l = []
    · subst h
      simp only [flatSteps, List.append_nil]
      rw [List.range_succ, List.map_append, List.map_singleton, List.getLast?_concat]
      have hn : ((n : ℝ) + 1) ≠ 0 := by positivity
      have : ((n + 1 : ℕ) : ℝ) / ((n : ℝ) + 1) = 1 := by
        push_cast; exact div_self hn
      rw [this, one_mul]
      simp
    · rw [List.getLast?_append_of_ne_nil _ (by
        intro e
        have := ih (stepLen pos s + t) h
        rw [e] at this
        simp at this), ih _ h]
      simp only [List.map_cons, List.sum_cons]
      congr 1
      ring

theorem flatLoop_ok (n : ℕ) (p : List (List String)) (h : ∀ sub ∈ p, Located coords cell pos sub)
    (l : List ℝ) (t : ℝ) (hl : l.getLast? = some t) :
    flatLoop coords cell n false p (some l) =
      .ok (some (l ++ flatSteps pos n t (laterSteps p))) := by
  induction p generalizing l t with
  | nil => simp [flatLoop, laterSteps, flatSteps]
  | cons sub p ih =>
    rw [flatLoop, flatRest_ok n sub (h sub (by simp)) true l t hl]
    simp only [bind, Except.bind]
    have e : laterSteps (sub :: p) = subSteps true sub ++ laterSteps p := by simp [laterSteps]
    rw [e, flatSteps_append, ← List.append_assoc]
    apply ih fun q hq => h q (by simp [hq])
    by_cases q : subSteps true sub = []
    · simp [q, flatSteps, hl]
    · rw [List.getLast?_append_of_ne_nil _ (by
        intro e
        have := flatSteps_last (pos := pos) n _ t q
        rw [e] at this
        simp at this), flatSteps_last n _ t q]

theorem flatLoop_first (n : ℕ) (sub : List String) (p : List (List String))
    (hs : 2 ≤ sub.length) (h : ∀ q ∈ sub :: p, Located coords cell pos q) :
    flatLoop coords cell n true (sub :: p) none =
      .ok (some (flatSteps pos n 0 (steps (sub :: p)))) := by
  match sub, hs with
  | a :: b :: sub, _ =>
    have h0 := h (a :: b :: sub) (by simp)
    rw [flatLoop, flatRest_first n a b sub h0 none false,
      flatRest_ok n (b :: sub) h0.tail false _ (stepLen pos ⟨a, b, false⟩) (by
        have := flatSteps_last (pos := pos) n [⟨a, b, false⟩] 0 (by simp)
        simpa using this)]
    simp only [bind, Except.bind]
    have e : steps ((a :: b :: sub) :: p) =
        ([⟨a, b, false⟩] ++ subSteps false (b :: sub)) ++ laterSteps p := rfl
    have e2 : flatSteps pos n 0 [⟨a, b, false⟩] ++
        flatSteps pos n (stepLen pos ⟨a, b, false⟩) (subSteps false (b :: sub)) =
        flatSteps pos n 0 ([⟨a, b, false⟩] ++ subSteps false (b :: sub)) := by
      rw [flatSteps_append]
      simp
    rw [e2, flatLoop_ok n p (fun q hq => h q (by simp [hq])) _
      ((([(⟨a, b, false⟩ : Step)] ++ subSteps false (b :: sub)).map (stepLen pos)).sum + 0)
      (flatSteps_last n _ 0 (by simp)), e, flatSteps_append n _ (laterSteps p)]

/-- The entries of the flat points. -/
theorem flatSteps_get (n : ℕ) (l : List Step) (t : ℝ) (j i : ℕ) (hi : i < n + 2) (s : Step)
    (hs : l[j]? = some s) : (flatSteps pos n t l)[j * (n + 2) + i]? =
      some (((l.take j).map (stepLen pos)).sum + (i : ℝ) / ((n : ℝ) + 1) * stepLen pos s + t) := by
  induction l generalizing j t with
  | nil => simp at hs
  | cons x l ih =>
    simp only [flatSteps]
    cases j with
    | zero =>
      simp only [List.getElem?_cons_zero, Option.some.injEq] at hs
      subst hs
      rw [List.getElem?_append_left (by simpa using hi)]
      simp [List.getElem?_range hi]
    | succ j =>
      have e : (j + 1) * (n + 2) = j * (n + 2) + (n + 2) := by ring
      rw [List.getElem?_append_right (by
        rw [List.length_map, List.length_range]; omega)]
      rw [List.length_map, List.length_range]
      have : (j + 1) * (n + 2) + i - (n + 2) = j * (n + 2) + i := by omega
      rw [this, ih _ j (by simpa using hs)]
      simp only [List.take_succ_cons, List.map_cons, List.sum_cons]
      congr 1
      ring

theorem flatSteps_length (n : ℕ) (l : List Step) (t : ℝ) :
    (flatSteps pos n t l).length = l.length * (n + 2) := by
  induction l generalizing t with
  | nil => simp [flatSteps]
  | cons s l ih =>
    simp only [flatSteps, List.length_append, List.length_map, List.length_range, ih,
      List.length_cons]
    ring

/-! ### Ticks -/

/-- The ticks after a tick at `t`. -/
noncomputable def tickSteps (pos : String → Vec ℝ) : ℝ → List Step → List ℝ
  | _, [] => []
  | t, s :: l => (stepLen pos s + t) :: tickSteps pos (stepLen pos s + t) l

theorem tickSteps_append (l l' : List Step) (t : ℝ) :
    tickSteps pos t (l ++ l') =
      tickSteps pos t l ++ tickSteps pos ((l.map (stepLen pos)).sum + t) l' := by
  induction l generalizing t with
  | nil => simp [tickSteps]
  | cons s l ih =>
    simp only [List.cons_append, tickSteps, ih, List.map_cons, List.sum_cons]
    congr 3
    ring

theorem ticksRest_ok (sub : List String) (h : Located coords cell pos sub) (j : Bool)
    (l : List ℝ) (t : ℝ) (hl : l.getLast? = some t) :
    ticksRest coords cell sub l = .ok (l ++ tickSteps pos t (subSteps j sub)) := by
  induction sub generalizing l t j with
  | nil => simp [ticksRest, subSteps, tickSteps]
  | cons a sub ih =>
    cases sub with
    | nil => simp [ticksRest, subSteps, tickSteps]
    | cons b sub =>
      obtain ⟨va, ha, ea⟩ := h a (by simp)
      obtain ⟨vb, hb, eb⟩ := h b (by simp)
      rw [ticksRest]
      simp only [getItem_some ha, getItem_some hb, vecMat_vecMul, ← ea, ← eb, bind,
        Except.bind, hl]
      have e : npNorm (pos b - pos a) = stepLen pos ⟨a, b, j⟩ := npNorm_len _
      rw [e, ih h.tail false _ _ (List.getLast?_concat)]
      simp only [subSteps, tickSteps, List.append_assoc, List.singleton_append]

theorem tickSteps_last (l : List Step) (t : ℝ) (l0 : List ℝ) (h0 : l0.getLast? = some t) :
    (l0 ++ tickSteps pos t l).getLast? = some ((l.map (stepLen pos)).sum + t) := by
  induction l generalizing t l0 with
  | nil => simp [tickSteps, h0]
  | cons s l ih =>
    simp only [tickSteps, List.map_cons, List.sum_cons]
    have := ih (stepLen pos s + t) (l0 ++ [stepLen pos s + t]) List.getLast?_concat
    rw [List.append_assoc, List.singleton_append] at this
    rw [this]
    congr 1
    ring

theorem ticksLoop_ok (p : List (List String)) (h : ∀ sub ∈ p, Located coords cell pos sub)
    (l : List ℝ) (t : ℝ) (hl : l.getLast? = some t) :
    ticksLoop coords cell false p l = .ok (l ++ tickSteps pos t (laterSteps p)) := by
  induction p generalizing l t with
  | nil => simp [ticksLoop, laterSteps, tickSteps]
  | cons sub p ih =>
    rw [ticksLoop]
    simp only [Bool.false_eq_true, if_false]
    rw [ticksRest_ok sub (h sub (by simp)) true l t hl]
    simp only [bind, Except.bind]
    have e : laterSteps (sub :: p) = subSteps true sub ++ laterSteps p := by simp [laterSteps]
    rw [e, tickSteps_append, ← List.append_assoc]
    exact ih (fun q hq => h q (by simp [hq])) _ _ (tickSteps_last _ _ _ hl)

theorem ticksLoop_first (sub : List String) (p : List (List String))
    (h : ∀ q ∈ sub :: p, Located coords cell pos q) :
    ticksLoop coords cell true (sub :: p) [] =
      .ok (0 :: tickSteps pos 0 (steps (sub :: p))) := by
  rw [ticksLoop]
  simp only [if_true, List.nil_append]
  rw [ticksRest_ok sub (h sub (by simp)) false [0] 0 rfl]
  simp only [bind, Except.bind]
  rw [ticksLoop_ok p (fun q hq => h q (by simp [hq])) _ _ (tickSteps_last _ _ _ rfl)]
  simp only [steps, tickSteps_append, List.cons_append, List.nil_append]

theorem tickSteps_get (l : List Step) (t : ℝ) (j : ℕ) (hj : j ≤ l.length) :
    (t :: tickSteps pos t l)[j]? = some (((l.take j).map (stepLen pos)).sum + t) := by
  induction l generalizing t j with
  | nil =>
    have : j = 0 := by simpa using hj
    subst this
    simp
  | cons s l ih =>
    cases j with
    | zero => simp
    | succ j =>
      simp only [List.getElem?_cons_succ, tickSteps]
      rw [ih _ j (by simpa using hj)]
      simp only [List.take_succ_cons, List.map_cons, List.sum_cons]
      congr 1
      ring

theorem tickSteps_length (l : List Step) (t : ℝ) : (tickSteps pos t l).length = l.length := by
  induction l generalizing t with
  | nil => rfl
  | cons s l ih => simp [tickSteps, ih]

end closed

/-! ### Labels -/

/-- The labels from a last label `x` on. -/
def labelSteps (lab : String → String) : String → List Step → List String
  | x, [] => [x]
  | x, s :: l => (if s.jump then x ++ ("|" ++ lab s.start) else x) :: labelSteps lab (lab s.stop) l

section labels
variable {labels : PyDict String String} {lab : String → String}

theorem labelsRest_ok (a : String) (sub : List String)
    (h : ∀ m ∈ sub, labels.get? m = some (lab m)) (l : List String) (x : String) :
    ∃ y, labelsRest labels sub (l ++ [x]) = .ok (l ++ labelSteps lab x (subSteps false (a :: sub))) ∧
      ∃ l', l ++ labelSteps lab x (subSteps false (a :: sub)) = l' ++ [y] ∧
        ∀ r, l' ++ labelSteps lab y r =
          l ++ labelSteps lab x (subSteps false (a :: sub) ++ r) := by
  induction sub generalizing l x a with
  | nil => exact ⟨x, by simp [labelsRest, subSteps, labelSteps], l, by simp [subSteps, labelSteps],
      by simp [subSteps]⟩
  | cons b sub ih =>
    have hb := h b (by simp)
    obtain ⟨y, h1, l', h2, h3⟩ := ih b (fun m hm => h m (by simp [hm])) (l ++ [x]) (lab b)
    refine ⟨y, ?_, l', ?_, ?_⟩
    · unfold labelsRest
      simp only [getItem_some hb, bind, Except.bind]
      rw [h1]
      simp [subSteps, labelSteps]
    · rw [← h2]
      simp [subSteps, labelSteps]
    · intro r
      rw [h3]
      simp [subSteps, labelSteps]

theorem labelsLoop_ok (p : List (List String)) (hp : ∀ sub ∈ p, 2 ≤ sub.length)
    (h : ∀ sub ∈ p, ∀ m ∈ sub, labels.get? m = some (lab m)) (l : List String) (x : String) :
    labelsLoop labels false p (l ++ [x]) = .ok (l ++ labelSteps lab x (laterSteps p)) := by
  induction p generalizing l x with
  | nil => simp [labelsLoop, laterSteps, labelSteps]
  | cons sub p ih =>
    match sub, hp sub (by simp) with
    | a :: b :: sub, _ =>
      have ha := h (a :: b :: sub) (by simp) a (by simp)
      have hb := h (a :: b :: sub) (by simp) b (by simp)
      unfold labelsLoop
      simp only [labelsFirst, getItem_some ha, bind, Except.bind, Bool.false_eq_true, if_false,
        appendToLast, List.getLast?_concat, List.dropLast_concat]
      rw [labelsRest]
      simp only [getItem_some hb, bind, Except.bind]
      obtain ⟨y, h1, l', h2, h3⟩ := labelsRest_ok (labels := labels) (lab := lab) b sub
        (fun m hm => h (a :: b :: sub) (by simp) m (by simp [hm])) (l ++ [x ++ ("|" ++ lab a)]) (lab b)
      rw [h1]
      simp only
      rw [h2, ih (fun q hq => hp q (by simp [hq])) (fun q hq => h q (by simp [hq])), h3]
      have e : laterSteps ((a :: b :: sub) :: p) =
          ⟨a, b, true⟩ :: (subSteps false (b :: sub) ++ laterSteps p) := by
        simp [laterSteps, subSteps]
      rw [e]
      simp [labelSteps]

theorem labelsLoop_first (sub : List String) (p : List (List String))
    (hp : ∀ q ∈ sub :: p, 2 ≤ q.length)
    (h : ∀ q ∈ sub :: p, ∀ m ∈ q, labels.get? m = some (lab m)) :
    ∃ x, sub.head? = some x ∧ labelsLoop labels true (sub :: p) [] =
      .ok (labelSteps lab (lab x) (steps (sub :: p))) := by
  match sub, hp sub (by simp) with
  | a :: b :: sub, _ =>
    have ha := h (a :: b :: sub) (by simp) a (by simp)
    refine ⟨a, rfl, ?_⟩
    unfold labelsLoop
    simp only [labelsFirst, getItem_some ha, bind, Except.bind, if_true, pure, Except.pure]
    obtain ⟨y, h1, l', h2, h3⟩ := labelsRest_ok (labels := labels) (lab := lab) a (b :: sub)
      (fun m hm => h (a :: b :: sub) (by simp) m (List.mem_cons_of_mem _ hm)) [] (lab a)
    rw [h1]
    simp only
    rw [h2, labelsLoop_ok p (fun q hq => hp q (by simp [hq])) (fun q hq => h q (by simp [hq])), h3]
    rfl

theorem labelSteps_length (x : String) (l : List Step) :
    (labelSteps lab x l).length = l.length + 1 := by
  induction l generalizing x with
  | nil => rfl
  | cons s l ih => simp [labelSteps, ih]

theorem labelSteps_get (x : String) (l : List Step) (j : ℕ) (hj : j ≤ l.length) :
    ∃ base, (j = 0 → base = x) ∧ (∀ i s, j = i + 1 → l[i]? = some s → base = lab s.stop) ∧
      (labelSteps lab x l)[j]? = some (match l[j]? with
        | none => base
        | some s => if s.jump then base ++ ("|" ++ lab s.start) else base) := by
  induction l generalizing x j with
  | nil =>
    have : j = 0 := by simpa using hj
    subst this
    exact ⟨x, fun _ => rfl, by simp, by simp [labelSteps]⟩
  | cons s l ih =>
    cases j with
    | zero => exact ⟨x, fun _ => rfl, by simp, by simp [labelSteps]⟩
    | succ j =>
      obtain ⟨base, h1, h2, h3⟩ := ih (lab s.stop) j (by simpa using hj)
      refine ⟨base, by simp, ?_, ?_⟩
      · intro i s' hi hs'
        have hij : i = j := by omega
        subst hij
        cases i with
        | zero =>
          simp only [List.getElem?_cons_zero, Option.some.injEq] at hs'
          subst hs'
          exact h1 rfl
        | succ i => exact h2 i s' rfl (by simpa using hs')
      · simp only [labelSteps, List.getElem?_cons_succ]
        exact h3

end labels

end Wulfric

namespace Wulfric
open Matrix Spec

/-! ### Order -/

theorem stepLen_nonneg (pos : String → Vec ℝ) (s : Step) : 0 ≤ stepLen pos s := len_nonneg _

theorem flatSteps_order (pos : String → Vec ℝ) (n : ℕ) (l : List Step) (t : ℝ) :
    (flatSteps pos n t l).Pairwise (· ≤ ·) ∧ ∀ x ∈ flatSteps pos n t l, t ≤ x := by
  induction l generalizing t with
  | nil => simp [flatSteps]
  | cons s l ih =>
    obtain ⟨h1, h2⟩ := ih (stepLen pos s + t)
    have hs := stepLen_nonneg pos s
    have hn : (0 : ℝ) < (n : ℝ) + 1 := by positivity
    constructor
    · simp only [flatSteps]
      rw [List.pairwise_append]
      refine ⟨?_, h1, ?_⟩
      · rw [List.pairwise_map]
        refine List.Pairwise.imp ?_ List.pairwise_lt_range
        intro a b hab
        have : (a : ℝ) ≤ b := by exact_mod_cast hab.le
        gcongr
      · intro a ha b hb
        have hb' := h2 b hb
        rw [List.mem_map] at ha
        obtain ⟨i, hi, rfl⟩ := ha
        rw [List.mem_range] at hi
        have hi' : (i : ℝ) / ((n : ℝ) + 1) ≤ 1 := by
          rw [div_le_one hn]
          exact_mod_cast (by omega : i ≤ n + 1)
        have := mul_le_mul_of_nonneg_right hi' hs
        linarith
    · intro x hx
      simp only [flatSteps, List.mem_append, List.mem_map, List.mem_range] at hx
      rcases hx with ⟨i, hi, rfl⟩ | hx
      · have : 0 ≤ (i : ℝ) / ((n : ℝ) + 1) * stepLen pos s := by positivity
        linarith
      · have := h2 x hx
        linarith

theorem tickSteps_order (pos : String → Vec ℝ) (l : List Step) (t : ℝ) :
    (tickSteps pos t l).Pairwise (· ≤ ·) ∧ ∀ x ∈ tickSteps pos t l, t ≤ x := by
  induction l generalizing t with
  | nil => simp [tickSteps]
  | cons s l ih =>
    obtain ⟨h1, h2⟩ := ih (stepLen pos s + t)
    have hs := stepLen_nonneg pos s
    refine ⟨?_, ?_⟩
    · simp only [tickSteps, List.pairwise_cons]
      exact ⟨h2, h1⟩
    · intro x hx
      simp only [tickSteps, List.mem_cons] at hx
      rcases hx with rfl | hx
      · linarith
      · have := h2 x hx
        linarith

theorem subSteps_length (j : Bool) (l : List String) : (subSteps j l).length = l.length - 1 := by
  induction l generalizing j with
  | nil => rfl
  | cons a l ih =>
    cases l with
    | nil => rfl
    | cons b l => simp [subSteps, ih]

theorem steps_length (p : List (List String)) :
    (steps p).length = (p.map fun sub => sub.length - 1).sum := by
  cases p with
  | nil => rfl
  | cons sub p =>
    simp [steps, laterSteps, List.length_flatMap, subSteps_length]

theorem subSteps_chain (j : Bool) (l : List String) (i : ℕ) (s s' : Step)
    (h : (subSteps j l)[i]? = some s) (h' : (subSteps j l)[i + 1]? = some s') :
    s'.jump = false ∧ s'.start = s.stop := by
  induction l generalizing j i with
  | nil => simp [subSteps] at h
  | cons a l ih =>
    match l with
    | [] => simp [subSteps] at h
    | [b] => simp [subSteps] at h'
    | b :: c :: l =>
      cases i with
      | zero =>
        simp only [subSteps, List.getElem?_cons_zero, Option.some.injEq, zero_add,
          List.getElem?_cons_succ] at h h'
        subst h; subst h'
        exact ⟨rfl, rfl⟩
      | succ i =>
        rw [subSteps, List.getElem?_cons_succ] at h h'
        exact ih false i h h'

theorem subSteps_head (j : Bool) (l : List String) (s : Step) (h : (subSteps j l)[0]? = some s) :
    s.jump = j := by
  match l, h with
  | [], h => simp [subSteps] at h
  | [_], h => simp [subSteps] at h
  | a :: b :: l, h =>
    simp only [subSteps, List.getElem?_cons_zero, Option.some.injEq] at h
    rw [← h]

theorem laterSteps_head (p : List (List String)) (s : Step) (h : (laterSteps p)[0]? = some s) :
    s.jump = true := by
  induction p with
  | nil => simp [laterSteps] at h
  | cons q p ih =>
    have e : laterSteps (q :: p) = subSteps true q ++ laterSteps p := by simp [laterSteps]
    rw [e] at h
    by_cases hq : subSteps true q = []
    · rw [hq] at h
      exact ih h
    · rw [List.getElem?_append_left (List.length_pos_of_ne_nil hq)] at h
      exact subSteps_head true q s h

/-- A following step begins at the end of the previous one unless it is a jump. -/
theorem chain_append (l : List String) (j : Bool) (r : List Step)
    (hr : ∀ i s s', r[i]? = some s → r[i + 1]? = some s' → s'.jump = false → s'.start = s.stop)
    (h0 : ∀ s, r[0]? = some s → s.jump = true) (i : ℕ) (s s' : Step)
    (h : (subSteps j l ++ r)[i]? = some s) (h' : (subSteps j l ++ r)[i + 1]? = some s')
    (hj : s'.jump = false) : s'.start = s.stop := by
  by_cases q1 : i + 1 < (subSteps j l).length
  · rw [List.getElem?_append_left (by omega)] at h h'
    exact (subSteps_chain j l i s s' h h').2
  · by_cases q2 : i < (subSteps j l).length
    · have e : i + 1 = (subSteps j l).length := by omega
      rw [List.getElem?_append_right (by omega), e, Nat.sub_self] at h'
      rw [h0 s' h'] at hj
      exact absurd hj (by simp)
    · rw [List.getElem?_append_right (by omega)] at h h'
      have e : i + 1 - (subSteps j l).length = i - (subSteps j l).length + 1 := by omega
      rw [e] at h'
      exact hr _ s s' h h' hj

theorem laterSteps_chain (p : List (List String)) : ∀ (i : ℕ) (s s' : Step),
    (laterSteps p)[i]? = some s → (laterSteps p)[i + 1]? = some s' →
    s'.jump = false → s'.start = s.stop := by
  induction p with
  | nil =>
    intro i s s' h
    simp [laterSteps] at h
  | cons q p ih =>
    intro i s s' h h' hj
    have e : laterSteps (q :: p) = subSteps true q ++ laterSteps p := by simp [laterSteps]
    rw [e] at h h'
    exact chain_append q true (laterSteps p) ih (laterSteps_head p) i s s' h h' hj

theorem steps_chain (p : List (List String)) (i : ℕ) (s s' : Step)
    (h : (steps p)[i]? = some s) (h' : (steps p)[i + 1]? = some s')
    (hj : s'.jump = false) : s'.start = s.stop := by
  cases p with
  | nil => simp [steps] at h
  | cons q p =>
    exact chain_append q false (laterSteps p) (laterSteps_chain p) (laterSteps_head p) i s s' h h' hj

theorem steps_ne_nil {p : List (List String)} (hp : p ≠ []) (h : ∀ sub ∈ p, 2 ≤ sub.length) :
    steps p ≠ [] := by
  match p with
  | [] => exact absurd rfl hp
  | sub :: p =>
    have := h sub (by simp)
    match sub with
    | [] => simp at this
    | [_] => simp at this
    | a :: b :: sub => simp [steps, subSteps]

end Wulfric
