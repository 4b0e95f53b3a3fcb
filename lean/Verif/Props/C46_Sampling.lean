import Verif.Props.C45_Kpoints

/-!
# C46 and C47: the points, flat points, ticks and labels of `Kpoints`

Everything is described by the steps of the path (`Spec.steps`: pairs of neighbouring names, in
order, a jump being the first step after a bar) and by the positions of the named points.
-/

namespace Wulfric
open Matrix _root_.Spec Wulfric.Spec

/-- Where a named point is, in relative or in absolute coordinates. -/
noncomputable def Kpoints.position (k : Kpoints) (relative : Bool) (name : String) : Vec ℝ :=
  if relative then (k.hsCoordinates.get? name).getD 0
  else (k.hsCoordinates.get? name).getD 0 ᵥ* k.rcell

/-- The label of a named point. -/
def Kpoints.label (k : Kpoints) (name : String) : String := (k.hsLabels.get? name).getD ""

theorem located {k : Kpoints} (hk : PathDefined k) (relative : Bool) :
    ∀ sub ∈ k.path, Located k.hsCoordinates (k.basis relative) (k.position relative) sub := by
  intro sub hsub m hm
  obtain ⟨⟨v, hv⟩, -⟩ := (hk sub hsub).2 m hm
  refine ⟨v, hv, ?_⟩
  unfold Kpoints.position Kpoints.basis
  cases relative <;> simp [hv]

theorem labelled {k : Kpoints} (hk : PathDefined k) :
    ∀ sub ∈ k.path, ∀ m ∈ sub, k.hsLabels.get? m = some (k.label m) := by
  intro sub hsub m hm
  obtain ⟨-, l, hl⟩ := (hk sub hsub).2 m hm
  simp [Kpoints.label, hl]

theorem points_steps {k : Kpoints} (hk : PathDefined k) (hp : k.path ≠ []) (relative : Bool)
    {f : Vec ℝ → Vec ℝ → List (Vec ℝ)} (hf : ∀ a b, linspace a b (k.n + 2) = .ok (f a b)) :
    k.points relative = .ok (some ((steps k.path).flatMap fun s =>
      f (k.position relative s.start) (k.position relative s.stop))) := by
  unfold Kpoints.points
  rw [pointsLoop_ok hf k.path (located hk relative)]
  have h0 : ¬ laterSteps k.path = [] := by
    rw [steps_nil_iff]
    exact steps_ne_nil hp fun sub hsub => (hk sub hsub).1
  rw [if_neg h0, addTo, Option.getD_none, List.nil_append,
    flatMap_steps (fun a b => f (k.position relative a) (k.position relative b))]

/-- C46: the number of steps is the number of neighbouring pairs of names, and a step begins where
the previous one ended unless there is a bar between them. -/
theorem C46_steps (p : List (List String)) :
    (steps p).length = (p.map fun sub => sub.length - 1).sum ∧
    ∀ i s s', (steps p)[i]? = some s → (steps p)[i + 1]? = some s' → s'.jump = false →
      s'.start = s.stop :=
  ⟨steps_length p, steps_chain p⟩

/-- C46: `points` gives `n + 2` points for every step, equally spaced from one end to the other. -/
theorem C46_points (k : Kpoints) (hk : PathDefined k) (hp : k.path ≠ []) (n : ℕ) (hn : k.n = n)
    (relative : Bool) : ∃ l, k.points relative = .ok (some l) ∧
      l.length = (k.path.map fun sub => sub.length - 1).sum * (n + 2) ∧
      ∀ j s, (steps k.path)[j]? = some s → ∀ i ≤ n + 1, l[j * (n + 2) + i]? =
        some (between (k.position relative s.start) (k.position relative s.stop)
          ((i : ℝ) / ((n : ℝ) + 1))) := by
  refine ⟨_, points_steps hk hp relative (fun a b => by rw [hn]; exact linspace_ok a b n), ?_, ?_⟩
  · rw [length_blocks _ (n + 2) _ (by simp), steps_length]
  · intro j s hs i hi
    rw [getElem_blocks _ (n + 2) _ (by simp) j i (by omega) s hs]
    simp [List.getElem?_range (by omega : i < n + 2)]

/-- C46: the first and the last of them are the ends of the step. -/
theorem C46_ends (k : Kpoints) (hk : PathDefined k) (hp : k.path ≠ []) (n : ℕ) (hn : k.n = n)
    (relative : Bool) (l : List (Vec ℝ)) (hl : k.points relative = .ok (some l)) (j : ℕ) (s : Step)
    (hs : (steps k.path)[j]? = some s) :
    l[j * (n + 2)]? = some (k.position relative s.start) ∧
    l[j * (n + 2) + (n + 1)]? = some (k.position relative s.stop) := by
  obtain ⟨l', hl', -, h⟩ := C46_points k hk hp n hn relative
  rw [hl] at hl'
  cases hl'
  have hn : ((n : ℝ) + 1) ≠ 0 := by positivity
  have h0 := h j s hs 0 (by omega)
  have h1 := h j s hs (n + 1) le_rfl
  rw [add_zero] at h0
  rw [h0, h1]
  have : ((n + 1 : ℕ) : ℝ) / ((n : ℝ) + 1) = 1 := by
    push_cast; exact div_self hn
  rw [this]
  simp [between]

/-- C46: the absolute points are the relative ones times the reciprocal cell, for every `n`. -/
theorem C46_absolute (k : Kpoints) (hk : PathDefined k) (l : List (Vec ℝ))
    (hl : k.points true = .ok (some l)) :
    k.points false = .ok (some (l.map fun v => v ᵥ* k.rcell)) := by
  have hp : k.path ≠ [] := by
    intro e
    unfold Kpoints.points at hl
    rw [e] at hl
    simp [pointsLoop] at hl
  by_cases hn : k.n + 2 < 0
  · exfalso
    unfold Kpoints.points at hl
    match hpe : k.path, hp with
    | sub :: p, _ =>
      have h1 := hk sub (by simp [hpe])
      match sub, h1 with
      | a :: b :: sub, h1 =>
        obtain ⟨⟨va, ha⟩, -⟩ := h1.2 a (by simp)
        obtain ⟨⟨vb, hb⟩, -⟩ := h1.2 b (by simp)
        rw [hpe, pointsLoop, pointsRest] at hl
        simp [getItem_some ha, getItem_some hb, linspace, hn, bind, Except.bind] at hl
  · have hf : ∀ a b, linspace a b (k.n + 2) = .ok ((List.range (k.n + 2).toNat).map fun i : ℕ =>
        if 1 < k.n + 2 ∧ (i : ℤ) = k.n + 2 - 1 then b
        else if 1 < k.n + 2 then a + ((i : ℝ) / (((k.n + 2 : ℤ) : ℝ) - 1)) • (b - a)
        else a + (i : ℝ) • (b - a)) := by
      intro a b
      unfold linspace
      rw [if_neg hn]
    rw [points_steps hk hp true hf] at hl
    rw [points_steps hk hp false hf]
    cases hl
    congr 2
    rw [List.map_flatMap]
    congr 1
    funext s
    rw [List.map_map]
    apply List.map_congr_left
    intro i _
    simp only [Function.comp, Kpoints.position, if_true, Bool.false_eq_true, if_false]
    split_ifs
    · rfl
    · rw [add_vecMul, smul_vecMul, sub_vecMul]
    · rw [add_vecMul, smul_vecMul, sub_vecMul]

/-- C46: `n = -1` gives the beginnings of the steps only, `n = -2` nothing, less is an error; an
empty path gives `None`. -/
theorem C46_small (k : Kpoints) (hk : PathDefined k) (relative : Bool) :
    (k.path ≠ [] → k.n = -1 → k.points relative =
      .ok (some ((steps k.path).map fun s => k.position relative s.start))) ∧
    (k.path ≠ [] → k.n = -2 → k.points relative = .ok (some [])) ∧
    (k.path ≠ [] → k.n < -2 → k.points relative = .error .valueError) ∧
    (k.path = [] → k.points relative = .ok none ∧ k.flatPoints relative = .ok none) := by
  refine ⟨fun hp hn => ?_, fun hp hn => ?_, fun hp hn => ?_, fun hp => ?_⟩
  · rw [points_steps hk hp relative (f := fun a _ => [a])]
    · rw [List.map_eq_flatMap]
    · intro a b
      rw [hn]
      simp [linspace]
  · rw [points_steps hk hp relative (f := fun _ _ => [])]
    · simp
    · intro a b
      rw [hn]
      simp [linspace]
  · unfold Kpoints.points
    match hpe : k.path, hp with
    | sub :: p, _ =>
      have h1 := hk sub (by simp [hpe])
      match sub, h1 with
      | a :: b :: sub, h1 =>
        obtain ⟨⟨va, ha⟩, -⟩ := h1.2 a (by simp)
        obtain ⟨⟨vb, hb⟩, -⟩ := h1.2 b (by simp)
        rw [pointsLoop, pointsRest]
        have hn' : k.n + 2 < 0 := by omega
        simp [getItem_some ha, getItem_some hb, linspace, hn', bind, Except.bind]
  · unfold Kpoints.points Kpoints.flatPoints
    rw [hp]
    exact ⟨rfl, rfl⟩

theorem flat_steps {k : Kpoints} (hk : PathDefined k) (hp : k.path ≠ []) {n : ℕ} (hn : k.n = n)
    (relative : Bool) : k.flatPoints relative =
      .ok (some (flatSteps (k.position relative) n 0 (steps k.path))) := by
  unfold Kpoints.flatPoints
  have h := located hk relative
  match hpe : k.path, hp with
  | sub :: p, _ =>
    rw [hn]
    exact flatLoop_first n sub p (hk sub (by simp [hpe])).1 (by rw [← hpe]; exact h)

/-- C46: `flat_points` gives, for every point of `points`, the length walked along the path up to
it (jumps have no length). -/
theorem C46_flat (k : Kpoints) (hk : PathDefined k) (hp : k.path ≠ []) (n : ℕ) (hn : k.n = n)
    (relative : Bool) : ∃ l, k.flatPoints relative = .ok (some l) ∧
      l.length = (k.path.map fun sub => sub.length - 1).sum * (n + 2) ∧
      (∀ j s, (steps k.path)[j]? = some s → ∀ i ≤ n + 1, l[j * (n + 2) + i]? =
        some (walked (k.position relative) k.path j +
          (i : ℝ) / ((n : ℝ) + 1) * stepLen (k.position relative) s)) ∧
      l[0]? = some 0 ∧ l.Pairwise (· ≤ ·) := by
  refine ⟨_, flat_steps hk hp hn relative, ?_, ?_, ?_, (flatSteps_order _ _ _ _).1⟩
  · rw [flatSteps_length, steps_length]
  · intro j s hs i hi
    rw [flatSteps_get n _ 0 j i (by omega) s hs, add_zero]
    rfl
  · match hs : steps k.path, steps_ne_nil hp fun sub hsub => (hk sub hsub).1 with
    | s :: l, _ =>
      have := flatSteps_get (pos := k.position relative) n (s :: l) 0 0 0 (by omega) s rfl
      simpa using this

theorem walked_succ (pos : String → Vec ℝ) (p : List (List String)) (j : ℕ) (s : Step)
    (hs : (steps p)[j]? = some s) : walked pos p (j + 1) = walked pos p j + stepLen pos s := by
  unfold walked
  rw [List.take_add_one, hs, List.map_append, List.sum_append]
  simp only [Option.toList_some, List.map_singleton, List.sum_singleton]

/-- C46: between neighbouring points of a step the flat coordinate grows by their distance; from
one step to the next, and so across a bar, it does not change. -/
theorem C46_increments (k : Kpoints) (hk : PathDefined k) (hp : k.path ≠ []) (n : ℕ) (hn : k.n = n)
    (relative : Bool) (l : List ℝ) (hl : k.flatPoints relative = .ok (some l))
    (pts : List (Vec ℝ)) (hpts : k.points relative = .ok (some pts)) :
    (∀ j i, j < (steps k.path).length → i ≤ n → ∃ x y u v, l[j * (n + 2) + i]? = some x ∧
      l[j * (n + 2) + i + 1]? = some y ∧ pts[j * (n + 2) + i]? = some u ∧
      pts[j * (n + 2) + i + 1]? = some v ∧ y - x = len (v - u)) ∧
    ∀ j, j + 1 < (steps k.path).length → ∃ x, l[j * (n + 2) + (n + 1)]? = some x ∧
      l[(j + 1) * (n + 2)]? = some x := by
  obtain ⟨l', hl', -, h1, -⟩ := C46_flat k hk hp n hn relative
  obtain ⟨pts', hpts', -, h2⟩ := C46_points k hk hp n hn relative
  rw [hl] at hl'
  rw [hpts] at hpts'
  cases hl'; cases hpts'
  have hn' : (0 : ℝ) < (n : ℝ) + 1 := by positivity
  constructor
  · intro j i hj hi
    have hs := List.getElem?_eq_getElem hj
    refine ⟨_, _, _, _, h1 j _ hs i (by omega), h1 j _ hs (i + 1) (by omega),
      h2 j _ hs i (by omega), h2 j _ hs (i + 1) (by omega), ?_⟩
    generalize (steps k.path)[j] = s
    unfold stepLen
    have e : between (k.position relative s.start) (k.position relative s.stop)
        (((i + 1 : ℕ) : ℝ) / ((n : ℝ) + 1)) -
        between (k.position relative s.start) (k.position relative s.stop) ((i : ℝ) / ((n : ℝ) + 1)) =
        (1 / ((n : ℝ) + 1)) • (k.position relative s.stop - k.position relative s.start) := by
      unfold between
      funext m
      simp only [Pi.add_apply, Pi.smul_apply, Pi.sub_apply, smul_eq_mul]
      push_cast
      field_simp
      ring
    rw [e, len_smul (by positivity)]
    push_cast
    field_simp
    ring
  · intro j hj
    have hs := List.getElem?_eq_getElem (by omega : j < (steps k.path).length)
    have hs' := List.getElem?_eq_getElem hj
    refine ⟨_, h1 j _ hs (n + 1) le_rfl, ?_⟩
    have := h1 (j + 1) _ hs' 0 (by omega)
    rw [add_zero] at this
    rw [this]
    congr 1
    rw [walked_succ _ _ _ _ hs]
    have : ((n + 1 : ℕ) : ℝ) / ((n : ℝ) + 1) = 1 := by
      push_cast; exact div_self hn'.ne'
    rw [this]
    simp

/-! ### C47 -/

theorem ticks_steps {k : Kpoints} (hk : PathDefined k) (hp : k.path ≠ []) (relative : Bool) :
    k.ticks relative = .ok (0 :: tickSteps (k.position relative) 0 (steps k.path)) := by
  unfold Kpoints.ticks
  have h := located hk relative
  match hpe : k.path, hp with
  | sub :: p, _ => exact ticksLoop_first sub p (by rw [← hpe]; exact h)

/-- C47: there is one tick more than steps; a tick is the distance walked before its step, so the
ticks start at 0 and do not decrease. -/
theorem C47_ticks (k : Kpoints) (hk : PathDefined k) (hp : k.path ≠ []) (relative : Bool) :
    ∃ t, k.ticks relative = .ok t ∧ t.length = (steps k.path).length + 1 ∧
      (∀ j ≤ (steps k.path).length, t[j]? = some (walked (k.position relative) k.path j)) ∧
      t[0]? = some 0 ∧ t.Pairwise (· ≤ ·) := by
  refine ⟨_, ticks_steps hk hp relative, by simp [tickSteps_length], ?_, rfl, ?_⟩
  · intro j hj
    rw [tickSteps_get _ 0 j hj, add_zero]
    rfl
  · rw [List.pairwise_cons]
    exact (tickSteps_order _ _ _).symm

/-- C47: the ticks are the flat coordinates of the ends of the steps; the last one is the last
flat point. -/
theorem C47_aligned (k : Kpoints) (hk : PathDefined k) (hp : k.path ≠ []) (n : ℕ) (hn : k.n = n)
    (relative : Bool) (t l : List ℝ) (ht : k.ticks relative = .ok t)
    (hl : k.flatPoints relative = .ok (some l)) :
    (∀ j < (steps k.path).length, t[j]? = l[j * (n + 2)]? ∧
      t[j + 1]? = l[j * (n + 2) + (n + 1)]?) ∧ t.getLast? = l.getLast? := by
  have hs0 := steps_ne_nil hp fun sub hsub => (hk sub hsub).1
  constructor
  · obtain ⟨t', ht', -, h1, -⟩ := C47_ticks k hk hp relative
    obtain ⟨l', hl', -, h2, -⟩ := C46_flat k hk hp n hn relative
    rw [ht] at ht'
    rw [hl] at hl'
    cases ht'; cases hl'
    intro j hj
    have hs := List.getElem?_eq_getElem hj
    have a := h2 j _ hs 0 (by omega)
    have b := h2 j _ hs (n + 1) le_rfl
    rw [add_zero] at a
    rw [h1 j hj.le, h1 (j + 1) hj, a, b]
    have hn' : ((n : ℝ) + 1) ≠ 0 := by positivity
    have : ((n + 1 : ℕ) : ℝ) / ((n : ℝ) + 1) = 1 := by
      push_cast; exact div_self hn'
    rw [this, walked_succ _ _ _ _ hs]
    simp
  · rw [ticks_steps hk hp relative] at ht
    rw [flat_steps hk hp hn relative] at hl
    cases ht; cases hl
    rw [flatSteps_last n _ 0 hs0]
    exact tickSteps_last (steps k.path) 0 [0] rfl

/-- C47: `labels` has the same length as `ticks`. A label is the one of the point the previous step
ends at (the first point of the path at the beginning); if a bar follows, and only then, "|" and the
label of the point after the bar are added. -/
theorem C47_labels (k : Kpoints) (hk : PathDefined k) (hp : k.path ≠ []) :
    ∃ l, k.labels = .ok l ∧ l.length = (steps k.path).length + 1 ∧
      ∀ j ≤ (steps k.path).length, ∃ name,
        (j = 0 → ∃ s, (steps k.path)[0]? = some s ∧ name = s.start) ∧
        (∀ i s, j = i + 1 → (steps k.path)[i]? = some s → name = s.stop) ∧
        (∀ s, (steps k.path)[j]? = some s → s.jump = true →
          l[j]? = some (k.label name ++ ("|" ++ k.label s.start))) ∧
        ((∀ s, (steps k.path)[j]? = some s → s.jump = false) → l[j]? = some (k.label name)) := by
  have h := labelled hk
  have hlen : ∀ sub ∈ k.path, 2 ≤ sub.length := fun sub hsub => (hk sub hsub).1
  unfold Kpoints.labels
  match hpe : k.path, hp with
  | sub :: p, _ =>
    rw [hpe] at h hlen
    obtain ⟨x, hx, e⟩ := labelsLoop_first (lab := k.label) sub p hlen h
    refine ⟨_, e, labelSteps_length _ _, ?_⟩
    intro j hj
    obtain ⟨base, b1, b2, b3⟩ := labelSteps_get (lab := k.label) (k.label x)
      (steps (sub :: p)) j hj
    have hname : ∃ name, base = k.label name ∧
        (j = 0 → ∃ s, (steps (sub :: p))[0]? = some s ∧ name = s.start) ∧
        (∀ i s, j = i + 1 → (steps (sub :: p))[i]? = some s → name = s.stop) := by
      cases j with
      | zero =>
        refine ⟨x, b1 rfl, fun _ => ?_, by simp⟩
        match sub, hlen sub (by simp), hx with
        | a :: b :: sub, _, hx =>
          simp only [List.head?_cons, Option.some.injEq] at hx
          exact ⟨⟨a, b, false⟩, rfl, hx.symm⟩
      | succ j =>
        have hs := List.getElem?_eq_getElem (by omega : j < (steps (sub :: p)).length)
        refine ⟨_, b2 j _ rfl hs, by simp, ?_⟩
        intro i s hi h
        have : i = j := by omega
        subst this
        rw [hs] at h
        cases h
        rfl
    obtain ⟨name, n1, n2, n3⟩ := hname
    refine ⟨name, n2, n3, ?_, ?_⟩
    · intro s hs hjump
      rw [b3, hs]
      simp only [hjump, if_true, n1]
    · intro hno
      rw [b3]
      cases hs : (steps (sub :: p))[j]? with
      | none => simp only [n1]
      | some s => simp only [hno s hs, Bool.false_eq_true, if_false, n1]

/-- C47: ticks and labels line up, also for an empty path. -/
theorem C47_same_length (k : Kpoints) (hk : PathDefined k) (relative : Bool) :
    ∃ t l, k.ticks relative = .ok t ∧ k.labels = .ok l ∧ t.length = l.length := by
  by_cases hp : k.path = []
  · refine ⟨[], [], ?_, ?_, rfl⟩
    · unfold Kpoints.ticks
      rw [hp]
      rfl
    · unfold Kpoints.labels
      rw [hp]
      rfl
  · obtain ⟨t, h1, h2, -⟩ := C47_ticks k hk hp relative
    obtain ⟨l, h3, h4, -⟩ := C47_labels k hk hp
    exact ⟨t, l, h1, h3, by omega⟩

/-- A path with a bar meets the hypotheses: `A-B|C-A`. -/
def sampleKpoints : Kpoints where
  rcell := !![1, 0, 0; 0, 1, 0; 0, 0, 2]
  hsCoordinates := [("A", ![0, 0, 0]), ("B", ![1, 0, 0]), ("C", ![0, 0, 1])]
  hsLabels := [("A", "a"), ("B", "b"), ("C", "c")]
  hsNames := ["A", "B", "C"]
  n := 3
  path := [["A", "B"], ["C", "A"]]

example : PathDefined sampleKpoints ∧ sampleKpoints.path ≠ [] ∧ sampleKpoints.n = (3 : ℕ) := by
  refine ⟨?_, by simp [sampleKpoints], rfl⟩
  intro sub hsub
  simp only [sampleKpoints, List.mem_cons, List.not_mem_nil, or_false] at hsub ⊢
  rcases hsub with rfl | rfl
  · refine ⟨by simp, ?_⟩
    intro m hm
    simp only [List.mem_cons, List.not_mem_nil, or_false] at hm
    rcases hm with rfl | rfl <;> simp [PyDict.get?]
  · refine ⟨by simp, ?_⟩
    intro m hm
    simp only [List.mem_cons, List.not_mem_nil, or_false] at hm
    rcases hm with rfl | rfl <;> simp [PyDict.get?]

example : steps sampleKpoints.path = [⟨"A", "B", false⟩, ⟨"C", "A", true⟩] ∧
    sampleKpoints.labels = .ok ["a", "b|c", "a"] := by
  constructor
  · rfl
  · decide +kernel

end Wulfric
