import Verif.Lemmas.Kpoints
import Verif.Props.C43_Points
import Verif.Props.C30_UniqueNames

/-!
# C45: the path of `Kpoints` stays within the defined points

For every history of an object: the points on its path have coordinates and labels as long as no
point of the current path is removed; a rejected change leaves the object as it was.
-/

namespace Wulfric
open Matrix _root_.Spec Wulfric.Spec

/-- Every point of the path has coordinates and a label. -/
def PathDefined (k : Kpoints) : Prop :=
  ∀ sub ∈ k.path, 2 ≤ sub.length ∧ ∀ m ∈ sub,
    (∃ v, k.hsCoordinates.get? m = some v) ∧ ∃ l, k.hsLabels.get? m = some l

/-- A change of an object by its user. -/
inductive Change
  | add (name : String) (coordinate : Vec ℝ) (label : Option String) (relative : Bool)
  | remove (name : String)
  | setPath (arg : PathArg)
  | setN (n : Option ℤ)

/-- The object after a change, and the outcome. -/
noncomputable def Kpoints.change (k : Kpoints) : Change → Kpoints × Except Err Unit
  | .add name coordinate label relative => k.add name coordinate label relative
  | .remove name => k.remove name
  | .setPath arg => k.setPath arg
  | .setN n => k.setN n

/-- The object after a history; exceptions are caught. -/
noncomputable def Kpoints.after (k : Kpoints) : List Change → Kpoints
  | [] => k
  | c :: cs => (k.change c).1.after cs

/-- No point is removed while it is on the path. -/
def Careful : Kpoints → List Change → Prop
  | _, [] => True
  | k, c :: cs => (∀ name, c = .remove name → ∀ sub ∈ k.path, name ∉ sub) ∧
      Careful (k.change c).1 cs

/-- The invariant behind C45. -/
structure Consistent (k : Kpoints) : Prop where
  coordinates : ∀ m ∈ k.hsNames, m ∈ k.hsCoordinates.keys
  labels : ∀ m ∈ k.hsNames, m ∈ k.hsLabels.keys
  path : ∀ sub ∈ k.path, 2 ≤ sub.length ∧ ∀ m ∈ sub, m ∈ k.hsNames

theorem Consistent.defined {k : Kpoints} (h : Consistent k) : PathDefined k := by
  intro sub hsub
  refine ⟨(h.path sub hsub).1, fun m hm => ?_⟩
  have hn := (h.path sub hsub).2 m hm
  have h1 := h.coordinates m hn
  have h2 := h.labels m hn
  rw [← PyDict.get?_isSome, Option.isSome_iff_exists] at h1 h2
  exact ⟨h1, h2⟩

theorem pathOfArg_length {arg : PathArg} {p : List (List String)} (h : pathOfArg arg = .ok p) :
    ∀ sub ∈ p, 2 ≤ sub.length := by
  cases arg with
  | string s => exact fun sub hsub => ((C42_string_list_string s p h).2.2 sub hsub).1
  | list l =>
    simp only [pathOfArg] at h
    split_ifs at h with q
    cases h
    simpa [List.all_eq_true] using q

theorem pathOfArg_list {p : List (List String)} (h : ∀ sub ∈ p, 2 ≤ sub.length) :
    pathOfArg (.list p) = .ok p :=
  if_pos (by simpa [List.all_eq_true] using h)

theorem pathOfArg_short {p : List (List String)} (h : ¬ ∀ sub ∈ p, 2 ≤ sub.length) :
    pathOfArg (.list p) = .error .valueError :=
  if_neg (by simpa [List.all_eq_true] using h)

theorem checkPath_ok_iff {names : List String} {c : PyDict String (Vec ℝ)}
    {p : List (List String)} :
    checkPath names c p = .ok () ↔ ∀ sub ∈ p, ∀ m ∈ sub, m ∈ names := by
  unfold checkPath
  constructor
  · intro h
    split_ifs at h with q
    simpa [List.all_eq_true] using q
  · intro h
    rw [if_pos (by simpa [List.all_eq_true] using h)]

theorem setPath_names (k : Kpoints) (arg : PathArg) : (k.setPath arg).1.hsNames = k.hsNames := by
  unfold Kpoints.setPath
  cases h1 : pathOfArg arg with
  | error _ => rfl
  | ok p =>
    simp only
    cases h2 : checkPath k.hsNames k.hsCoordinates p <;> rfl

theorem Consistent.setPath {k : Kpoints} (h : Consistent k) (arg : PathArg) :
    Consistent (k.setPath arg).1 := by
  unfold Kpoints.setPath
  cases h1 : pathOfArg arg with
  | error _ => exact h
  | ok p =>
    simp only
    cases h2 : checkPath k.hsNames k.hsCoordinates p with
    | error _ => exact h
    | ok u => exact ⟨h.coordinates, h.labels, fun sub hsub =>
        ⟨pathOfArg_length h1 sub hsub, checkPath_ok_iff.1 h2 sub hsub⟩⟩

theorem mem_keys_setItem {V : Type} {d : PyDict String V} {a b : String} {v : V} :
    a ∈ (d.setItem b v).keys ↔ a ∈ d.keys ∨ a = b := by
  rw [PyDict.keys_setItem]
  split_ifs with h
  · constructor
    · exact .inl
    · rintro (h' | rfl)
      · exact h'
      · exact h
  · simp

theorem Consistent.add {k : Kpoints} (h : Consistent k) (name : String) (coordinate : Vec ℝ)
    (label : Option String) (relative : Bool) :
    Consistent (k.add name coordinate label relative).1 := by
  unfold Kpoints.add
  simp only
  split_ifs with h1
  · exact h
  · refine ⟨?_, ?_, ?_⟩
    · intro m hm
      rw [mem_keys_setItem]
      exact (List.mem_append.1 hm).imp (h.coordinates m) (by simp)
    · intro m hm
      rw [mem_keys_setItem]
      exact (List.mem_append.1 hm).imp (h.labels m) (by simp)
    · intro sub hsub
      exact ⟨(h.path sub hsub).1, fun m hm => List.mem_append_left _ ((h.path sub hsub).2 m hm)⟩
  · split
    · exact h
    · refine ⟨?_, ?_, ?_⟩
      · intro m hm
        rw [mem_keys_setItem]
        exact (List.mem_append.1 hm).imp (h.coordinates m) (by simp)
      · intro m hm
        rw [mem_keys_setItem]
        exact (List.mem_append.1 hm).imp (h.labels m) (by simp)
      · intro sub hsub
        exact ⟨(h.path sub hsub).1, fun m hm => List.mem_append_left _ ((h.path sub hsub).2 m hm)⟩

theorem Consistent.setN {k : Kpoints} (h : Consistent k) (n : Option ℤ) :
    Consistent (k.setN n).1 := by
  cases n with
  | none => exact h
  | some n => exact ⟨h.coordinates, h.labels, h.path⟩

theorem add_names (k : Kpoints) (name : String) (coordinate : Vec ℝ)
    (label : Option String) (relative : Bool) (h : k.hsNames.Nodup) :
    (k.add name coordinate label relative).1.hsNames.Nodup := by
  have key : name ∉ k.hsNames → (k.hsNames ++ [name]).Nodup := by
    intro q
    rw [List.nodup_append]
    exact ⟨h, by simp, by rintro a ha b hb rfl; simp at hb; exact q (hb ▸ ha)⟩
  unfold Kpoints.add
  simp only
  split_ifs with h1
  · exact h
  · exact key h1
  · split
    · exact h
    · exact key h1

theorem Consistent.remove {k : Kpoints} (h : Consistent k) (hn : k.hsNames.Nodup) (name : String)
    (hp : ∀ sub ∈ k.path, name ∉ sub) :
    Consistent (k.remove name).1 ∧ (k.remove name).1.hsNames.Nodup := by
  unfold Kpoints.remove
  by_cases h1 : name ∈ k.hsNames
  · rw [if_pos h1]
    have hc := h.coordinates name h1
    have hl := h.labels name h1
    rw [← PyDict.get?_isSome, Option.isSome_iff_exists] at hc hl
    obtain ⟨v, hv⟩ := hc
    obtain ⟨l, hl⟩ := hl
    simp only [PyDict.delItem, hv, hl]
    refine ⟨⟨?_, ?_, ?_⟩, hn.erase _⟩
    · intro m hm
      have hm' := (hn.mem_erase_iff.1 hm)
      rw [PyDict.keys_erase]
      exact (List.mem_erase_of_ne hm'.1).2 (h.coordinates m hm'.2)
    · intro m hm
      have hm' := (hn.mem_erase_iff.1 hm)
      rw [PyDict.keys_erase]
      exact (List.mem_erase_of_ne hm'.1).2 (h.labels m hm'.2)
    · intro sub hsub
      refine ⟨(h.path sub hsub).1, fun m hm => ?_⟩
      exact hn.mem_erase_iff.2 ⟨fun e => hp sub hsub (e ▸ hm), (h.path sub hsub).2 m hm⟩
  · rw [if_neg h1]
    exact ⟨h, hn⟩

theorem mem_keys_pyDict {V : Type} (l : List (String × V)) (m : String) :
    m ∈ (pyDict l).keys ↔ m ∈ l.map Prod.fst := by
  have key : ∀ d : PyDict String V, m ∈ (l.foldl (fun d p => d.setItem p.1 p.2) d).keys ↔
      m ∈ d.keys ∨ m ∈ l.map Prod.fst := by
    induction l with
    | nil => simp
    | cons x l ih =>
      intro d
      rw [List.foldl_cons, ih, mem_keys_setItem]
      simp [or_assoc]
  rw [pyDict, key]
  simp [PyDict.keys]

theorem pyDict_nodup {V : Type} (l : List (String × V)) (h : (l.map Prod.fst).Nodup) :
    pyDict l = l := by
  have key : ∀ d : PyDict String V, (∀ m ∈ d.keys, m ∉ l.map Prod.fst) →
      l.foldl (fun d p => d.setItem p.1 p.2) d = d ++ l := by
    induction l with
    | nil => simp
    | cons x l ih =>
      intro d hd
      rw [List.map_cons, List.nodup_cons] at h
      have hx : x.1 ∉ d.keys := fun hx => hd _ hx (by simp)
      rw [List.foldl_cons, PyDict.setItem_append _ _ _ hx, ih h.2]
      · simp
      · intro m hm
        simp only [PyDict.keys, List.map_append, List.mem_append, List.map_cons, List.map_nil,
          List.mem_singleton] at hm
        rcases hm with hm | rfl
        · exact fun h' => hd m hm (by simp [h'])
        · exact h.1
  rw [pyDict, key _ (by simp [PyDict.keys])]
  simp

/-- What the constructor builds. -/
theorem init_ok {rcell : Cell ℝ} {coordinates : List (Vec ℝ)} {names labels : Option (List String)}
    {path : Option PathArg} {n : ℤ} {k : Kpoints}
    (h : Kpoints.init rcell coordinates names labels path n = .ok k) :
    ∃ ns ls, initNames coordinates.length names = .ok ns ∧
      initLabels coordinates.length names labels = .ok ls ∧ ns.length = coordinates.length ∧
      ls.length = coordinates.length ∧ k.rcell = rcell ∧ k.n = n ∧ k.hsNames = ns ∧
      k.hsCoordinates = pyDict (ns.zip coordinates) ∧ k.hsLabels = pyDict (ns.zip ls) ∧
      pathOfArg (path.getD (.string (pyJoin "-" ns))) = .ok k.path ∧
      ∀ sub ∈ k.path, ∀ m ∈ sub, m ∈ ns := by
  unfold Kpoints.init at h
  cases h1 : initLabels coordinates.length names labels with
  | error _ => simp [h1, bind, Except.bind] at h
  | ok ls =>
  cases h2 : initNames coordinates.length names with
  | error _ => simp [h1, h2, bind, Except.bind] at h
  | ok ns =>
  simp only [h1, h2, bind, Except.bind, Kpoints.setPath] at h
  cases h3 : pathOfArg (path.getD (.string (pyJoin "-" ns))) with
  | error _ => simp [h3] at h
  | ok p =>
  simp only [h3] at h
  cases h4 : checkPath ns (pyDict (ns.zip coordinates)) p with
  | error _ => simp [h4] at h
  | ok u =>
  simp only [h4, pure, Except.pure] at h
  cases h
  have l2 : ns.length = coordinates.length := by
    unfold initNames at h2
    cases names with
    | none => cases h2; simp
    | some l =>
      simp only at h2
      split_ifs at h2 with q
      cases h2
      simpa using q
  have l1 : ls.length = coordinates.length := by
    unfold initLabels at h1
    cases labels with
    | none =>
      cases names with
      | none => cases h1; simp
      | some l =>
        cases h1
        unfold initNames at h2
        simp only at h2
        split_ifs at h2 with q
        simpa using q
    | some l =>
      simp only at h1
      split_ifs at h1 with q
      cases h1
      simpa using q
  exact ⟨ns, ls, rfl, rfl, l2, l1, rfl, rfl, rfl, rfl, rfl, h3, checkPath_ok_iff.1 h4⟩

theorem init_consistent {rcell : Cell ℝ} {coordinates : List (Vec ℝ)}
    {names labels : Option (List String)} {path : Option PathArg} {n : ℤ} {k : Kpoints}
    (h : Kpoints.init rcell coordinates names labels path n = .ok k) : Consistent k := by
  obtain ⟨ns, ls, h1, h2, h3, h4, -, -, h5, h6, h7, h8, h9⟩ := init_ok h
  refine ⟨?_, ?_, ?_⟩
  · intro m hm
    rw [h6, mem_keys_pyDict, List.map_fst_zip (by omega)]
    exact h5 ▸ hm
  · intro m hm
    rw [h7, mem_keys_pyDict, List.map_fst_zip (by omega)]
    exact h5 ▸ hm
  · intro sub hsub
    exact ⟨pathOfArg_length h8 sub hsub, fun m hm => h5 ▸ h9 sub hsub m hm⟩

theorem default_names_nodup (count : ℕ) :
    ((List.range count).map fun i : ℕ => "K" ++ Nat.repr (i + 1)).Nodup := by
  refine (List.nodup_range).map ?_
  intro a b h
  have := congrArg String.toList h
  simp only [String.toList_append] at this
  have := repr_inj (List.append_cancel_left this)
  omega

/-- C45: whatever points are added, paths assigned and points away from the path removed,
every point on the path has coordinates and a label. -/
theorem C45_history (rcell : Cell ℝ) (coordinates : List (Vec ℝ))
    (names labels : Option (List String)) (path : Option PathArg) (n : ℤ) (k : Kpoints)
    (h : Kpoints.init rcell coordinates names labels path n = .ok k)
    (hnames : ∀ l, names = some l → l.Nodup) (cs : List Change) (hcs : Careful k cs) :
    PathDefined (k.after cs) := by
  have h0 := init_consistent h
  have hn : k.hsNames.Nodup := by
    obtain ⟨ns, ls, h1, h2, h3, h4, -, -, h5, -⟩ := init_ok h
    rw [h5]
    cases names with
    | none => cases h1; exact default_names_nodup _
    | some l =>
      unfold initNames at h1
      simp only at h1
      split_ifs at h1 with q
      cases h1
      exact hnames _ rfl
  clear h
  induction cs generalizing k with
  | nil => exact h0.defined
  | cons c cs ih =>
    obtain ⟨hc, hcs⟩ := hcs
    unfold Kpoints.after
    apply ih _ hcs
    · cases c with
      | add name coordinate label relative => exact h0.add name coordinate label relative
      | remove name => exact (h0.remove hn name (hc name rfl)).1
      | setPath arg => exact h0.setPath arg
      | setN n => exact h0.setN n
    · cases c with
      | add name coordinate label relative => exact add_names k name coordinate label relative hn
      | remove name => exact (h0.remove hn name (hc name rfl)).2
      | setPath arg =>
        simp only [Kpoints.change]
        rw [setPath_names]
        exact hn
      | setN n => cases n <;> exact hn

/-- C45: without removals the names may even be repeated. -/
theorem C45_no_removal (rcell : Cell ℝ) (coordinates : List (Vec ℝ))
    (names labels : Option (List String)) (path : Option PathArg) (n : ℤ) (k : Kpoints)
    (h : Kpoints.init rcell coordinates names labels path n = .ok k)
    (cs : List Change) (hcs : ∀ name, Change.remove name ∉ cs) : PathDefined (k.after cs) := by
  have h0 := init_consistent h
  clear h
  induction cs generalizing k with
  | nil => exact h0.defined
  | cons c cs ih =>
    unfold Kpoints.after
    apply ih
    · exact fun name hname => hcs name (List.mem_cons_of_mem _ hname)
    · cases c with
      | add name coordinate label relative => exact h0.add name coordinate label relative
      | remove name => exact absurd (by simp) (hcs name)
      | setPath arg => exact h0.setPath arg
      | setN n => exact h0.setN n

/-- C45: a path is accepted exactly if it is well formed and all its names are defined; then it
becomes the path, otherwise the object stays as it was. -/
theorem C45_assign (k : Kpoints) (p : List (List String)) :
    ((k.setPath (.list p)).2 = .ok () ↔
      (∀ sub ∈ p, 2 ≤ sub.length) ∧ ∀ sub ∈ p, ∀ m ∈ sub, m ∈ k.hsNames) ∧
    ((k.setPath (.list p)).2 = .ok () → (k.setPath (.list p)).1 = { k with path := p }) ∧
    ((k.setPath (.list p)).2 ≠ .ok () → (k.setPath (.list p)).1 = k) := by
  unfold Kpoints.setPath
  by_cases h1 : ∀ sub ∈ p, 2 ≤ sub.length
  · have e := pathOfArg_list h1
    simp only [e]
    by_cases h2 : ∀ sub ∈ p, ∀ m ∈ sub, m ∈ k.hsNames
    · rw [checkPath_ok_iff.2 h2]
      exact ⟨⟨fun _ => ⟨h1, h2⟩, fun _ => rfl⟩, fun _ => rfl, fun h => absurd rfl h⟩
    · cases h3 : checkPath k.hsNames k.hsCoordinates p with
      | ok u => exact absurd (checkPath_ok_iff.1 h3) h2
      | error e => simp [h2]
  · have e := pathOfArg_short h1
    simp only [e]
    simp [h1]

/-- C45: a string is assigned like the list it stands for. -/
theorem C45_assign_string (k : Kpoints) (s : String) :
    (∀ p, getPathAsList s = .ok p → k.setPath (.string s) = k.setPath (.list p)) ∧
    ∀ e, getPathAsList s = .error e → k.setPath (.string s) = (k, .error e) := by
  constructor
  · intro p hp
    have e : pathOfArg (.list p) = .ok p :=
      pathOfArg_list fun sub hsub => ((C42_string_list_string s p hp).2.2 sub hsub).1
    have e' : pathOfArg (.string s) = .ok p := hp
    unfold Kpoints.setPath
    rw [e, e']
  · intro e he
    have e' : pathOfArg (.string s) = .error e := he
    unfold Kpoints.setPath
    rw [e']

/-- C45: an unknown name raises `ValueError` as long as every name has coordinates. -/
theorem C45_unknown (k : Kpoints) (hk : Consistent k) (p : List (List String))
    (h1 : ∀ sub ∈ p, 2 ≤ sub.length) (sub : List String) (hsub : sub ∈ p) (m : String)
    (hm : m ∈ sub) (hu : m ∉ k.hsNames) :
    k.setPath (.list p) = (k, .error .valueError) := by
  have e := pathOfArg_list h1
  have e' : checkPath k.hsNames k.hsCoordinates p = .error .valueError := by
    unfold checkPath
    rw [if_neg (by
      simp only [List.all_eq_true, decide_eq_true_eq]
      exact fun h => hu (h sub hsub m hm)), if_pos (by
      simp only [List.all_eq_true]
      exact fun m hm => (PyDict.get?_isSome _ _).2 (hk.coordinates m hm))]
  unfold Kpoints.setPath
  simp only [e, e']

/-- C45: a new point has the coordinates and the label asked for, the others keep theirs; a name
in use is refused. -/
theorem C45_add (k : Kpoints) (name : String) (coordinate : Vec ℝ) (label : Option String)
    (relative : Bool) (hr : relative = false → k.rcell.det ≠ 0) :
    (name ∈ k.hsNames →
      k.add name coordinate label relative = (k, .error .valueError)) ∧
    (name ∉ k.hsNames → ∃ k', k.add name coordinate label relative = (k', .ok ()) ∧
      k'.hsNames = k.hsNames ++ [name] ∧ k'.path = k.path ∧ k'.rcell = k.rcell ∧ k'.n = k.n ∧
      (∃ v, k'.hsCoordinates.get? name = some v ∧
        (if relative then v else v ᵥ* k.rcell) = coordinate) ∧
      k'.hsLabels.get? name = some (label.getD name) ∧
      ∀ m, m ≠ name → k'.hsCoordinates.get? m = k.hsCoordinates.get? m ∧
        k'.hsLabels.get? m = k.hsLabels.get? m) := by
  constructor
  · intro h
    unfold Kpoints.add
    rw [if_pos h]
  · intro h
    unfold Kpoints.add
    rw [if_neg h]
    have rest : ∀ c m, m ≠ name → (k.hsCoordinates.setItem name c).get? m = k.hsCoordinates.get? m ∧
        (k.hsLabels.setItem name (label.getD name)).get? m = k.hsLabels.get? m := by
      intro c m hm
      rw [PyDict.get?_setItem, PyDict.get?_setItem, if_neg (Ne.symm hm), if_neg (Ne.symm hm)]
      exact ⟨rfl, rfl⟩
    cases relative with
    | true =>
      refine ⟨_, rfl, rfl, rfl, rfl, rfl, ⟨coordinate, ?_, rfl⟩, ?_, rest _⟩
      · simp [PyDict.get?_setItem]
      · simp [PyDict.get?_setItem]
    | false =>
      have hd := hr rfl
      have e : npInv k.rcell = .ok k.rcell⁻¹ := by simp [npInv, hd]
      simp only [Bool.false_eq_true, if_false, e, Except.map]
      refine ⟨_, rfl, rfl, rfl, rfl, rfl, ⟨vecMat coordinate k.rcell⁻¹, ?_, ?_⟩, ?_, rest _⟩
      · simp [PyDict.get?_setItem]
      · rw [vecMat_vecMul, vecMul_vecMul, nonsing_inv_mul _ (isUnit_iff_ne_zero.2 hd), vecMul_one]
      · simp [PyDict.get?_setItem]

/-- C45: removing a point of the path is accepted and leaves the object with a path that has an
undefined point (`points` then raises `KeyError`). -/
theorem C45_remove_breaks : ∃ k, Kpoints.init 1 [![0, 0, 0], ![1, 0, 0]] (some ["A", "B"]) none none
      5 = .ok k ∧ ∃ k', k.remove "B" = (k', .ok ()) ∧ ¬ PathDefined k' ∧
      ∀ rel, k'.points rel = .error .keyError := by
  refine ⟨{ rcell := 1, hsCoordinates := [("A", ![0, 0, 0]), ("B", ![1, 0, 0])],
            hsLabels := [("A", "A"), ("B", "B")], hsNames := ["A", "B"], n := 5,
            path := [["A", "B"]] }, ?_, ⟨1, [("A", ![0, 0, 0])], [("A", "A")], ["A"], 5,
            [["A", "B"]]⟩, rfl, ?_, ?_⟩
  · have e : getPathAsList (pyJoin "-" ["A", "B"]) = .ok [["A", "B"]] := by decide +kernel
    simp only [Kpoints.init, initLabels, initNames, List.length_cons, List.length_nil,
      ne_eq, not_true_eq_false, if_false, bind, Except.bind, Kpoints.setPath, Option.getD_none,
      pathOfArg, e]
    rfl
  · intro h
    obtain ⟨-, h⟩ := h ["A", "B"] (by simp)
    obtain ⟨⟨v, hv⟩, -⟩ := h "B" (by simp)
    simp [PyDict.get?] at hv
  · intro rel
    rfl

/-- C45: repeated names are accepted by the constructor; then removing one of them leaves a name
without coordinates, which is accepted in a path. -/
theorem C45_repeated : ∃ k, Kpoints.init 1 [![0, 0, 0], ![1, 0, 0], ![1, 1, 0]]
      (some ["A", "B", "B"]) none (some (.list [])) 5 = .ok k ∧
      ¬ PathDefined (k.after [.remove "B", .setPath (.list [["A", "B"]])]) ∧
      Careful k [.remove "B", .setPath (.list [["A", "B"]])] := by
  refine ⟨{ rcell := 1, hsCoordinates := [("A", ![0, 0, 0]), ("B", ![1, 1, 0])],
            hsLabels := [("A", "A"), ("B", "B")], hsNames := ["A", "B", "B"], n := 5,
            path := [] }, ?_, ?_, ?_⟩
  · rfl
  · intro h
    obtain ⟨-, h⟩ := h ["A", "B"] (by simp [Kpoints.after, Kpoints.change, Kpoints.remove,
      PyDict.delItem, PyDict.get?, PyDict.erase, Kpoints.setPath, pathOfArg, checkPath])
    obtain ⟨⟨v, hv⟩, -⟩ := h "B" (by simp)
    simp [Kpoints.after, Kpoints.change, Kpoints.remove,
      PyDict.delItem, PyDict.get?, PyDict.erase, Kpoints.setPath, pathOfArg, checkPath] at hv
  · simp [Careful]

/-- C45: two objects made from one list of names share it: a point added to the first may then
be put on the path of the second, where it has no coordinates. -/
theorem C45_shared : ∃ k, Kpoints.init 1 [![0, 0, 0], ![1, 0, 0]] (some ["A", "B"]) none none
      5 = .ok k ∧ ∃ k1 k2, k.addShared k "C" ![0, 1, 0] none true = (k1, k2, .ok ()) ∧
      ∃ k3, k2.setPath (.list [["A", "C"]]) = (k3, .ok ()) ∧ ¬ PathDefined k3 := by
  refine ⟨{ rcell := 1, hsCoordinates := [("A", ![0, 0, 0]), ("B", ![1, 0, 0])],
            hsLabels := [("A", "A"), ("B", "B")], hsNames := ["A", "B"], n := 5,
            path := [["A", "B"]] }, ?_, _, _, rfl, _, rfl, ?_⟩
  · have e : getPathAsList (pyJoin "-" ["A", "B"]) = .ok [["A", "B"]] := by decide +kernel
    simp only [Kpoints.init, initLabels, initNames, List.length_cons, List.length_nil,
      ne_eq, not_true_eq_false, if_false, bind, Except.bind, Kpoints.setPath, Option.getD_none,
      pathOfArg, e]
    rfl
  · intro h
    obtain ⟨-, h⟩ := h ["A", "C"] (by simp)
    obtain ⟨⟨v, hv⟩, -⟩ := h "C" (by simp)
    simp [PyDict.get?] at hv

/-- C45: without points, or with a single one, the default path is rejected, so the object cannot
be created without giving a path. -/
theorem C45_few_points (rcell : Cell ℝ) (n : ℤ) (c : Vec ℝ) :
    Kpoints.init rcell [] none none none n = .error .valueError ∧
    Kpoints.init rcell [c] none none none n = .error .valueError := by
  constructor
  · have e : getPathAsList "" = .error .valueError := C42_empty.2
    simp only [Kpoints.init, initLabels, initNames, List.length_nil, List.range_zero,
      List.map_nil, bind, Except.bind, Kpoints.setPath, Option.getD_none, pathOfArg, pyJoin, e]
  · have e : getPathAsList (pyJoin "-" ((List.range 1).map fun i : ℕ => "K" ++ Nat.repr (i + 1))) =
        .error .valueError := by decide +kernel
    simp only [Kpoints.init, initLabels, initNames, List.length_cons, List.length_nil, zero_add,
      bind, Except.bind, Kpoints.setPath, Option.getD_none, pathOfArg, e]

section
variable (lower : String → String) (hl : lower "HPKOT" = "hpkot") (hl' : lower "SC" = "sc")
  (getData : Cell ℝ → Atoms ℝ → Except Err SpglibData)
  (niggli : Cell ℝ → Except Err (Cell ℝ)) (cell : Cell ℝ) (atoms : Atoms ℝ)
  (given : Option SpglibData) (data : SpglibData)
  (hd : given = some data ∨ (given = none ∧ getData cell atoms = .ok data))
  (hn : 1 ≤ data.spaceGroupNumber ∧ data.spaceGroupNumber ≤ 230)
  (hf : data.crystalFamily = family data.spaceGroupNumber)
  (hc : data.centringType = centring data.spaceGroupNumber)
  (htol : data.angleTolerance = -1 ∨ 0 ≤ data.angleTolerance) (convention : String)
include hl hl' hd hn hf hc htol

/-- C45: from a crystal the object is created whenever the path and points can be computed and
the cell is not singular; its points, labels, path and reciprocal cell are the recommended ones,
every name is distinct and every point of the path is defined. -/
theorem C45_from_crystal (t : Bool) (n : ℤ) (path : String) (pts : PyDict String (Vec ℝ))
    (h : getPathAndPoints lower getData niggli cell atoms given convention t true = .ok (path, pts))
    (r : Cell ℝ) (hr : getReciprocal cell = .ok r) :
    ∃ k, Kpoints.fromCrystal lower getData niggli cell atoms convention t n given = .ok k ∧
      k.rcell = r ∧ k.n = n ∧ k.hsCoordinates = pts ∧ k.hsNames = pts.keys ∧ k.hsNames.Nodup ∧
      getPathAsList path = .ok k.path ∧ PathDefined k ∧
      ∀ m ∈ k.hsNames, k.hsLabels.get? m = hsPlotNames.get? m := by
  obtain ⟨p, hp, hpl, -⟩ := C43_plottable_partial lower hl hl' getData niggli cell atoms given data hd hn
    hf hc htol convention path pts t true h
  have hlab : ∃ ls, (pts.keys.mapM fun name => hsPlotNames.getItem name) = .ok ls ∧
      ls.length = pts.keys.length ∧ ∀ m ∈ pts.keys,
        PyDict.get? (pts.keys.zip ls) m = hsPlotNames.get? m := by
    have := hpl.labelled
    generalize pts.keys = ks at this
    induction ks with
    | nil => exact ⟨[], rfl, rfl, by simp⟩
    | cons a ks ih =>
      obtain ⟨ls, i1, i2, i3⟩ := ih fun m hm => this m (List.mem_cons_of_mem _ hm)
      obtain ⟨l, hl⟩ := this a (by simp)
      refine ⟨l :: ls, ?_, by simp [i2], ?_⟩
      · rw [List.mapM_cons]
        simp only [getItem_some hl, i1, bind, Except.bind, pure, Except.pure]
      · intro m hm
        simp only [List.zip_cons_cons, PyDict.get?]
        split_ifs with q
        · rw [← q, hl]
        · exact i3 m ((List.mem_cons.1 hm).resolve_left (Ne.symm q))
  obtain ⟨ls, hls, hlen, hget⟩ := hlab
  have e0 : (pts.map Prod.snd).length = pts.keys.length := by simp [PyDict.keys]
  have ez : pts.keys.zip (pts.map Prod.snd) = pts := by
    unfold PyDict.keys
    exact (List.zip_of_prod rfl rfl).symm
  have hz : pyDict (pts.keys.zip (pts.map Prod.snd)) = pts := by
    rw [ez]
    exact pyDict_nodup _ hpl.nodup
  have hz' : pyDict (pts.keys.zip ls) = pts.keys.zip ls :=
    pyDict_nodup _ (by rw [List.map_fst_zip (by omega)]; exact hpl.nodup)
  have hcheck : checkPath pts.keys pts p = .ok () := checkPath_ok_iff.2 hpl.defined
  refine ⟨{ rcell := r, hsCoordinates := pts, hsLabels := pts.keys.zip ls, hsNames := pts.keys,
            n := n, path := p }, ?_, rfl, rfl, rfl, rfl, hpl.nodup, hp, ?_, hget⟩
  · unfold Kpoints.fromCrystal
    simp only [h, hls, hr, bind, Except.bind]
    unfold Kpoints.init
    simp only [initLabels, initNames, hlen, e0, ne_eq, not_true_eq_false, if_false, bind,
      Except.bind, Kpoints.setPath, Option.getD_some, pathOfArg, hp, hz, hz', hcheck, pure,
      Except.pure]
  · intro sub hsub
    refine ⟨((C42_string_list_string path p hp).2.2 sub hsub).1, fun m hm => ?_⟩
    have hm' := hpl.defined sub hsub m hm
    obtain ⟨l, hl⟩ := hpl.labelled m hm'
    refine ⟨?_, l, by rw [← hl]; exact hget m hm'⟩
    rw [← PyDict.get?_isSome, Option.isSome_iff_exists] at hm'
    exact hm'

end

/-- C45: convention "spglib", offered by the documentation, is not supported. -/
theorem C45_spglib (lower : String → String) (getData : Cell ℝ → Atoms ℝ → Except Err SpglibData)
    (niggli : Cell ℝ → Except Err (Cell ℝ)) (cell : Cell ℝ) (atoms : Atoms ℝ)
    (given : Option SpglibData) (convention : String) (hc : lower convention = "spglib")
    (t : Bool) (n : ℤ) (k : Kpoints) :
    Kpoints.fromCrystal lower getData niggli cell atoms convention t n given ≠ .ok k := by
  intro h
  have key : ∀ r, getPathAndPoints lower getData niggli cell atoms given convention t true ≠
      .ok r := by
    intro r h
    unfold getPathAndPoints at h
    cases h1 : resolveData lower getData cell atoms given with
    | error _ => simp [h1, bind, Except.bind] at h
    | ok data =>
    simp only [h1, bind, Except.bind] at h
    cases h2 : getConventional lower getData niggli cell atoms convention (some data) with
    | error _ => simp [h2] at h
    | ok ca =>
    simp only [h2] at h
    cases h3 : getPrimitive lower getData niggli cell atoms convention (some data) with
    | error _ => simp [h3] at h
    | ok pa =>
    simp [h3, pathAndRawPoints, hc] at h
  unfold Kpoints.fromCrystal at h
  cases h1 : getPathAndPoints lower getData niggli cell atoms given convention t true with
  | error _ => simp [h1, bind, Except.bind] at h
  | ok r => exact key r h1

/-- The hypotheses are met. -/
example : ∃ k, Kpoints.init 1 [![0, 0, 0], ![1, 0, 0]] none none none 5 = .ok k ∧
    Careful k [.add "C" ![0, 1, 0] none true, .remove "C", .setPath (.list [["K2", "K1"]])] := by
  have e : getPathAsList (pyJoin "-" ((List.range 2).map fun i : ℕ => "K" ++ Nat.repr (i + 1))) =
        .ok [["K1", "K2"]] := by decide +kernel
  refine ⟨{ rcell := 1, hsCoordinates := [("K1", ![0, 0, 0]), ("K2", ![1, 0, 0])],
            hsLabels := [("K1", "K$_1$"), ("K2", "K$_2$")], hsNames := ["K1", "K2"], n := 5,
            path := [["K1", "K2"]] }, ?_, ?_⟩
  · simp only [Kpoints.init, initLabels, initNames, List.length_cons, List.length_nil, zero_add,
      bind, Except.bind, Kpoints.setPath, Option.getD_none, pathOfArg, e]
    rfl
  · simp [Careful, Kpoints.change, Kpoints.add]

end Wulfric
