import Verif.Lemmas.Plot
import Verif.Props.C02_Reciprocal
import Verif.Props.C19_LatticePoints
import Verif.Props.C21_VoronoiEdges
import Mathlib.Tactic.FinCases
import Mathlib.Tactic.NormNum

/-!
# C64: a figure shows what it was asked to show

`PlotlyEngine`: every method adds traces of the requested object to the requested subplot and
leaves the rest of the figure alone.
-/

namespace Wulfric
open Matrix _root_.Spec

/-- C64: a method only adds traces; they are in its own subplot and its own group of the legend,
and the ranges of the other subplots stay. -/
theorem C64_only_adds (lib : PlotLib) (e : Engine) (s : Style) (c : PlotCall) :
    ∃ ts, (e.call lib s c).1.traces = e.traces ++ ts ∧
      (∀ t ∈ ts, t.place = s.place ∧ t.group = s.group) ∧
      ∀ place, place ≠ s.place →
        (e.call lib s c).1.ranges.get? place = e.ranges.get? place := by
  obtain ⟨ts, cs, hd, hf, -⟩ := call_draws lib e s c
  refine ⟨ts, hd.traces, fun t ht => ⟨hf.place t ht, hf.group t ht⟩, fun place hp => ?_⟩
  rw [hd.ranges]
  clear hd hf
  induction cs generalizing e with
  | nil => rfl
  | cons ps cs ih =>
    rw [List.foldl_cons, ih { e with ranges := coverRanges s.place e.ranges ps }]
    unfold coverRanges
    simp only
    split
    · rw [PyDict.get?_setItem, if_neg (Ne.symm hp)]
    · rw [PyDict.get?_setItem, if_neg (Ne.symm hp)]

/-- C64: nothing drawn earlier in a session is lost. -/
theorem C64_session (lib : PlotLib) (calls : List (Style × PlotCall)) : ∀ e : Engine,
    ∃ ts, (e.session lib calls).traces = e.traces ++ ts := by
  induction calls with
  | nil => intro e; exact ⟨[], by simp [Engine.session]⟩
  | cons c calls ih =>
    intro e
    obtain ⟨ts, h, -⟩ := C64_only_adds lib e c.1 c.2
    obtain ⟨us, h'⟩ := ih (e.call lib c.1 c.2).1
    refine ⟨ts ++ us, ?_⟩
    have : e.session lib (c :: calls) = (e.call lib c.1 c.2).1.session lib calls := rfl
    rw [this, h', h, List.append_assoc]

theorem lineTraces_facts (s : Style) (lines : List (Vec ℝ × Vec ℝ)) : ∀ label,
    (lineTraces s label lines).map Trace.points = lines.map (fun p => [p.1, p.2]) ∧
      (∀ t ∈ lineTraces s label lines, t.kind = .lines) ∧
      legendEntries (lineTraces s label lines) =
        if label.isSome ∧ lines ≠ [] then 1 else 0 := by
  induction lines with
  | nil => intro label; simp [lineTraces, legendEntries]
  | cons p lines ih =>
    intro label
    obtain ⟨h1, h2, h3⟩ := ih none
    refine ⟨by simp [lineTraces, Style.trace, h1], ?_, ?_⟩
    · intro t ht
      rcases List.mem_cons.1 ht with rfl | ht
      · rfl
      · exact h2 t ht
    · unfold legendEntries at h3 ⊢
      rw [lineTraces, List.countP_cons, h3]
      cases label <;> simp [Style.trace]

/-- The drawn lattice vectors: three arrows with their heads, which point along them, and labels
beyond their tips. -/
def ShowsVectors (ts : List Trace) (cell : Cell ℝ) (shift : Vec ℝ) (name : String) : Prop :=
  (ts.filter fun t => t.kind = .lines).map Trace.points =
      [0, 1, 2].map (fun i : Fin 3 => [shift, shift + cell i]) ∧
    (ts.filter fun t => t.kind = .cone).map Trace.points =
      [0, 1, 2].map (fun i : Fin 3 => [shift + cell i]) ∧
    (ts.filter fun t => t.kind = .text).map Trace.text =
      [[name ++ "1"], [name ++ "2"], [name ++ "3"]] ∧
    (∃ k : ℝ, 0 < k ∧ (ts.filter fun t => t.kind = .cone).map Trace.direction =
      [0, 1, 2].map (fun i : Fin 3 => k • cell i)) ∧
    (∃ k : ℝ, 1 < k ∧ (ts.filter fun t => t.kind = .text).map Trace.points =
      [0, 1, 2].map (fun i : Fin 3 => [shift + k • cell i])) ∧
    ts.length = 9 ∧ ∀ t ∈ ts, t.inLegend = false

theorem vectorsTraces_shows (s : Style) (cell : Cell ℝ) (shift : Vec ℝ) (name : String) :
    ShowsVectors (vectorsTraces s cell shift name) cell shift name := by
  refine ⟨?_, ?_, ?_, ⟨4 / 10, by norm_num, ?_⟩, ⟨12 / 10, by norm_num, ?_⟩, ?_, ?_⟩
  · simp [vectorsTraces, vectorTraces, Style.trace]
  · simp [vectorsTraces, vectorTraces, Style.trace]
  · simp only [vectorsTraces, vectorTraces, Style.trace]
    simp
    decide
  · simp [vectorsTraces, vectorTraces, Style.trace]
    refine ⟨?_, ?_, ?_⟩ <;> funext j <;> simp
  · simp [vectorsTraces, vectorTraces, Style.trace]
    refine ⟨?_, ?_, ?_⟩ <;> funext j <;> simp [labelPosition, add_comm]
  · simp [vectorsTraces, vectorTraces]
  · simp [vectorsTraces, vectorTraces, Style.trace]

/-- C64: `plot_vector` draws the segment between the two points and a head at the second one, along
the vector; a label, if any, stands on the line beyond the tip. -/
theorem C64_vector (lib : PlotLib) (e : Engine) (s : Style) (start stop : Vec ℝ)
    (l : Option String) :
    ∃ line head labels, ∃ k k' : ℝ, (e.call lib s (.vector start stop l)).1.traces =
        e.traces ++ ([line, head] ++ labels) ∧
      (e.call lib s (.vector start stop l)).2 = .ok () ∧
      line.kind = .lines ∧ line.points = [start, stop] ∧
      head.kind = .cone ∧ head.points = [stop] ∧ 0 < k ∧ head.direction = k • (stop - start) ∧
      1 < k' ∧ labels.map (fun t => (t.kind, t.text, t.points)) =
        l.toList.map fun t => (.text, [t], [start + k' • (stop - start)]) := by
  refine ⟨_, _, _, 4 / 10, 12 / 10, (plotVector_draws e s start stop l).traces, rfl, rfl, rfl, rfl, rfl,
    by norm_num, ?_, by norm_num, ?_⟩
  · funext j
    simp
  · cases l with
    | none => rfl
    | some t =>
      simp only [List.map_cons, List.map_nil, Option.toList_some, Style.trace, List.cons.injEq,
        Prod.mk.injEq, true_and, and_true]
      funext j
      simp [labelPosition, add_comm]

theorem perm_twelve {α : Type*} (a0 a1 a2 a3 a4 a5 a6 a7 a8 a9 a10 a11 : α) :
    [a0, a1, a2, a3, a4, a5, a6, a7, a8, a9, a10, a11].Perm
      [a0, a9, a6, a7, a4, a1, a10, a11, a8, a5, a2, a3] :=
  List.Perm.map ![a0, a1, a2, a3, a4, a5, a6, a7, a8, a9, a10, a11]
    (by decide : ([0, 1, 2, 3, 4, 5, 6, 7, 8, 9, 10, 11] : List (Fin 12)).Perm
      [0, 9, 6, 7, 4, 1, 10, 11, 8, 5, 2, 3])

theorem borders_perm (cell : Cell ℝ) (shift : Vec ℝ) :
    ([0, 1, 2].flatMap (borderLines cell shift)).Perm (boxEdges shift cell) := by
  have h2 : boxEdges shift cell = [
        (shift, shift + cell 0),
        (shift + cell 2, shift + cell 2 + cell 0),
        (shift + cell 1, shift + cell 1 + cell 0),
        (shift + cell 1 + cell 2, shift + cell 1 + cell 2 + cell 0),
        (shift, shift + cell 1),
        (shift + cell 0, shift + cell 0 + cell 1),
        (shift + cell 2, shift + cell 2 + cell 1),
        (shift + cell 2 + cell 0, shift + cell 2 + cell 0 + cell 1),
        (shift, shift + cell 2),
        (shift + cell 1, shift + cell 1 + cell 2),
        (shift + cell 0, shift + cell 0 + cell 2),
        (shift + cell 0 + cell 1, shift + cell 0 + cell 1 + cell 2)] := by
    unfold boxEdges
    simp only [List.flatMap_cons, List.flatMap_nil, List.map_cons, List.map_nil, List.append_nil,
      List.cons_append, List.nil_append]
    have e (p q : Vec ℝ × Vec ℝ) (h : ∀ j, p.1 j = q.1 j) (h' : ∀ j, p.2 j = q.2 j) : p = q :=
      Prod.ext (funext h) (funext h')
    repeat' apply congrArg₂ List.cons
    all_goals first
      | rfl
      | (apply e <;> intro j <;> simp)
  rw [h2]
  exact perm_twelve _ _ _ _ _ _ _ _ _ _ _ _

/-- C64: `plot_cell` draws the twelve edges of the cell, each one once, and the lattice vectors if
asked to. -/
theorem C64_cell (lib : PlotLib) (e : Engine) (s : Style) (cell : Cell ℝ) (shift : Vec ℝ)
    (v : Bool) (name : String) :
    ∃ vectors lines, (e.call lib s (.cell cell shift v name)).1.traces =
        e.traces ++ (vectors ++ lines) ∧
      (e.call lib s (.cell cell shift v name)).2 = .ok () ∧
      (if v then ShowsVectors vectors cell shift name else vectors = []) ∧
      (∀ t ∈ lines, t.kind = .lines) ∧
      (lines.map Trace.points).Perm ((boxEdges shift cell).map fun p => [p.1, p.2]) := by
  have h := plotCell_draws e s cell shift v name
  obtain ⟨h1, h2, -⟩ := lineTraces_facts s ([0, 1, 2].flatMap (borderLines cell shift)) s.label
  refine ⟨_, _, h.traces, rfl, ?_, h2, ?_⟩
  · cases v with
    | true => exact vectorsTraces_shows s cell shift name
    | false => rfl
  · rw [h1]
    exact (borders_perm cell shift).map _

/-- C64: `plot_wigner_seitz_cell` draws one line per edge of the cell that
`get_wigner_seitz_cell` returns, moved by `shift`; it raises exactly if that function does. -/
theorem C64_wigner_seitz (lib : PlotLib) (horder : ∀ l, (lib.order l).Perm l) (e : Engine)
    (s : Style) (cell : Cell ℝ) (shift : Vec ℝ) (v : Bool) (name : String) :
    (∀ vertices edges, getWignerSeitzCell lib cell = .ok (vertices, edges) →
      (e.call lib s (.wignerSeitz cell shift v name)).2 = .ok () ∧
      ∃ vectors lines, (e.call lib s (.wignerSeitz cell shift v name)).1.traces =
          e.traces ++ (vectors ++ lines) ∧
        (if v then ShowsVectors vectors cell shift name else vectors = []) ∧
        List.Forall₂ (fun (t : Trace) (edge : ℕ × ℕ) => t.kind = .lines ∧
          ∃ p q, vertices[edge.1]? = some p ∧ vertices[edge.2]? = some q ∧
            t.points = [fun j => shift j + p j, fun j => shift j + q j]) lines edges) ∧
    (∀ err, getWignerSeitzCell lib cell = .error err →
      (e.call lib s (.wignerSeitz cell shift v name)).2 = .error err) := by
  obtain ⟨lines, hd, hok, hin⟩ := ws_draws lib e s cell shift v name
  constructor
  · intro vertices edges h
    have hwf : ∀ ed ∈ edges, ed.1 < vertices.length ∧ ed.2 < vertices.length := by
      unfold getWignerSeitzCell at h
      cases hl : getLatticePoints cell (fun _ => 10) with
      | nested l => rw [hl] at h; simp at h
      | flat l =>
        rw [hl] at h
        simp only [bind, Except.bind] at h
        cases hv : lib.voronoi l with
        | error err => rw [hv] at h; simp at h
        | ok vor =>
          rw [hv] at h
          obtain ⟨ids, -, -, -, h4, -⟩ := C21_wellformed lib.order horder _ vor vertices edges h
          exact h4
    have ho := hin vertices edges h hwf
    refine ⟨ho, _, _, hd.traces, ?_, ?_⟩
    · cases v with
      | true => exact vectorsTraces_shows s cell shift name
      | false => rfl
    · obtain ⟨v', e', h', hm⟩ := hok ho
      rw [h] at h'
      simp only [Except.ok.injEq, Prod.mk.injEq] at h'
      obtain ⟨rfl, rfl⟩ := h'
      clear hd hok hin ho h hwf
      generalize s.label = label
      induction lines generalizing edges label with
      | nil =>
        cases edges with
        | nil => exact .nil
        | cons _ _ => simp at hm
      | cons p lines ih =>
        cases edges with
        | nil => simp at hm
        | cons ed edges =>
          simp only [List.map_cons, List.cons.injEq] at hm
          obtain ⟨h1, h2⟩ := hm
          refine .cons ⟨rfl, ?_⟩ (ih edges h2 none)
          cases hp : vertices[ed.1]? with
          | none => rw [hp] at h1; simp at h1
          | some a =>
            cases hq : vertices[ed.2]? with
            | none => rw [hp, hq] at h1; simp at h1
            | some b =>
              rw [hp, hq] at h1
              simp only [Option.bind_some, Option.map_some, Option.some.injEq] at h1
              exact ⟨a, b, rfl, rfl, by rw [h1]; rfl⟩
  · intro err h
    simp only [Engine.call, Engine.plotWignerSeitz, h]

/-- C64: `plot_brillouin_zone` draws the Wigner-Seitz cell of the dual lattice
(`bᵢ · aⱼ = 2π δᵢⱼ`); for a singular cell it raises and draws nothing. -/
theorem C64_brillouin_zone (lib : PlotLib) (e : Engine) (s : Style) (cell : Cell ℝ)
    (shift : Vec ℝ) (v : Bool) (name : String) :
    (cell.det ≠ 0 → ∃ r : Cell ℝ, IsDual r cell ∧
      e.call lib s (.brillouinZone cell shift v name) =
        e.call lib s (.wignerSeitz r shift v name)) ∧
    (cell.det = 0 → (∃ err, (e.call lib s (.brillouinZone cell shift v name)).2 = .error err) ∧
      (e.call lib s (.brillouinZone cell shift v name)).1 = e) := by
  constructor
  · intro h
    obtain ⟨r, hr, hd, -⟩ := C02_dual_unique cell h
    exact ⟨r, hd, by simp only [Engine.call, Engine.plotBrillouinZone, hr]⟩
  · intro h
    obtain ⟨err, he⟩ := (C02_error_iff cell).2 h
    exact ⟨⟨err, by simp only [Engine.call, Engine.plotBrillouinZone, he]⟩,
      by simp only [Engine.call, Engine.plotBrillouinZone, he]⟩

/-- The Cartesian position of a named point: `shift` plus its coordinates in the reciprocal
cell. -/
def AtPoint (k : Kpoints) (shift : Vec ℝ) (name : String) (p : Vec ℝ) : Prop :=
  ∃ c, k.hsCoordinates.get? name = some c ∧ ∀ j, p j = shift j + ∑ i, c i * k.rcell i j

theorem atPoint_of (k : Kpoints) (shift : Vec ℝ) (name : String) (p : Vec ℝ)
    (h : (k.hsCoordinates.getItem name).map (fun c => shift + vecMat c k.rcell) = .ok p) :
    AtPoint k shift name p := by
  unfold PyDict.getItem at h
  cases hc : k.hsCoordinates.get? name with
  | none => rw [hc] at h; simp [Except.map] at h
  | some c =>
    rw [hc] at h
    simp only [Except.map, Except.ok.injEq] at h
    refine ⟨c, hc, fun j => ?_⟩
    rw [← h, Fin.sum_univ_three]
    rfl

theorem forall₂_comp {α β γ : Type*} {R : α → β → Prop} {S : β → γ → Prop} {T : α → γ → Prop}
    {as : List α} {bs : List β} {cs : List γ} (h : List.Forall₂ R as bs)
    (h' : List.Forall₂ S bs cs) (hT : ∀ a b c, R a b → S b c → T a c) : List.Forall₂ T as cs := by
  induction h generalizing cs with
  | nil => cases h'; exact .nil
  | cons h1 _ ih =>
    cases h' with
    | cons h2 h3 => exact .cons (hT _ _ _ h1 h2) (ih h3)

theorem forall₂_mem_right {α β : Type*} {R : α → β → Prop} {as : List α} {bs : List β}
    (h : List.Forall₂ R as bs) : List.Forall₂ (fun a b => R a b ∧ b ∈ bs) as bs := by
  induction h with
  | nil => exact .nil
  | cons h1 _ ih =>
    exact .cons ⟨h1, by simp⟩ (ih.imp fun a b h => ⟨h.1, List.mem_cons_of_mem _ h.2⟩)

/-- C64: `plot_kpath` draws one line per sub-path, through its points in their order. -/
theorem C64_kpath (lib : PlotLib) (e : Engine) (s : Style) (k : Kpoints) (shift : Vec ℝ)
    (hne : k.path ≠ [])
    (hpath : ∀ sub ∈ k.path, sub ≠ [] ∧ ∀ m ∈ sub, ∃ c, k.hsCoordinates.get? m = some c) :
    (e.call lib s (.kpath k shift)).2 = .ok () ∧
    ∃ ts, (e.call lib s (.kpath k shift)).1.traces = e.traces ++ ts ∧
      List.Forall₂ (fun (t : Trace) (sub : List String) => t.kind = .lines ∧
        List.Forall₂ (fun p name => AtPoint k shift name p) t.points sub) ts k.path := by
  obtain ⟨ps, cs, -, hd, h⟩ := plotKpath_draws e s k shift
  have hsub : ∀ sub : List String, (∀ m ∈ sub, ∃ c, k.hsCoordinates.get? m = some c) →
      ∃ l, kpathPoints k shift sub = .ok l := by
    intro sub hs
    apply mapM_ok_of_forall
    intro m hm
    obtain ⟨c, hc⟩ := hs m hm
    exact ⟨_, by unfold PyDict.getItem; rw [hc]; rfl⟩
  have hok := plotKpath_ok e s k shift hne fun sub hs => by
    obtain ⟨l, hl⟩ := hsub sub (hpath sub hs).2
    have := (mapM_forall₂ hl).length_eq
    cases l with
    | nil => exact absurd (List.length_eq_zero_iff.1 this) (hpath sub hs).1
    | cons p ps => exact ⟨p, ps, hl⟩
  have hm : k.path.mapM (kpathPoints k shift) = .ok ps := by
    rcases h with ⟨-, h, -⟩ | ⟨-, -, -, hm⟩
    · exact absurd hok (h ())
    · exact hm
  refine ⟨hok, _, hd.traces, ?_⟩
  have hf := mapM_forall₂ hm
  have hk : List.Forall₂ (fun (t : Trace) (p : List (Vec ℝ)) => t.kind = .lines ∧ t.points = p)
      (pathTraces s ps) ps := by
    cases ps with
    | nil => exact .nil
    | cons p ps =>
      refine .cons ⟨rfl, rfl⟩ ?_
      rw [List.forall₂_map_left_iff]
      exact List.forall₂_same.2 fun x _ => ⟨rfl, rfl⟩
  exact forall₂_comp hk hf.flip fun t p sub ht hp => by
    refine ⟨ht.1, ?_⟩
    rw [ht.2]
    exact (mapM_forall₂ hp).flip.imp fun p name h => atPoint_of k shift name p h

/-- C64: `plot_kpath` raises, and draws nothing, for an empty path. -/
theorem C64_kpath_empty (lib : PlotLib) (e : Engine) (s : Style) (k : Kpoints) (shift : Vec ℝ)
    (h : k.path = []) : e.call lib s (.kpath k shift) = (e, .error .unboundLocal) := by
  simp only [Engine.call, Engine.plotKpath, h, Engine.plotSubpaths]

/-- C64: `plot_kpoints` draws a marker with its name for every point, or for every point on the
path. -/
theorem C64_kpoints (lib : PlotLib) (e : Engine) (s : Style) (k : Kpoints) (shift : Vec ℝ)
    (onlyPath : Bool) (names : List String)
    (hnames : names = if onlyPath then k.hsNames.filter (fun m => ∃ sub ∈ k.path, m ∈ sub)
      else k.hsNames) (hne : names ≠ [])
    (hdef : ∀ m ∈ names, (∃ c, k.hsCoordinates.get? m = some c) ∧ ∃ l, k.hsLabels.get? m = some l) :
    (e.call lib s (.kpoints k shift onlyPath)).2 = .ok () ∧
    ∃ t, (e.call lib s (.kpoints k shift onlyPath)).1.traces = e.traces ++ [t] ∧
      t.kind = .markersText ∧ t.text = names ∧
      List.Forall₂ (fun p name => AtPoint k shift name p) t.points names := by
  have hn : shownNames k onlyPath = names := by
    rw [hnames]
    unfold shownNames
    cases onlyPath with
    | true => simp [List.mem_flatten]
    | false => simp
  have hp : ∀ m ∈ names, ∃ p, kpointPosition k shift m = .ok p ∧ AtPoint k shift m p := by
    intro m hm
    obtain ⟨⟨c, hc⟩, l, hl⟩ := hdef m hm
    have e1 : k.hsCoordinates.getItem m = .ok c := by unfold PyDict.getItem; rw [hc]
    have e2 : k.hsLabels.getItem m = .ok l := by unfold PyDict.getItem; rw [hl]
    refine ⟨shift + vecMat c k.rcell, ?_, atPoint_of k shift m _ (by rw [e1]; rfl)⟩
    unfold kpointPosition
    rw [e1, e2]
    rfl
  obtain ⟨l, hl⟩ := mapM_ok_of_forall fun m hm => (hp m hm).imp fun p h => h.1
  have hf := mapM_forall₂ hl
  simp only [Engine.call, Engine.plotKpoints, hn, hl]
  cases l with
  | nil => exact absurd (List.length_eq_zero_iff.1 hf.length_eq) hne
  | cons p ps =>
    refine ⟨rfl, _, (Draws.addCover s.place e _ _).traces, rfl, rfl, ?_⟩
    refine (forall₂_mem_right hf.flip).imp ?_
    rintro q name ⟨hq, hm⟩
    obtain ⟨p', h1, h2⟩ := hp name hm
    rw [h1] at hq
    exact Except.ok.inj hq ▸ h2

/-- C64: `plot_lattice` draws exactly the lattice points of the box, moved by `shift`; each one
once unless the cell is singular. -/
theorem C64_lattice (lib : PlotLib) (e : Engine) (s : Style) (cell : Cell ℝ) (range : Fin 3 → ℕ)
    (shift : Vec ℝ) :
    (e.call lib s (.lattice cell range shift)).2 = .ok () ∧
    ∃ t, (e.call lib s (.lattice cell range shift)).1.traces = e.traces ++ [t] ∧
      t.kind = .markers ∧
      (∀ p, p ∈ t.points ↔ ∃ n : Fin 3 → ℤ, (∀ i, |n i| ≤ range i) ∧
        ∀ j, p j = shift j + ∑ i, (n i : ℝ) * cell i j) ∧
      (cell.det ≠ 0 → t.points.Nodup) := by
  obtain ⟨l, hl, hlen, -⟩ := C19_flat cell range false
  have hmem : ∀ v, v ∈ l ↔ ∃ n : Fin 3 → ℤ, (∀ i, |n i| ≤ range i) ∧ v = specPoint cell false n := by
    intro v
    obtain ⟨l', hl', h⟩ := C19_mem cell range false v
    rw [hl] at hl'
    cases hl'
    exact h
  have hne : l.map (fun p => p + shift) ≠ [] := by
    intro h
    rw [List.map_eq_nil_iff] at h
    rw [h] at hlen
    simp at hlen
  simp only [Engine.call, Engine.plotLattice, hl, Engine.plotPoints, if_neg hne]
  refine ⟨trivial, _, (Draws.addCover s.place e _ _).traces, rfl, fun p => ?_, fun hd => ?_⟩
  · show p ∈ l.map (fun p => p + shift) ↔ _
    rw [List.mem_map]
    constructor
    · rintro ⟨v, hv, rfl⟩
      obtain ⟨n, hn, rfl⟩ := (hmem v).1 hv
      refine ⟨n, hn, fun j => ?_⟩
      simp [specPoint, Fin.sum_univ_three]
      ring
    · rintro ⟨n, hn, h⟩
      refine ⟨_, (hmem _).2 ⟨n, hn, rfl⟩, ?_⟩
      funext j
      rw [h j]
      simp [specPoint, Fin.sum_univ_three]
      ring
  · show (l.map (fun p => p + shift)).Nodup
    obtain ⟨l', hl', h⟩ := C19_nodup cell range false (.inr hd)
    rw [hl] at hl'
    cases hl'
    exact h.map fun a b h => add_right_cancel h

/-- C64: `plot_atoms`, if it returns, draws one marker per atom, at its place, with the names. -/
theorem C64_atoms (lib : PlotLib) (e : Engine) (s : Style) (cell : Cell ℝ) (atoms : Atoms ℝ)
    (colors : Option ColorArg) (shift : Vec ℝ)
    (h : (e.call lib s (.atoms cell atoms colors shift)).2 = .ok ()) :
    ∃ t positions, (e.call lib s (.atoms cell atoms colors shift)).1.traces = e.traces ++ [t] ∧
      t.kind = .markersText ∧ atoms.positions = some positions ∧
      t.points.length = positions.length ∧
      (∀ (i : ℕ) q, positions[i]? = some q → ∃ p, t.points[i]? = some p ∧
        ∀ j, p j = shift j + ∑ m, q m * cell m j) ∧
      (∀ names, atoms.names = some names → t.text = names) ∧
      (atoms.names = none → t.text.length = positions.length ∧
        ∀ i : ℕ, i < positions.length → t.text[i]? = some ("X" ++ Nat.repr (i + 1))) ∧
      (∀ c, colors = some c → t.color = c) := by
  simp only [Engine.call, Engine.plotAtoms] at h ⊢
  split at h
  · simp at h
  · simp at h
  · rename_i p ps hpos
    split at h
    · simp at h
    · rename_i c hc
      split at h
      · simp at h
      · rename_i tc htc
        simp only [hpos]
        refine ⟨_, p :: ps, (Draws.addCover s.place e _ _).traces, rfl, rfl, ?_, ?_, ?_, ?_, ?_⟩
        · simp [Style.trace]
        · intro i q hq
          refine ⟨vecMat q cell + shift, ?_, fun j => ?_⟩
          · show ((p :: ps).map fun q => vecMat q cell + shift)[i]? = _
            rw [List.getElem?_map, hq]
            rfl
          rw [Fin.sum_univ_three]
          simp [vecMat]
          ring
        · intro names hn
          simp [plotNames, hn]
        · intro hn
          refine ⟨by simp [plotNames, hn], fun i hi => ?_⟩
          simp only [plotNames, hn]
          rw [List.getElem?_map, List.getElem?_range hi]
          rfl
        · rintro d rfl
          simp only [plotColors, Except.ok.injEq] at hc
          exact hc.symm

theorem edges_ne_nil {V : Type*} (order : List (ℤ × ℤ) → List (ℤ × ℤ)) (centre : ℤ)
    (vor : VoronoiData V) (vs : List V) (edges : List (ℕ × ℕ))
    (h : voronoiCell order centre vor = .ok (vs, edges)) : edges ≠ [] := by
  unfold voronoiCell at h
  simp only at h
  split at h
  · simp at h
  · rename_i hne
    split at h
    · simp at h
    · simp only [Except.ok.injEq, Prod.mk.injEq] at h
      obtain ⟨-, rfl⟩ := h
      simpa using hne

theorem ws_legend (lib : PlotLib) (e : Engine) (s : Style) (cell : Cell ℝ) (shift : Vec ℝ)
    (v : Bool) (name : String) (h : (e.plotWignerSeitz lib s cell shift v name).2 = .ok ()) :
    ∃ ts, (e.plotWignerSeitz lib s cell shift v name).1.traces = e.traces ++ ts ∧
      legendEntries ts = if s.label.isSome then 1 else 0 := by
  obtain ⟨lines, hd, hok, -⟩ := ws_draws lib e s cell shift v name
  obtain ⟨vertices, edges, hw, hm⟩ := hok h
  have hne : lines ≠ [] := by
    rintro rfl
    have : edges ≠ [] := by
      unfold getWignerSeitzCell at hw
      cases hl : getLatticePoints cell (fun _ => 10) with
      | nested l => rw [hl] at hw; simp at hw
      | flat l =>
        rw [hl] at hw
        simp only [bind, Except.bind] at hw
        cases hv : lib.voronoi l with
        | error err => rw [hv] at hw; simp at hw
        | ok vor => rw [hv] at hw; exact edges_ne_nil _ _ _ _ _ hw
    exact this (by simpa using hm.symm)
  refine ⟨_, hd.traces, ?_⟩
  obtain ⟨-, -, h3⟩ := lineTraces_facts s lines s.label
  unfold legendEntries at h3 ⊢
  rw [List.countP_append, h3]
  have h0 : List.countP Trace.inLegend (if v = true then vectorsTraces s cell shift name else []) = 0 := by
    cases v with
    | true =>
      rw [List.countP_eq_zero]
      intro t ht
      simpa using (vectorsTraces_shows s cell shift name).2.2.2.2.2.2 t ht
    | false => rfl
  rw [h0]
  simp [hne]

/-- C64: a call that returns adds exactly one entry to the legend if it is given a label, and none
otherwise. -/
theorem C64_legend (lib : PlotLib) (e : Engine) (s : Style) (c : PlotCall)
    (h : (e.call lib s c).2 = .ok ()) :
    ∃ ts, (e.call lib s c).1.traces = e.traces ++ ts ∧
      (ts.filter Trace.inLegend).length = if s.label.isSome then 1 else 0 := by
  simp only [← List.countP_eq_length_filter]
  have one (t : Trace) (ht : t.inLegend = s.label.isSome) :
      List.countP Trace.inLegend [t] = if s.label.isSome then 1 else 0 := by
    rw [List.countP_singleton, ht]
  cases c with
  | points ps =>
    simp only [Engine.call, Engine.plotPoints] at h ⊢
    split at h
    · simp at h
    · rename_i hp
      rw [if_neg hp]
      exact ⟨_, (Draws.addCover s.place e _ _).traces, one _ rfl⟩
  | line a b => exact ⟨_, (plotLine_draws e s a b).traces, one _ rfl⟩
  | vector a b l =>
    simp only [Engine.call]
    refine ⟨_, (plotVector_draws e s a b l).traces, ?_⟩
    cases l <;> simp [vectorTraces, Style.trace, List.countP_cons]
  | cell c shift v l =>
    simp only [Engine.call]
    refine ⟨_, (plotCell_draws e s c shift v l).traces, ?_⟩
    obtain ⟨-, -, h3⟩ := lineTraces_facts s ([0, 1, 2].flatMap (borderLines c shift)) s.label
    unfold legendEntries at h3
    rw [List.countP_append, h3]
    have h0 : List.countP Trace.inLegend (if v = true then vectorsTraces s c shift l else []) = 0 := by
      cases v with
      | true =>
        rw [List.countP_eq_zero]
        intro t ht
        simpa using (vectorsTraces_shows s c shift l).2.2.2.2.2.2 t ht
      | false => rfl
    rw [h0]
    simp [borderLines]
  | wignerSeitz c shift v l => exact ws_legend lib e s c shift v l h
  | brillouinZone c shift v l =>
    simp only [Engine.call, Engine.plotBrillouinZone] at h ⊢
    cases hr : getReciprocal c with
    | error err => rw [hr] at h; simp at h
    | ok r => rw [hr] at h; exact ws_legend lib e s r shift v l h
  | kpath k shift =>
    obtain ⟨ps, cs, -, hd, h'⟩ := plotKpath_draws e s k shift
    refine ⟨_, hd.traces, ?_⟩
    rcases h' with ⟨-, h', -⟩ | ⟨h', -⟩
    · exact absurd h (h' ())
    · cases ps with
      | nil => exact absurd rfl h'
      | cons p ps =>
        have h0 : List.countP Trace.inLegend
            (ps.map (Style.trace { s with label := none } .lines)) = 0 := by
          rw [List.countP_eq_zero]
          intro t ht
          obtain ⟨q, -, rfl⟩ := List.mem_map.1 ht
          simp [Style.trace]
        show List.countP Trace.inLegend (_ :: _) = _
        rw [List.countP_cons, h0]
        cases hs : s.label <;> simp [Style.trace, hs]
  | kpoints k shift o =>
    simp only [Engine.call, Engine.plotKpoints] at h ⊢
    split at h
    · simp at h
    · simp at h
    · exact ⟨_, (Draws.addCover s.place e _ _).traces, one _ rfl⟩
  | lattice c r shift =>
    simp only [Engine.call, Engine.plotLattice] at h ⊢
    split at h
    · simp at h
    · simp only [Engine.plotPoints] at h ⊢
      split at h
      · simp at h
      · rename_i hne
        rw [if_neg hne]
        exact ⟨_, (Draws.addCover s.place e _ _).traces, one _ rfl⟩
  | atoms c a colors shift =>
    simp only [Engine.call, Engine.plotAtoms] at h ⊢
    split at h
    · simp at h
    · simp at h
    · rename_i p ps hpos
      split at h
      · simp at h
      · rename_i cl hc
        split at h
        · simp at h
        · rename_i tc htc
          exact ⟨_, (Draws.addCover s.place e _ _).traces, one _ rfl⟩

/-- C64: `plot_points` of no points raises and draws nothing. -/
theorem C64_no_points (lib : PlotLib) (e : Engine) (s : Style) :
    e.call lib s (.points []) = (e, .error .indexError) := by
  simp [Engine.call, Engine.plotPoints]

/-! ### Non-vacuity -/

/-- A library without SciPy. -/
def bareLib : PlotLib where
  lower := String.toLower
  order := id
  voronoi := fun _ => .error .importError

/-- The sides of a triangle around the first point, as Voronoi data. -/
def triangleLib : PlotLib where
  lower := String.toLower
  order := id
  voronoi := fun _ => .ok
    { ridgeVertices := [[0, 1, 2]], ridgePoints := [((index000 10 : ℕ), 5)],
      vertices := [![1, 0, 0], ![0, 1, 0], ![0, 0, 1]] }

example : ∀ l, (triangleLib.order l).Perm l := fun _ => List.Perm.refl _

example : ∃ vertices edges, getWignerSeitzCell triangleLib 1 = .ok (vertices, edges) ∧
    vertices.length = 3 ∧ edges.length = 3 := by
  obtain ⟨l, hl, -⟩ := C19_flat (1 : Cell ℝ) (fun _ => 10) false
  unfold getWignerSeitzCell
  rw [hl]
  refine ⟨_, _, rfl, ?_, ?_⟩ <;> decide

/-- A path of two pieces. -/
noncomputable def twoPieces : Kpoints where
  rcell := 1
  hsCoordinates := [("G", 0), ("X", ![1 / 2, 0, 0]), ("M", ![1 / 2, 1 / 2, 0]), ("R", ![1 / 2, 1 / 2, 1 / 2])]
  hsLabels := [("G", "G"), ("X", "X"), ("M", "M"), ("R", "R")]
  hsNames := ["G", "X", "M", "R"]
  n := 10
  path := [["M", "R"], ["G", "X"]]

example : twoPieces.path ≠ [] ∧ ∀ sub ∈ twoPieces.path, sub ≠ [] ∧
    ∀ m ∈ sub, ∃ c, twoPieces.hsCoordinates.get? m = some c := by
  refine ⟨by decide, fun sub hs => ?_⟩
  simp only [twoPieces, List.mem_cons, List.not_mem_nil, or_false] at hs
  rcases hs with rfl | rfl
  · refine ⟨by decide, fun m hm => ?_⟩
    simp only [List.mem_cons, List.not_mem_nil, or_false] at hm
    rcases hm with rfl | rfl <;> exact ⟨_, rfl⟩
  · refine ⟨by decide, fun m hm => ?_⟩
    simp only [List.mem_cons, List.not_mem_nil, or_false] at hm
    rcases hm with rfl | rfl <;> exact ⟨_, rfl⟩

/-- Without colours and with one named atom `plot_atoms` succeeds. -/
example : (({} : Engine).call bareLib { group := "g", label := some "atom" }
    (.atoms 1 { positions := some [0] } (some (.many [])) 0)).2 = .ok () := rfl

end Wulfric
