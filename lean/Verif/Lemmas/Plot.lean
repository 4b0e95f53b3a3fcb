import Verif.Model.Plot
import Verif.Spec.Plot
import Verif.Lemmas.Python
import Verif.Lemmas.Inherit
import Mathlib.Tactic.Linarith

/-! # Lemmas: traces and ranges of a figure -/

namespace Wulfric
open _root_.Spec

/-! ### Ranges of points -/

theorem foldl_min_le (ps : List (Vec ℝ)) : ∀ (p : Vec ℝ) (j : Fin 3),
    ps.foldl npMinimum p j ≤ p j ∧ ∀ q ∈ ps, ps.foldl npMinimum p j ≤ q j := by
  induction ps with
  | nil => intro p j; exact ⟨le_refl _, by simp⟩
  | cons q ps ih =>
    intro p j
    obtain ⟨h1, h2⟩ := ih (npMinimum p q) j
    have e : npMinimum p q j = min (p j) (q j) := rfl
    rw [e] at h1
    refine ⟨h1.trans (min_le_left _ _), fun r hr => ?_⟩
    rcases List.mem_cons.1 hr with rfl | hr
    · exact h1.trans (min_le_right _ _)
    · exact h2 r hr

theorem foldl_max_ge (ps : List (Vec ℝ)) : ∀ (p : Vec ℝ) (j : Fin 3),
    p j ≤ ps.foldl npMaximum p j ∧ ∀ q ∈ ps, q j ≤ ps.foldl npMaximum p j := by
  induction ps with
  | nil => intro p j; exact ⟨le_refl _, by simp⟩
  | cons q ps ih =>
    intro p j
    obtain ⟨h1, h2⟩ := ih (npMaximum p q) j
    have e : npMaximum p q j = max (p j) (q j) := rfl
    rw [e] at h1
    refine ⟨(le_max_left _ _).trans h1, fun r hr => ?_⟩
    rcases List.mem_cons.1 hr with rfl | hr
    · exact (le_max_right _ _).trans h1
    · exact h2 r hr

theorem foldl_min_mem (ps : List (Vec ℝ)) : ∀ (p : Vec ℝ) (j : Fin 3),
    ∃ q ∈ p :: ps, q j = ps.foldl npMinimum p j := by
  induction ps with
  | nil => intro p j; exact ⟨p, by simp, rfl⟩
  | cons q ps ih =>
    intro p j
    obtain ⟨r, hr, h⟩ := ih (npMinimum p q) j
    rcases List.mem_cons.1 hr with rfl | hr
    · rcases min_choice (p j) (q j) with hc | hc
      · exact ⟨p, by simp, by rw [List.foldl_cons, ← h]; exact hc.symm⟩
      · exact ⟨q, by simp, by rw [List.foldl_cons, ← h]; exact hc.symm⟩
    · exact ⟨r, by simp [hr], h⟩

theorem foldl_max_mem (ps : List (Vec ℝ)) : ∀ (p : Vec ℝ) (j : Fin 3),
    ∃ q ∈ p :: ps, q j = ps.foldl npMaximum p j := by
  induction ps with
  | nil => intro p j; exact ⟨p, by simp, rfl⟩
  | cons q ps ih =>
    intro p j
    obtain ⟨r, hr, h⟩ := ih (npMaximum p q) j
    rcases List.mem_cons.1 hr with rfl | hr
    · rcases max_choice (p j) (q j) with hc | hc
      · exact ⟨p, by simp, by rw [List.foldl_cons, ← h]; exact hc.symm⟩
      · exact ⟨q, by simp, by rw [List.foldl_cons, ← h]; exact hc.symm⟩
    · exact ⟨r, by simp [hr], h⟩

theorem corner_inside (ps : List (Vec ℝ)) : Inside (lowCorner ps) (highCorner ps) ps := by
  cases ps with
  | nil => intro p hp; simp at hp
  | cons p ps =>
    intro q hq j
    rcases List.mem_cons.1 hq with rfl | hq
    · exact ⟨(foldl_min_le ps q j).1, (foldl_max_ge ps q j).1⟩
    · exact ⟨(foldl_min_le ps p j).2 q hq, (foldl_max_ge ps p j).2 q hq⟩

theorem corner_touching (ps : List (Vec ℝ)) (h : ps ≠ []) :
    Touching (lowCorner ps) (highCorner ps) ps := by
  cases ps with
  | nil => exact absurd rfl h
  | cons p ps => exact fun j => ⟨foldl_min_mem ps p j, foldl_max_mem ps p j⟩

/-! ### The dictionary of ranges -/

/-- What `cover` does to the ranges. -/
noncomputable def coverRanges (place : ℤ × ℤ) (d : PyDict (ℤ × ℤ) (Vec ℝ × Vec ℝ))
    (ps : List (Vec ℝ)) : PyDict (ℤ × ℤ) (Vec ℝ × Vec ℝ) :=
  match d.get? place with
  | none => d.setItem place (lowCorner ps, highCorner ps)
  | some (l, h) => d.setItem place (npMinimum l (lowCorner ps), npMaximum h (highCorner ps))

theorem cover_traces (e : Engine) (place : ℤ × ℤ) (ps : List (Vec ℝ)) :
    (e.cover place ps).traces = e.traces := by
  unfold Engine.cover Engine.updateRange
  split <;> rfl

theorem cover_ranges (e : Engine) (place : ℤ × ℤ) (ps : List (Vec ℝ)) :
    (e.cover place ps).ranges = coverRanges place e.ranges ps := by
  unfold Engine.cover Engine.updateRange coverRanges
  cases e.ranges.get? place <;> rfl

/-- The engine after a method: traces are appended, and ranges updated with lists of points. -/
structure Draws (place : ℤ × ℤ) (e e' : Engine) (ts : List Trace) (cs : List (List (Vec ℝ))) :
    Prop where
  traces : e'.traces = e.traces ++ ts
  ranges : e'.ranges = cs.foldl (coverRanges place) e.ranges

theorem Draws.refl (place : ℤ × ℤ) (e : Engine) : Draws place e e [] [] := ⟨by simp, rfl⟩

theorem Draws.trans {place : ℤ × ℤ} {e e' e'' : Engine} {ts ts' : List Trace}
    {cs cs' : List (List (Vec ℝ))} (h : Draws place e e' ts cs) (h' : Draws place e' e'' ts' cs') :
    Draws place e e'' (ts ++ ts') (cs ++ cs') :=
  ⟨by rw [h'.traces, h.traces, List.append_assoc], by rw [h'.ranges, h.ranges, List.foldl_append]⟩

theorem Draws.add (place : ℤ × ℤ) (e : Engine) (t : Trace) : Draws place e (e.add t) [t] [] :=
  ⟨rfl, rfl⟩

theorem Draws.cover (place : ℤ × ℤ) (e : Engine) (ps : List (Vec ℝ)) :
    Draws place e (e.cover place ps) [] [ps] :=
  ⟨by rw [cover_traces, List.append_nil], by rw [cover_ranges]; rfl⟩

theorem Draws.addCover (place : ℤ × ℤ) (e : Engine) (t : Trace) (ps : List (Vec ℝ)) :
    Draws place e ((e.add t).cover place ps) [t] [ps] :=
  (Draws.add place e t).trans (Draws.cover place _ ps)

/-! ### What the methods draw -/

/-- The traces of `plot_vector`. -/
noncomputable def vectorTraces (s : Style) (start stop : Vec ℝ) (l : Option String) : List Trace :=
  let plain : Style := { s with label := none }
  [s.trace .lines [start, stop],
    { plain.trace .cone [stop] with direction := fun j => 4 / 10 * (stop j - start j) }] ++
  (match l with
    | none => []
    | some t => [{ plain.trace .text [labelPosition start stop] with
        text := [t], textColor := s.color }])

/-- The ranges of `plot_vector`. -/
noncomputable def vectorCovers (start stop : Vec ℝ) (l : Option String) : List (List (Vec ℝ)) :=
  (match l with
    | none => []
    | some _ => [[labelPosition start stop]]) ++ [[start, stop]]

theorem plotVector_draws (e : Engine) (s : Style) (start stop : Vec ℝ) (l : Option String) :
    Draws s.place e (e.plotVector s start stop l) (vectorTraces s start stop l)
      (vectorCovers start stop l) := by
  cases l with
  | none =>
    exact ((Draws.add s.place e _).trans (Draws.add s.place _ _)).trans (Draws.cover s.place _ _)
  | some t =>
    exact (((Draws.add s.place e _).trans (Draws.add s.place _ _)).trans
      (Draws.addCover s.place _ _ _)).trans (Draws.cover s.place _ _)

theorem plotLine_draws (e : Engine) (s : Style) (start stop : Vec ℝ) :
    Draws s.place e (e.plotLine s start stop) [s.trace .lines [start, stop]] [[start, stop]] :=
  Draws.addCover s.place e _ _

/-- The traces of the three lattice vectors. -/
noncomputable def vectorsTraces (s : Style) (cell : Cell ℝ) (shift : Vec ℝ) (l : String) :
    List Trace :=
  [0, 1, 2].flatMap fun i : Fin 3 =>
    vectorTraces { s with label := none } shift (shift + cell i) (some (l ++ Nat.repr (i.val + 1)))

/-- The ranges of the three lattice vectors. -/
noncomputable def vectorsCovers (cell : Cell ℝ) (shift : Vec ℝ) : List (List (Vec ℝ)) :=
  [0, 1, 2].flatMap fun i : Fin 3 => vectorCovers shift (shift + cell i) (some "")

theorem plotVectors_draws (e : Engine) (s : Style) (cell : Cell ℝ) (shift : Vec ℝ) (l : String) :
    Draws s.place e (e.plotVectors s cell shift l) (vectorsTraces s cell shift l)
      (vectorsCovers cell shift) := by
  have h := ((plotVector_draws e { s with label := none } shift (shift + cell 0)
    (some (l ++ Nat.repr (0 + 1)))).trans
    (plotVector_draws _ { s with label := none } shift (shift + cell 1)
      (some (l ++ Nat.repr (1 + 1))))).trans
    (plotVector_draws _ { s with label := none } shift (shift + cell 2)
      (some (l ++ Nat.repr (2 + 1))))
  exact h

/-- The end points of the lines for one vector of the cell. -/
def borderLines (cell : Cell ℝ) (shift : Vec ℝ) (i : Fin 3) : List (Vec ℝ × Vec ℝ) :=
  [(shift, shift + cell i), (shift + cell i, shift + cell i + cell (i + 1)),
    (shift + cell i, shift + cell i + cell (i + 2)),
    (shift + cell i + cell (i + 1), shift + cell i + cell (i + 1) + cell (i + 2))]

/-- Lines with these end points; the first one has the label. -/
def lineTraces (s : Style) : Option String → List (Vec ℝ × Vec ℝ) → List Trace
  | _, [] => []
  | label, p :: ps =>
    Style.trace { s with label := label } .lines [p.1, p.2] :: lineTraces s none ps

theorem lineTraces_append (s : Style) (p : Vec ℝ × Vec ℝ) (ps qs : List (Vec ℝ × Vec ℝ)) :
    ∀ label, lineTraces s label (p :: ps ++ qs) =
      lineTraces s label (p :: ps) ++ lineTraces s none qs := by
  induction ps generalizing p with
  | nil => intro label; rfl
  | cons q ps ih => intro label; simpa [lineTraces] using ih q none

theorem plotBorders_draws (s : Style) (cell : Cell ℝ) (shift : Vec ℝ) (is : List (Fin 3)) :
    ∀ (label : Option String) (e : Engine),
      Draws s.place e (Engine.plotBorders s cell shift label is e)
        (lineTraces s label (is.flatMap (borderLines cell shift)))
        ((is.flatMap (borderLines cell shift)).map fun p => [p.1, p.2]) := by
  induction is with
  | nil => intro label e; exact Draws.refl _ _
  | cons i is ih =>
    intro label e
    have h := (((plotLine_draws e { s with label := label } shift (shift + cell i)).trans
      (plotLine_draws _ { s with label := none } (shift + cell i)
        (shift + cell i + cell (i + 1)))).trans
      (plotLine_draws _ { s with label := none } (shift + cell i)
        (shift + cell i + cell (i + 2)))).trans
      (plotLine_draws _ { s with label := none } (shift + cell i + cell (i + 1))
        (shift + cell i + cell (i + 1) + cell (i + 2)))
    have h := h.trans (ih none _)
    have e1 : lineTraces s label ((i :: is).flatMap (borderLines cell shift)) =
        lineTraces s label (borderLines cell shift i) ++
          lineTraces s none (is.flatMap (borderLines cell shift)) := by
      rw [List.flatMap_cons]; exact lineTraces_append s _ _ _ label
    rw [e1, List.flatMap_cons, List.map_append]
    exact h

theorem plotCell_draws (e : Engine) (s : Style) (cell : Cell ℝ) (shift : Vec ℝ) (v : Bool)
    (l : String) :
    Draws s.place e (e.plotCell s cell shift v l)
      ((if v then vectorsTraces s cell shift l else []) ++
        lineTraces s s.label ([0, 1, 2].flatMap (borderLines cell shift)))
      ((if v then vectorsCovers cell shift else []) ++
        ([0, 1, 2].flatMap (borderLines cell shift)).map fun p => [p.1, p.2]) := by
  unfold Engine.plotCell
  cases v with
  | true => exact (plotVectors_draws e s cell shift l).trans (plotBorders_draws s cell shift _ _ _)
  | false => exact plotBorders_draws s cell shift _ _ _

theorem plotEdges_draws (s : Style) (shift : Vec ℝ) (vertices : List (Vec ℝ))
    (edges : List (ℕ × ℕ)) : ∀ (label : Option String) (e : Engine),
    ∃ lines : List (Vec ℝ × Vec ℝ),
      Draws s.place e (Engine.plotEdges s shift vertices label edges e).1
        (lineTraces s label lines) (lines.map fun p => [p.1, p.2]) ∧
      ((Engine.plotEdges s shift vertices label edges e).2 = .ok () →
        lines.map some = edges.map fun ed =>
          (vertices[ed.1]?).bind fun p => (vertices[ed.2]?).map fun q => (shift + p, shift + q)) ∧
      ((∀ ed ∈ edges, ed.1 < vertices.length ∧ ed.2 < vertices.length) →
        (Engine.plotEdges s shift vertices label edges e).2 = .ok ()) := by
  induction edges with
  | nil => intro label e; exact ⟨[], Draws.refl _ _, fun _ => rfl, fun _ => rfl⟩
  | cons ed edges ih =>
    intro label e
    unfold Engine.plotEdges
    cases h1 : vertices[ed.1]? with
    | none =>
      refine ⟨[], Draws.refl _ _, fun h => by simp at h, fun h => ?_⟩
      have := (h ed (by simp)).1
      rw [List.getElem?_eq_getElem this] at h1
      simp at h1
    | some p =>
      cases h2 : vertices[ed.2]? with
      | none =>
        refine ⟨[], Draws.refl _ _, fun h => by simp at h, fun h => ?_⟩
        have := (h ed (by simp)).2
        rw [List.getElem?_eq_getElem this] at h2
        simp at h2
      | some q =>
        obtain ⟨lines, h, hok, hin⟩ := ih none
          (e.plotLine { s with label := label } (shift + p) (shift + q))
        refine ⟨(shift + p, shift + q) :: lines,
          (plotLine_draws e { s with label := label } (shift + p) (shift + q)).trans h,
          fun ho => ?_, fun hall => hin fun ed' hed' => hall ed' (by simp [hed'])⟩
        simp only [List.map_cons, hok ho, h1, h2]
        rfl

theorem plotSubpaths_draws (s : Style) (k : Kpoints) (shift : Vec ℝ) (subs : List (List String)) :
    ∀ (label : Option String) (last : Option (List (Vec ℝ))) (e : Engine),
    ∃ ps : List (List (Vec ℝ)), (∀ p ∈ ps, p ≠ []) ∧
      Draws s.place e (Engine.plotSubpaths s k shift label subs last e).1
        (match ps with
          | [] => []
          | p :: rest => Style.trace { s with label := label } .lines p ::
            rest.map (Style.trace { s with label := none } .lines)) [] ∧
      (∀ o, (Engine.plotSubpaths s k shift label subs last e).2 = .ok o →
        subs.mapM (kpathPoints k shift) = .ok ps ∧ o = ps.getLast?.or last) ∧
      (∀ err, (Engine.plotSubpaths s k shift label subs last e).2 = .error err →
        ps.length < subs.length) := by
  induction subs with
  | nil =>
    intro label last e
    refine ⟨[], by simp, Draws.refl _ _, fun o ho => ⟨rfl, ?_⟩, fun err h => by
      simp [Engine.plotSubpaths] at h⟩
    simp only [Engine.plotSubpaths, Except.ok.injEq] at ho
    simp [← ho]
  | cons sub subs ih =>
    intro label last e
    unfold Engine.plotSubpaths
    cases hp : kpathPoints k shift sub with
    | error err => exact ⟨[], by simp, Draws.refl _ _, fun o ho => by simp at ho, by simp⟩
    | ok q =>
      cases q with
      | nil => exact ⟨[], by simp, Draws.refl _ _, fun o ho => by simp at ho, by simp⟩
      | cons p ps =>
        obtain ⟨rest, hne, hd, hok, herr⟩ := ih none (some (p :: ps))
          (e.add (Style.trace { s with label := label } .lines (p :: ps)))
        refine ⟨(p :: ps) :: rest, ?_, ?_, fun o ho => ?_, fun err h => by
          simpa using herr err h⟩
        · intro x hx
          rcases List.mem_cons.1 hx with rfl | hx
          · simp
          · exact hne x hx
        · have h := (Draws.add s.place e
            (Style.trace { s with label := label } .lines (p :: ps))).trans hd
          cases rest with
          | nil => exact h
          | cons r rest => exact h
        · obtain ⟨h1, h2⟩ := hok o ho
          refine ⟨by rw [List.mapM_cons, hp, h1]; rfl, ?_⟩
          rw [h2]
          cases rest with
          | nil => rfl
          | cons r rest =>
            rw [List.getLast?_cons_cons, List.getLast?_eq_some_getLast (List.cons_ne_nil r rest)]
            rfl

theorem plotSubpaths_ok (s : Style) (k : Kpoints) (shift : Vec ℝ) (subs : List (List String))
    (h : ∀ sub ∈ subs, ∃ p ps, kpathPoints k shift sub = .ok (p :: ps)) :
    ∀ (label : Option String) (last : Option (List (Vec ℝ))) (e : Engine),
      (last.isSome ∨ subs ≠ []) →
      ∃ xyz, (Engine.plotSubpaths s k shift label subs last e).2 = .ok (some xyz) := by
  induction subs with
  | nil =>
    intro label last e hl
    obtain ⟨x, hx⟩ := Option.isSome_iff_exists.1 (hl.resolve_right (by simp))
    exact ⟨x, by rw [hx]; rfl⟩
  | cons sub subs ih =>
    intro label last e _
    obtain ⟨p, ps, hp⟩ := h sub (by simp)
    unfold Engine.plotSubpaths
    rw [hp]
    exact ih (fun x hx => h x (by simp [hx])) _ _ _ (.inl rfl)

theorem plotKpath_ok (e : Engine) (s : Style) (k : Kpoints) (shift : Vec ℝ) (hne : k.path ≠ [])
    (h : ∀ sub ∈ k.path, ∃ p ps, kpathPoints k shift sub = .ok (p :: ps)) :
    (e.plotKpath s k shift).2 = .ok () := by
  obtain ⟨xyz, hx⟩ := plotSubpaths_ok s k shift k.path h s.label none e (.inr hne)
  unfold Engine.plotKpath
  revert hx
  generalize Engine.plotSubpaths s k shift s.label k.path none e = r
  obtain ⟨e', o⟩ := r
  rintro rfl
  rfl

/-! ### All methods -/

/-- The trace for each of the sub-paths; the first one has the label. -/
def pathTraces (s : Style) (ps : List (List (Vec ℝ))) : List Trace :=
  match ps with
  | [] => []
  | p :: rest => s.trace .lines p :: rest.map (Style.trace { s with label := none } .lines)

theorem plotKpath_draws (e : Engine) (s : Style) (k : Kpoints) (shift : Vec ℝ) :
    ∃ ps : List (List (Vec ℝ)), ∃ cs, (∀ p ∈ ps, p ≠ []) ∧
      Draws s.place e (e.plotKpath s k shift).1 (pathTraces s ps) cs ∧
      ((cs = [] ∧ (∀ o, (e.plotKpath s k shift).2 ≠ .ok o) ∧ (k.path.length ≤ 1 → ps = [])) ∨
        ∃ h : ps ≠ [], cs = [ps.getLast h] ∧ (e.plotKpath s k shift).2 = .ok () ∧
          k.path.mapM (kpathPoints k shift) = .ok ps) := by
  obtain ⟨ps, hne, hd, hok, herr⟩ := plotSubpaths_draws s k shift k.path s.label none e
  have hd : Draws s.place e (Engine.plotSubpaths s k shift s.label k.path none e).1
      (pathTraces s ps) [] := hd
  unfold Engine.plotKpath
  revert hd hok herr
  generalize Engine.plotSubpaths s k shift s.label k.path none e = r
  intro hok herr hd
  obtain ⟨e', o⟩ := r
  cases o with
  | error err =>
    refine ⟨ps, [], hne, hd, .inl ⟨rfl, by simp, fun h => ?_⟩⟩
    have := herr err rfl
    exact List.length_eq_zero_iff.1 (by omega)
  | ok o =>
    obtain ⟨h1, h2⟩ := hok o rfl
    cases o with
    | none =>
      refine ⟨ps, [], hne, hd, .inl ⟨rfl, by simp, fun h => ?_⟩⟩
      rw [Option.or_none] at h2
      exact List.getLast?_eq_none_iff.1 h2.symm
    | some xyz =>
      have hps : ps ≠ [] := by rintro rfl; simp at h2
      rw [List.getLast?_eq_some_getLast hps] at h2
      simp only [Option.or_none, Option.some.injEq] at h2
      refine ⟨ps, [xyz], hne, ?_, .inr ⟨hps, by rw [h2], rfl, h1⟩⟩
      simpa using hd.trans (Draws.cover s.place e' xyz)

/-- All points of a list of traces. -/
def tracePoints (ts : List Trace) : List (Vec ℝ) := ts.flatMap Trace.points

/-- The number of entries of the legend of a list of traces. -/
def legendEntries (ts : List Trace) : ℕ := ts.countP Trace.inLegend

theorem tracePoints_append (ts us : List Trace) :
    tracePoints (ts ++ us) = tracePoints ts ++ tracePoints us := List.flatMap_append

/-- The facts about the traces `ts` and ranges `cs` of a method that hold for every one of them. -/
structure Fair (s : Style) (ts : List Trace) (cs : List (List (Vec ℝ))) : Prop where
  place : ∀ t ∈ ts, t.place = s.place
  group : ∀ t ∈ ts, t.group = s.group
  filled : ∀ ps ∈ cs, ps ≠ []
  drawn : ∀ p ∈ cs.flatten, p ∈ tracePoints ts

/-- The ranges take account of every point. -/
def Full (ts : List Trace) (cs : List (List (Vec ℝ))) : Prop := ∀ p ∈ tracePoints ts, p ∈ cs.flatten

theorem Fair.nil (s : Style) : Fair s [] [] := ⟨by simp, by simp, by simp, by simp⟩

theorem Full.nil : Full [] [] := by intro p hp; simp [tracePoints] at hp

theorem Fair.append {s : Style} {ts us : List Trace} {cs ds : List (List (Vec ℝ))}
    (h : Fair s ts cs) (h' : Fair s us ds) : Fair s (ts ++ us) (cs ++ ds) := by
  refine ⟨?_, ?_, ?_, ?_⟩
  · intro t ht
    rcases List.mem_append.1 ht with ht | ht
    · exact h.place t ht
    · exact h'.place t ht
  · intro t ht
    rcases List.mem_append.1 ht with ht | ht
    · exact h.group t ht
    · exact h'.group t ht
  · intro t ht
    rcases List.mem_append.1 ht with ht | ht
    · exact h.filled t ht
    · exact h'.filled t ht
  · intro p hp
    rw [List.flatten_append] at hp
    rw [tracePoints_append]
    rcases List.mem_append.1 hp with hp | hp
    · exact List.mem_append_left _ (h.drawn p hp)
    · exact List.mem_append_right _ (h'.drawn p hp)

theorem Full.append {ts us : List Trace} {cs ds : List (List (Vec ℝ))}
    (h : Full ts cs) (h' : Full us ds) : Full (ts ++ us) (cs ++ ds) := by
  intro p hp
  rw [tracePoints_append] at hp
  rw [List.flatten_append]
  rcases List.mem_append.1 hp with hp | hp
  · exact List.mem_append_left _ (h p hp)
  · exact List.mem_append_right _ (h' p hp)

theorem vector_fair (s : Style) (a b : Vec ℝ) (l : Option String) :
    Fair s (vectorTraces s a b l) (vectorCovers a b l) ∧
      Full (vectorTraces s a b l) (vectorCovers a b l) := by
  cases l with
  | none =>
    refine ⟨⟨?_, ?_, ?_, ?_⟩, ?_⟩
    all_goals simp [vectorTraces, vectorCovers, Style.trace, tracePoints, Full]
  | some t =>
    refine ⟨⟨?_, ?_, ?_, ?_⟩, ?_⟩
    all_goals simp [vectorTraces, vectorCovers, Style.trace, tracePoints, Full]

theorem vectors_fair (s : Style) (cell : Cell ℝ) (shift : Vec ℝ) (l : String) :
    Fair s (vectorsTraces s cell shift l) (vectorsCovers cell shift) ∧
      Full (vectorsTraces s cell shift l) (vectorsCovers cell shift) := by
  have h (i : Fin 3) := vector_fair { s with label := none } shift (shift + cell i)
    (some (l ++ Nat.repr (i.val + 1)))
  have h' (i : Fin 3) : Fair s (vectorTraces { s with label := none } shift (shift + cell i)
      (some (l ++ Nat.repr (i.val + 1)))) (vectorCovers shift (shift + cell i) (some "")) :=
    ⟨(h i).1.place, (h i).1.group, (h i).1.filled, (h i).1.drawn⟩
  have h'' (i : Fin 3) : Full (vectorTraces { s with label := none } shift (shift + cell i)
      (some (l ++ Nat.repr (i.val + 1)))) (vectorCovers shift (shift + cell i) (some "")) :=
    (h i).2
  exact ⟨(h' 0).append ((h' 1).append ((h' 2).append (Fair.nil s))),
    (h'' 0).append ((h'' 1).append ((h'' 2).append Full.nil))⟩

theorem lines_fair (s : Style) (ps : List (Vec ℝ × Vec ℝ)) : ∀ label,
    Fair s (lineTraces s label ps) (ps.map fun p => [p.1, p.2]) ∧
      Full (lineTraces s label ps) (ps.map fun p => [p.1, p.2]) := by
  induction ps with
  | nil => intro label; exact ⟨Fair.nil s, Full.nil⟩
  | cons p ps ih =>
    intro label
    have h1 : Fair s [Style.trace { s with label := label } .lines [p.1, p.2]] [[p.1, p.2]] := by
      refine ⟨?_, ?_, ?_, ?_⟩ <;> simp [Style.trace, tracePoints]
    have h2 : Full [Style.trace { s with label := label } .lines [p.1, p.2]] [[p.1, p.2]] := by
      simp [Full, Style.trace, tracePoints]
    exact ⟨h1.append (ih none).1, h2.append (ih none).2⟩

theorem single_fair (s : Style) (t : Trace) (h1 : t.place = s.place) (h2 : t.group = s.group)
    (h3 : t.points ≠ []) : Fair s [t] [t.points] ∧ Full [t] [t.points] := by
  refine ⟨⟨?_, ?_, ?_, ?_⟩, ?_⟩
  · simpa using h1
  · simpa using h2
  · simpa using h3
  · simp [tracePoints]
  · simp [tracePoints, Full]

theorem path_fair (s : Style) (ps : List (List (Vec ℝ))) :
    (∀ t ∈ pathTraces s ps, t.place = s.place) ∧ (∀ t ∈ pathTraces s ps, t.group = s.group) ∧
      tracePoints (pathTraces s ps) = ps.flatten := by
  cases ps with
  | nil => simp [pathTraces, tracePoints]
  | cons p ps =>
    refine ⟨by simp [pathTraces, Style.trace], by simp [pathTraces, Style.trace], ?_⟩
    have : Trace.points ∘ Style.trace { s with label := none } .lines = id := rfl
    simp only [pathTraces, tracePoints, List.flatMap_def, List.map_cons, List.map_map, this,
      List.map_id]
    rfl

theorem ws_draws (lib : PlotLib) (e : Engine) (s : Style) (cell : Cell ℝ) (shift : Vec ℝ)
    (v : Bool) (l : String) :
    ∃ lines : List (Vec ℝ × Vec ℝ),
      Draws s.place e (e.plotWignerSeitz lib s cell shift v l).1
        ((if v then vectorsTraces s cell shift l else []) ++ lineTraces s s.label lines)
        ((if v then vectorsCovers cell shift else []) ++ lines.map fun p => [p.1, p.2]) ∧
      ((e.plotWignerSeitz lib s cell shift v l).2 = .ok () →
        ∃ vertices edges, getWignerSeitzCell lib cell = .ok (vertices, edges) ∧
          lines.map some = edges.map fun ed =>
          (vertices[ed.1]?).bind fun p => (vertices[ed.2]?).map fun q => (shift + p, shift + q)) ∧
      (∀ vertices edges, getWignerSeitzCell lib cell = .ok (vertices, edges) →
        (∀ ed ∈ edges, ed.1 < vertices.length ∧ ed.2 < vertices.length) →
        (e.plotWignerSeitz lib s cell shift v l).2 = .ok ()) := by
  have h0 : Draws s.place e (if v then e.plotVectors s cell shift l else e)
      (if v then vectorsTraces s cell shift l else [])
      (if v then vectorsCovers cell shift else []) := by
    cases v with
    | true => exact plotVectors_draws e s cell shift l
    | false => exact Draws.refl _ _
  unfold Engine.plotWignerSeitz
  simp only
  cases hw : getWignerSeitzCell lib cell with
  | error err => exact ⟨[], by simpa [lineTraces] using h0, by simp, by simp⟩
  | ok r =>
    obtain ⟨vertices, edges⟩ := r
    obtain ⟨lines, hd, hok, hin⟩ := plotEdges_draws s shift vertices edges s.label
      (if v then e.plotVectors s cell shift l else e)
    refine ⟨lines, h0.trans hd, fun h => ⟨vertices, edges, rfl, hok h⟩, ?_⟩
    rintro v' e' h hall
    simp only [Except.ok.injEq, Prod.mk.injEq] at h
    obtain ⟨rfl, rfl⟩ := h
    exact hin hall

theorem ws_fair (s : Style) (cell : Cell ℝ) (shift : Vec ℝ) (v : Bool) (l : String)
    (lines : List (Vec ℝ × Vec ℝ)) :
    Fair s ((if v then vectorsTraces s cell shift l else []) ++ lineTraces s s.label lines)
        ((if v then vectorsCovers cell shift else []) ++ lines.map fun p => [p.1, p.2]) ∧
    Full ((if v then vectorsTraces s cell shift l else []) ++ lineTraces s s.label lines)
        ((if v then vectorsCovers cell shift else []) ++ lines.map fun p => [p.1, p.2]) := by
  have h0 : Fair s (if v then vectorsTraces s cell shift l else [])
      (if v then vectorsCovers cell shift else []) ∧
      Full (if v then vectorsTraces s cell shift l else [])
      (if v then vectorsCovers cell shift else []) := by
    cases v with
    | true => exact vectors_fair s cell shift l
    | false => exact ⟨Fair.nil s, Full.nil⟩
  exact ⟨h0.1.append (lines_fair s lines s.label).1, h0.2.append (lines_fair s lines s.label).2⟩

/-- A call that is not a path of several pieces. -/
def PlotCall.Single : PlotCall → Prop
  | .kpath k _ => k.path.length ≤ 1
  | _ => True

theorem call_draws (lib : PlotLib) (e : Engine) (s : Style) (c : PlotCall) :
    ∃ ts cs, Draws s.place e (e.call lib s c).1 ts cs ∧ Fair s ts cs ∧ (c.Single → Full ts cs) := by
  cases c with
  | points ps =>
    simp only [Engine.call, Engine.plotPoints]
    by_cases h : ps = []
    · rw [if_pos h]; exact ⟨[], [], Draws.refl _ _, Fair.nil s, fun _ => Full.nil⟩
    · rw [if_neg h]
      have := single_fair s (s.trace .markers ps) rfl rfl h
      exact ⟨_, _, Draws.addCover _ _ _ _, this.1, fun _ => this.2⟩
  | line a b =>
    simp only [Engine.call]
    have := single_fair s (s.trace .lines [a, b]) rfl rfl (by simp [Style.trace])
    exact ⟨_, _, plotLine_draws e s a b, this.1, fun _ => this.2⟩
  | vector a b l =>
    simp only [Engine.call]
    exact ⟨_, _, plotVector_draws e s a b l, (vector_fair s a b l).1,
      fun _ => (vector_fair s a b l).2⟩
  | cell c shift v l =>
    simp only [Engine.call]
    have := ws_fair s c shift v l ([0, 1, 2].flatMap (borderLines c shift))
    exact ⟨_, _, plotCell_draws e s c shift v l, this.1, fun _ => this.2⟩
  | wignerSeitz c shift v l =>
    simp only [Engine.call]
    obtain ⟨lines, h, -⟩ := ws_draws lib e s c shift v l
    have := ws_fair s c shift v l lines
    exact ⟨_, _, h, this.1, fun _ => this.2⟩
  | brillouinZone c shift v l =>
    simp only [Engine.call, Engine.plotBrillouinZone]
    cases getReciprocal c with
    | error err => exact ⟨[], [], Draws.refl _ _, Fair.nil s, fun _ => Full.nil⟩
    | ok r =>
      obtain ⟨lines, h, -⟩ := ws_draws lib e s r shift v l
      have := ws_fair s r shift v l lines
      exact ⟨_, _, h, this.1, fun _ => this.2⟩
  | kpath k shift =>
    obtain ⟨ps, cs, hne, hd, h⟩ := plotKpath_draws e s k shift
    obtain ⟨f1, f2, f3⟩ := path_fair s ps
    refine ⟨_, _, hd, ⟨f1, f2, ?_, ?_⟩, ?_⟩
    · rcases h with ⟨rfl, -⟩ | ⟨h, rfl, -⟩
      · simp
      · simpa using hne _ (List.getLast_mem h)
    · rcases h with ⟨rfl, -⟩ | ⟨h, rfl, -⟩
      · simp
      · intro p hp
        rw [f3]
        simp only [List.flatten_cons, List.flatten_nil, List.append_nil] at hp
        exact List.mem_flatten.2 ⟨_, List.getLast_mem h, hp⟩
    · intro hs p hp
      rw [f3] at hp
      rcases h with ⟨rfl, -, h⟩ | ⟨h, rfl, -, hm⟩
      · rw [h hs] at hp; exact hp
      · have hl : ps.length ≤ 1 := by
          have : ps.length = k.path.length := by
            exact (mapM_forall₂ hm).length_eq.symm
          have hs : k.path.length ≤ 1 := hs
          omega
        match ps, hl with
        | [q], _ => simpa using hp
  | kpoints k shift o =>
    simp only [Engine.call, Engine.plotKpoints]
    split
    · exact ⟨[], [], Draws.refl _ _, Fair.nil s, fun _ => Full.nil⟩
    · exact ⟨[], [], Draws.refl _ _, Fair.nil s, fun _ => Full.nil⟩
    · rename_i p ps _
      have := single_fair s { s.trace .markersText (p :: ps) with
        text := shownNames k o, textColor := s.color } rfl rfl (by simp [Style.trace])
      exact ⟨_, _, Draws.addCover _ _ _ _, this.1, fun _ => this.2⟩
  | lattice c r shift =>
    simp only [Engine.call, Engine.plotLattice]
    split
    · exact ⟨[], [], Draws.refl _ _, Fair.nil s, fun _ => Full.nil⟩
    · simp only [Engine.plotPoints]
      split
      · exact ⟨[], [], Draws.refl _ _, Fair.nil s, fun _ => Full.nil⟩
      · rename_i points _ h
        have := single_fair s (s.trace .markers (points.map fun p => p + shift)) rfl rfl h
        exact ⟨_, _, Draws.addCover _ _ _ _, this.1, fun _ => this.2⟩
  | atoms c a colors shift =>
    simp only [Engine.call, Engine.plotAtoms]
    split
    · exact ⟨[], [], Draws.refl _ _, Fair.nil s, fun _ => Full.nil⟩
    · exact ⟨[], [], Draws.refl _ _, Fair.nil s, fun _ => Full.nil⟩
    · split
      · exact ⟨[], [], Draws.refl _ _, Fair.nil s, fun _ => Full.nil⟩
      · split
        · exact ⟨[], [], Draws.refl _ _, Fair.nil s, fun _ => Full.nil⟩
        · rename_i p ps _ _ cl _ _ tc _
          have := single_fair s { s.trace .markersText
            ((p :: ps).map fun q => vecMat q c + shift) with
            text := plotNames a (p :: ps).length, color := cl, textColor := .many tc } rfl rfl
              (by simp [Style.trace])
          exact ⟨_, _, Draws.addCover _ _ _ _, this.1, fun _ => this.2⟩

end Wulfric
