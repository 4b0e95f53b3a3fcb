import Verif.Props.C64_Figure
import Verif.Lemmas.Atoms

/-!
# C65: the axes of a figure show everything that was drawn, in true proportion

`PlotlyEngine.show` and `save` set the limits of the axes of every subplot from the coordinates
recorded while drawing.
-/

namespace Wulfric
open Matrix _root_.Spec

/-- The points drawn in a subplot. -/
def drawnAt (place : ℤ × ℤ) (ts : List Trace) : List (Vec ℝ) :=
  (ts.filter fun t => t.place = place).flatMap Trace.points

theorem drawnAt_append (place : ℤ × ℤ) (ts us : List Trace) :
    drawnAt place (ts ++ us) = drawnAt place ts ++ drawnAt place us := by
  simp [drawnAt]

theorem drawnAt_same (place : ℤ × ℤ) (ts : List Trace) (h : ∀ t ∈ ts, t.place = place) :
    drawnAt place ts = tracePoints ts := by
  unfold drawnAt tracePoints
  rw [List.filter_eq_self.2 (by simpa using h)]

theorem drawnAt_other (place place' : ℤ × ℤ) (ts : List Trace) (h : ∀ t ∈ ts, t.place = place)
    (hp : place' ≠ place) : drawnAt place' ts = [] := by
  unfold drawnAt
  rw [List.filter_eq_nil_iff.2 fun t ht => ?_]
  · rfl
  · simpa [h t ht] using hp.symm

/-- One range after an update. -/
theorem coverRanges_get (place place' : ℤ × ℤ) (d : PyDict (ℤ × ℤ) (Vec ℝ × Vec ℝ))
    (ps : List (Vec ℝ)) :
    (coverRanges place d ps).get? place' =
      if place = place' then
        (match d.get? place with
          | none => some (lowCorner ps, highCorner ps)
          | some (l, h) => some (npMinimum l (lowCorner ps), npMaximum h (highCorner ps)))
      else d.get? place' := by
  unfold coverRanges
  cases d.get? place with
  | none => simp only [PyDict.get?_setItem]
  | some r => simp only [PyDict.get?_setItem]

/-- The range, if there is one, touches the points. -/
def RangeTouches (o : Option (Vec ℝ × Vec ℝ)) (P : List (Vec ℝ)) : Prop :=
  ∀ l h, o = some (l, h) → Touching l h P

/-- There is a range around the points. -/
def RangeHolds (o : Option (Vec ℝ × Vec ℝ)) (P : List (Vec ℝ)) : Prop :=
  P ≠ [] → ∃ l h, o = some (l, h) ∧ Inside l h P

theorem min_touch (l : Vec ℝ) (P ps : List (Vec ℝ)) (h : Vec ℝ) (hT : Touching l h P)
    (hps : ps ≠ []) : Touching (npMinimum l (lowCorner ps)) (npMaximum h (highCorner ps)) (P ++ ps) := by
  intro j
  have hc := corner_touching ps hps j
  constructor
  · rcases min_choice (l j) (lowCorner ps j) with hm | hm
    · obtain ⟨p, hp, e⟩ := (hT j).1
      exact ⟨p, by simp [hp], by rw [e]; exact hm.symm⟩
    · obtain ⟨p, hp, e⟩ := hc.1
      exact ⟨p, by simp [hp], by rw [e]; exact hm.symm⟩
  · rcases max_choice (h j) (highCorner ps j) with hm | hm
    · obtain ⟨p, hp, e⟩ := (hT j).2
      exact ⟨p, by simp [hp], by rw [e]; exact hm.symm⟩
    · obtain ⟨p, hp, e⟩ := hc.2
      exact ⟨p, by simp [hp], by rw [e]; exact hm.symm⟩

theorem covers_touch (place : ℤ × ℤ) (cs : List (List (Vec ℝ))) (hcs : ∀ ps ∈ cs, ps ≠ []) :
    ∀ (d : PyDict (ℤ × ℤ) (Vec ℝ × Vec ℝ)) (P : List (Vec ℝ)), RangeTouches (d.get? place) P →
      RangeTouches ((cs.foldl (coverRanges place) d).get? place) (P ++ cs.flatten) := by
  induction cs with
  | nil => intro d P h; simpa using h
  | cons ps cs ih =>
    intro d P h
    have := ih (fun q hq => hcs q (by simp [hq])) (coverRanges place d ps) (P ++ ps) ?_
    · simpa using this
    · rw [coverRanges_get, if_pos rfl]
      cases hd : d.get? place with
      | none =>
        intro l h' e
        simp only [Option.some.injEq, Prod.mk.injEq] at e
        obtain ⟨rfl, rfl⟩ := e
        intro j
        obtain ⟨⟨p, hp, e1⟩, q, hq, e2⟩ := corner_touching ps (hcs ps (by simp)) j
        exact ⟨⟨p, by simp [hp], e1⟩, q, by simp [hq], e2⟩
      | some r =>
        obtain ⟨l0, h0⟩ := r
        intro l h' e
        simp only [Option.some.injEq, Prod.mk.injEq] at e
        obtain ⟨rfl, rfl⟩ := e
        exact min_touch l0 P ps h0 (h l0 h0 hd) (hcs ps (by simp))

theorem covers_hold (place : ℤ × ℤ) (cs : List (List (Vec ℝ))) (hcs : ∀ ps ∈ cs, ps ≠ []) :
    ∀ (d : PyDict (ℤ × ℤ) (Vec ℝ × Vec ℝ)) (P : List (Vec ℝ)), RangeHolds (d.get? place) P →
      RangeHolds ((cs.foldl (coverRanges place) d).get? place) (P ++ cs.flatten) := by
  induction cs with
  | nil => intro d P h; simpa using h
  | cons ps cs ih =>
    intro d P h
    have := ih (fun q hq => hcs q (by simp [hq])) (coverRanges place d ps) (P ++ ps) ?_
    · simpa using this
    · rw [coverRanges_get, if_pos rfl]
      intro _
      have hc := corner_inside ps
      cases hd : d.get? place with
      | none =>
        have hP : P = [] := by
          by_contra hP
          obtain ⟨l, h', e, -⟩ := h hP
          rw [hd] at e
          simp at e
        exact ⟨_, _, rfl, by rw [hP]; exact hc⟩
      | some r =>
        obtain ⟨l0, h0⟩ := r
        refine ⟨_, _, rfl, fun p hp j => ?_⟩
        rcases List.mem_append.1 hp with hp | hp
        · obtain ⟨l, h', e, hI⟩ := h (List.ne_nil_of_mem hp)
          rw [hd] at e
          simp only [Option.some.injEq, Prod.mk.injEq] at e
          obtain ⟨rfl, rfl⟩ := e
          exact ⟨(min_le_left _ _).trans (hI p hp j).1, (hI p hp j).2.trans (le_max_left _ _)⟩
        · exact ⟨(min_le_right _ _).trans (hc p hp j).1, (hc p hp j).2.trans (le_max_right _ _)⟩

theorem covers_other (place place' : ℤ × ℤ) (hp : place ≠ place') (cs : List (List (Vec ℝ))) :
    ∀ d : PyDict (ℤ × ℤ) (Vec ℝ × Vec ℝ),
      (cs.foldl (coverRanges place) d).get? place' = d.get? place' := by
  induction cs with
  | nil => intro d; rfl
  | cons ps cs ih => intro d; rw [List.foldl_cons, ih, coverRanges_get, if_neg hp]

theorem RangeTouches.mono {o : Option (Vec ℝ × Vec ℝ)} {P Q : List (Vec ℝ)}
    (h : RangeTouches o P) (hs : ∀ p ∈ P, p ∈ Q) : RangeTouches o Q := by
  intro l h' e j
  obtain ⟨⟨p, hp, e1⟩, q, hq, e2⟩ := h l h' e j
  exact ⟨⟨p, hs p hp, e1⟩, q, hs q hq, e2⟩

theorem RangeHolds.anti {o : Option (Vec ℝ × Vec ℝ)} {P Q : List (Vec ℝ)}
    (h : RangeHolds o P) (hs : ∀ p ∈ Q, p ∈ P) : RangeHolds o Q := by
  intro hQ
  obtain ⟨q, hq⟩ := List.exists_mem_of_ne_nil Q hQ
  obtain ⟨l, h', e, hI⟩ := h (List.ne_nil_of_mem (hs q hq))
  exact ⟨l, h', e, fun p hp => hI p (hs p hp)⟩

theorem call_touch (lib : PlotLib) (e : Engine) (s : Style) (c : PlotCall)
    (he : ∀ place, RangeTouches (e.ranges.get? place) (drawnAt place e.traces)) :
    ∀ place, RangeTouches ((e.call lib s c).1.ranges.get? place)
      (drawnAt place (e.call lib s c).1.traces) := by
  intro place
  obtain ⟨ts, cs, hd, hf, -⟩ := call_draws lib e s c
  rw [hd.ranges, hd.traces, drawnAt_append]
  by_cases hp : s.place = place
  · subst hp
    rw [drawnAt_same _ ts hf.place]
    refine (covers_touch s.place cs hf.filled e.ranges _ (he s.place)).mono fun p hp => ?_
    rcases List.mem_append.1 hp with hp | hp
    · exact List.mem_append_left _ hp
    · exact List.mem_append_right _ (hf.drawn p hp)
  · rw [covers_other _ _ hp, drawnAt_other s.place place ts hf.place (Ne.symm hp), List.append_nil]
    exact he place

theorem session_touch (lib : PlotLib) (calls : List (Style × PlotCall)) : ∀ e : Engine,
    (∀ place, RangeTouches (e.ranges.get? place) (drawnAt place e.traces)) →
    ∀ place, RangeTouches ((e.session lib calls).ranges.get? place)
      (drawnAt place (e.session lib calls).traces) := by
  induction calls with
  | nil => intro e he; exact he
  | cons c calls ih => intro e he; exact ih _ (call_touch lib e c.1 c.2 he)

theorem call_mono (lib : PlotLib) (e : Engine) (s : Style) (c : PlotCall) (place : ℤ × ℤ)
    (P : List (Vec ℝ)) (h : RangeHolds (e.ranges.get? place) P) :
    RangeHolds ((e.call lib s c).1.ranges.get? place) P := by
  obtain ⟨ts, cs, hd, hf, -⟩ := call_draws lib e s c
  rw [hd.ranges]
  by_cases hp : s.place = place
  · subst hp
    exact (covers_hold s.place cs hf.filled e.ranges P h).anti fun p hp => by simp [hp]
  · rw [covers_other _ _ hp]
    exact h

theorem session_mono (lib : PlotLib) (place : ℤ × ℤ) (P : List (Vec ℝ))
    (calls : List (Style × PlotCall)) : ∀ e : Engine, RangeHolds (e.ranges.get? place) P →
      RangeHolds ((e.session lib calls).ranges.get? place) P := by
  induction calls with
  | nil => intro e he; exact he
  | cons c calls ih => intro e he; exact ih _ (call_mono lib e c.1 c.2 place P he)

/-- The points drawn in a subplot by one call. -/
noncomputable def callDraws (lib : PlotLib) (e : Engine) (s : Style) (c : PlotCall)
    (place : ℤ × ℤ) : List (Vec ℝ) :=
  drawnAt place ((e.call lib s c).1.traces.drop e.traces.length)

theorem callDraws_hold (lib : PlotLib) (e : Engine) (s : Style) (c : PlotCall) (hc : c.Single)
    (place : ℤ × ℤ) :
    RangeHolds ((e.call lib s c).1.ranges.get? place) (callDraws lib e s c place) := by
  obtain ⟨ts, cs, hd, hf, hfull⟩ := call_draws lib e s c
  unfold callDraws
  rw [hd.ranges, hd.traces, List.drop_left]
  by_cases hp : s.place = place
  · subst hp
    rw [drawnAt_same _ ts hf.place]
    exact (covers_hold s.place cs hf.filled e.ranges [] (fun h => absurd rfl h)).anti
      fun p hp => by simpa using hfull hc p hp
  · rw [drawnAt_other s.place place ts hf.place (Ne.symm hp)]
    exact fun h => absurd rfl h

theorem session_append (lib : PlotLib) (pre post : List (Style × PlotCall)) : ∀ e : Engine,
    e.session lib (pre ++ post) = (e.session lib pre).session lib post := by
  induction pre with
  | nil => intro e; rfl
  | cons c pre ih => intro e; exact ih _

theorem axes_get (e : Engine) (place : ℤ × ℤ) :
    e.axes.get? place = (e.ranges.get? place).map axesOf := by
  unfold Engine.axes
  induction e.ranges with
  | nil => rfl
  | cons r rs ih =>
    simp only [List.map_cons, PyDict.get?]
    split
    · rfl
    · exact ih

/-- The axes show a point. -/
def Axes.Shows (a : Axes) (p : Vec ℝ) : Prop := ∀ j, a.lo j ≤ p j ∧ p j ≤ a.hi j

/-- The axes for a range that is tight around the points. -/
theorem shows_iff (P : List (Vec ℝ)) (l h : Vec ℝ) (hI : Inside l h P) (hT : Touching l h P) :
    (∀ p ∈ P, (axesOf (l, h)).Shows p) ↔
      ∀ j, (∃ p ∈ P, p j ≤ 0) ∧ ∃ p ∈ P, 0 ≤ p j := by
  constructor
  · intro hs j
    obtain ⟨⟨p, hp, e1⟩, q, hq, e2⟩ := hT j
    have h1 : 105 / 100 * l j ≤ p j := (hs p hp j).1
    have h2 : q j ≤ 105 / 100 * h j := (hs q hq j).2
    exact ⟨⟨p, hp, by linarith⟩, q, hq, by linarith⟩
  · intro hz p hp j
    obtain ⟨⟨a, ha, h1⟩, b, hb, h2⟩ := hz j
    have h3 := (hI a ha j).1
    have h4 := (hI b hb j).2
    obtain ⟨h5, h6⟩ := hI p hp j
    show 105 / 100 * l j ≤ p j ∧ p j ≤ 105 / 100 * h j
    constructor <;> linarith

/-- C65: whatever is drawn by a call other than a k-path of several pieces is within the range that
the axes are made from, whatever is called before and after. -/
theorem C65_inside_partial (lib : PlotLib) (pre post : List (Style × PlotCall)) (s : Style)
    (c : PlotCall) (hc : c.Single) (place : ℤ × ℤ) (p : Vec ℝ)
    (hp : p ∈ callDraws lib (({} : Engine).session lib pre) s c place) :
    ∃ a, (({} : Engine).session lib (pre ++ (s, c) :: post)).axes.get? place = some a ∧
      ∀ j, a.lo j ≤ 105 / 100 * p j ∧ 105 / 100 * p j ≤ a.hi j := by
  have h := session_mono lib place _ post _
    (callDraws_hold lib (({} : Engine).session lib pre) s c hc place)
  obtain ⟨l, h', e, hI⟩ := h (List.ne_nil_of_mem hp)
  refine ⟨axesOf (l, h'), ?_, fun j => ?_⟩
  · rw [session_append, axes_get]
    show Option.map axesOf (((({} : Engine).session lib pre).call lib s c).1.session lib post
      |>.ranges.get? place) = _
    rw [e]
    rfl
  · obtain ⟨h1, h2⟩ := hI p hp j
    show 105 / 100 * l j ≤ _ ∧ _ ≤ 105 / 100 * h' j
    constructor <;> linarith

/-- Every point of the subplot was drawn (perhaps among others) by a call other than a k-path of
several pieces. So it is for a k-path drawn together with its points by `plot_kpoints`. -/
def Backed (lib : PlotLib) (calls : List (Style × PlotCall)) (place : ℤ × ℤ) : Prop :=
  ∀ p ∈ drawnAt place (({} : Engine).session lib calls).traces, ∃ pre s c post,
    calls = pre ++ (s, c) :: post ∧ c.Single ∧
      p ∈ callDraws lib (({} : Engine).session lib pre) s c place

theorem backed_hold (lib : PlotLib) (calls : List (Style × PlotCall)) (place : ℤ × ℤ)
    (hb : Backed lib calls place) :
    RangeHolds ((({} : Engine).session lib calls).ranges.get? place)
      (drawnAt place (({} : Engine).session lib calls).traces) := by
  have key (p : Vec ℝ) (hp : p ∈ drawnAt place (({} : Engine).session lib calls).traces) :
      ∃ l h, (({} : Engine).session lib calls).ranges.get? place = some (l, h) ∧
        Inside l h [p] := by
    obtain ⟨pre, s, c, post, rfl, hc, hpc⟩ := hb p hp
    have h := session_mono lib place _ post _
      (callDraws_hold lib (({} : Engine).session lib pre) s c hc place)
    obtain ⟨l, h', e, hI⟩ := h (List.ne_nil_of_mem hpc)
    refine ⟨l, h', ?_, fun q hq => ?_⟩
    · rw [session_append]
      exact e
    · rw [List.mem_singleton.1 hq]
      exact hI p hpc
  intro hne
  obtain ⟨p, hp⟩ := List.exists_mem_of_ne_nil _ hne
  obtain ⟨l, h, e, -⟩ := key p hp
  refine ⟨l, h, e, fun q hq => ?_⟩
  obtain ⟨l', h', e', hI⟩ := key q hq
  rw [e] at e'
  simp only [Option.some.injEq, Prod.mk.injEq] at e'
  rw [e'.1, e'.2]
  exact hI q (by simp)

/-- Without k-paths of several pieces every point is so. -/
theorem backed_of_single (lib : PlotLib) (place : ℤ × ℤ) (calls : List (Style × PlotCall))
    (hc : ∀ c ∈ calls, c.2.Single) : Backed lib calls place := by
  induction calls using List.reverseRecOn with
  | nil => intro p hp; simp [drawnAt, Engine.session] at hp
  | append_singleton calls c ih =>
    intro p hp
    have hs : (({} : Engine).session lib (calls ++ [c])).traces =
        (((({} : Engine).session lib calls)).call lib c.1 c.2).1.traces := by
      rw [session_append]
      rfl
    obtain ⟨ts, cs, hd, -, -⟩ := call_draws lib (({} : Engine).session lib calls) c.1 c.2
    rw [hs, hd.traces, drawnAt_append] at hp
    rcases List.mem_append.1 hp with hp | hp
    · obtain ⟨pre, s, c', post, e, h1, h2⟩ := ih (fun x hx => hc x (by simp [hx])) p hp
      exact ⟨pre, s, c', post ++ [c], by rw [e]; simp, h1, h2⟩
    · refine ⟨calls, c.1, c.2, [], rfl, hc c (by simp), ?_⟩
      unfold callDraws
      rwa [hd.traces, List.drop_left]

/-- C65: in every subplot where something was drawn the axes exist, and they show all of it if and
only if, for every coordinate, something was drawn at or below zero and something at or above zero.

Missing: figures where a point of an earlier piece of a k-path is drawn by nothing else, for which
this is false (`C65_kpath_hidden`). -/
theorem C65_visible_partial (lib : PlotLib) (calls : List (Style × PlotCall)) (position : String)
    (hpos : lib.lower position ∈ ["top", "bottom", "left", "right"]) :
    ∃ ts axes, (({} : Engine).session lib calls).finish lib.lower position = .ok (ts, axes) ∧
      ∀ place, Backed lib calls place → drawnAt place ts ≠ [] → ∃ a, axes.get? place = some a ∧
        ((∀ p ∈ drawnAt place ts, a.Shows p) ↔
          ∀ j, (∃ p ∈ drawnAt place ts, p j ≤ 0) ∧ ∃ p ∈ drawnAt place ts, 0 ≤ p j) := by
  refine ⟨_, _, if_pos hpos, fun place hb hne => ?_⟩
  have hT := session_touch lib calls {} (fun place l h e => by simp [PyDict.get?] at e) place
  obtain ⟨l, h, e, hI⟩ := backed_hold lib calls place hb hne
  exact ⟨axesOf (l, h), by rw [axes_get, e]; rfl, shows_iff _ l h hI (hT l h e)⟩

/-- C65: if the origin is drawn in a subplot (the corner of a cell, the start of the vectors of a
Brillouin zone, the point Γ) everything in it is shown. -/
theorem C65_origin_partial (lib : PlotLib) (calls : List (Style × PlotCall)) (position : String)
    (hpos : lib.lower position ∈ ["top", "bottom", "left", "right"]) :
    ∃ ts axes, (({} : Engine).session lib calls).finish lib.lower position = .ok (ts, axes) ∧
      ∀ place, Backed lib calls place → (0 : Vec ℝ) ∈ drawnAt place ts → ∃ a, axes.get? place = some a ∧
        ∀ p ∈ drawnAt place ts, a.Shows p := by
  obtain ⟨ts, axes, h, hv⟩ := C65_visible_partial lib calls position hpos
  refine ⟨ts, axes, h, fun place hb h0 => ?_⟩
  obtain ⟨a, ha, hi⟩ := hv place hb (List.ne_nil_of_mem h0)
  exact ⟨a, ha, hi.2 fun j => ⟨⟨0, h0, le_refl _⟩, 0, h0, le_refl _⟩⟩

/-- C65: the limits are never further out than five percent of the drawn coordinates: each is
`1.05` times a coordinate of a drawn point. For every session. -/
theorem C65_limits (lib : PlotLib) (calls : List (Style × PlotCall)) (place : ℤ × ℤ) (a : Axes)
    (ha : (({} : Engine).session lib calls).axes.get? place = some a) (j : Fin 3) :
    (∃ p ∈ drawnAt place (({} : Engine).session lib calls).traces, a.lo j = 105 / 100 * p j) ∧
      ∃ p ∈ drawnAt place (({} : Engine).session lib calls).traces, a.hi j = 105 / 100 * p j := by
  have hT := session_touch lib calls {} (fun place l h e => by simp [PyDict.get?] at e) place
  rw [axes_get] at ha
  cases hr : (({} : Engine).session lib calls).ranges.get? place with
  | none => rw [hr] at ha; simp at ha
  | some r =>
    rw [hr] at ha
    simp only [Option.map_some, Option.some.injEq] at ha
    subst ha
    obtain ⟨⟨p, hp, e1⟩, q, hq, e2⟩ := hT r.1 r.2 hr j
    exact ⟨⟨p, hp, by rw [e1]; rfl⟩, q, hq, by rw [e2]; rfl⟩

/-- C65: true proportion. If two drawn points of a subplot differ in z, the aspect ratio is given
and makes a unit of length equally long on the three axes. -/
theorem C65_proportion_partial (lib : PlotLib) (calls : List (Style × PlotCall))
    (place : ℤ × ℤ) (hb : Backed lib calls place) (p q : Vec ℝ)
    (hp : p ∈ drawnAt place (({} : Engine).session lib calls).traces)
    (hq : q ∈ drawnAt place (({} : Engine).session lib calls).traces) (hz : p 2 < q 2) :
    ∃ a x y z, (({} : Engine).session lib calls).axes.get? place = some a ∧
      a.aspect = some (x, y, z) ∧ 0 < z ∧
      x * (a.hi 2 - a.lo 2) = z * (a.hi 0 - a.lo 0) ∧
      y * (a.hi 2 - a.lo 2) = z * (a.hi 1 - a.lo 1) := by
  obtain ⟨l, h, e, hI⟩ := backed_hold lib calls place hb (List.ne_nil_of_mem hp)
  have hw (j : Fin 3) : l j ≤ h j := (hI p hp j).1.trans (hI p hp j).2
  have h2 : l 2 < h 2 := ((hI p hp 2).1.trans_lt hz).trans_le (hI q hq 2).2
  have hpos : 0 < 105 / 100 * h 2 - 105 / 100 * l 2 := by linarith
  have hx : |(105 / 100 * h 0 - 105 / 100 * l 0) / (105 / 100 * h 2 - 105 / 100 * l 2)| =
      (105 / 100 * h 0 - 105 / 100 * l 0) / (105 / 100 * h 2 - 105 / 100 * l 2) :=
    abs_of_nonneg (div_nonneg (by linarith [hw 0]) hpos.le)
  have hy : |(105 / 100 * h 1 - 105 / 100 * l 1) / (105 / 100 * h 2 - 105 / 100 * l 2)| =
      (105 / 100 * h 1 - 105 / 100 * l 1) / (105 / 100 * h 2 - 105 / 100 * l 2) :=
    abs_of_nonneg (div_nonneg (by linarith [hw 1]) hpos.le)
  refine ⟨axesOf (l, h), _, _, 1, by rw [axes_get, e]; rfl, if_neg hpos.ne', one_pos, ?_, ?_⟩
  · show |(105 / 100 * h 0 - 105 / 100 * l 0) / (105 / 100 * h 2 - 105 / 100 * l 2)| *
      (105 / 100 * h 2 - 105 / 100 * l 2) = 1 * (105 / 100 * h 0 - 105 / 100 * l 0)
    rw [hx, div_mul_cancel₀ _ hpos.ne', one_mul]
  · show |(105 / 100 * h 1 - 105 / 100 * l 1) / (105 / 100 * h 2 - 105 / 100 * l 2)| *
      (105 / 100 * h 2 - 105 / 100 * l 2) = 1 * (105 / 100 * h 1 - 105 / 100 * l 1)
    rw [hy, div_mul_cancel₀ _ hpos.ne', one_mul]

/-- C65: a flat figure (all points of a subplot have the same z) has no aspect ratio: the code
divides by zero. For every session. -/
theorem C65_flat (lib : PlotLib) (calls : List (Style × PlotCall)) (place : ℤ × ℤ) (z : ℝ)
    (hz : ∀ p ∈ drawnAt place (({} : Engine).session lib calls).traces, p 2 = z) (a : Axes)
    (ha : (({} : Engine).session lib calls).axes.get? place = some a) : a.aspect = none := by
  have hT := session_touch lib calls {} (fun place l h e => by simp [PyDict.get?] at e) place
  rw [axes_get] at ha
  cases hr : (({} : Engine).session lib calls).ranges.get? place with
  | none => rw [hr] at ha; simp at ha
  | some r =>
    rw [hr] at ha
    simp only [Option.map_some, Option.some.injEq] at ha
    subst ha
    obtain ⟨⟨p, hp, e1⟩, q, hq, e2⟩ := hT r.1 r.2 hr 2
    have : r.1 2 = r.2 2 := by rw [← e1, ← e2, hz p hp, hz q hq]
    show (if 105 / 100 * r.2 2 - 105 / 100 * r.1 2 = 0 then none else _) = none
    rw [if_pos (by rw [this, sub_self])]

/-- C65: `show` and `save` raise exactly for a position of the legend that is not one of the four. -/
theorem C65_legend_position (lower : String → String) (e : Engine) (position : String) :
    (∃ r, e.finish lower position = .ok r) ↔
      lower position ∈ ["top", "bottom", "left", "right"] := by
  unfold Engine.finish legendPositions
  by_cases h : lower position ∈ ["top", "bottom", "left", "right"]
  · rw [if_pos h]; simp [h]
  · rw [if_neg h]; simp [h]

/-- C65, refutation: points away from the origin are drawn outside of the axes. -/
theorem C65_offset_hidden :
    ∃ a, (({} : Engine).session bareLib
        [({ group := "g" }, .points [![1, 1, 1], ![2, 2, 2]])]).axes.get? (1, 1) = some a ∧
      ![1, 1, 1] ∈ drawnAt (1, 1) (({} : Engine).session bareLib
        [({ group := "g" }, .points [![1, 1, 1], ![2, 2, 2]])]).traces ∧
      ¬ a.Shows ![1, 1, 1] := by
  have hd : drawnAt (1, 1) (({} : Engine).session bareLib
      [({ group := "g" }, .points [![1, 1, 1], ![2, 2, 2]])]).traces =
        [![1, 1, 1], ![2, 2, 2]] := rfl
  have hm : (![1, 1, 1] : Vec ℝ) ∈ drawnAt (1, 1) (({} : Engine).session bareLib
      [({ group := "g" }, .points [![1, 1, 1], ![2, 2, 2]])]).traces := by rw [hd]; simp
  obtain ⟨l, h, e, -⟩ := backed_hold bareLib
    [({ group := "g" }, .points [![1, 1, 1], ![2, 2, 2]])] (1, 1)
    (backed_of_single _ _ _ (by simp [PlotCall.Single])) (List.ne_nil_of_mem hm)
  have ha : (({} : Engine).session bareLib
      [({ group := "g" }, .points [![1, 1, 1], ![2, 2, 2]])]).axes.get? (1, 1) =
        some (axesOf (l, h)) := by rw [axes_get, e]; rfl
  refine ⟨_, ha, hm, fun hs => ?_⟩
  obtain ⟨⟨p, hp, e1⟩, -⟩ := C65_limits bareLib _ _ _ ha 0
  have h1 := (hs 0).1
  rw [e1] at h1
  rw [hd] at hp
  simp only [List.mem_cons, List.not_mem_nil, or_false] at hp
  rcases hp with rfl | rfl <;> norm_num at h1

/-- C65, refutation: the first piece of a k-path of two pieces is outside of the axes, although the
path goes through the origin. -/
theorem C65_kpath_hidden :
    (({} : Engine).call bareLib { group := "g" } (.kpath twoPieces 0)).2 = .ok () ∧
    ∃ a, (({} : Engine).session bareLib [({ group := "g" }, .kpath twoPieces 0)]).axes.get? (1, 1) =
        some a ∧
      0 ∈ drawnAt (1, 1) (({} : Engine).session bareLib
        [({ group := "g" }, .kpath twoPieces 0)]).traces ∧
      ∃ p ∈ drawnAt (1, 1) (({} : Engine).session bareLib
        [({ group := "g" }, .kpath twoPieces 0)]).traces, ¬ a.Shows p := by
  have h1 : kpathPoints twoPieces 0 ["M", "R"] =
      .ok [![1 / 2, 1 / 2, 0], ![1 / 2, 1 / 2, 1 / 2]] := by
    show Except.ok [0 + vecMat ![1 / 2, 1 / 2, 0] 1, 0 + vecMat ![1 / 2, 1 / 2, 1 / 2] 1] = _
    simp only [vecMat_eq, Matrix.vecMul_one, zero_add]
  have h2 : kpathPoints twoPieces 0 ["G", "X"] = .ok [0, ![1 / 2, 0, 0]] := by
    show Except.ok [0 + vecMat 0 1, 0 + vecMat ![1 / 2, 0, 0] 1] = _
    simp only [vecMat_eq, Matrix.vecMul_one, zero_add]
  obtain ⟨ps, cs, hne, hd, hcase⟩ := plotKpath_draws {} { group := "g" } twoPieces 0
  have hok := plotKpath_ok {} { group := "g" } twoPieces 0 (by decide) (by
    intro sub hs
    simp only [twoPieces, List.mem_cons, List.not_mem_nil, or_false] at hs
    rcases hs with rfl | rfl
    · exact ⟨_, _, h1⟩
    · exact ⟨_, _, h2⟩)
  rcases hcase with ⟨-, h, -⟩ | ⟨hps, hcs, -, hm⟩
  · exact absurd hok (h _)
  have hm' : twoPieces.path.mapM (kpathPoints twoPieces 0) =
      .ok [[![1 / 2, 1 / 2, 0], ![1 / 2, 1 / 2, 1 / 2]], [0, ![1 / 2, 0, 0]]] := by
    show (["M", "R"] :: [["G", "X"]]).mapM _ = _
    simp only [List.mapM_cons, List.mapM_nil, h1, h2, bind, Except.bind, pure, Except.pure]
  rw [hm] at hm'
  simp only [Except.ok.injEq] at hm'
  subst hm'
  subst hcs
  have htr : (({} : Engine).session bareLib [({ group := "g" }, .kpath twoPieces 0)]).traces =
      [] ++ _ := hd.traces
  have hrg : (({} : Engine).session bareLib [({ group := "g" }, .kpath twoPieces 0)]).ranges =
      _ := hd.ranges
  have hdr : drawnAt (1, 1) (({} : Engine).session bareLib
      [({ group := "g" }, .kpath twoPieces 0)]).traces =
      [![1 / 2, 1 / 2, 0], ![1 / 2, 1 / 2, 1 / 2], 0, ![1 / 2, 0, 0]] := by
    rw [htr]
    rfl
  refine ⟨hok, axesOf (lowCorner [0, ![1 / 2, 0, 0]], highCorner [0, ![1 / 2, 0, 0]]), ?_, ?_,
    ![1 / 2, 1 / 2, 0], ?_, fun hs => ?_⟩
  · rw [axes_get, hrg]
    simp only [List.getLast_cons_cons, List.getLast_singleton, List.foldl_cons, List.foldl_nil]
    rw [coverRanges_get, if_pos rfl]
    rfl
  · rw [hdr]; simp
  · rw [hdr]; simp
  · have h3 := (hs 1).2
    have hc := corner_touching [0, (![1 / 2, 0, 0] : Vec ℝ)] (by simp) 1
    obtain ⟨-, q, hq, e⟩ := hc
    have h0 : highCorner [0, (![1 / 2, 0, 0] : Vec ℝ)] 1 = 0 := by
      rw [← e]
      simp only [List.mem_cons, List.not_mem_nil, or_false] at hq
      rcases hq with rfl | rfl <;> simp
    have h4 : (1 / 2 : ℝ) ≤ 105 / 100 * highCorner [0, (![1 / 2, 0, 0] : Vec ℝ)] 1 := h3
    rw [h0] at h4
    norm_num at h4

/-! ### Cases meeting the hypotheses -/

/-- A cell and a line. -/
example : Backed bareLib [({ group := "g" }, .cell 1 0 true "a"),
    ({ group := "g" }, .line ![0, 0, 1] ![1, 2, 3])] (1, 1) :=
  backed_of_single _ _ _ (by simp [PlotCall.Single])

example : (0 : Vec ℝ) ∈ drawnAt (1, 1) (({} : Engine).session bareLib
    [({ group := "g" }, .line 0 ![1, 2, 3])]).traces := by
  show (0 : Vec ℝ) ∈ [0, ![1, 2, 3]]
  simp

example : bareLib.lower "top" ∈ ["top", "bottom", "left", "right"] := by
  show "top".toLower ∈ _
  decide +kernel

/-- A flat figure. -/
example : ∃ a, (({} : Engine).session bareLib
    [({ group := "g" }, .line 0 ![1, 2, 0])]).axes.get? (1, 1) = some a := ⟨_, rfl⟩

end Wulfric
