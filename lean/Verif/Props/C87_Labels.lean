import Verif.Lemmas.DefaultPaths
import Verif.Props.C46_Sampling
import Verif.Props.C55_BrillouinZone
import Verif.Spec.Labels

/-!
# C87: the labels show the names

The label of a point is its name in LaTeX (`Spec.typeset`), and the labels of the ticks, read one
after the other, are the path.
-/

set_option linter.unusedSectionVars false

namespace Wulfric
open Matrix _root_.Spec Wulfric.Spec

theorem table_check : (hsPlotNames.all fun x =>
    x.1 == "F3" || x.1 == "F3_P" || x.2 == typeset x.1) = true := by decide +kernel

theorem table_typeset {m l : String} (h : hsPlotNames.get? m = some l) (h3 : m ≠ "F3" ∧ m ≠ "F3_P") :
    l = typeset m := by
  have := List.all_eq_true.1 table_check _ (get_mem h)
  simpa [h3.1, h3.2] using this

theorem greek_good {l : List Char} {g : String} (h : greek l = some g) : GoodName g := by
  unfold greek at h
  split_ifs at h <;> cases h <;> exact ⟨by decide, by decide⟩

theorem good_append {a b : String} (ha : GoodName a) (hb : GoodName b) : GoodName (a ++ b) := by
  unfold GoodName at *
  rw [String.toList_append, List.mem_append, List.mem_append]
  tauto

theorem good_ite {c : Prop} [Decidable c] {a b : String} (ha : GoodName a) (hb : GoodName b) :
    GoodName (if c then a else b) := by
  split_ifs
  · exact ha
  · exact hb

theorem good_part {name : String} (h : GoodName name) {l : List Char} (hl : l ⊆ name.toList) :
    GoodName (String.ofList l) := by
  unfold GoodName
  rw [String.toList_ofList]
  exact ⟨fun q => h.1 (hl q), fun q => h.2 (hl q)⟩

/-- A name without hyphens and bars is typeset without them. -/
theorem typeset_good {name : String} (h : GoodName name) : GoodName (typeset name) := by
  have hr : name.toList.dropWhile (fun c => !c.isDigit && c ≠ '_') ⊆ name.toList :=
    (List.dropWhile_sublist _).subset
  have dollar : GoodName "$" := ⟨by decide, by decide⟩
  have empty : GoodName "" := ⟨by decide, by decide⟩
  have hmarks : GoodName
      ((if (name.toList.dropWhile fun c => !c.isDigit && c ≠ '_').takeWhile (·.isDigit) = [] then ""
        else "_" ++ String.ofList
          ((name.toList.dropWhile fun c => !c.isDigit && c ≠ '_').takeWhile (·.isDigit))) ++
      (if (name.toList.dropWhile fun c => !c.isDigit && c ≠ '_').dropWhile (·.isDigit) = "_P".toList
        then "^{\\prime}" else String.ofList
          ((name.toList.dropWhile fun c => !c.isDigit && c ≠ '_').dropWhile (·.isDigit)))) := by
    refine good_append ?_ ?_
    · split_ifs
      · exact empty
      · exact good_append ⟨by decide, by decide⟩
          (good_part h fun _ q => hr ((List.takeWhile_sublist _).subset q))
    · split_ifs
      · exact ⟨by decide, by decide⟩
      · exact good_part h fun _ q => hr ((List.dropWhile_sublist _).subset q)
  unfold typeset
  simp only
  split
  · rename_i g hg
    exact good_append (good_append (good_append dollar (greek_good hg)) hmarks) dollar
  · refine good_append (good_part h (List.takeWhile_sublist _).subset) ?_
    exact good_ite empty (good_append (good_append dollar hmarks) dollar)

/-- No default path goes through the mislabelled points. -/
theorem lists_labels : ∀ p ∈ hpkotPathLists ++ scPathLists, ∀ sub ∈ p, ∀ n ∈ sub,
    n ∈ tableNames ∧ n ≠ "F3" := by decide +kernel

theorem lists_names : ∀ p ∈ hpkotPathLists ++ scPathLists, ∀ sub ∈ p, ∀ n ∈ sub,
    (n ∈ allNames ∧ n ≠ "F3" ∧ n ≠ "F3_P") ∧
      negative n ∈ allNames ∧ negative n ≠ "F3" ∧ negative n ≠ "F3_P" := by
  intro p hp sub hsub n hn
  obtain ⟨h1, h2⟩ := lists_labels p hp sub hsub n hn
  have h0 : n ∈ allNames ∧ n ≠ "F3" ∧ n ≠ "F3_P" :=
    ⟨List.mem_append.2 (.inl h1), h2, primed_not_table (k' := "F3") h1⟩
  refine ⟨h0, ?_⟩
  unfold negative
  split_ifs with q
  · rw [← q]
    exact h0
  · refine ⟨List.mem_append.2 (.inr (List.mem_map.2 ⟨n, (List.mem_erase_of_ne q).2 h1, rfl⟩)), ?_, ?_⟩
    · intro e
      have : "F3" ∈ tableNames := by decide +kernel
      exact primed_not_table this e.symm
    · intro e
      exact h2 (primed_inj (b := "F3") e)

/-! ### The labels one after the other -/

theorem pyJoin_cons (sep x : String) {l : List String} (h : l ≠ []) :
    pyJoin sep (x :: l) = x ++ sep ++ pyJoin sep l :=
  pyJoin_append sep (l := [x]) (by simp) h

theorem labelSteps_ne (lab : String → String) (x : String) (l : List Step) :
    labelSteps lab x l ≠ [] := by
  cases l <;> simp [labelSteps]

/-- The sub-paths after the first one, each after a bar. -/
def laterText (lab : String → String) : List (List String) → String
  | [] => ""
  | sub :: p => "|" ++ pyJoin "-" (sub.map lab) ++ laterText lab p

theorem text_eq (lab : String → String) (sub : List String) (p : List (List String)) :
    getPathAsString ((sub :: p).map fun s => s.map lab) =
      pyJoin "-" (sub.map lab) ++ laterText lab p := by
  induction p generalizing sub with
  | nil => simp [getPathAsString, pyJoin, laterText]
  | cons q p ih =>
    have := ih q
    unfold getPathAsString at this ⊢
    rw [List.map_cons, List.map_cons, pyJoin_cons _ _ (by simp), this]
    simp [laterText, String.append_assoc]

theorem join_sub (lab : String → String) (r : List Step) (R : String)
    (hr : ∀ x, pyJoin "-" (labelSteps lab x r) = x ++ R) (sub : List String) (a x : String) :
    pyJoin "-" (labelSteps lab x (subSteps false (a :: sub) ++ r)) =
      pyJoin "-" (x :: sub.map lab) ++ R := by
  induction sub generalizing a x with
  | nil => simpa [subSteps, pyJoin] using hr x
  | cons b sub ih =>
    simp only [subSteps, List.cons_append, labelSteps, Bool.false_eq_true, if_false, List.map_cons]
    rw [pyJoin_cons _ _ (labelSteps_ne _ _ _), ih, pyJoin_cons _ x (by simp)]
    simp [String.append_assoc]

theorem join_later (lab : String → String) (p : List (List String))
    (hp : ∀ sub ∈ p, 2 ≤ sub.length) (x : String) :
    pyJoin "-" (labelSteps lab x (laterSteps p)) = x ++ laterText lab p := by
  induction p generalizing x with
  | nil => simp [laterSteps, labelSteps, pyJoin, laterText]
  | cons sub p ih =>
    match sub, hp sub (by simp) with
    | a :: b :: sub, _ =>
      have e : laterSteps ((a :: b :: sub) :: p) =
          ⟨a, b, true⟩ :: (subSteps false (b :: sub) ++ laterSteps p) := by
        simp [laterSteps, subSteps]
      rw [e]
      simp only [labelSteps, if_true, laterText, List.map_cons]
      rw [pyJoin_cons _ _ (labelSteps_ne _ _ _),
        join_sub lab _ _ (fun y => ih (fun q hq => hp q (by simp [hq])) y),
        pyJoin_cons _ (lab a) (by simp)]
      simp [String.append_assoc]

/-- C87: the labels of the ticks of any `Kpoints` object, joined by hyphens, are the path with
labels in place of names. -/
theorem C87_joined (k : Kpoints) (hk : PathDefined k) (hp : k.path ≠ []) :
    ∃ l, k.labels = .ok l ∧
      pyJoin "-" l = getPathAsString (k.path.map fun sub => sub.map k.label) := by
  have h := labelled hk
  have hlen : ∀ sub ∈ k.path, 2 ≤ sub.length := fun sub hsub => (hk sub hsub).1
  unfold Kpoints.labels
  match hpe : k.path, hp with
  | sub :: p, _ =>
    rw [hpe] at h hlen
    obtain ⟨x, hx, e⟩ := labelsLoop_first (lab := k.label) sub p hlen h
    refine ⟨_, e, ?_⟩
    rw [text_eq]
    match sub, hx with
    | a :: sub, hx =>
      simp only [List.head?_cons, Option.some.injEq] at hx
      subst hx
      exact join_sub _ _ _ (join_later _ _ fun q hq => hlen q (by simp [hq])) sub a _

section
variable (lower : String → String) (hl : lower "HPKOT" = "hpkot") (hl' : lower "SC" = "sc")
  (getData : Cell ℝ → Atoms ℝ → Except Err SpglibData)
  (niggli : Cell ℝ → Except Err (Cell ℝ)) (cell : Cell ℝ) (atoms : Atoms ℝ)
  (given : Option SpglibData) (data : SpglibData)
  (hd : given = some data ∨ (given = none ∧ getData cell atoms = .ok data))
  (hn : 1 ≤ data.spaceGroupNumber ∧ data.spaceGroupNumber ≤ 230)
  (hf : data.crystalFamily = family data.spaceGroupNumber)
  (hc : data.centringType = centring data.spaceGroupNumber)
  (htol : data.angleTolerance = -1 ∨ 0 ≤ data.angleTolerance) (convention : String)
include hl hl' hd hn hf hc htol

theorem label_parts (t : Bool) (n : ℤ) (k : Kpoints)
    (hk : Kpoints.fromCrystal lower getData niggli cell atoms convention t n given = .ok k) :
    PathDefined k ∧ GoodPath k.path ∧
      (∀ m ∈ k.hsNames, k.hsLabels.get? m = hsPlotNames.get? m ∧ (hsPlotNames.get? m).isSome) ∧
      ∀ sub ∈ k.path, ∀ m ∈ sub, m ∈ k.hsNames ∧ m ∈ allNames ∧ m ≠ "F3" ∧ m ≠ "F3_P" := by
  have hk' := hk
  unfold Kpoints.fromCrystal at hk'
  simp only [bind, Except.bind] at hk'
  cases h1 : getPathAndPoints lower getData niggli cell atoms given convention t true with
  | error e => simp [h1] at hk'
  | ok res =>
  obtain ⟨path, pts⟩ := res
  simp only [h1] at hk'
  cases h2 : pts.keys.mapM fun name => hsPlotNames.getItem name with
  | error e => simp [h2] at hk'
  | ok labels =>
  simp only [h2] at hk'
  cases h3 : getReciprocal cell with
  | error e => simp [h3] at hk'
  | ok q =>
  obtain ⟨k', e1, e2, -, e3, e4, -, e6, e5, e7⟩ := C45_from_crystal lower hl hl' getData niggli cell
    atoms given data hd hn hf hc htol convention t n path pts h1 q h3
  rw [hk] at e1
  cases e1
  have g2 : ∀ sub ∈ k.path, ∀ m ∈ sub, m ∈ allNames ∧ m ≠ "F3" ∧ m ≠ "F3_P" := by
    obtain ⟨p, hp, g | g⟩ := default_path lower getData niggli cell atoms given convention t true
      path pts h1
    · rw [e6] at g
      cases g
      exact fun sub hsub m hm => (lists_names _ hp sub hsub m hm).1
    · rw [e6] at g
      rw [Except.ok.inj g]
      intro sub hsub m hm
      rcases List.mem_append.1 hsub with hsub | hsub
      · exact (lists_names _ hp sub hsub m hm).1
      · obtain ⟨q, hq, rfl⟩ := List.mem_map.1 hsub
        obtain ⟨m', hm', rfl⟩ := List.mem_map.1 hm
        exact (lists_names _ hp q hq m' hm').2
  obtain ⟨p, g3, g4, -⟩ := C43_plottable_partial lower hl hl' getData niggli cell atoms given data hd hn
    hf hc htol convention path pts t true h1
  rw [e6] at g3
  cases g3
  refine ⟨e5, (C42_string_list_string path _ e6).2, fun m hm => ⟨e7 m hm, ?_⟩, ?_⟩
  · obtain ⟨l, hl⟩ := g4.labelled m (e4 ▸ hm)
    rw [hl]
    rfl
  · intro sub hsub m hm
    exact ⟨e4 ▸ g4.defined sub hsub m hm, g2 sub hsub m hm⟩

/-- C87: the label of every point of a crystal is its name in LaTeX; the points "F3" and "F3_P" are
excepted (`C87_F3`). -/
theorem C87_names_partial (t : Bool) (n : ℤ) (k : Kpoints)
    (hk : Kpoints.fromCrystal lower getData niggli cell atoms convention t n given = .ok k)
    (m : String) (hm : m ∈ k.hsNames) (h3 : m ≠ "F3") (h3' : m ≠ "F3_P") :
    k.hsLabels.get? m = some (typeset m) := by
  obtain ⟨-, -, h, -⟩ := label_parts lower hl hl' getData niggli cell atoms given data hd hn hf hc
    htol convention t n k hk
  obtain ⟨e, hs⟩ := h m hm
  obtain ⟨l, hl⟩ := Option.isSome_iff_exists.1 hs
  rw [e, hl]
  rw [table_typeset hl ⟨h3, h3'⟩]

/-- C87: the labels of the ticks of a default path, joined by hyphens, are a path again: the same
path with its names in LaTeX. -/
theorem C87_path (t : Bool) (n : ℤ) (k : Kpoints)
    (hk : Kpoints.fromCrystal lower getData niggli cell atoms convention t n given = .ok k) :
    ∃ l, k.labels = .ok l ∧
      getPathAsList (pyJoin "-" l) = .ok (k.path.map fun sub => sub.map typeset) := by
  obtain ⟨hp, hg, h, hm⟩ := label_parts lower hl hl' getData niggli cell atoms given data hd hn hf
    hc htol convention t n k hk
  obtain ⟨l, h1, h2⟩ := C87_joined k hp hg.1
  refine ⟨l, h1, ?_⟩
  have e : (k.path.map fun sub => sub.map k.label) = k.path.map fun sub => sub.map typeset := by
    refine List.map_congr_left fun sub hsub => List.map_congr_left fun m hm' => ?_
    obtain ⟨a, -, b, c⟩ := hm sub hsub m hm'
    unfold Kpoints.label
    rw [C87_names_partial lower hl hl' getData niggli cell atoms given data hd hn hf hc htol
      convention t n k hk m a b c]
    rfl
  rw [h2, e]
  apply C42_list_string_list
  refine ⟨by simpa using hg.1, fun q hq => ?_⟩
  obtain ⟨sub, hsub, rfl⟩ := List.mem_map.1 hq
  refine ⟨by simpa using (hg.2 sub hsub).1, fun m hm' => ?_⟩
  obtain ⟨m', hm'', rfl⟩ := List.mem_map.1 hm'
  exact typeset_good ((hg.2 sub hsub).2 m' hm'')

/-- C87: a crystal that has "F3" (its variation is MCLC1 or MCLC2) shows it with the label of
"F4". -/
theorem C87_F3 (t : Bool) (n : ℤ) (k : Kpoints)
    (hk : Kpoints.fromCrystal lower getData niggli cell atoms convention t n given = .ok k)
    (hm : "F3" ∈ k.hsNames) :
    k.hsLabels.get? "F3" = some (typeset "F4") ∧ typeset "F4" ≠ typeset "F3" := by
  obtain ⟨-, -, h, -⟩ := label_parts lower hl hl' getData niggli cell atoms given data hd hn hf hc
    htol convention t n k hk
  refine ⟨?_, by decide +kernel⟩
  rw [(h _ hm).1]
  decide +kernel

end

/-- What `from_crystal` is called with, and the symmetry data it works with. -/
structure LabelCall (lower : String → String)
    (getData : Cell ℝ → Atoms ℝ → Except Err SpglibData) (niggli : Cell ℝ → Except Err (Cell ℝ))
    (k : Kpoints) where
  cell : Cell ℝ
  atoms : Atoms ℝ
  given : Option SpglibData
  data : SpglibData
  convention : String
  timeReversal : Bool
  n : ℤ
  hd : given = some data ∨ (given = none ∧ getData cell atoms = .ok data)
  number : 1 ≤ data.spaceGroupNumber ∧ data.spaceGroupNumber ≤ 230
  hfamily : data.crystalFamily = family data.spaceGroupNumber
  hcentring : data.centringType = centring data.spaceGroupNumber
  tolerance : data.angleTolerance = -1 ∨ 0 ≤ data.angleTolerance
  result : Kpoints.fromCrystal lower getData niggli cell atoms convention timeReversal n given = .ok k

theorem map_inj_on {f : String → String} : ∀ {l l' : List String},
    (∀ a ∈ l, ∀ b ∈ l', f a = f b → a = b) → l.map f = l'.map f → l = l'
  | [], [], _, _ => rfl
  | [], _ :: _, _, h => by simp at h
  | _ :: _, [], _, h => by simp at h
  | a :: l, b :: l', hf, h => by
    simp only [List.map_cons, List.cons.injEq] at h
    rw [hf a (by simp) b (by simp) h.1,
      map_inj_on (fun x hx y hy => hf x (by simp [hx]) y (by simp [hy])) h.2]

theorem maps_inj_on {f : String → String} : ∀ {p p' : List (List String)},
    (∀ l ∈ p, ∀ a ∈ l, ∀ l' ∈ p', ∀ b ∈ l', f a = f b → a = b) →
    (p.map fun l => l.map f) = (p'.map fun l => l.map f) → p = p'
  | [], [], _, _ => rfl
  | [], _ :: _, _, h => by simp at h
  | _ :: _, [], _, h => by simp at h
  | l :: p, l' :: p', hf, h => by
    simp only [List.map_cons, List.cons.injEq] at h
    rw [map_inj_on (fun a ha b hb => hf l (by simp) a ha l' (by simp) b hb) h.1,
      maps_inj_on (fun x hx a ha y hy b hb => hf x (by simp [hx]) a ha y (by simp [hy]) b hb) h.2]

/-- C87: two default paths with the same labels are the same path, whatever the crystals and
conventions. -/
theorem C87_readable (lower : String → String) (hl : lower "HPKOT" = "hpkot")
    (hl' : lower "SC" = "sc") (getData : Cell ℝ → Atoms ℝ → Except Err SpglibData)
    (niggli : Cell ℝ → Except Err (Cell ℝ)) (k k' : Kpoints)
    (c : LabelCall lower getData niggli k) (c' : LabelCall lower getData niggli k')
    (h : k.labels = k'.labels) : k.path = k'.path := by
  obtain ⟨-, -, a1, a2⟩ := label_parts lower hl hl' getData niggli c.cell c.atoms c.given c.data c.hd
    c.number c.hfamily c.hcentring c.tolerance c.convention _ _ k c.result
  obtain ⟨-, -, b1, b2⟩ := label_parts lower hl hl' getData niggli c'.cell c'.atoms c'.given c'.data
    c'.hd c'.number c'.hfamily c'.hcentring c'.tolerance c'.convention _ _ k' c'.result
  obtain ⟨l, h1, h2⟩ := C87_path lower hl hl' getData niggli c.cell c.atoms c.given c.data c.hd
    c.number c.hfamily c.hcentring c.tolerance c.convention _ _ k c.result
  obtain ⟨l', h3, h4⟩ := C87_path lower hl hl' getData niggli c'.cell c'.atoms c'.given c'.data
    c'.hd c'.number c'.hfamily c'.hcentring c'.tolerance c'.convention _ _ k' c'.result
  rw [h1, h3] at h
  cases h
  rw [h2] at h4
  refine maps_inj_on (f := typeset) ?_ (Except.ok.inj h4)
  intro sub hsub m hm sub' hsub' m' hm' e
  obtain ⟨a3, a4, a5, a6⟩ := a2 sub hsub m hm
  obtain ⟨b3, b4, b5, b6⟩ := b2 sub' hsub' m' hm'
  obtain ⟨x, hx⟩ := Option.isSome_iff_exists.1 (a1 m a3).2
  obtain ⟨y, hy⟩ := Option.isSome_iff_exists.1 (b1 m' b3).2
  refine label_inj a4 b4 a5 a6 b5 b6 ?_
  rw [hx, hy, table_typeset hx ⟨a5, a6⟩, table_typeset hy ⟨b5, b6⟩, e]

/-- The hypotheses are met: an orthorhombic crystal, with and without time reversal. -/
example (t : Bool) : ∃ k, Nonempty (LabelCall String.toLower (fun _ _ => .error .runtimeError)
    (fun c => .ok c) k) ∧ ∃ l, k.labels = .ok l ∧
      getPathAsList (pyJoin "-" l) = .ok (k.path.map fun sub => sub.map typeset) := by
  obtain ⟨⟨path, pts⟩, h⟩ := sample_path t true
  obtain ⟨r, hr, -⟩ := C02_dual_unique (!![3, 0, 0; 0, 5, 0; 0, 0, 4] : Cell ℝ)
    (by rw [det_fin_three]; simp)
  obtain ⟨k, hk, -⟩ := C45_from_crystal String.toLower (by decide +kernel) (by decide +kernel) _ _ _ _
    _ (boxData 3 5 4 16 "o" "P") (.inl rfl) ⟨by decide, by decide⟩ rfl rfl (.inl rfl) "HPKOT" t 100
    path pts h r hr
  exact ⟨k, ⟨⟨_, _, _, boxData 3 5 4 16 "o" "P", "HPKOT", t, 100, .inl rfl, ⟨by decide, by decide⟩,
    rfl, rfl, .inl rfl, hk⟩⟩, C87_path String.toLower (by decide +kernel) (by decide +kernel) _ _ _ _
    _ (boxData 3 5 4 16 "o" "P") (.inl rfl) ⟨by decide, by decide⟩ rfl rfl (.inl rfl) "HPKOT" t 100
    k hk⟩

/-- The points of the variation MCLC1 have "F3". -/
example (a b c al : ℝ) : ∃ d, scPointsOf a b c al "MCLC" (some "MCLC1") = .ok d ∧
    "F3" ∈ d.keys := ⟨scTable17 a b c al, by simp [scPointsOf], by simp [scTable17, PyDict.keys]⟩

end Wulfric
