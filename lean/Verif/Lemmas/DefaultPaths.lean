import Verif.Props.C43_Points

/-!
# What holds of all default paths

The path returned for any crystal, as a list of lists, is one of 54, perhaps followed by the path
through the negatives of its points.
-/

namespace Wulfric

open Matrix _root_.Spec Wulfric.Spec

/-- The paths of `hpkotDefaultKPaths` as lists. -/
def hpkotPathLists : List (List (List String)) := [
  [["GAMMA", "X", "M", "GAMMA", "R", "X"], ["R", "M", "X1"]],
  [["GAMMA", "X", "M", "GAMMA", "R", "X"], ["R", "M"]],
  [["GAMMA", "X", "U"], ["K", "GAMMA", "L", "W", "X", "W2"]],
  [["GAMMA", "X", "U"], ["K", "GAMMA", "L", "W", "X"]],
  [["GAMMA", "H", "N", "GAMMA", "P", "H"], ["P", "N"]],
  [["GAMMA", "X", "M", "GAMMA", "Z", "R", "A", "Z"], ["X", "R"], ["M", "A"]],
  [["GAMMA", "X", "M", "GAMMA", "Z"], ["Z0", "M"], ["X", "P", "N", "GAMMA"]],
  [["GAMMA", "X", "P", "N", "GAMMA", "M", "S"], ["S0", "GAMMA"], ["X", "R"], ["G", "M"]],
  [["GAMMA", "X", "S", "Y", "GAMMA", "Z", "U", "R", "T", "Z"], ["X", "U"], ["Y", "T"], ["S",
   "R"]],
  [["GAMMA", "Y", "T", "Z", "GAMMA", "SIGMA0"], ["U0", "T"], ["Y", "C0"], ["A0", "Z"], ["GAMMA",
   "L"]],
  [["GAMMA", "T", "Z", "Y", "GAMMA", "LAMBDA0"], ["Q0", "Z"], ["T", "G0"], ["H0", "Y"], ["GAMMA",
   "L"]],
  [["GAMMA", "Y", "C0"], ["A0", "Z", "B0"], ["D0", "T", "G0"], ["H0", "Y"], ["T", "GAMMA", "Z"],
   ["GAMMA", "L"]],
  [["GAMMA", "X", "F2"], ["SIGMA0", "GAMMA", "Y0"], ["U0", "X"], ["GAMMA", "R", "W", "S",
   "GAMMA", "T", "W"]],
  [["GAMMA", "X", "U2"], ["Y0", "GAMMA", "LAMBDA0"], ["G2", "X"], ["GAMMA", "R", "W", "S",
   "GAMMA", "T", "W"]],
  [["GAMMA", "X", "F0"], ["SIGMA0", "GAMMA", "LAMBDA0"], ["G0", "X"], ["GAMMA", "R", "W", "S",
   "GAMMA", "T", "W"]],
  [["GAMMA", "Y", "C0"], ["SIGMA0", "GAMMA", "Z", "A0"], ["E0", "T", "Y"], ["GAMMA", "S", "R",
   "Z", "T"]],
  [["GAMMA", "Y", "F0"], ["DELTA0", "GAMMA", "Z", "B0"], ["G0", "T", "Y"], ["GAMMA", "S", "R",
   "Z", "T"]],
  [["GAMMA", "Y", "C0"], ["SIGMA0", "GAMMA", "Z", "A0"], ["E0", "T", "Y"], ["GAMMA", "S", "R",
   "Z", "T"]],
  [["GAMMA", "Y", "F0"], ["DELTA0", "GAMMA", "Z", "B0"], ["G0", "T", "Y"], ["GAMMA", "S", "R",
   "Z", "T"]],
  [["GAMMA", "M", "K", "GAMMA", "A", "L", "H", "A"], ["L", "M"], ["H", "K", "H2"]],
  [["GAMMA", "M", "K", "GAMMA", "A", "L", "H", "A"], ["L", "M"], ["H", "K"]],
  [["GAMMA", "T", "H2"], ["H0", "L", "GAMMA", "S0"], ["S2", "F", "GAMMA"]],
  [["GAMMA", "L", "T", "P0"], ["P2", "GAMMA", "F"]],
  [["GAMMA", "Z", "D", "B", "GAMMA", "A", "E", "Z", "C2", "Y2", "GAMMA"]],
  [["GAMMA", "C"], ["C2", "Y2", "GAMMA", "M2", "D"], ["D2", "A", "GAMMA"], ["L2", "GAMMA", "V2"]],
  [["GAMMA", "Y", "M", "A", "GAMMA"], ["L2", "GAMMA", "V2"]],
  [["GAMMA", "A", "I2"], ["I", "M2", "GAMMA", "Y"], ["L2", "GAMMA", "V2"]],
  [["GAMMA", "X"], ["Y", "GAMMA", "Z"], ["R", "GAMMA", "T"], ["U", "GAMMA", "V"]],
  [["GAMMA", "X"], ["Y", "GAMMA", "Z"], ["R2", "GAMMA", "T2"], ["U2", "GAMMA", "V2"]]]

/-- The paths of `scDefaultKPaths` as lists. -/
def scPathLists : List (List (List String)) := [
  [["GAMMA", "X", "M", "GAMMA", "R", "X"], ["M", "R"]],
  [["GAMMA", "X", "W", "K", "GAMMA", "L", "U", "W", "L", "K"], ["U", "X"]],
  [["GAMMA", "H", "N", "GAMMA", "P", "H"], ["P", "N"]],
  [["GAMMA", "X", "M", "GAMMA", "Z", "R", "A", "Z"], ["X", "R"], ["M", "A"]],
  [["GAMMA", "X", "M", "GAMMA", "Z", "P", "N", "Z1", "M"], ["X", "P"]],
  [["GAMMA", "X", "Y", "SIGMA", "GAMMA", "Z", "SIGMA1", "N", "P", "Y1", "Z"], ["X", "P"]],
  [["GAMMA", "X", "S", "Y", "GAMMA", "Z", "U", "R", "T", "Z"], ["Y", "T"], ["U", "X"], ["S",
   "R"]],
  [["GAMMA", "Y", "T", "Z", "GAMMA", "X", "A1", "Y"], ["T", "X1"], ["X", "A", "Z"], ["L",
   "GAMMA"]],
  [["GAMMA", "Y", "C", "D", "X", "GAMMA", "Z", "D1", "H", "C"], ["C1", "Z"], ["X", "H1"], ["H",
   "Y"], ["L", "GAMMA"]],
  [["GAMMA", "Y", "T", "Z", "GAMMA", "X", "A1", "Y"], ["X", "A", "Z"], ["L", "GAMMA"]],
  [["GAMMA", "X", "L", "T", "W", "R", "X1", "Z", "GAMMA", "Y", "S", "W"], ["L1", "Y"], ["Y1",
   "Z"]],
  [["GAMMA", "X", "S", "R", "A", "Z", "GAMMA", "Y", "X1", "A1", "T", "Y"], ["Z", "T"]],
  [["GAMMA", "M", "K", "GAMMA", "A", "L", "H", "A"], ["L", "M"], ["K", "H"]],
  [["GAMMA", "L", "B1"], ["B", "Z", "GAMMA", "X"], ["Q", "F", "P1", "Z"], ["L", "P"]],
  [["GAMMA", "P", "Z", "Q", "GAMMA", "F", "P1", "Q1", "L", "Z"]],
  [["GAMMA", "Y", "H", "C", "E", "M1", "A", "X", "H1"], ["M", "D", "Z"], ["Y", "D"]],
  [["GAMMA", "Y", "F", "L", "I"], ["I1", "Z", "F1"], ["Y", "X1"], ["X", "GAMMA", "N"], ["M",
   "GAMMA"]],
  [["GAMMA", "Y", "F", "L", "I"], ["I1", "Z", "F1"], ["N", "GAMMA", "M"]],
  [["GAMMA", "Y", "F", "H", "Z", "I", "F1"], ["H1", "Y1", "X", "GAMMA", "N"], ["M", "GAMMA"]],
  [["GAMMA", "Y", "F", "H", "Z", "I"], ["H1", "Y1", "X", "GAMMA", "N"], ["M", "GAMMA"]],
  [["GAMMA", "Y", "F", "L", "I"], ["I1", "Z", "H", "F1"], ["H1", "Y1", "X", "GAMMA", "N"], ["M",
   "GAMMA"]],
  [["X", "GAMMA", "Y"], ["L", "GAMMA", "Z"], ["N", "GAMMA", "M"], ["R", "GAMMA"]],
  [["X", "GAMMA", "Y"], ["L", "GAMMA", "Z"], ["N", "GAMMA", "M"], ["R", "GAMMA"]],
  [["X", "GAMMA", "Y"], ["L", "GAMMA", "Z"], ["N", "GAMMA", "M"], ["R", "GAMMA"]],
  [["X", "GAMMA", "Y"], ["L", "GAMMA", "Z"], ["N", "GAMMA", "M"], ["R", "GAMMA"]]]

theorem hpkot_lists : hpkotDefaultKPaths.map Prod.snd = hpkotPathLists.map getPathAsString := by
  decide +kernel

theorem sc_lists : scDefaultKPaths.map Prod.snd = scPathLists.map getPathAsString := by
  decide +kernel

theorem lists_good : ∀ p ∈ hpkotPathLists ++ scPathLists, GoodPath p := by
  unfold GoodPath GoodName
  decide +kernel

/-- A path of the tables, read, is one of the lists. -/
theorem table_path {kpath : String}
    (h : kpath ∈ hpkotDefaultKPaths.map Prod.snd ∨ kpath ∈ scDefaultKPaths.map Prod.snd) :
    ∃ p ∈ hpkotPathLists ++ scPathLists, getPathAsList kpath = .ok p := by
  rw [hpkot_lists, sc_lists] at h
  have key : ∃ p ∈ hpkotPathLists ++ scPathLists, getPathAsString p = kpath := by
    rcases h with h | h
    · obtain ⟨p, hp, e⟩ := List.mem_map.1 h
      exact ⟨p, List.mem_append.2 (.inl hp), e⟩
    · obtain ⟨p, hp, e⟩ := List.mem_map.1 h
      exact ⟨p, List.mem_append.2 (.inr hp), e⟩
  obtain ⟨p, hp, rfl⟩ := key
  exact ⟨p, hp, C42_list_string_list p (lists_good p hp)⟩

/-- The path followed by the negated one. -/
theorem extended_path {kpath : String} {p : List (List String)} (hp : getPathAsList kpath = .ok p) :
    getPathAsList (kpath ++ "|" ++ getPathAsString (p.map fun sub => sub.map primeName)) =
      .ok (p ++ p.map fun sub => sub.map negative) := by
  obtain ⟨hs, hgood⟩ := C42_string_list_string kpath p hp
  have hfun : (fun sub : List String => sub.map primeName) = fun sub => sub.map negative := by
    funext sub
    exact List.map_congr_left fun n _ => negative_eq n
  rw [hfun]
  have : kpath ++ "|" ++ getPathAsString (p.map fun sub => sub.map negative) =
      getPathAsString (p ++ p.map fun sub => sub.map negative) := by
    unfold getPathAsString at hs ⊢
    rw [List.map_append, pyJoin_append _ (by simpa using hgood.1) (by simpa using hgood.1), hs]
  rw [this]
  apply C42_list_string_list
  refine ⟨by simp [hgood.1], fun sub hsub => ?_⟩
  rcases List.mem_append.1 hsub with hsub | hsub
  · exact hgood.2 sub hsub
  · obtain ⟨q, hq, rfl⟩ := List.mem_map.1 hsub
    refine ⟨by simpa using (hgood.2 q hq).1, fun n hn => ?_⟩
    obtain ⟨m, hm, rfl⟩ := List.mem_map.1 hn
    exact good_negative ((hgood.2 q hq).2 m hm)

theorem get_mem {d : PyDict String String} {s v : String} (h : d.get? s = some v) : (s, v) ∈ d := by
  induction d with
  | nil => simp [PyDict.get?] at h
  | cons x d ih =>
    obtain ⟨k, w⟩ := x
    simp only [PyDict.get?] at h
    split at h
    · rename_i e
      cases h
      subst e
      exact List.mem_cons_self
    · exact List.mem_cons_of_mem _ (ih h)

theorem item_mem {d : PyDict String String} {s v : String} (h : d.getItem s = .ok v) :
    (s, v) ∈ d := by
  unfold PyDict.getItem at h
  cases hg : d.get? s with
  | none => simp [hg] at h
  | some w =>
    simp only [hg, Except.ok.injEq] at h
    subst h
    exact get_mem hg

theorem raw_path {lower : String → String} {getData : Cell ℝ → Atoms ℝ → Except Err SpglibData}
    {niggli : Cell ℝ → Except Err (Cell ℝ)} {cell : Cell ℝ} {atoms : Atoms ℝ} {data : SpglibData}
    {conv : Cell ℝ} {convention kpath : String} {raw : PyDict String (Vec ℝ)}
    (h : pathAndRawPoints lower getData niggli cell atoms data conv convention = .ok (kpath, raw)) :
    kpath ∈ hpkotDefaultKPaths.map Prod.snd ∨ kpath ∈ scDefaultKPaths.map Prod.snd := by
  unfold pathAndRawPoints at h
  simp only [bind, Except.bind, pure, Except.pure] at h
  split_ifs at h
  · cases h1 : scGetVariation lower getData niggli cell atoms (some data) with
    | error _ => simp [h1] at h
    | ok v =>
    simp only [h1] at h
    cases h2 : scGetPoints conv (data.crystalFamily ++ data.centringType) v with
    | error _ => simp [h2] at h
    | ok pts =>
    simp only [h2] at h
    cases v with
    | none => simp at h
    | some v =>
    simp only at h
    cases h3 : scDefaultKPaths.getItem v with
    | error _ => simp [h3] at h
    | ok k =>
      simp only [h3, Except.ok.injEq, Prod.mk.injEq] at h
      rw [← h.1]
      exact .inr (List.mem_map.2 ⟨_, item_mem h3, rfl⟩)
  · cases h1 : hpkotGetExtendedBlSymbol lower getData niggli cell atoms (some data) with
    | error _ => simp [h1] at h
    | ok v =>
    simp only [h1] at h
    cases h2 : hpkotGetPoints conv (data.crystalFamily ++ data.centringType) v with
    | error _ => simp [h2] at h
    | ok pts =>
    simp only [h2] at h
    cases h3 : hpkotDefaultKPaths.getItem v with
    | error _ => simp [h3] at h
    | ok k =>
      simp only [h3, Except.ok.injEq, Prod.mk.injEq] at h
      rw [← h.1]
      exact .inl (List.mem_map.2 ⟨_, item_mem h3, rfl⟩)

/-- The path of any crystal is one of the lists, perhaps followed by the negated one. -/
theorem default_path (lower : String → String) (getData : Cell ℝ → Atoms ℝ → Except Err SpglibData)
    (niggli : Cell ℝ → Except Err (Cell ℝ)) (cell : Cell ℝ) (atoms : Atoms ℝ)
    (given : Option SpglibData) (convention : String) (t rel : Bool) (path : String)
    (pts : PyDict String (Vec ℝ))
    (h : getPathAndPoints lower getData niggli cell atoms given convention t rel =
      .ok (path, pts)) :
    ∃ p ∈ hpkotPathLists ++ scPathLists, getPathAsList path = .ok p ∨
      getPathAsList path = .ok (p ++ p.map fun sub => sub.map negative) := by
  unfold getPathAndPoints at h
  simp only [bind, Except.bind] at h
  cases h1 : resolveData lower getData cell atoms given with
  | error _ => simp [h1] at h
  | ok data =>
  simp only [h1] at h
  cases h2 : getConventional lower getData niggli cell atoms convention (some data) with
  | error _ => simp [h2] at h
  | ok conv =>
  simp only [h2] at h
  cases h3 : getPrimitive lower getData niggli cell atoms convention (some data) with
  | error _ => simp [h3] at h
  | ok prim =>
  simp only [h3] at h
  cases h4 : pathAndRawPoints lower getData niggli cell atoms data conv.1 (lower convention) with
  | error _ => simp [h4] at h
  | ok kr =>
  obtain ⟨kpath, raw⟩ := kr
  simp only [h4] at h
  cases h5 : getReciprocal prim.1 with
  | error _ => simp [h5] at h
  | ok rprim =>
  simp only [h5] at h
  cases h6 : allCoordinates cell rprim rel raw with
  | error _ => simp [h6] at h
  | ok points =>
  simp only [h6] at h
  cases h7 : inversionSymmetry.getItem data.spaceGroupNumber with
  | error _ => simp [h7] at h
  | ok inv =>
  simp only [h7] at h
  obtain ⟨p, hm, hp⟩ := table_path (raw_path h4)
  refine ⟨p, hm, ?_⟩
  unfold extendPath at h
  split_ifs at h with hc
  · simp only [hp, bind, Except.bind, pure, Except.pure, Except.ok.injEq, Prod.mk.injEq] at h
    rw [← h.1]
    exact .inr (extended_path hp)
  · simp only [pure, Except.pure, Except.ok.injEq, Prod.mk.injEq] at h
    rw [← h.1]
    exact .inl hp

end Wulfric
