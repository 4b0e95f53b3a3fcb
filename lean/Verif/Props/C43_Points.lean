import Verif.Lemmas.Extension
import Verif.Props.C33_SpaceGroups
import Verif.Lemmas.SamplePath

/-!
# C43, C44: recommended points and paths

`get_path_and_points` for any crystal: every name on the path is defined and has a label of its
own, the origin is called "GAMMA", relative and absolute coordinates agree, and without inversion
and time reversal the path is followed by the same path through the negatives of the points.
-/

set_option linter.unusedSectionVars false

namespace Wulfric
open Matrix _root_.Spec Wulfric.Spec

theorem stepsDiffer_spec {l : List String} (h : stepsDiffer l = true) :
    ∀ i a b, l[i]? = some a → l[i + 1]? = some b → a ≠ b := by
  induction l with
  | nil => simp
  | cons x l ih =>
    cases l with
    | nil => simp
    | cons y l =>
      simp only [stepsDiffer, ne_eq, Bool.and_eq_true, decide_eq_true_eq] at h
      intro i a b ha hb
      cases i with
      | zero =>
        simp only [List.getElem?_cons_zero, Option.some.injEq, zero_add,
          List.getElem?_cons_succ] at ha hb
        rw [← ha, ← hb]
        simpa using h.1
      | succ i => exact ih h.2 i a b (by simpa using ha) (by simpa using hb)

theorem negative_eq (n : String) : primeName n = negative n := by
  unfold primeName negative
  by_cases h : n = "GAMMA" <;> simp [h]

/-- Labels within one table differ, also with the negatives. -/
theorem label_distinct {keys : List String} (hk : ∀ k ∈ keys, k ∈ allNames)
    (h1 : ¬ ("F3" ∈ keys ∧ "F4" ∈ keys)) (h2 : ¬ ("F3_P" ∈ keys ∧ "F4_P" ∈ keys)) :
    ∀ n ∈ keys, ∀ n' ∈ keys, hsPlotNames.get? n = hsPlotNames.get? n' → n = n' := by
  let r : String → String := fun n => if n = "F3" then "F4" else if n = "F3_P" then "F4_P" else n
  have hr : ∀ n, hsPlotNames.get? (r n) = hsPlotNames.get? n := by
    intro n
    simp only [r]
    split_ifs with a b
    · rw [a]; exact label_F3.symm
    · rw [b]; exact label_F3_P.symm
    · rfl
  have f4 : "F4" ∈ allNames := by decide +kernel
  have f4' : "F4_P" ∈ allNames := by decide +kernel
  have hm : ∀ n ∈ allNames, r n ∈ allNames := by
    intro n hn
    simp only [r]
    split_ifs <;> assumption
  have h3 : ∀ n, r n ≠ "F3" := by
    intro n
    simp only [r]
    split_ifs with a b
    · decide
    · decide
    · exact a
  have h3' : ∀ n, r n ≠ "F3_P" := by
    intro n
    simp only [r]
    split_ifs with a b
    · decide
    · decide
    · exact b
  intro n hn n' hn' e
  have key := label_inj (hm n (hk n hn)) (hm n' (hk n' hn')) (h3 n) (h3' n) (h3 n') (h3' n')
    (by rw [hr, hr, e])
  simp only [r] at key
  split_ifs at key with a b c d f g h
  · rw [a, b]
  · exact absurd key (by decide)
  · exact absurd ⟨a ▸ hn, key ▸ hn'⟩ h1
  · exact absurd key (by decide)
  · rw [d, g]
  · exact absurd ⟨d ▸ hn, key ▸ hn'⟩ h2
  · exact absurd ⟨h ▸ hn', key ▸ hn⟩ h1
  · rename_i q
    exact absurd ⟨q ▸ hn', key ▸ hn⟩ h2
  · exact key

/-- Joining two parts. -/
theorem pyJoin_append (sep : String) {l m : List String} (hl : l ≠ []) (hm : m ≠ []) :
    pyJoin sep (l ++ m) = pyJoin sep l ++ sep ++ pyJoin sep m := by
  induction l with
  | nil => exact absurd rfl hl
  | cons x l ih =>
    cases l with
    | nil =>
      cases m with
      | nil => exact absurd rfl hm
      | cons y m => simp [pyJoin]
    | cons y l =>
      have := ih (by simp)
      simp only [List.cons_append, pyJoin] at this ⊢
      rw [this]
      simp [String.append_assoc]

theorem good_negative {n : String} (h : GoodName n) : GoodName (negative n) := by
  unfold negative
  split_ifs
  · exact ⟨by decide, by decide⟩
  · constructor
    · rw [String.toList_append, List.mem_append, not_or]
      exact ⟨h.1, by decide⟩
    · rw [String.toList_append, List.mem_append, not_or]
      exact ⟨h.2, by decide⟩

/-- The extension, without inversion and time reversal. -/
theorem extend_spec {kpath : String} {raw e : PyDict String (Vec ℝ)} (hg : GoodTable kpath raw)
    (he : e.keys = raw.keys) :
    ∃ p path' e', getPathAsList kpath = .ok p ∧ extendPath false false kpath e = .ok (path', e') ∧
      getPathAsList path' = .ok (p ++ p.map fun sub => sub.map negative) ∧
      e'.keys = e.keys ++ (e.keys.filter (· ≠ "GAMMA")).map (· ++ "_P") ∧
      (∀ k ∈ e.keys, e'.get? k = e.get? k) ∧
      ∀ k v, k ≠ "GAMMA" → e.get? k = some v → e'.get? (k ++ "_P") = some (-v) := by
  obtain ⟨p, hp, h1, h2, h3, h4, h5⟩ := hg.spec
  obtain ⟨hs, hgood⟩ := C42_string_list_string kpath p hp
  obtain ⟨i1, i2, i3⟩ := addNegated_spec e e (by
    have := h1
    rw [← he] at this
    exact this) (by
    intro k _ hk'
    rw [he] at hk'
    exact primed_not_table (h3 _ hk') rfl)
  have hfun : (fun sub : List String => sub.map primeName) = fun sub => sub.map negative := by
    funext sub
    exact List.map_congr_left fun n _ => negative_eq n
  refine ⟨p, kpath ++ "|" ++ getPathAsString (p.map fun sub => sub.map negative),
    addNegated e e, hp, ?_, ?_, i1, ?_, i3⟩
  · unfold extendPath
    simp only [hp, hfun, bind, Except.bind, pure, Except.pure, Bool.not_false, Bool.and_self,
      if_true]
  · have : kpath ++ "|" ++ getPathAsString (p.map fun sub => sub.map negative) =
        getPathAsString (p ++ p.map fun sub => sub.map negative) := by
      unfold getPathAsString at hs ⊢
      rw [List.map_append, pyJoin_append _ (by simpa using hgood.1) (by simpa using hgood.1), hs]
    rw [this]
    apply C42_list_string_list
    refine ⟨by simp [hgood.1], fun sub hsub => ?_⟩
    rcases List.mem_append.1 hsub with hsub | hsub
    · exact hgood.2 sub hsub
    · obtain ⟨q, hq, rfl⟩ := List.mem_map.1 hsub
      refine ⟨by simpa using (hgood.2 q hq).1, fun n hn => ?_⟩
      obtain ⟨m, hm, rfl⟩ := List.mem_map.1 hn
      exact good_negative ((hgood.2 q hq).2 m hm)
  · intro k hk
    apply i2
    intro k' _
    rw [he] at hk
    exact primed_not_table (h3 k hk)

/-- With inversion or time reversal nothing is added. -/
theorem extend_same {inv t : Bool} (h : inv = true ∨ t = true) (kpath : String)
    (e : PyDict String (Vec ℝ)) : extendPath inv t kpath e = .ok (kpath, e) := by
  unfold extendPath
  rcases h with rfl | rfl
  · simp [pure, Except.pure]
  · cases inv <;> simp [pure, Except.pure]

section
variable (lower : String → String) (hl : lower "HPKOT" = "hpkot") (hl' : lower "SC" = "sc")
  (getData : Cell ℝ → Atoms ℝ → Except Err SpglibData)
  (niggli : Cell ℝ → Except Err (Cell ℝ)) (cell : Cell ℝ) (atoms : Atoms ℝ)
  (given : Option SpglibData) (data : SpglibData)
  (hd : given = some data ∨ (given = none ∧ getData cell atoms = .ok data))
  (hn : 1 ≤ data.spaceGroupNumber ∧ data.spaceGroupNumber ≤ 230)
  (hf : data.crystalFamily = family data.spaceGroupNumber)
  (hc : data.centringType = centring data.spaceGroupNumber)
  (htol : data.angleTolerance = -1 ∨ 0 ≤ data.angleTolerance) (convention : String)
include hl hl' hd hn hf hc htol

/-- The path and the points before the extension do not depend on the flags. -/
theorem path_steps (r : String × PyDict String (Vec ℝ)) (t rel : Bool)
    (h : getPathAndPoints lower getData niggli cell atoms given convention t rel = .ok r) :
    ∃ kpath raw prim a rprim,
      getPrimitive lower getData niggli cell atoms convention (some data) = .ok (prim, a) ∧
      getReciprocal prim = .ok rprim ∧ GoodTable kpath raw ∧ ∀ t' rel',
      getPathAndPoints lower getData niggli cell atoms given convention t' rel' = (do
        let points ← allCoordinates cell rprim rel' raw
        extendPath (centrosymmetric data.spaceGroupNumber) t' kpath points) := by
  unfold getPathAndPoints at h
  cases h1 : resolveData lower getData cell atoms given with
  | error _ => simp [h1, bind, Except.bind] at h
  | ok data' =>
  have hd' := resolve_given hd h1
  subst hd'
  simp only [h1, bind, Except.bind] at h
  cases h2 : getConventional lower getData niggli cell atoms convention (some data') with
  | error _ => simp [h2] at h
  | ok ca =>
  obtain ⟨conv, a1⟩ := ca
  simp only [h2] at h
  cases h3 : getPrimitive lower getData niggli cell atoms convention (some data') with
  | error _ => simp [h3] at h
  | ok pa =>
  obtain ⟨prim, a2⟩ := pa
  simp only [h3] at h
  cases h4 : pathAndRawPoints lower getData niggli cell atoms data' conv (lower convention) with
  | error _ => simp [h4] at h
  | ok kr =>
  obtain ⟨kpath, raw⟩ := kr
  simp only [h4] at h
  cases h5 : getReciprocal prim with
  | error _ => simp [h5] at h
  | ok rprim =>
  refine ⟨kpath, raw, prim, a2, rprim, rfl, h5, ?_, ?_⟩
  · clear h
    unfold pathAndRawPoints at h4
    by_cases hsc : lower convention = "sc"
    · simp only [hsc, if_true, bind, Except.bind] at h4
      cases h6 : scGetVariation lower getData niggli cell atoms (some data') with
      | error _ => simp [h6] at h4
      | ok v =>
      obtain ⟨s, rfl, -, a', b', c', al', kp, ka, kb, kg, hv, -⟩ :=
        C41_variation lower hl' getData niggli cell atoms (some data') data' (.inl rfl) hn hf hc
          (angleTol data') (by
            unfold angleTol
            rcases htol with h | h
            · rw [if_pos h]; positivity
            · split_ifs
              · positivity
              · exact h)
          (by intro h; unfold angleTol; rw [if_pos h])
          (by intro h; unfold angleTol; rw [if_neg h]) v h6
      simp only [h6] at h4
      cases h7 : scGetPoints conv (data'.crystalFamily ++ data'.centringType) (some s) with
      | error _ => simp [h7] at h4
      | ok pts =>
      simp only [h7] at h4
      unfold scGetPoints at h7
      cases h8 : getParams conv with
      | error _ => simp [h8, bind, Except.bind] at h7
      | ok q =>
      obtain ⟨a, b, c, al, be, ga⟩ := q
      simp only [h8, bind, Except.bind] at h7
      obtain ⟨short, e1, d, path, e2, e3, e4⟩ := sc_points hv a b c al
      simp only [e1] at h7
      rw [e2] at h7
      cases h7
      simp only [e3, pure, Except.pure] at h4
      cases h4
      exact e4
    · by_cases hh : lower convention = "hpkot"
      · rw [if_neg hsc, if_pos hh] at h4
        simp only [bind, Except.bind] at h4
        cases h6 : hpkotGetExtendedBlSymbol lower getData niggli cell atoms (some data') with
        | error _ => simp [h6] at h4
        | ok s =>
        obtain ⟨-, a', b', c', be', ra, rb, rg, hs, -⟩ :=
          C40_symbol lower hl getData niggli cell atoms (some data') data' (.inl rfl) hn hf hc s h6
        simp only [h6] at h4
        cases h7 : hpkotGetPoints conv (data'.crystalFamily ++ data'.centringType) s with
        | error _ => simp [h7] at h4
        | ok pts =>
        simp only [h7] at h4
        unfold hpkotGetPoints at h7
        cases h8 : getParams conv with
        | error _ => simp [h8, bind, Except.bind] at h7
        | ok q =>
        obtain ⟨a, b, c, al, be, ga⟩ := q
        simp only [h8, bind, Except.bind] at h7
        obtain ⟨d, path, e2, e3, e4⟩ := hpkot_points hs a b c be
        rw [e2] at h7
        cases h7
        simp only [e3, pure, Except.pure] at h4
        cases h4
        exact e4
      · rw [if_neg hsc, if_neg hh] at h4
        cases h4
  · intro t' rel'
    have hi := (C33_values _ hn).2.2
    unfold getPathAndPoints
    simp only [h1, h2, h3, h4, h5, hi, bind, Except.bind]

/-- C43: in the path and the points returned every name on the path is defined, every point has
a label of its own, neighbours on the path have different names, and "GAMMA" is the origin.
Missing from C43: that neighbours have different coordinates, which is false for aP2
(`C43_aP2_origin`); `C59_hpkot` and `C59_sc` say exactly when they differ. -/
theorem C43_plottable_partial (path : String) (pts : PyDict String (Vec ℝ)) (t rel : Bool)
    (h : getPathAndPoints lower getData niggli cell atoms given convention t rel =
      .ok (path, pts)) :
    ∃ p, getPathAsList path = .ok p ∧ Plottable hsPlotNames.get? p pts.keys ∧
      pts.get? "GAMMA" = some 0 := by
  obtain ⟨kpath, raw, prim, a, rprim, -, -, hg, hs⟩ := path_steps lower hl hl' getData niggli cell
    atoms given data hd hn hf hc htol convention _ t rel h
  rw [hs] at h
  obtain ⟨p, hp, h1, h2, h3, h4, h5⟩ := hg.spec
  cases he : allCoordinates cell rprim rel raw with
  | error _ => simp [he, bind, Except.bind] at h
  | ok e =>
  simp only [he, bind, Except.bind] at h
  obtain ⟨k1, k2⟩ := allCoordinates_ok he
  have hall : ∀ k ∈ e.keys, k ∈ allNames := fun k hk =>
    List.mem_append.2 (.inl (h3 k (k1 ▸ hk)))
  have hprime : ∀ k, k ++ "_P" ∉ e.keys := fun k hk => primed_not_table (h3 _ (k1 ▸ hk)) rfl
  have hgam : e.get? "GAMMA" = some 0 := by
    obtain ⟨w, hw, hw'⟩ := k2 "GAMMA" _ hg.gamma
    rw [hw, pointCoordinates_zero hw']
  by_cases hi : centrosymmetric data.spaceGroupNumber = true ∨ t = true
  · rw [extend_same hi] at h
    cases h
    refine ⟨p, hp, ⟨k1 ▸ h1, k1 ▸ h2, fun n hn => all_labelled (hall n hn),
      label_distinct hall (k1 ▸ h4) ?_, fun sub hsub => stepsDiffer_spec (h5 sub hsub)⟩, hgam⟩
    rintro ⟨h, -⟩
    exact hprime "F3" h
  · rw [not_or, Bool.not_eq_true, Bool.not_eq_true] at hi
    rw [hi.1, hi.2] at h
    obtain ⟨p', path', e', hp', he', e1, e2, e3, e4⟩ := extend_spec hg k1
    rw [hp] at hp'
    cases hp'
    rw [he'] at h
    cases h
    have hge : "GAMMA" ∈ e.keys := by
      rw [← PyDict.get?_isSome, hgam]; rfl
    have hmem : ∀ k, k ∈ pts.keys ↔ k ∈ e.keys ∨ ∃ k' ∈ e.keys, k' ≠ "GAMMA" ∧ k = k' ++ "_P" := by
      intro k
      rw [e2, List.mem_append, List.mem_map]
      simp only [List.mem_filter, decide_eq_true_eq, ne_eq]
      constructor
      · rintro (h | ⟨k', ⟨a, b⟩, rfl⟩)
        · exact .inl h
        · exact .inr ⟨k', a, by simpa using b, rfl⟩
      · rintro (h | ⟨k', a, b, rfl⟩)
        · exact .inl h
        · exact .inr ⟨k', ⟨a, by simpa using b⟩, rfl⟩
    have hall' : ∀ k ∈ pts.keys, k ∈ allNames := by
      intro k hk
      rcases (hmem k).1 hk with hk | ⟨k', a, b, rfl⟩
      · exact hall k hk
      · exact List.mem_append.2 (.inr (List.mem_map.2
          ⟨k', (List.mem_erase_of_ne b).2 (h3 k' (k1 ▸ a)), rfl⟩))
    have hneg : ∀ n ∈ e.keys, negative n ∈ pts.keys := by
      intro n hn
      rw [hmem]
      unfold negative
      split_ifs with q
      · exact .inl hge
      · exact .inr ⟨n, hn, q, rfl⟩
    have neg_inj : ∀ a b, a ∈ e.keys → b ∈ e.keys → negative a = negative b → a = b := by
      intro a b ha hb hab
      unfold negative at hab
      split_ifs at hab with q1 q2 q2
      · rw [q1, q2]
      · exact absurd (hab ▸ hge) (hprime b)
      · exact absurd (hab ▸ hge) (hprime a)
      · exact primed_inj hab
    refine ⟨_, e1, ⟨?_, ?_, fun n hn => all_labelled (hall' n hn), label_distinct hall' ?_ ?_, ?_⟩,
      by rw [e3 _ hge, hgam]⟩
    · rw [e2, List.nodup_append]
      refine ⟨k1 ▸ h1, ((k1 ▸ h1 : e.keys.Nodup).filter _).map (fun a b h => primed_inj h), ?_⟩
      intro a ha b hb hab
      obtain ⟨k', -, rfl⟩ := List.mem_map.1 hb
      exact hprime k' (hab ▸ ha)
    · intro sub hsub n hn
      rcases List.mem_append.1 hsub with hsub | hsub
      · exact (hmem n).2 (.inl (k1 ▸ h2 sub hsub n hn))
      · obtain ⟨q, hq, rfl⟩ := List.mem_map.1 hsub
        obtain ⟨m, hm, rfl⟩ := List.mem_map.1 hn
        exact hneg m (k1 ▸ h2 q hq m hm)
    · rintro ⟨a, b⟩
      rcases (hmem _).1 a with a | ⟨k', -, -, a⟩
      · rcases (hmem _).1 b with b | ⟨k', -, -, b⟩
        · exact h4 ⟨k1 ▸ a, k1 ▸ b⟩
        · exact primed_not_table (k := "F4") (by decide +kernel) b
      · exact primed_not_table (k := "F3") (by decide +kernel) a
    · rintro ⟨a, b⟩
      have a' : "F3" ∈ e.keys := by
        rcases (hmem _).1 a with a | ⟨k', a, -, e⟩
        · exact absurd a (hprime "F3")
        · rwa [primed_inj (a := "F3") e]
      have b' : "F4" ∈ e.keys := by
        rcases (hmem _).1 b with a | ⟨k', a, -, e⟩
        · exact absurd a (hprime "F4")
        · rwa [primed_inj (a := "F4") e]
      exact h4 ⟨k1 ▸ a', k1 ▸ b'⟩
    · intro sub hsub i x y hx hy
      rcases List.mem_append.1 hsub with hsub | hsub
      · exact stepsDiffer_spec (h5 sub hsub) i x y hx hy
      · obtain ⟨q, hq, rfl⟩ := List.mem_map.1 hsub
        rw [List.getElem?_map, Option.map_eq_some_iff] at hx hy
        obtain ⟨x', hx, rfl⟩ := hx
        obtain ⟨y', hy, rfl⟩ := hy
        intro e
        refine stepsDiffer_spec (h5 q hq) i x' y' hx hy (neg_inj x' y' ?_ ?_ e)
        · exact k1 ▸ h2 q hq x' (List.mem_of_getElem? hx)
        · exact k1 ▸ h2 q hq y' (List.mem_of_getElem? hy)

/-- C43: the relative coordinates are the coordinates of the same points in the basis of the
reciprocal cell of the given cell. -/
theorem C43_relative (path : String) (pts : PyDict String (Vec ℝ)) (t : Bool)
    (h : getPathAndPoints lower getData niggli cell atoms given convention t false =
      .ok (path, pts)) (q : Cell ℝ) (hq : getReciprocal cell = .ok q) :
    ∃ pts', getPathAndPoints lower getData niggli cell atoms given convention t true =
      .ok (path, pts') ∧ pts'.keys = pts.keys ∧
      ∀ k v, pts.get? k = some v → ∃ w, pts'.get? k = some w ∧ w ᵥ* q = v := by
  obtain ⟨kpath, raw, prim, a, rprim, -, -, hg, hs⟩ := path_steps lower hl hl' getData niggli cell
    atoms given data hd hn hf hc htol convention _ t false h
  have ev : ∀ (u : Vec ℝ) (m : Cell ℝ), vecMat u m = u ᵥ* m := by
    intro u m
    funext j
    simp [vecMat, vecMul, dotProduct, Fin.sum_univ_three]
  rw [hs] at h
  rw [hs]
  cases he : allCoordinates cell rprim false raw with
  | error _ => simp [he, bind, Except.bind] at h
  | ok e =>
  obtain ⟨f, hf⟩ := allCoordinates_exists (recip_ok hq).1 (r := rprim) (rel := true) raw
  simp only [he, hf, bind, Except.bind] at h ⊢
  obtain ⟨k1, k2⟩ := allCoordinates_ok he
  obtain ⟨l1, l2⟩ := allCoordinates_ok hf
  have key : ∀ k v, e.get? k = some v → ∃ w, f.get? k = some w ∧ w ᵥ* q = v := by
    intro k v hv
    have hk : k ∈ raw.keys := by
      rw [← k1, ← PyDict.get?_isSome, hv]; rfl
    rw [← PyDict.get?_isSome, Option.isSome_iff_exists] at hk
    obtain ⟨x, hx⟩ := hk
    obtain ⟨v', hv', c1⟩ := k2 k x hx
    obtain ⟨w, hw, c2⟩ := l2 k x hx
    refine ⟨w, hw, ?_⟩
    rw [← ev, pointCoordinates_relative hq c2, ← pointCoordinates_absolute c1]
    rw [hv] at hv'
    cases hv'
    rfl
  by_cases hi : centrosymmetric data.spaceGroupNumber = true ∨ t = true
  · rw [extend_same hi] at h ⊢
    cases h
    exact ⟨f, rfl, by rw [l1, k1], key⟩
  · rw [not_or, Bool.not_eq_true, Bool.not_eq_true] at hi
    rw [hi.1, hi.2] at h ⊢
    obtain ⟨p, path', e', hp, he', e1, e2, e3, e4⟩ := extend_spec hg k1
    obtain ⟨p', path'', f', hp', hf', f1, f2, f3, f4⟩ := extend_spec hg l1
    rw [hp] at hp'
    cases hp'
    rw [he'] at h
    cases h
    have hpp : path'' = path := by
      rw [← (C42_string_list_string _ _ e1).1, ← (C42_string_list_string _ _ f1).1]
    subst hpp
    refine ⟨f', hf', by rw [e2, f2, k1, l1], ?_⟩
    intro k v hv
    have hk : k ∈ pts.keys := by
      rw [← PyDict.get?_isSome, hv]; rfl
    rw [e2, List.mem_append, List.mem_map] at hk
    rcases hk with hk | ⟨k', hk, rfl⟩
    · rw [e3 k hk] at hv
      obtain ⟨w, hw, hwq⟩ := key k v hv
      exact ⟨w, by rw [f3 k (by rw [l1, ← k1]; exact hk), hw], hwq⟩
    · rw [List.mem_filter] at hk
      have hk' := hk.1
      rw [← PyDict.get?_isSome, Option.isSome_iff_exists] at hk'
      obtain ⟨x, hx⟩ := hk'
      have hne : k' ≠ "GAMMA" := by simpa using hk.2
      rw [e4 k' x hne hx] at hv
      cases hv
      obtain ⟨w, hw, hwq⟩ := key k' x hx
      exact ⟨-w, f4 k' w hne hw, by rw [neg_vecMul, hwq]⟩

/-- C44: with inversion symmetry time reversal makes no difference. -/
theorem C44_inversion (path : String) (pts : PyDict String (Vec ℝ)) (rel : Bool)
    (hi : centrosymmetric data.spaceGroupNumber = true)
    (h : getPathAndPoints lower getData niggli cell atoms given convention true rel =
      .ok (path, pts)) :
    getPathAndPoints lower getData niggli cell atoms given convention false rel =
      .ok (path, pts) := by
  obtain ⟨kpath, raw, prim, a, rprim, -, -, hg, hs⟩ := path_steps lower hl hl' getData niggli cell
    atoms given data hd hn hf hc htol convention _ true rel h
  rw [hs] at h ⊢
  cases he : allCoordinates cell rprim rel raw with
  | error _ => simp [he, bind, Except.bind] at h
  | ok e =>
  simp only [he, bind, Except.bind] at h ⊢
  rw [extend_same (.inl hi)] at h ⊢
  exact h

/-- C44: without inversion symmetry and time reversal the path is followed by itself through
the negatives; the points keep their coordinates and the negatives are added. -/
theorem C44_doubled (path : String) (pts : PyDict String (Vec ℝ)) (rel : Bool)
    (hi : centrosymmetric data.spaceGroupNumber = false)
    (h : getPathAndPoints lower getData niggli cell atoms given convention true rel =
      .ok (path, pts)) :
    ∃ p path' pts', getPathAsList path = .ok p ∧
      getPathAndPoints lower getData niggli cell atoms given convention false rel =
        .ok (path', pts') ∧
      getPathAsList path' = .ok (p ++ p.map fun sub => sub.map negative) ∧
      (∀ k, k ∈ pts'.keys ↔ k ∈ pts.keys ∨ ∃ k' ∈ pts.keys, k = negative k') ∧
      (∀ k ∈ pts.keys, pts'.get? k = pts.get? k) ∧
      ∀ k v, pts.get? k = some v → pts'.get? (negative k) = some (-v) := by
  obtain ⟨-, -, -, hgam⟩ := C43_plottable_partial lower hl hl' getData niggli cell
    atoms given data hd hn hf hc htol convention path pts true rel h
  obtain ⟨kpath, raw, prim, a, rprim, -, -, hg, hs⟩ := path_steps lower hl hl' getData niggli cell
    atoms given data hd hn hf hc htol convention _ true rel h
  rw [hs] at h
  cases he : allCoordinates cell rprim rel raw with
  | error _ => simp [he, bind, Except.bind] at h
  | ok e =>
  simp only [he, bind, Except.bind] at h
  rw [extend_same (.inr rfl)] at h
  cases h
  obtain ⟨k1, -⟩ := allCoordinates_ok he
  obtain ⟨p, path', e', hp, he', e1, e2, e3, e4⟩ := extend_spec hg k1
  have hge : "GAMMA" ∈ pts.keys := by
    rw [← PyDict.get?_isSome, hgam]; rfl
  refine ⟨p, path', e', hp, ?_, e1, ?_, e3, ?_⟩
  · rw [hs]
    simp only [he, hi, he', bind, Except.bind]
  · intro k
    rw [e2, List.mem_append, List.mem_map]
    simp only [List.mem_filter, ne_eq]
    constructor
    · rintro (h | ⟨k', ⟨a, b⟩, rfl⟩)
      · exact .inl h
      · exact .inr ⟨k', a, by unfold negative; rw [if_neg (by simpa using b)]⟩
    · rintro (h | ⟨k', a, rfl⟩)
      · exact .inl h
      · unfold negative
        split_ifs with q
        · exact .inl hge
        · exact .inr ⟨k', ⟨a, by simpa using q⟩, rfl⟩
  · intro k v hv
    unfold negative
    split_ifs with q
    · subst q
      rw [hgam] at hv
      cases hv
      rw [e3 _ hge, hgam, neg_zero]
    · exact e4 k v q hv

end

/-- C43: two points of the library's list of names share a label ... -/
theorem C43_same_label : hsPlotNames.get? "F3" = some "F$_4$" ∧
    hsPlotNames.get? "F4" = some "F$_4$" := by decide +kernel

/-- ... and for the triclinic symbol "aP2" the path has a step from "GAMMA" to "Z", both at the
origin: neighbours on the path have different names but need not be different points. -/
theorem C43_aP2_origin (a b c beta : ℝ) : ∃ d, hpkotPointsOf a b c beta "aP" "aP2" = .ok d ∧
    d.get? "Z" = some ![0, 0, 0] ∧ d.get? "GAMMA" = some ![0, 0, 0] ∧
    ∃ path p, hpkotDefaultKPaths.getItem "aP2" = .ok path ∧ getPathAsList path = .ok p ∧
      ["Y", "GAMMA", "Z"] ∈ p := by
  refine ⟨hpkotTable91, by simp [hpkotPointsOf], by simp [hpkotTable91, PyDict.get?],
    by simp [hpkotTable91, PyDict.get?], _, [["GAMMA", "X"], ["Y", "GAMMA", "Z"],
      ["R", "GAMMA", "T"], ["U", "GAMMA", "V"]], rfl, ?_, by simp⟩
  exact C42_list_string_list [["GAMMA", "X"], ["Y", "GAMMA", "Z"],
      ["R", "GAMMA", "T"], ["U", "GAMMA", "V"]] ⟨by simp, by
        simp only [GoodName]
        decide +kernel⟩

/-- The hypotheses are met: an orthorhombic crystal without inversion (P222). -/
theorem sample_path (t rel : Bool) : ∃ r, getPathAndPoints String.toLower
    (fun _ _ => .error .runtimeError) (fun c => .ok c) !![3, 0, 0; 0, 5, 0; 0, 0, 4] boxAtoms
    (some (boxData 3 5 4 16 "o" "P")) "HPKOT" t rel = .ok r := by
  have hl : "HPKOT".toLower = "hpkot" := by decide +kernel
  obtain ⟨a, h1⟩ := box_hpkot String.toLower (fun _ _ => .error .runtimeError) (fun c => .ok c)
    3 5 4 16 "o" "P" hl (by decide)
  obtain ⟨b, h2⟩ := box_primitive String.toLower (fun _ _ => .error .runtimeError)
    (fun c => .ok c) 3 5 4 16 hl (by decide +kernel) (by norm_num)
  have hdet : (!![3, 0, 0; 0, 5, 0; 0, 0, 4] : Cell ℝ).det ≠ 0 := by
    simp [det_fin_three]
  obtain ⟨q, hq, -⟩ := C03_involution _ hdet
  obtain ⟨e, he⟩ := allCoordinates_exists hdet (r := q) (rel := rel) hpkotTable75
  have e2 : (boxData 3 5 4 16 "o" "P").crystalFamily ++
      (boxData 3 5 4 16 "o" "P").centringType = "oP" := rfl
  have hsym : hpkotGetExtendedBlSymbol String.toLower (fun _ _ => .error .runtimeError)
      (fun c => .ok c) !![3, 0, 0; 0, 5, 0; 0, 0, 4] boxAtoms
      (some (boxData 3 5 4 16 "o" "P")) = .ok "oP1" := by
    unfold hpkotGetExtendedBlSymbol
    rw [box_resolve]
    have e1 : hpkotSimpleSymbol ((boxData 3 5 4 16 "o" "P").crystalFamily ++
        (boxData 3 5 4 16 "o" "P").centringType) (boxData 3 5 4 16 "o" "P").spaceGroupNumber =
        some (.ok "oP1") := by rw [e2]; rfl
    simp only [bind, Except.bind, e1]
  have hp : getParams !![3, 0, 0; 0, 5, 0; 0, 0, 4] = .ok (3, 5, 4, 90, 90, 90) :=
    box_params 3 5 4 (eps_lt (by norm_num)) (eps_lt (by norm_num)) (eps_lt (by norm_num))
  have hpts : hpkotPointsOf 3 5 4 90 "oP" "oP1" = .ok hpkotTable75 := by simp [hpkotPointsOf]
  obtain ⟨kp, hk⟩ : ∃ kp, hpkotDefaultKPaths.getItem "oP1" = .ok kp := ⟨_, rfl⟩
  have hraw : pathAndRawPoints String.toLower (fun _ _ => .error .runtimeError)
      (fun c => .ok c) !![3, 0, 0; 0, 5, 0; 0, 0, 4] boxAtoms (boxData 3 5 4 16 "o" "P")
      !![3, 0, 0; 0, 5, 0; 0, 0, 4] "hpkot" = .ok (kp, hpkotTable75) := by
    unfold pathAndRawPoints
    rw [if_neg (by decide), if_pos rfl]
    simp only [hsym, e2, hpkotGetPoints, hp, hpts, hk, bind, Except.bind, pure, Except.pure]
  have hinv : inversionSymmetry.getItem (boxData 3 5 4 16 "o" "P").spaceGroupNumber =
      .ok false := by
    show inversionSymmetry.getItem 16 = .ok false
    rfl
  obtain ⟨d, path, hd', hk', hg⟩ := hpkot_points_oP1 3 5 4 90
  rw [hpts] at hd'
  rw [hk] at hk'
  cases hd'
  cases hk'
  have hx : ∃ r, extendPath false t kp e = .ok r := by
    cases t with
    | true => exact ⟨_, extend_same (.inr rfl) kp e⟩
    | false =>
      obtain ⟨-, p', e', -, h, -⟩ := extend_spec hg (allCoordinates_ok he).1
      exact ⟨_, h⟩
  obtain ⟨r, hr⟩ := hx
  refine ⟨r, ?_⟩
  unfold getPathAndPoints
  rw [box_resolve]
  simp only [h1, h2, hl, hraw, hq, he, hinv, hr, bind, Except.bind]

/-- The hypotheses of C43 and C44 are met by it. -/
example : ∃ path pts p path' pts', getPathAndPoints String.toLower
    (fun _ _ => .error .runtimeError) (fun c => .ok c) !![3, 0, 0; 0, 5, 0; 0, 0, 4] boxAtoms
    (some (boxData 3 5 4 16 "o" "P")) "HPKOT" true true = .ok (path, pts) ∧
    getPathAndPoints String.toLower
    (fun _ _ => .error .runtimeError) (fun c => .ok c) !![3, 0, 0; 0, 5, 0; 0, 0, 4] boxAtoms
    (some (boxData 3 5 4 16 "o" "P")) "HPKOT" false true = .ok (path', pts') ∧
    getPathAsList path' = .ok (p ++ p.map fun sub => sub.map negative) := by
  obtain ⟨⟨path, pts⟩, h⟩ := sample_path true true
  obtain ⟨p, path', pts', -, h1, h2, -⟩ := C44_doubled String.toLower (by decide +kernel)
    (by decide +kernel) _ _ _ _ _ (boxData 3 5 4 16 "o" "P") (.inl rfl)
    ⟨by decide, by decide⟩ rfl rfl (.inl rfl) "HPKOT" path pts true rfl h
  exact ⟨path, pts, p, path', pts', h, h1, h2⟩

end Wulfric
