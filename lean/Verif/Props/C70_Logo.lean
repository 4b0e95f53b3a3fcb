import Verif.Model.Logo
import Mathlib.Data.List.SplitOn
import Mathlib.Tactic.Linarith

/-! # C70: the logo and the lines of information -/

namespace Wulfric

theorem mapM_eq_map {α β : Type} {f : α → Except Err β} {g : α → β} {l : List α}
    (h : ∀ a ∈ l, f a = .ok (g a)) : l.mapM f = .ok (l.map g) := by
  induction l with
  | nil => rfl
  | cons a l ih =>
    rw [List.mapM_cons]
    simp only [h a (by simp), ih fun b hb => h b (by simp [hb]), bind, Except.bind, pure,
      Except.pure, List.map_cons]

theorem pyGet_at {α : Type} {l : List α} {i : ℕ} (h : i < l.length) : pyGet l (i : ℤ) = .ok l[i] := by
  unfold pyGet
  have : ¬ (i : ℤ) < 0 := by omega
  simp only [if_neg this]
  rw [if_pos (by omega)]
  simp [h]

theorem pyGet_back {α : Type} {l : List α} {i : ℤ} {m : ℕ} (h : i < 0) (hm : i + l.length = m)
    (hlt : m < l.length) : pyGet l i = .ok l[m] := by
  unfold pyGet
  simp only [if_pos h, hm]
  rw [if_pos (by omega)]
  simp [hlt]

theorem centre_length (w : ℕ) (s : List Char) : (centre w s).length = max w s.length := by
  unfold centre
  simp only [List.length_append, List.length_replicate]
  omega

theorem centre_eq (w : ℕ) (s : List Char) :
    ∃ a b, centre w s = List.replicate a ' ' ++ s ++ List.replicate b ' ' := ⟨_, _, rfl⟩

theorem centre_newline {w : ℕ} {s : List Char} (h : '\n' ∉ s) : '\n' ∉ centre w s := by
  obtain ⟨a, b, e⟩ := centre_eq w s
  rw [e]
  simp [h]

theorem cat_length : logoCat.length = 7 := by decide +kernel

theorem cat_width : ∀ c ∈ logoCat, c.length = 10 ∧ '\n' ∉ c := by decide +kernel

theorem art_shape (flat : Bool) : (logoArt flat).length = (if flat then 5 else 6) ∧
    ∀ l ∈ logoArt flat, l.length = (if flat then 61 else 62) ∧ '\n' ∉ l := by
  revert flat
  decide +kernel

/-- Which line of information stands in the line with number `j` below the logo, if the code is
right about the number `b` of lines above it. -/
theorem infoLines_short (wide n : ℕ) (info : List (List Char)) (h0 : info ≠ [])
    (h7 : info.length ≤ 7) :
    ∃ below, infoLines wide n info = .ok below ∧ below.length = 7 ∧
      ∀ j (hj : j < 7), ∃ l : List Char, below[j]? = some (l ++
        centre n (logoCat[j]'(cat_length.symm ▸ hj))) ∧
        (∀ i (hi : i < info.length), j = (8 - info.length) / 2 + i → l = centre wide info[i]) ∧
        ((∀ i < info.length, j ≠ (8 - info.length) / 2 + i) →
          l = List.replicate (max wide 1) ' ') := by
  have hb : (7 - info.length) / 2 + (7 - info.length) % 2 = (8 - info.length) / 2 := by omega
  have hpos : 0 < info.length := List.length_pos_iff.2 h0
  unfold infoLines
  rw [if_neg h0]
  simp only [cat_length, hb]
  rw [if_pos h7]
  set b := (8 - info.length) / 2 with hbd
  have hcat : ∀ i < 7, i < logoCat.length := fun i h => cat_length.symm ▸ h
  rw [mapM_eq_map (g := fun i : ℕ =>
    (if h : b ≤ i ∧ i - b < info.length then centre wide (info[i - b]'h.2)
      else List.replicate (max wide 1) ' ') ++ centre n (logoCat[i]?.getD []))]
  · refine ⟨_, rfl, by simp, fun j hj => ?_⟩
    refine ⟨if h : b ≤ j ∧ j - b < info.length then centre wide (info[j - b]'h.2)
      else List.replicate (max wide 1) ' ', by simp only [List.getElem?_map, List.getElem?_range hj,
      Option.map_some, List.getElem?_eq_getElem (hcat j hj), Option.getD_some], ?_, ?_⟩
    · rintro i hi rfl
      rw [dif_pos ⟨by omega, by omega⟩]
      congr 1
      congr 1
      omega
    · intro hno
      rw [dif_neg]
      rintro ⟨h1, h2⟩
      exact hno (j - b) h2 (by omega)
  · intro i hi
    rw [List.mem_range] at hi
    have e1 : pyGet logoCat (i : ℤ) = .ok (logoCat[i]?.getD []) := by
      rw [pyGet_at (hcat i hi), List.getElem?_eq_getElem (hcat i hi)]; rfl
    by_cases hc : i < b ∨ 7 - (7 - info.length - b) ≤ i
    · rw [if_pos hc, e1, dif_neg (by omega)]
      simp only [bind, Except.bind, pure, Except.pure]
      rw [← List.replicate_succ]
      congr 3
      omega
    · rw [if_neg hc, e1, dif_pos (by omega)]
      have e2 : pyGet info ((i : ℤ) - b) = .ok (info[i - b]'(by omega)) := by
        rw [show ((i : ℤ) - b) = ((i - b : ℕ) : ℤ) by omega, pyGet_at (by omega)]
      simp only [e2, bind, Except.bind, pure, Except.pure]

/-- With more lines of information than lines of the cat they are shown rotated: the last
`(length - 7) / 2` come first. -/
theorem infoLines_long (wide n : ℕ) (info : List (List Char)) (h8 : 8 ≤ info.length) :
    ∃ below, infoLines wide n info = .ok below ∧ below.length = info.length ∧
      ∀ j < info.length, ∃ (r : List Char), below[j]? = some (centre wide
        (info[(j + (info.length - (info.length - 7) / 2)) % info.length]'(Nat.mod_lt _ (by omega))) ++
          r) ∧ (r = [] ∨ ∃ c ∈ logoCat, r = centre n c) := by
  unfold infoLines
  rw [if_neg (by rintro rfl; simp at h8)]
  simp only [cat_length]
  rw [if_neg (by omega)]
  set b := (info.length - 7) / 2 with hbd
  rw [mapM_eq_map (g := fun i : ℕ => centre wide
    (info[(i + (info.length - b)) % info.length]?.getD []) ++
      if i < b ∨ info.length - (info.length - 7 - b) ≤ i then [] else
        centre n (logoCat[i - b]?.getD []))]
  · refine ⟨_, rfl, by simp, fun j hj => ?_⟩
    have hm : (j + (info.length - b)) % info.length < info.length := Nat.mod_lt _ (by omega)
    refine ⟨_, by simp only [List.getElem?_map, List.getElem?_range hj, Option.map_some,
      List.getElem?_eq_getElem hm, Option.getD_some]; rfl, ?_⟩
    split_ifs with hc
    · exact .inl rfl
    · right
      have : j - b < logoCat.length := by rw [cat_length]; omega
      rw [List.getElem?_eq_getElem this]
      exact ⟨_, List.getElem_mem this, rfl⟩
  · intro i hi
    rw [List.mem_range] at hi
    have hm : (i + (info.length - b)) % info.length < info.length := Nat.mod_lt _ (by omega)
    have e2 : pyGet info ((i : ℤ) - b) =
        .ok (info[(i + (info.length - b)) % info.length]?.getD []) := by
      rw [List.getElem?_eq_getElem hm, Option.getD_some]
      by_cases hib : i < b
      · refine pyGet_back (by omega) ?_ hm
        rw [Nat.mod_eq_of_lt (by omega)]
        omega
      · have e : (i + (info.length - b)) % info.length = i - b := by
          rw [show i + (info.length - b) = (i - b) + info.length by omega, Nat.add_mod_right,
            Nat.mod_eq_of_lt (by omega)]
        rw [show ((i : ℤ) - b) = (((i + (info.length - b)) % info.length : ℕ) : ℤ) by omega,
          pyGet_at hm]
    by_cases hc : i < b ∨ info.length - (info.length - 7 - b) ≤ i
    · rw [if_pos hc, e2, if_pos hc]
      simp only [bind, Except.bind, pure, Except.pure, List.append_nil]
    · rw [if_neg hc, e2, if_neg hc]
      have hk : i - b < logoCat.length := by rw [cat_length]; omega
      have e1 : pyGet logoCat ((i : ℤ) - b) = .ok (logoCat[i - b]?.getD []) := by
        rw [show ((i : ℤ) - b) = ((i - b : ℕ) : ℤ) by omega, pyGet_at hk,
          List.getElem?_eq_getElem hk]; rfl
      simp only [e1, bind, Except.bind, pure, Except.pure]

theorem logo_split (lines : List (List Char)) (f : List Char → List Char) (h0 : lines ≠ [])
    (h : ∀ l ∈ lines, '\n' ∉ f l) :
    ((lines.map fun x => f x ++ ['\n']).flatten.dropLast).splitOn '\n' = lines.map f := by
  have e : ((lines.map fun x => f x ++ ['\n']).flatten).dropLast =
      ['\n'].intercalate (lines.map f) := by
    induction lines with
    | nil => simp at h0
    | cons a l ih =>
      cases l with
      | nil => simp
      | cons b l =>
        have ih := ih (by simp) fun x hx => h x (List.mem_cons_of_mem _ hx)
        rw [List.map_cons, List.flatten_cons, List.dropLast_append_of_ne_nil (by simp), ih]
        simp [List.intercalate]
  rw [e]
  exact List.splitOn_intercalate '\n' (by simpa using h) (by simpa using h0)

/-- The width of the logo. -/
def artWidth (flat : Bool) : ℕ := if flat then 61 else 62

/-- The number of lines of the logo. -/
def artLines (flat : Bool) : ℕ := if flat then 5 else 6

theorem logo_lines (info : List (List Char)) (lineLength : Option ℤ) (flat : Bool)
    (comment : CommentArg) (below : List (List Char))
    (hb : infoLines (artWidth flat - 12) 12 info = .ok below) (hn : ∀ l ∈ below, '\n' ∉ l)
    (hc : '\n' ∉ commentText comment) :
    ∃ text, logo info lineLength flat comment = .ok text ∧
      text.splitOn '\n' = ((logoArt flat).map (centre (artWidth flat)) ++ below).map fun x =>
        commentText comment ++ centre (logoLength (artWidth flat) lineLength) x := by
  have hN : ((logoArt flat).headD []).length = artWidth flat := by
    clear hb; revert flat; decide +kernel
  have hcat : (logoCat.headD []).length + 2 = 12 := by decide +kernel
  have hart : (logoArt flat) ≠ [] := by clear hb hN; revert flat; decide +kernel
  refine ⟨_, by
    unfold logo
    simp only [hN, hcat, hb, bind, Except.bind, pure, Except.pure]
    rfl, ?_⟩
  rw [logo_split (f := fun x => commentText comment ++
    centre (logoLength (artWidth flat) lineLength) x)]
  · simp [hart]
  · intro l hl
    rw [List.mem_append] at hl
    have : '\n' ∉ l := by
      rcases hl with hl | hl
      · obtain ⟨x, hx, rfl⟩ := List.mem_map.1 hl
        exact centre_newline ((art_shape flat).2 x hx).2
      · exact hn l hl
    rw [List.mem_append, not_or]
    exact ⟨hc, centre_newline this⟩

/-- The requested length of the lines, at least the width of the logo. -/
def lineWidth (flat : Bool) (lineLength : Option ℤ) : ℕ :=
  max (artWidth flat) (lineLength.getD 0).toNat

theorem logoLength_eq (flat : Bool) (lineLength : Option ℤ) :
    logoLength (artWidth flat) lineLength = lineWidth flat lineLength := by
  unfold logoLength lineWidth
  cases lineLength with
  | none => simp
  | some l =>
    simp only [Option.getD_some]
    split_ifs <;> omega

/-- `line` shows the text `s` after the comment. -/
def ShowsText (comment s line : List Char) : Prop :=
  ∃ a rest, line = comment ++ List.replicate a ' ' ++ s ++ rest

theorem showsText_centre (comment s r : List Char) (w wide : ℕ) :
    ShowsText comment s (comment ++ centre w (centre wide s ++ r)) := by
  obtain ⟨a, b, e⟩ := centre_eq wide s
  obtain ⟨a', b', e'⟩ := centre_eq w (centre wide s ++ r)
  refine ⟨a' + a, List.replicate b ' ' ++ (r ++ List.replicate b' ' '), ?_⟩
  rw [e', e, List.replicate_add]
  simp only [List.append_assoc]

/-- C70: without information `logo` is the five or six lines of the logo. -/
theorem C70_logo_only (lineLength : Option ℤ) (flat : Bool) (comment : CommentArg)
    (hc : '\n' ∉ commentText comment) :
    ∃ text, logo [] lineLength flat comment = .ok text ∧
      (text.splitOn '\n').length = artLines flat ∧
      ∀ line ∈ text.splitOn '\n', line.length =
        (commentText comment).length + lineWidth flat lineLength := by
  obtain ⟨text, h1, h2⟩ := logo_lines [] lineLength flat comment [] rfl (by simp) hc
  refine ⟨text, h1, ?_, ?_⟩
  · rw [h2]
    simp [(art_shape flat).1, artLines]
  · intro line hl
    rw [h2] at hl
    obtain ⟨x, hx, rfl⟩ := List.mem_map.1 hl
    rw [List.append_nil] at hx
    obtain ⟨y, hy, rfl⟩ := List.mem_map.1 hx
    have := ((art_shape flat).2 y hy).1
    rw [List.length_append, centre_length, centre_length, logoLength_eq, this]
    unfold lineWidth artWidth
    omega

theorem info_spec (wide : ℕ) (info : List (List Char)) (hw : 1 ≤ wide) (h0 : info ≠ [])
    (hi : ∀ s ∈ info, '\n' ∉ s) :
    ∃ below, infoLines wide 12 info = .ok below ∧ below.length = max 7 info.length ∧
      (info.length ≤ 8 → ∀ i (h : i < info.length), ∃ r,
        below[(8 - info.length) / 2 + i]? = some (centre wide info[i] ++ r)) ∧
      (∀ l ∈ below, '\n' ∉ l) ∧
      ((∀ s ∈ info, s.length ≤ wide) → ∀ l ∈ below, l.length ≤ wide + 12) := by
  have hpos : 0 < info.length := List.length_pos_iff.2 h0
  by_cases h7 : info.length ≤ 7
  · obtain ⟨below, h1, h2, h3⟩ := infoLines_short wide 12 info h0 h7
    have hall : ∀ l ∈ below, ∃ x, ∃ c ∈ logoCat, l = x ++ centre 12 c ∧
        ((∃ s ∈ info, x = centre wide s) ∨ x = List.replicate (max wide 1) ' ') := by
      intro l hl
      obtain ⟨j, hj, rfl⟩ := List.getElem_of_mem hl
      rw [h2] at hj
      obtain ⟨x, e, e1, e2⟩ := h3 j hj
      rw [List.getElem?_eq_getElem (by omega), Option.some.injEq] at e
      refine ⟨x, _, List.getElem_mem (cat_length.symm ▸ hj), e, ?_⟩
      by_cases hex : ∃ i < info.length, j = (8 - info.length) / 2 + i
      · obtain ⟨i, hi, ej⟩ := hex
        exact .inl ⟨_, List.getElem_mem hi, e1 i hi ej⟩
      · push Not at hex
        exact .inr (e2 hex)
    refine ⟨below, h1, by omega, fun _ i hi => ?_, fun l hl => ?_, fun hs l hl => ?_⟩
    · obtain ⟨x, e, e1, -⟩ := h3 ((8 - info.length) / 2 + i) (by omega)
      exact ⟨_, by rw [e, e1 i hi rfl]⟩
    · obtain ⟨x, c, hc, rfl, hx⟩ := hall l hl
      rw [List.mem_append, not_or]
      refine ⟨?_, centre_newline (cat_width c hc).2⟩
      rcases hx with ⟨s, hs, rfl⟩ | rfl
      · exact centre_newline (hi s hs)
      · simp
    · obtain ⟨x, c, hc, rfl, hx⟩ := hall l hl
      rw [List.length_append, centre_length, (cat_width c hc).1]
      rcases hx with ⟨s, hs', rfl⟩ | rfl
      · rw [centre_length]
        have := hs s hs'
        omega
      · rw [List.length_replicate]
        omega
  · obtain ⟨below, h1, h2, h3⟩ := infoLines_long wide 12 info (by omega)
    have hall : ∀ l ∈ below, ∃ r, ∃ s ∈ info, l = centre wide s ++ r ∧
        (r = [] ∨ ∃ c ∈ logoCat, r = centre 12 c) := by
      intro l hl
      obtain ⟨j, hj, rfl⟩ := List.getElem_of_mem hl
      rw [h2] at hj
      obtain ⟨r, e, e1⟩ := h3 j hj
      rw [List.getElem?_eq_getElem (by omega), Option.some.injEq] at e
      exact ⟨r, _, List.getElem_mem _, e, e1⟩
    refine ⟨below, h1, by omega, fun h8 i hi => ?_, fun l hl => ?_, fun hs l hl => ?_⟩
    · obtain ⟨r, e, -⟩ := h3 i hi
      have hl8 : info.length = 8 := by omega
      have e1 : (8 - info.length) / 2 + i = i := by omega
      have e2 : (i + (info.length - (info.length - 7) / 2)) % info.length = i := by
        rw [show (info.length - 7) / 2 = 0 by omega, Nat.sub_zero, Nat.add_mod_right,
          Nat.mod_eq_of_lt hi]
      refine ⟨r, ?_⟩
      rw [e1, e]
      simp only [e2]
    · obtain ⟨r, s, hs, rfl, hr⟩ := hall l hl
      rw [List.mem_append, not_or]
      refine ⟨centre_newline (hi s hs), ?_⟩
      rcases hr with rfl | ⟨c, hc, rfl⟩
      · simp
      · exact centre_newline (cat_width c hc).2
    · obtain ⟨r, s, hs', rfl, hr⟩ := hall l hl
      have := hs s hs'
      rw [List.length_append, centre_length]
      rcases hr with rfl | ⟨c, hc, rfl⟩
      · simp; omega
      · rw [centre_length, (cat_width c hc).1]
        omega

theorem artWidth_ge (flat : Bool) : 61 ≤ artWidth flat := by revert flat; decide

/-- C70: up to eight lines of information are shown below the logo, in their order, one to a line.
Lines of at most 50 characters (49 for the flat logo) keep all lines equally long. -/
theorem C70_info (info : List (List Char)) (lineLength : Option ℤ) (flat : Bool)
    (comment : CommentArg) (h0 : info ≠ []) (hi : ∀ s ∈ info, '\n' ∉ s)
    (hc : '\n' ∉ commentText comment) :
    ∃ text, logo info lineLength flat comment = .ok text ∧
      (text.splitOn '\n').length = artLines flat + max 7 info.length ∧
      (info.length ≤ 8 → ∀ i (h : i < info.length), ∃ line,
        (text.splitOn '\n')[artLines flat + ((8 - info.length) / 2 + i)]? = some line ∧
        ShowsText (commentText comment) info[i] line) ∧
      ((∀ s ∈ info, s.length ≤ artWidth flat - 12) → ∀ line ∈ text.splitOn '\n',
        line.length = (commentText comment).length + lineWidth flat lineLength) := by
  have hw := artWidth_ge flat
  have ha : (logoArt flat).length = artLines flat := (art_shape flat).1
  obtain ⟨below, h1, h2, h3, h4, h5⟩ := info_spec (artWidth flat - 12) info (by omega) h0 hi
  obtain ⟨text, t1, t2⟩ := logo_lines info lineLength flat comment below h1 h4 hc
  refine ⟨text, t1, ?_, fun h8 i hi => ?_, fun hs line hl => ?_⟩
  · rw [t2]
    simp [ha, h2]
  · obtain ⟨r, hr⟩ := h3 h8 i hi
    refine ⟨_, ?_, showsText_centre (commentText comment) info[i] r
      (logoLength (artWidth flat) lineLength) (artWidth flat - 12)⟩
    rw [t2, List.getElem?_map, List.getElem?_append_right (by simp [ha])]
    simp only [List.length_map, ha, Nat.add_sub_cancel_left, hr, Option.map_some]
  · rw [t2] at hl
    obtain ⟨x, hx, rfl⟩ := List.mem_map.1 hl
    rw [List.length_append, centre_length, logoLength_eq]
    have hx' : x.length ≤ artWidth flat := by
      rcases List.mem_append.1 hx with hx | hx
      · obtain ⟨y, hy, rfl⟩ := List.mem_map.1 hx
        have := ((art_shape flat).2 y hy).1
        rw [centre_length, this]
        unfold artWidth
        omega
      · have := h5 hs x hx
        omega
    unfold lineWidth
    omega

/-- C70: the logo stands on top, its lines in order and centred in the same way, whatever the
information. -/
theorem C70_logo_first (info : List (List Char)) (lineLength : Option ℤ) (flat : Bool)
    (comment : CommentArg) (hi : ∀ s ∈ info, '\n' ∉ s) (hc : '\n' ∉ commentText comment) :
    ∃ text, logo info lineLength flat comment = .ok text ∧
      ∃ left right : ℕ, (text.splitOn '\n').take (artLines flat) = (logoArt flat).map fun l =>
        commentText comment ++ List.replicate left ' ' ++ l ++ List.replicate right ' ' := by
  have hw := artWidth_ge flat
  have ha : (logoArt flat).length = artLines flat := (art_shape flat).1
  obtain ⟨below, h1, h4⟩ : ∃ below, infoLines (artWidth flat - 12) 12 info = .ok below ∧
      ∀ l ∈ below, '\n' ∉ l := by
    by_cases h0 : info = []
    · exact ⟨[], by rw [h0]; rfl, by simp⟩
    · obtain ⟨below, h1, -, -, h4, -⟩ := info_spec (artWidth flat - 12) info (by omega) h0 hi
      exact ⟨below, h1, h4⟩
  obtain ⟨text, t1, t2⟩ := logo_lines info lineLength flat comment below h1 h4 hc
  let t := logoLength (artWidth flat) lineLength - artWidth flat
  refine ⟨text, t1, t / 2, t - t / 2, ?_⟩
  rw [t2, List.map_append, List.take_append_of_le_length (by simp [ha]),
    List.take_of_length_le (by simp [ha]), List.map_map]
  refine List.map_congr_left fun l hl => ?_
  have hl' : l.length = artWidth flat := ((art_shape flat).2 l hl).1
  have e : centre (artWidth flat) l = l := by
    unfold centre
    simp [hl']
  simp only [Function.comp_apply, e]
  unfold centre
  simp only [hl', List.append_assoc, t]

/-- C70: from nine lines on they are shown rotated: the last `(length - 7) / 2` lines come first,
because the code takes an index below zero, which in python counts from the end. -/
theorem C70_rotated (info : List (List Char)) (lineLength : Option ℤ) (flat : Bool)
    (comment : CommentArg) (h9 : 9 ≤ info.length) (hi : ∀ s ∈ info, '\n' ∉ s)
    (hc : '\n' ∉ commentText comment) :
    ∃ text, logo info lineLength flat comment = .ok text ∧
      ∀ j (_ : j < info.length), ∃ line, (text.splitOn '\n')[artLines flat + j]? = some line ∧
        ShowsText (commentText comment)
          (info[(j + (info.length - (info.length - 7) / 2)) % info.length]'(Nat.mod_lt _ (by omega)))
          line := by
  have hw := artWidth_ge flat
  have ha : (logoArt flat).length = artLines flat := (art_shape flat).1
  obtain ⟨below, h1, h2, h3, h4, h5⟩ := info_spec (artWidth flat - 12) info (by omega)
    (by rintro rfl; simp at h9) hi
  obtain ⟨below', h1', -, h3'⟩ := infoLines_long (artWidth flat - 12) 12 info (by omega)
  rw [h1] at h1'
  cases h1'
  obtain ⟨text, t1, t2⟩ := logo_lines info lineLength flat comment below h1 h4 hc
  refine ⟨text, t1, fun j hj => ?_⟩
  obtain ⟨r, hr, -⟩ := h3' j hj
  refine ⟨_, ?_, showsText_centre (commentText comment) _ r
    (logoLength (artWidth flat) lineLength) (artWidth flat - 12)⟩
  rw [t2, List.getElem?_map, List.getElem?_append_right (by simp [ha])]
  simp only [List.length_map, ha, Nat.add_sub_cancel_left, hr, Option.map_some]

/-- C70: so for any number of lines from nine on the first line may not be the first. -/
theorem C70_not_in_order (m : ℕ) (hm : 9 ≤ m) (flat : Bool) :
    ∃ info : List (List Char), info.length = m ∧ info[0]? = some ['x'] ∧
      ∃ text line, logo info none flat .none = .ok text ∧
        (text.splitOn '\n')[artLines flat]? = some line ∧ 'x' ∉ line := by
  have hw := artWidth_ge flat
  have ha : (logoArt flat).length = artLines flat := (art_shape flat).1
  set info : List (List Char) := ['x'] :: List.replicate (m - 1) [] with hinfo
  have hlen : info.length = m := by simp [hinfo]; omega
  have hi : ∀ s ∈ info, '\n' ∉ s := by
    intro s hs
    rcases List.mem_cons.1 hs with rfl | hs
    · decide
    · rw [List.eq_of_mem_replicate hs]; simp
  obtain ⟨below, h1, -, -, h4, -⟩ := info_spec (artWidth flat - 12) info (by omega) (by simp [hinfo]) hi
  obtain ⟨below', h1', -, h3'⟩ := infoLines_long (artWidth flat - 12) 12 info (by omega)
  rw [h1] at h1'
  cases h1'
  obtain ⟨text, t1, t2⟩ := logo_lines info none flat .none below h1 h4 (by simp [commentText])
  obtain ⟨r, hr, hr'⟩ := h3' 0 (by omega)
  refine ⟨info, hlen, by simp [hinfo], text, _, t1, by
    rw [t2, List.getElem?_map, List.getElem?_append_right (by simp [ha])]
    simp only [List.length_map, ha, Nat.sub_self, hr, Option.map_some]
    rfl, ?_⟩
  have hempty : info[(0 + (info.length - (info.length - 7) / 2)) % info.length]'(Nat.mod_lt _
      (by omega)) = [] := by
    have key : ∀ (i : ℕ) (h : i < info.length), i ≠ 0 → info[i] = [] := by
      intro i h h0
      cases i with
      | zero => exact absurd rfl h0
      | succ i => simp [hinfo]
    refine key _ _ ?_
    rw [Nat.mod_eq_of_lt (by omega)]
    omega
  have hcx : ∀ c ∈ logoCat, 'x' ∉ c := by decide +kernel
  rw [hempty]
  have hrx : 'x' ∉ r := by
    rcases hr' with rfl | ⟨c, hc, rfl⟩
    · simp
    · obtain ⟨a, b, e⟩ := centre_eq 12 c
      rw [e]
      simp [hcx c hc]
  obtain ⟨a, b, e⟩ := centre_eq (logoLength (artWidth flat) none) (centre (artWidth flat - 12) [] ++ r)
  obtain ⟨a', b', e'⟩ := centre_eq (artWidth flat - 12) []
  rw [e, e']
  simp [commentText, hrx]

/-- C70: `comment=True` puts "# " before every line, a string is put there as it is; but
`comment=False` puts the word "False". Nothing else changes. -/
theorem C70_comment (info : List (List Char)) (lineLength : Option ℤ) (flat : Bool)
    (hi : ∀ s ∈ info, '\n' ∉ s) (comment : CommentArg) (p : List Char) (hp : '\n' ∉ p)
    (h : comment = .bool true ∧ p = ['#', ' '] ∨ comment = .str p ∨
      comment = .bool false ∧ p = ['F', 'a', 'l', 's', 'e']) :
    ∃ text plain, logo info lineLength flat comment = .ok text ∧
      logo info lineLength flat .none = .ok plain ∧
      text.splitOn '\n' = (plain.splitOn '\n').map (p ++ ·) := by
  have hcp : commentText comment = p := by
    rcases h with ⟨rfl, rfl⟩ | rfl | ⟨rfl, rfl⟩ <;> rfl
  have hw := artWidth_ge flat
  obtain ⟨below, h1, h4⟩ : ∃ below, infoLines (artWidth flat - 12) 12 info = .ok below ∧
      ∀ l ∈ below, '\n' ∉ l := by
    by_cases h0 : info = []
    · exact ⟨[], by rw [h0]; rfl, by simp⟩
    · obtain ⟨below, h1, -, -, h4, -⟩ := info_spec (artWidth flat - 12) info (by omega) h0 hi
      exact ⟨below, h1, h4⟩
  obtain ⟨text, t1, t2⟩ := logo_lines info lineLength flat comment below h1 h4 (hcp ▸ hp)
  obtain ⟨plain, p1, p2⟩ := logo_lines info lineLength flat .none below h1 h4 (by simp [commentText])
  refine ⟨text, plain, t1, p1, ?_⟩
  rw [t2, p2, hcp, List.map_map]
  rfl

/-- The hypotheses of `C70_info` are met, and those of `C70_rotated`. -/
example : ∃ info : List (List Char), info ≠ [] ∧ (∀ s ∈ info, '\n' ∉ s) ∧ info.length = 5 ∧
    (∀ s ∈ info, s.length ≤ artWidth true - 12) :=
  ⟨["Version: 0.6.4".toList, "Documentation".toList, [], "Licence: GNU GPLv3".toList, []],
    by decide +kernel⟩

example : ∃ info : List (List Char), 9 ≤ info.length ∧ ∀ s ∈ info, '\n' ∉ s :=
  ⟨["a", "b", "c", "d", "e", "f", "g", "h", "i"].map String.toList, by decide +kernel⟩

end Wulfric
