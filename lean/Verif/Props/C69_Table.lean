import Verif.Model.Table
import Verif.Lemmas.Poscar
import Verif.Lemmas.Atoms
import Verif.Lemmas.Inherit
import Verif.Props.C45_Kpoints
import Mathlib.Data.List.SplitOn

/-! # C69: the table of the high-symmetry points -/

namespace Wulfric
open Matrix _root_.Spec Wulfric.Spec

theorem decimalText_eq (m d : ℕ) : decimalText m d = unsigned m d := rfl

theorem roundReal_near {x : ℝ} (hx : 0 ≤ x) : |(roundReal x : ℝ) - x| ≤ 1 / 2 := by
  have hf : 0 ≤ ⌊x⌋ := Int.floor_nonneg.2 hx
  have e : ((⌊x⌋.toNat : ℕ) : ℝ) = (⌊x⌋ : ℤ) := by
    have : ((⌊x⌋.toNat : ℕ) : ℤ) = ⌊x⌋ := Int.toNat_of_nonneg hf
    exact_mod_cast this
  have h1 := Int.floor_le x
  have h2 := Int.lt_floor_add_one x
  unfold roundReal
  simp only
  rw [abs_le]
  split_ifs with q1 q2 q3
  · rw [e] at q1 ⊢
    constructor <;> linarith
  · rw [e] at q1 q2
    push_cast
    rw [e]
    constructor <;> linarith
  · rw [e] at q1 q2 ⊢
    constructor <;> linarith
  · rw [e] at q1 q2
    push_cast
    rw [e]
    constructor <;> linarith

/-- A text that python reads as a number with `d` decimals that is nearest to `x`. -/
def Shows (d : ℕ) (x : ℝ) (text : List Char) : Prop :=
  ∃ y : ℚ, parseFloat text = .ok y ∧ Representable d y ∧ |(y : ℝ) - x| ≤ 1 / 2 / 10 ^ d

/-- The characters of a number without its leading spaces. -/
noncomputable def numberWord (d : ℕ) (x : ℝ) : List Char :=
  (if x < 0 then ['-'] else []) ++ decimalText (roundReal (|x| * 10 ^ d)) d

theorem numberWord_shows (d : ℕ) (x : ℝ) : Shows d x (numberWord d x) := by
  have hp : (0 : ℝ) < 10 ^ d := by positivity
  have h := roundReal_near (x := |x| * 10 ^ d) (by positivity)
  unfold numberWord
  rw [decimalText_eq]
  generalize roundReal (|x| * 10 ^ d) = m at *
  have hE : ∀ c ∈ unsigned m d, ¬ (c = 'e' ∨ c = 'E') := by
    intro c hc
    rcases unsigned_chars _ _ c hc with h | rfl
    · exact fun e => e.elim (digit_ne h (by decide)) (digit_ne h (by decide))
    · decide
  have e1 : (unsigned m d).takeWhile (fun c => decide (¬ (c = 'e' ∨ c = 'E'))) = unsigned m d :=
    List.takeWhile_eq_self_iff.2 (by simpa using hE)
  have e2 : (unsigned m d).dropWhile (fun c => decide (¬ (c = 'e' ∨ c = 'E'))) = [] :=
    List.dropWhile_eq_nil_iff.2 (by simpa using hE)
  have hs : takeSign ((if x < 0 then ['-'] else []) ++ unsigned m d) =
      (if x < 0 then -1 else 1, unsigned m d) := by
    split_ifs
    · rfl
    · rw [List.nil_append]
      apply takeSign_plain
      intro c hc
      rcases unsigned_chars _ _ c hc with h | rfl
      · exact ⟨digit_ne h (by decide), digit_ne h (by decide)⟩
      · exact ⟨by decide, by decide⟩
  refine ⟨(if x < 0 then -1 else 1) * ((m : ℚ) / 10 ^ d), ?_, ?_, ?_⟩
  · unfold parseFloat
    rw [hs]
    simp only [e1, e2, parseMantissa_unsigned, bind, Except.bind, pure, Except.pure]
    split_ifs <;> simp
  · split_ifs with q
    · exact ⟨-(m : ℕ), by push_cast; field_simp⟩
    · exact ⟨(m : ℕ), by push_cast; field_simp⟩
  · have h' : |(m : ℝ) / 10 ^ d - (|x|)| ≤ 1 / 2 / 10 ^ d := by
      have e : (m : ℝ) / 10 ^ d - |x| = (m - |x| * 10 ^ d) / 10 ^ d := by field_simp
      rw [e, abs_div, abs_of_pos hp]
      exact div_le_div_of_nonneg_right h hp.le
    split_ifs with q
    · rw [abs_of_neg q] at h'
      rw [abs_le] at h' ⊢
      push_cast
      constructor <;> linarith [h'.1, h'.2]
    · rw [abs_of_nonneg (not_lt.1 q)] at h'
      push_cast
      simpa using h'

theorem numberWord_chars (d : ℕ) (x : ℝ) :
    ∀ c ∈ numberWord d x, c.isDigit = true ∨ c = '.' ∨ c = '-' := by
  intro c hc
  unfold numberWord at hc
  rw [decimalText_eq, List.mem_append] at hc
  rcases hc with hc | hc
  · split_ifs at hc
    · simp at hc; exact .inr (.inr hc)
    · simp at hc
  · rcases unsigned_chars _ _ c hc with h | h
    · exact .inl h
    · exact .inr (.inl h)

theorem numberWord_not_space (d : ℕ) (x : ℝ) : ∀ c ∈ numberWord d x, isSpace c = false := by
  intro c hc
  rcases numberWord_chars d x c hc with h | rfl | rfl
  · exact digit_not_space h
  · decide
  · decide

theorem numberWord_ne_nil (d : ℕ) (x : ℝ) : numberWord d x ≠ [] := by
  unfold numberWord
  rw [decimalText_eq, unsigned]
  simp [Nat.toDigits_ne_nil]

theorem spacedNumber_eq (d : ℕ) (x : ℝ) :
    ∃ j, spacedNumber d x = List.replicate j ' ' ++ numberWord d x := by
  unfold spacedNumber numberWord
  by_cases q : x < 0
  · simp only [if_pos q]
    exact ⟨_, rfl⟩
  · simp only [if_neg q, List.nil_append]
    refine ⟨(d + 3 - (' ' :: decimalText (roundReal (|x| * 10 ^ d)) d).length) + 1, ?_⟩
    rw [List.replicate_succ', List.append_assoc]
    rfl

theorem tokens_spaced (d : ℕ) (x : ℝ) (rest : List Char) :
    tokens (spacedNumber d x ++ ' ' :: rest) = numberWord d x :: tokens rest := by
  obtain ⟨j, hj⟩ := spacedNumber_eq d x
  have := tokens_word (numberWord d x) rest (numberWord_not_space d x) (numberWord_ne_nil d x)
  rw [hj, List.append_assoc, tokens_spaces, ← this]
  simp

theorem tokens_last (d : ℕ) (x : ℝ) : tokens (spacedNumber d x) = [numberWord d x] := by
  obtain ⟨j, hj⟩ := spacedNumber_eq d x
  rw [hj, tokens_spaces]
  unfold tokens
  have := tokensLoop_word (numberWord d x) [] [] (numberWord_not_space d x)
  rw [List.append_nil] at this
  rw [this, tokensLoop, List.nil_append, if_neg (numberWord_ne_nil d x)]

theorem tokens_space (rest : List Char) : tokens (' ' :: rest) = tokens rest :=
  tokens_spaces 1 rest

theorem spacedNumber_chars (d : ℕ) (x : ℝ) : '\n' ∉ spacedNumber d x := by
  obtain ⟨j, hj⟩ := spacedNumber_eq d x
  rw [hj, List.mem_append, not_or]
  refine ⟨by simp, fun h => ?_⟩
  rcases numberWord_chars d x _ h with h | h | h
  · revert h; decide
  · revert h; decide
  · revert h; decide

/-- The number of characters of a cell. -/
theorem spacedNumber_length {d : ℕ} {x : ℝ} (h : |x| + 1 / 2 / 10 ^ d < 10) :
    (spacedNumber d x).length = d + 3 := by
  have hp : (0 : ℝ) < 10 ^ d := by positivity
  have hm : roundReal (|x| * 10 ^ d) < 10 * 10 ^ d := by
    have h1 := (abs_le.1 (roundReal_near (x := |x| * 10 ^ d) (by positivity))).2
    have h2 : (|x| + 1 / 2 / 10 ^ d) * 10 ^ d < 10 * 10 ^ d := mul_lt_mul_of_pos_right h hp
    have h3 : (|x| + 1 / 2 / 10 ^ d) * 10 ^ d = |x| * 10 ^ d + 1 / 2 := by field_simp
    have : (roundReal (|x| * 10 ^ d) : ℝ) < ((10 * 10 ^ d : ℕ) : ℝ) := by
      push_cast; linarith
    exact_mod_cast this
  have hdiv : roundReal (|x| * 10 ^ d) / 10 ^ d < 10 :=
    (Nat.div_lt_iff_lt_mul (by positivity)).2 hm
  have hl : (Nat.toDigits 10 (roundReal (|x| * 10 ^ d) / 10 ^ d)).length = 1 := by
    have h1 : (Nat.toDigits 10 (roundReal (|x| * 10 ^ d) / 10 ^ d)).length ≤ 1 :=
      (Nat.length_toDigits_le_iff (by norm_num) (by omega)).2 (by simpa using hdiv)
    have h2 : (Nat.toDigits 10 (roundReal (|x| * 10 ^ d) / 10 ^ d)).length ≠ 0 := by
      simp [Nat.toDigits_ne_nil]
    omega
  unfold spacedNumber
  rw [decimalText_eq, unsigned]
  by_cases hd : d = 0
  · subst hd
    simp only [pow_zero, mul_one, Nat.div_one] at hl ⊢
    simp [hl]
  · simp only [if_neg hd, List.length_append, List.length_replicate, List.length_cons, hl,
      fraction_length _ d hd]
    omega

/-- The least number of characters of a cell, whatever the number. -/
theorem spacedNumber_width (d : ℕ) (x : ℝ) : d + 3 ≤ (spacedNumber d x).length := by
  unfold spacedNumber
  simp only [List.length_append, List.length_replicate]
  omega

/-- What the line of one point has to be: the name, padded to `nd` characters, and six numbers,
the relative coordinates and the absolute ones. -/
def RowOf (k : Kpoints) (nd d : ℕ) (name : String) (line : List Char) : Prop :=
  ∃ c cells, k.hsCoordinates.get? name = some c ∧ line = name.toList ++
    List.replicate (nd - name.toList.length) ' ' ++ [' ', ' '] ++ cells ∧
    ∃ n1 n2 n3 n4 n5 n6, cells = n1 ++ [' '] ++ n2 ++ [' '] ++ n3 ++ [' ', ' '] ++ n4 ++ [' '] ++ n5 ++
      [' '] ++ n6 ∧
      (∀ w ∈ [(n1, c 0), (n2, c 1), (n3, c 2), (n4, (c ᵥ* k.rcell) 0), (n5, (c ᵥ* k.rcell) 1),
          (n6, (c ᵥ* k.rcell) 2)],
        (∃ word, tokens w.1 = [word] ∧ Shows d w.2 word) ∧ d + 3 ≤ w.1.length ∧
        (|w.2| + 1 / 2 / 10 ^ d < 10 → w.1.length = d + 3)) ∧
      ∃ w1 w2 w3 w4 w5 w6, tokens cells = [w1, w2, w3, w4, w5, w6] ∧
        Shows d (c 0) w1 ∧ Shows d (c 1) w2 ∧ Shows d (c 2) w3 ∧
        Shows d ((c ᵥ* k.rcell) 0) w4 ∧ Shows d ((c ᵥ* k.rcell) 1) w5 ∧
        Shows d ((c ᵥ* k.rcell) 2) w6

theorem tableRow_spec {k : Kpoints} {nd : ℕ} {d : ℕ} {name : String} {line : List Char}
    (h : tableRow k nd d name = .ok line) :
    RowOf k nd d name line ∧ ('\n' ∉ name.toList → '\n' ∉ line) := by
  unfold tableRow PyDict.getItem at h
  simp only [bind, Except.bind] at h
  cases hc : k.hsCoordinates.get? name with
  | none => simp [hc] at h
  | some c =>
  have h0 : ¬ ((d : ℤ) < 0) := by omega
  simp only [hc, if_neg h0, pure, Except.pure, Except.ok.injEq, Int.toNat_natCast] at h
  subst h
  simp only [vecMat_eq]
  constructor
  · refine ⟨c, spacedNumber d (c 0) ++ [' '] ++ spacedNumber d (c 1) ++ [' '] ++
      spacedNumber d (c 2) ++ [' ', ' '] ++ spacedNumber d ((c ᵥ* k.rcell) 0) ++ [' '] ++
      spacedNumber d ((c ᵥ* k.rcell) 1) ++ [' '] ++ spacedNumber d ((c ᵥ* k.rcell) 2), hc, ?_, ?_⟩
    · simp [padRight]
    · refine ⟨_, _, _, _, _, _, rfl, ?_, ?_⟩
      · intro w hw
        simp only [List.mem_cons, List.not_mem_nil, or_false] at hw
        rcases hw with rfl | rfl | rfl | rfl | rfl | rfl <;>
          exact ⟨⟨_, tokens_last _ _, numberWord_shows _ _⟩, spacedNumber_width _ _,
            spacedNumber_length⟩
      · refine ⟨_, _, _, _, _, _, ?_, numberWord_shows _ _, numberWord_shows _ _,
          numberWord_shows _ _, numberWord_shows _ _, numberWord_shows _ _, numberWord_shows _ _⟩
        simp only [List.append_assoc, List.cons_append, List.nil_append]
        rw [tokens_spaced, tokens_spaced, tokens_spaced, tokens_space, tokens_spaced,
          tokens_spaced, tokens_last]
  · intro hn hmem
    simp only [padRight, List.mem_append, List.mem_replicate, List.mem_cons, List.not_mem_nil,
      or_false] at hmem
    have := spacedNumber_chars d
    simp_all

theorem foldl_max_nat_ge (l : List ℕ) : ∀ a, a ≤ l.foldl max a ∧ ∀ x ∈ l, x ≤ l.foldl max a := by
  induction l with
  | nil => intro a; simp
  | cons b l ih =>
    intro a
    rw [List.foldl_cons]
    obtain ⟨h1, h2⟩ := ih (max a b)
    refine ⟨le_trans (le_max_left _ _) h1, fun x hx => ?_⟩
    rcases List.mem_cons.1 hx with rfl | hx
    · exact le_trans (le_max_right _ _) h1
    · exact h2 x hx

theorem foldl_max_nat_mem (l : List ℕ) : ∀ a, l.foldl max a = a ∨ l.foldl max a ∈ l := by
  induction l with
  | nil => intro a; simp
  | cons b l ih =>
    intro a
    rw [List.foldl_cons]
    rcases ih (max a b) with h | h
    · rcases max_choice a b with h' | h'
      · left; rw [h, h']
      · right; rw [h, h']; simp
    · right; exact List.mem_cons_of_mem _ h

/-- The length of the longest name. -/
def Longest (names : List String) (nd : ℕ) : Prop :=
  (∃ m ∈ names, m.toList.length = nd) ∧ ∀ m ∈ names, m.toList.length ≤ nd

theorem longest_spec {names : List String} (h : names ≠ []) :
    Longest names ((names.map fun m => m.toList.length).foldl max 0) := by
  obtain ⟨-, h2⟩ := foldl_max_nat_ge (names.map fun m => m.toList.length) 0
  refine ⟨?_, fun m hm => h2 _ (List.mem_map.2 ⟨m, hm, rfl⟩)⟩
  rcases foldl_max_nat_mem (names.map fun m => m.toList.length) 0 with e | e
  · obtain ⟨m, hm⟩ := List.exists_mem_of_ne_nil _ h
    refine ⟨m, hm, ?_⟩
    have := h2 _ (List.mem_map.2 ⟨m, hm, rfl⟩)
    omega
  · obtain ⟨m, hm, e⟩ := List.mem_map.1 e
    exact ⟨m, hm, e⟩

theorem forall₂_source {α β : Type} {R : α → β → Prop} {as : List α} {bs : List β}
    (h : List.Forall₂ R as bs) : ∀ b ∈ bs, ∃ a ∈ as, R a b := by
  induction h with
  | nil => simp
  | cons hr _ ih =>
    intro b hb
    rcases List.mem_cons.1 hb with rfl | hb
    · exact ⟨_, by simp, hr⟩
    · obtain ⟨a, ha, h⟩ := ih b hb
      exact ⟨a, by simp [ha], h⟩

theorem tokens_padRight (s rest : List Char) (w : ℕ) (h1 : ∀ c ∈ s, isSpace c = false)
    (h2 : s ≠ []) : tokens (padRight w s ++ ' ' :: rest) = s :: tokens rest := by
  have hw := tokens_word s (List.replicate (w - s.length) ' ' ++ rest) h1 h2
  rw [tokens_spaces] at hw
  rw [← hw, padRight]
  congr 1
  have : List.replicate (w - s.length) ' ' ++ ' ' :: rest =
      ' ' :: (List.replicate (w - s.length) ' ' ++ rest) := by
    rw [← List.cons_append, ← List.replicate_succ, List.replicate_succ', List.append_assoc]
    rfl
  simp [this]

/-- C69: `hs_table` returns a header and one line per point, in the order of `hs_names`. Each line
is the name and six numbers that python reads back as the relative and the absolute coordinates,
rounded to the nearest number with the given decimals. -/
theorem C69_table (k : Kpoints) (d : ℕ) (hne : k.hsNames ≠ [])
    (hdef : ∀ m ∈ k.hsNames, ∃ c, k.hsCoordinates.get? m = some c) :
    ∃ text header rows nd, k.hsTable d = .ok text ∧ Longest k.hsNames nd ∧
      List.Forall₂ (RowOf k nd d) k.hsNames rows ∧
      ((∀ m ∈ k.hsNames, '\n' ∉ m.toList) → text.splitOn '\n' = header :: rows) ∧
      tokens header = [['N', 'a', 'm', 'e'], ['r', 'e', 'l', '_', 'b', '1'],
        ['r', 'e', 'l', '_', 'b', '2'], ['r', 'e', 'l', '_', 'b', '3'], ['k', '_', 'x'],
        ['k', '_', 'y'], ['k', '_', 'z']] ∧
      header.length = max nd 4 + 2 + 3 * max (d + 3) 6 + 3 * (d + 3) + 6 := by
  obtain ⟨rows, hrows⟩ := mapM_ok_of_forall (f := tableRow k
    ((k.hsNames.map fun m => m.toList.length).foldl max 0) d) (l := k.hsNames) (by
      intro m hm
      obtain ⟨c, hc⟩ := hdef m hm
      have h0 : ¬ ((d : ℤ) < 0) := by omega
      unfold tableRow PyDict.getItem
      simp only [hc, bind, Except.bind, if_neg h0, pure, Except.pure]
      exact ⟨_, rfl⟩)
  set nd := (k.hsNames.map fun m => m.toList.length).foldl max 0 with hnd
  have hf := mapM_forall₂ hrows
  have hz : ¬ ((d : ℤ) + 3 < 0) := by omega
  have hw : ((d : ℤ) + 3).toNat = d + 3 := by omega
  refine ⟨['\n'].intercalate (tableHeader nd (d + 3) :: rows), tableHeader nd (d + 3), rows, nd, ?_, longest_spec hne,
    hf.imp fun m line h => (tableRow_spec h).1, ?_, ?_, ?_⟩
  · unfold Kpoints.hsTable
    simp only [bind, Except.bind, if_neg hne, if_neg hz, pure, Except.pure, ← hnd, hrows, hw]
  · intro hnl
    refine List.splitOn_intercalate '\n' ?_ (by simp)
    intro l hl
    rcases List.mem_cons.1 hl with rfl | hl
    · simp [tableHeader, padRight, padLeft, List.mem_replicate]
    · obtain ⟨m, hm, h⟩ := forall₂_source hf l hl
      exact (tableRow_spec h).2 (hnl m hm)
  · have hp : ∀ (s rest : List Char) (w : ℕ), (∀ c ∈ s, isSpace c = false) → s ≠ [] →
        tokens (padLeft w s ++ ' ' :: rest) = s :: tokens rest := by
      intro s rest w h1 h2
      have := tokens_word s rest h1 h2
      rw [padLeft, List.append_assoc, tokens_spaces, ← this]
      simp
    have hz : ∀ (s : List Char) (w : ℕ), (∀ c ∈ s, isSpace c = false) → s ≠ [] →
        tokens (padLeft w s) = [s] := by
      intro s w h1 h2
      rw [padLeft, tokens_spaces]
      have := tokensLoop_word s [] [] h1
      unfold tokens
      rw [List.append_nil] at this
      rw [this, tokensLoop, List.nil_append, if_neg h2]
    have hr : ∀ (s rest : List Char) (w : ℕ), (∀ c ∈ s, isSpace c = false) → s ≠ [] →
        tokens (padRight w s ++ ' ' :: rest) = s :: tokens rest := fun s rest w h1 h2 =>
      tokens_padRight s rest w h1 h2
    unfold tableHeader
    simp only [List.append_assoc, List.cons_append, List.nil_append]
    rw [hr _ _ _ (by decide) (by simp), tokens_space, hp _ _ _ (by decide) (by simp),
      hp _ _ _ (by decide) (by simp), hp _ _ _ (by decide) (by simp), tokens_space,
      hp _ _ _ (by decide) (by simp), hp _ _ _ (by decide) (by simp), hz _ _ (by decide) (by simp)]
  · simp only [tableHeader, padRight, padLeft, List.length_append, List.length_cons, List.length_nil,
      List.length_replicate]
    omega

/-- C69: if the name has no white space, `line.split()` is the name and the six numbers. -/
theorem C69_split (k : Kpoints) (nd d : ℕ) (name : String) (line : List Char)
    (h : RowOf k nd d name line) (hw : OneWord isSpace name) :
    ∃ c w1 w2 w3 w4 w5 w6, k.hsCoordinates.get? name = some c ∧
      tokens line = [name.toList, w1, w2, w3, w4, w5, w6] ∧
      Shows d (c 0) w1 ∧ Shows d (c 1) w2 ∧ Shows d (c 2) w3 ∧
      Shows d ((c ᵥ* k.rcell) 0) w4 ∧ Shows d ((c ᵥ* k.rcell) 1) w5 ∧
      Shows d ((c ᵥ* k.rcell) 2) w6 := by
  obtain ⟨c, cells, hc, rfl, -, -, -, -, -, -, -, -, w1, w2, w3, w4, w5, w6, ht, hs⟩ := h
  refine ⟨c, w1, w2, w3, w4, w5, w6, hc, ?_, hs⟩
  have := tokens_padRight name.toList (' ' :: cells) nd hw.2 (by
    intro e; exact hw.1 (String.toList_inj.1 (by simpa using e)))
  rw [tokens_space, ht] at this
  rw [← this]
  simp [padRight]

/-- C69: the columns are aligned if all coordinates are less than ten: all lines of points are
equally long, with the numbers at the same places. -/
theorem C69_aligned (k : Kpoints) (nd d : ℕ) (name : String) (line : List Char)
    (h : RowOf k nd d name line) (hnd : name.toList.length ≤ nd) (c : Vec ℝ)
    (hc : k.hsCoordinates.get? name = some c) (h1 : ∀ i, |c i| + 1 / 2 / 10 ^ d < 10)
    (h2 : ∀ i, |(c ᵥ* k.rcell) i| + 1 / 2 / 10 ^ d < 10) :
    line.length = nd + 2 + 6 * (d + 3) + 6 ∧
    ∀ (i : Fin 6), ∃ word, tokens ((line.drop (nd + 2 + i * (d + 4) + if i.1 < 3 then 0 else 1)).take
      (d + 3)) = [word] ∧
      Shows d (![c 0, c 1, c 2, (c ᵥ* k.rcell) 0, (c ᵥ* k.rcell) 1, (c ᵥ* k.rcell) 2] i) word := by
  obtain ⟨c', cells, hc', rfl, n1, n2, n3, n4, n5, n6, rfl, hw, -⟩ := h
  rw [hc] at hc'
  cases hc'
  obtain ⟨⟨w1, t1, s1⟩, -, l1⟩ := hw (n1, c 0) (by simp)
  obtain ⟨⟨w2, t2, s2⟩, -, l2⟩ := hw (n2, c 1) (by simp)
  obtain ⟨⟨w3, t3, s3⟩, -, l3⟩ := hw (n3, c 2) (by simp)
  obtain ⟨⟨w4, t4, s4⟩, -, l4⟩ := hw (n4, (c ᵥ* k.rcell) 0) (by simp)
  obtain ⟨⟨w5, t5, s5⟩, -, l5⟩ := hw (n5, (c ᵥ* k.rcell) 1) (by simp)
  obtain ⟨⟨w6, t6, s6⟩, -, l6⟩ := hw (n6, (c ᵥ* k.rcell) 2) (by simp)
  replace l1 := l1 (h1 0)
  replace l2 := l2 (h1 1)
  replace l3 := l3 (h1 2)
  replace l4 := l4 (h2 0)
  replace l5 := l5 (h2 1)
  replace l6 := l6 (h2 2)
  simp only at l1 l2 l3 l4 l5 l6 t1 t2 t3 t4 t5 t6 s1 s2 s3 s4 s5 s6
  have cut : ∀ (A B C : List Char) (m : ℕ), A.length = m → B.length = d + 3 →
      ((A ++ (B ++ C)).drop m).take (d + 3) = B := by
    rintro A B C m rfl hB
    rw [List.drop_left, ← hB, List.take_left]
  set P := name.toList ++ List.replicate (nd - name.toList.length) ' ' ++ [' ', ' '] with hP
  have lP : P.length = nd + 2 := by
    simp only [hP, List.length_append, List.length_replicate, List.length_cons, List.length_nil]
    omega
  refine ⟨?_, fun i => ?_⟩
  · simp only [List.length_append, List.length_cons, List.length_nil, l1, l2, l3, l4, l5, l6, lP]
    omega
  have step : ∀ (A B C L : List Char) (m m' : ℕ) (word : List Char), tokens B = [word] →
      A.length = m → B.length = d + 3 → L = A ++ (B ++ C) → m' = m →
      tokens ((L.drop m').take (d + 3)) = [word] := by
    rintro A B C L m m' word ht hA hB rfl rfl
    rw [cut A B C _ hA hB, ht]
  match i with
  | 0 =>
    exact ⟨w1, step P n1 _ _ (nd + 2) _ _ t1 lP l1 (by simp only [List.append_assoc]; rfl) (by simp),
      s1⟩
  | 1 =>
    exact ⟨w2, step (P ++ n1 ++ [' ']) n2 _ _ (nd + 2 + (d + 4)) _ _ t2
      (by simp [lP, l1]) l2 (by simp only [List.append_assoc]; rfl) (by simp), s2⟩
  | 2 =>
    exact ⟨w3, step (P ++ n1 ++ [' '] ++ n2 ++ [' ']) n3 _ _ (nd + 2 + 2 * (d + 4)) _ _ t3
      (by simp [lP, l1, l2]; omega) l3 (by simp only [List.append_assoc]; rfl) (by simp), s3⟩
  | 3 =>
    exact ⟨w4, step (P ++ n1 ++ [' '] ++ n2 ++ [' '] ++ n3 ++ [' ', ' ']) n4 _ _
      (nd + 2 + 3 * (d + 4) + 1) _ _ t4
      (by simp [lP, l1, l2, l3]; omega) l4 (by simp only [List.append_assoc]; rfl) (by simp), s4⟩
  | 4 =>
    exact ⟨w5, step (P ++ n1 ++ [' '] ++ n2 ++ [' '] ++ n3 ++ [' ', ' '] ++ n4 ++ [' ']) n5 _ _
      (nd + 2 + 4 * (d + 4) + 1) _ _ t5
      (by simp [lP, l1, l2, l3, l4]; omega) l5 (by simp only [List.append_assoc]; rfl) (by simp), s5⟩
  | 5 =>
    exact ⟨w6, step (P ++ n1 ++ [' '] ++ n2 ++ [' '] ++ n3 ++ [' ', ' '] ++ n4 ++ [' '] ++ n5 ++ [' ']) n6
      [] _ (nd + 2 + 5 * (d + 4) + 1) _ _ t6 (by simp [lP, l1, l2, l3, l4, l5]; omega) l6
      (by simp only [List.append_assoc, List.append_nil]) (by simp), s6⟩

/-- C69: the errors: no points, or a negative number of decimals. -/
theorem C69_errors (k : Kpoints) (decimals : ℤ) :
    (k.hsNames = [] → k.hsTable decimals = .error .valueError) ∧
    (decimals < 0 → ∀ text, k.hsTable decimals ≠ .ok text) := by
  constructor
  · intro h
    unfold Kpoints.hsTable
    simp [h, bind, Except.bind, throw, throwThe, MonadExceptOf.throw]
  · intro h text ht
    unfold Kpoints.hsTable at ht
    simp only [bind, Except.bind] at ht
    by_cases h0 : k.hsNames = []
    · simp [h0, throw, throwThe, MonadExceptOf.throw] at ht
    by_cases h1 : decimals + 3 < 0
    · simp [h0, h1, throw, throwThe, MonadExceptOf.throw] at ht
    simp only [if_neg h0, if_neg h1, pure, Except.pure] at ht
    cases hm : k.hsNames.mapM (tableRow k ((k.hsNames.map fun m => m.toList.length).foldl max 0)
        decimals) with
    | error e => simp [hm] at ht
    | ok rows =>
    obtain ⟨m, hmem⟩ := List.exists_mem_of_ne_nil _ h0
    have hf := mapM_forall₂ hm
    have : ∀ l, tableRow k ((k.hsNames.map fun m => m.toList.length).foldl max 0) decimals m ≠
        .ok l := by
      intro l hl
      unfold tableRow at hl
      simp only [bind, Except.bind] at hl
      cases hc : k.hsCoordinates.getItem m with
      | error e => simp [hc] at hl
      | ok c => simp [hc, h, throw, throwThe, MonadExceptOf.throw] at hl
    obtain ⟨l, -, hl⟩ := forall₂_source hf.flip m hmem
    exact this l hl

theorem header_width (nd d : ℕ) :
    max nd 4 + 2 + 3 * max (d + 3) 6 + 3 * (d + 3) + 6 = nd + 2 + 6 * (d + 3) + 6 ↔
      4 ≤ nd ∧ 3 ≤ d := by
  omega

/-- C69: if all numbers are below ten, the header is as long as the lines exactly if some name has
four characters and there are three decimals. With shorter names, such as the user's own "A" and
"B", or with fewer decimals it is longer and does not line up. -/
theorem C69_header (k : Kpoints) (d : ℕ) (hne : k.hsNames ≠ [])
    (hnl : ∀ m ∈ k.hsNames, '\n' ∉ m.toList)
    (hdef : ∀ m ∈ k.hsNames, ∃ c, k.hsCoordinates.get? m = some c ∧
      (∀ i, |c i| + 1 / 2 / 10 ^ d < 10) ∧ ∀ i, |(c ᵥ* k.rcell) i| + 1 / 2 / 10 ^ d < 10) :
    ∃ text header rows, k.hsTable d = .ok text ∧ text.splitOn '\n' = header :: rows ∧
      rows.length = k.hsNames.length ∧
      ((∀ row ∈ rows, row.length = header.length) ↔
        (∃ m ∈ k.hsNames, 4 ≤ m.toList.length) ∧ 3 ≤ d) := by
  obtain ⟨text, header, rows, nd, t1, t2, t3, t4, -, t6⟩ := C69_table k d hne
    fun m hm => let ⟨c, hc, _⟩ := hdef m hm; ⟨c, hc⟩
  refine ⟨text, header, rows, t1, t4 hnl, t3.length_eq.symm, ?_⟩
  have hrow : ∀ row ∈ rows, row.length = nd + 2 + 6 * (d + 3) + 6 := by
    intro row hrow
    obtain ⟨m, hm, hr⟩ := forall₂_source t3 row hrow
    obtain ⟨c, hc, h1, h2⟩ := hdef m hm
    exact (C69_aligned k nd d m row hr (t2.2 m hm) c hc h1 h2).1
  have hnd : (∃ m ∈ k.hsNames, 4 ≤ m.toList.length) ↔ 4 ≤ nd := by
    constructor
    · rintro ⟨m, hm, h⟩
      exact le_trans h (t2.2 m hm)
    · intro h
      obtain ⟨m, hm, e⟩ := t2.1
      exact ⟨m, hm, e ▸ h⟩
  rw [hnd, ← header_width, ← t6]
  constructor
  · intro h
    obtain ⟨row, hr⟩ := List.exists_mem_of_ne_nil rows (by
      intro e
      rw [e] at t3
      exact hne (List.forall₂_nil_right_iff.1 t3))
    rw [← h row hr, hrow row hr]
  · intro h row hr
    rw [hrow row hr, h]

theorem plotNames_words : ∀ m ∈ hsPlotNames.keys, m ≠ "" ∧ ∀ c ∈ m.toList, isSpace c = false := by
  decide +kernel

/-- C69: the table of the default points of a crystal: always one line more than points, each line
splits into the name and the numbers, and the header lines up from three decimals on. -/
theorem C69_default (lower : String → String) (hl : lower "HPKOT" = "hpkot") (hl' : lower "SC" = "sc")
    (getData : Cell ℝ → Atoms ℝ → Except Err SpglibData)
    (niggli : Cell ℝ → Except Err (Cell ℝ)) (cell : Cell ℝ) (atoms : Atoms ℝ)
    (given : Option SpglibData) (data : SpglibData)
    (hd : given = some data ∨ (given = none ∧ getData cell atoms = .ok data))
    (hn : 1 ≤ data.spaceGroupNumber ∧ data.spaceGroupNumber ≤ 230)
    (hf : data.crystalFamily = family data.spaceGroupNumber)
    (hc : data.centringType = centring data.spaceGroupNumber)
    (htol : data.angleTolerance = -1 ∨ 0 ≤ data.angleTolerance) (convention : String)
    (t : Bool) (n : ℤ) (path : String) (pts : PyDict String (Vec ℝ))
    (h : getPathAndPoints lower getData niggli cell atoms given convention t true = .ok (path, pts))
    (r : Cell ℝ) (hr : getReciprocal cell = .ok r) (d : ℕ) :
    ∃ k text header rows nd,
      Kpoints.fromCrystal lower getData niggli cell atoms convention t n given = .ok k ∧
      k.hsTable d = .ok text ∧ text.splitOn '\n' = header :: rows ∧ 5 ≤ nd ∧
      List.Forall₂ (fun name line => RowOf k nd d name line ∧ OneWord isSpace name ∧
        name.toList.length ≤ nd) k.hsNames rows ∧
      (3 ≤ d → header.length = nd + 2 + 6 * (d + 3) + 6) := by
  obtain ⟨k, e1, -, -, e4, e5, -, -, -, -⟩ := C45_from_crystal lower hl hl' getData niggli cell
    atoms given data hd hn hf hc htol convention t n path pts h r hr
  obtain ⟨p, -, hpl, hg⟩ := C43_plottable_partial lower hl hl' getData niggli cell atoms given data hd hn
    hf hc htol convention path pts t true h
  have hgm : "GAMMA" ∈ k.hsNames := by
    rw [e5, ← PyDict.get?_isSome, hg]; rfl
  have hword : ∀ m ∈ k.hsNames, OneWord isSpace m := by
    intro m hm
    rw [e5] at hm
    obtain ⟨l, hl⟩ := hpl.labelled m hm
    exact plotNames_words m (by rw [← PyDict.get?_isSome, hl]; rfl)
  obtain ⟨text, header, rows, nd, t1, t2, t3, t4, -, t6⟩ := C69_table k d
    (List.ne_nil_of_mem hgm) (by
      intro m hm
      rw [e5, ← PyDict.get?_isSome, Option.isSome_iff_exists] at hm
      rw [e4]
      exact hm)
  have h5 : 5 ≤ nd := t2.2 "GAMMA" hgm
  refine ⟨k, text, header, rows, nd, e1, t1, t4 fun m hm hnl => ?_, h5, ?_, fun hd => ?_⟩
  · have := (hword m hm).2 _ hnl
    revert this
    decide
  · have key : ∀ (l : List String) (rows : List (List Char)), (∀ m ∈ l, m ∈ k.hsNames) →
        List.Forall₂ (RowOf k nd d) l rows → List.Forall₂ (fun name line => RowOf k nd d name line ∧
          OneWord isSpace name ∧ name.toList.length ≤ nd) l rows := by
      intro l rows hl hf
      induction hf with
      | nil => exact .nil
      | cons h1 _ ih =>
        exact .cons ⟨h1, hword _ (hl _ (by simp)), t2.2 _ (hl _ (by simp))⟩
          (ih fun m hm => hl m (List.mem_cons_of_mem _ hm))
    exact key _ _ (fun m hm => hm) t3
  · rw [t6]
    exact (header_width nd d).2 ⟨by omega, hd⟩

/-- The hypotheses of `C69_table` are met: two points, eight decimals. -/
example : ∃ (k : Kpoints) (text : List Char) (header : List Char) (rows : List (List Char)),
    k.hsTable 8 = .ok text ∧ text.splitOn '\n' = header :: rows ∧ rows.length = 2 := by
  refine ⟨⟨1, [("GAMMA", 0), ("X", ![1 / 3, 0, -2 / 3])], [], ["GAMMA", "X"], 0, []⟩, ?_⟩
  obtain ⟨text, header, rows, nd, h1, -, h2, h3, -⟩ := C69_table
    ⟨1, [("GAMMA", 0), ("X", ![1 / 3, 0, -2 / 3])], [], ["GAMMA", "X"], 0, []⟩ 8 (by simp) (by
      simp [PyDict.get?])
  exact ⟨text, header, rows, h1, h3 (by decide +kernel), h2.length_eq.symm⟩

/-- The numbers of the table are those of `C69_aligned` in the ordinary case. -/
example : ∀ i, |(![1 / 3, 0, -2 / 3] : Vec ℝ) i| + 1 / 2 / 10 ^ 8 < 10 := by
  intro i
  match i with
  | 0 => simp [abs_of_pos]; norm_num
  | 1 => simp; norm_num
  | 2 => simp [abs_of_neg, abs_div]; norm_num

end Wulfric
