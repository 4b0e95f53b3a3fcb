import Verif.Model.Poscar
import Verif.Spec.Poscar
import Verif.Lemmas.Python
import Mathlib.Data.List.TakeWhile
import Mathlib.Tactic.FieldSimp
import Mathlib.Tactic.Linarith
import Mathlib.Tactic.Positivity
import Mathlib.Tactic.Ring
import Mathlib.Tactic.NormNum

/-! # Lemmas about POSCAR files: text, numbers, species -/

namespace Wulfric
open Matrix Spec

/-! ### Tokens and lines -/

theorem tokensLoop_word (w rest acc : List Char) (hw : ∀ c ∈ w, isSpace c = false) :
    tokensLoop (w ++ rest) acc = tokensLoop rest (acc ++ w) := by
  induction w generalizing acc with
  | nil => simp
  | cons c w ih =>
    rw [List.cons_append, tokensLoop, if_neg (by simp [hw c (by simp)]),
      ih _ fun d hd => hw d (by simp [hd])]
    simp

theorem tokens_word (w rest : List Char) (hw : ∀ c ∈ w, isSpace c = false) (h0 : w ≠ []) :
    tokens (w ++ [' '] ++ rest) = w :: tokens rest := by
  unfold tokens
  rw [List.append_assoc, tokensLoop_word w _ [] hw, List.nil_append, List.singleton_append,
    tokensLoop, if_pos (by decide), if_neg h0]

theorem tokens_spaces (n : ℕ) (rest : List Char) :
    tokens (List.replicate n ' ' ++ rest) = tokens rest := by
  induction n with
  | zero => rfl
  | succ n ih =>
    rw [List.replicate_succ, List.cons_append]
    unfold tokens at ih ⊢
    rw [tokensLoop, if_pos (by decide), if_pos rfl, ih]

theorem tokens_items {α : Type} (f : α → List Char) (l : List α)
    (h : ∀ a ∈ l, f a ≠ [] ∧ ∀ c ∈ f a, isSpace c = false) :
    tokens (l.flatMap fun a => f a ++ [' ']) = l.map f := by
  induction l with
  | nil => rfl
  | cons a l ih =>
    rw [List.flatMap_cons, tokens_word _ _ (h a (by simp)).2 (h a (by simp)).1,
      ih fun b hb => h b (by simp [hb]), List.map_cons]

theorem linesLoop_line (l rest acc : List Char) (h : '\n' ∉ l) :
    linesLoop (l ++ '\n' :: rest) acc = (acc ++ l) :: linesLoop rest [] := by
  induction l generalizing acc with
  | nil => simp [linesLoop]
  | cons c l ih =>
    rw [List.cons_append, linesLoop, if_neg (fun e => h (by simp [e])),
      ih _ fun e => h (by simp [e])]
    simp

theorem translate_id (l : List Char) (h : '\r' ∉ l) : translateNewlines l = l := by
  induction l with
  | nil => rfl
  | cons c l ih =>
    have hc : c ≠ '\r' := fun e => h (by simp [e])
    rw [translateNewlines]
    · rw [ih fun e => h (by simp [e])]
    · rintro l' rfl; exact fun _ => hc rfl
    · exact fun e => hc e

/-! ### Numbers -/

theorem roundHalfEven_near {x : ℚ} (hx : 0 ≤ x) : |(roundHalfEven x : ℚ) - x| ≤ 1 / 2 := by
  have hf : 0 ≤ ⌊x⌋ := Int.floor_nonneg.2 hx
  have e : ((⌊x⌋.toNat : ℕ) : ℚ) = (⌊x⌋ : ℤ) := by
    have : ((⌊x⌋.toNat : ℕ) : ℤ) = ⌊x⌋ := Int.toNat_of_nonneg hf
    exact_mod_cast this
  have h1 := Int.floor_le x
  have h2 := Int.lt_floor_add_one x
  unfold roundHalfEven
  simp only
  rw [abs_le]
  split_ifs with q1 q2 q3
  · rw [e] at q1 ⊢
    constructor <;> linarith
  · rw [e] at q1 q2
    push_cast
    rw [e]
    constructor <;> linarith
  · rw [e] at q1 q2 ⊢
    constructor <;> linarith
  · rw [e] at q1 q2
    push_cast
    rw [e]
    constructor <;> linarith

theorem roundHalfEven_nat (n : ℕ) : roundHalfEven (n : ℚ) = n := by
  unfold roundHalfEven
  simp

/-- The number read back. -/
def roundTo (d : ℕ) (x : ℚ) : ℚ :=
  (if x < 0 then -1 else 1) * ((roundHalfEven (|x| * 10 ^ d) : ℕ) / 10 ^ d)

theorem roundTo_exact {d : ℕ} {x : ℚ} (h : Representable d x) : roundTo d x = x := by
  obtain ⟨z, hz⟩ := h
  have hp : (10 : ℚ) ^ d ≠ 0 := by positivity
  have hp' : (0 : ℚ) < 10 ^ d := by positivity
  have e : |x| * 10 ^ d = ((z.natAbs : ℕ) : ℚ) := by
    rw [Nat.cast_natAbs, Int.cast_abs, ← hz, abs_mul, abs_of_pos hp']
  unfold roundTo
  rw [e, roundHalfEven_nat, ← e]
  split_ifs with q
  · rw [abs_of_neg q]
    field_simp
  · rw [abs_of_nonneg (not_lt.1 q)]
    field_simp

theorem roundTo_near (d : ℕ) (x : ℚ) : NearestDecimal d x (roundTo d x) := by
  have hp : (0 : ℚ) < 10 ^ d := by positivity
  have h := roundHalfEven_near (x := |x| * 10 ^ d) (by positivity)
  constructor
  · unfold roundTo
    split_ifs with q
    · exact ⟨-(roundHalfEven (|x| * 10 ^ d) : ℕ), by push_cast; field_simp⟩
    · exact ⟨(roundHalfEven (|x| * 10 ^ d) : ℕ), by push_cast; field_simp⟩
  · rw [abs_le] at h ⊢
    unfold roundTo
    generalize (roundHalfEven (|x| * 10 ^ d) : ℚ) = m at *
    have e : 1 / 2 / (10 : ℚ) ^ d = (1 / 2) * (1 / 10 ^ d) := by ring
    have h1 : -(1 / 2) * (1 / 10 ^ d) ≤ (m - |x| * 10 ^ d) * (1 / (10 : ℚ) ^ d) :=
      mul_le_mul_of_nonneg_right (by linarith [h.1]) (by positivity)
    have h2 : (m - |x| * 10 ^ d) * (1 / (10 : ℚ) ^ d) ≤ (1 / 2) * (1 / 10 ^ d) :=
      mul_le_mul_of_nonneg_right h.2 (by positivity)
    have e2 : (m - |x| * 10 ^ d) * (1 / (10 : ℚ) ^ d) = m / 10 ^ d - |x| := by field_simp
    rw [e2] at h1 h2
    rw [e]
    split_ifs with q
    · rw [abs_of_neg q] at h1 h2
      constructor <;> linarith
    · rw [abs_of_nonneg (not_lt.1 q)] at h1 h2
      constructor <;> linarith

theorem toDigits_digit (n : ℕ) : ∀ c ∈ Nat.toDigits 10 n, c.isDigit = true := fun _ hc =>
  Nat.isDigit_of_mem_toDigits (by norm_num) (by norm_num) hc

theorem digit_cases {c : Char} (h : c.isDigit = true) : 48 ≤ c.toNat ∧ c.toNat ≤ 57 := by
  simp only [Char.isDigit, Bool.and_eq_true, decide_eq_true_eq] at h
  exact ⟨h.1, h.2⟩

theorem digit_ne {c d : Char} (h : c.isDigit = true) (hd : ¬ d.isDigit = true) : c ≠ d :=
  fun e => hd (e ▸ h)

theorem digit_not_space {c : Char} (h : c.isDigit = true) : isSpace c = false := by
  have := digit_cases h
  simp only [isSpace, decide_eq_false_iff_not]
  omega

/-- The digits after the point. -/
def fraction (m d : ℕ) : List Char :=
  List.replicate (d - (Nat.toDigits 10 (m % 10 ^ d)).length) '0' ++ Nat.toDigits 10 (m % 10 ^ d)

theorem fraction_length (m d : ℕ) (hd : d ≠ 0) : (fraction m d).length = d := by
  have : (Nat.toDigits 10 (m % 10 ^ d)).length ≤ d :=
    (Nat.length_toDigits_le_iff (by norm_num) (by omega)).2 (Nat.mod_lt _ (by positivity))
  simp only [fraction, List.length_append, List.length_replicate]
  omega

theorem fraction_digit (m d : ℕ) : ∀ c ∈ fraction m d, c.isDigit = true := by
  intro c hc
  simp only [fraction, List.mem_append, List.mem_replicate] at hc
  rcases hc with ⟨-, rfl⟩ | hc
  · decide
  · exact toDigits_digit _ c hc

theorem digits_value (m d : ℕ) (hd : d ≠ 0) :
    Nat.ofDigitChars 10 (Nat.toDigits 10 (m / 10 ^ d) ++ fraction m d) 0 = m := by
  have hl := fraction_length m d hd
  rw [Nat.ofDigitChars_append, Nat.ofDigitChars_toDigits (by norm_num) (by norm_num),
    Nat.ofDigitChars_eq_ofDigitChars_zero, hl]
  have e : Nat.ofDigitChars 10 (fraction m d) 0 = m % 10 ^ d := by
    unfold fraction
    rw [Nat.ofDigitChars_append, Nat.ofDigitChars_replicate_zero, Nat.mul_zero,
      Nat.ofDigitChars_toDigits (by norm_num) (by norm_num)]
  rw [e]
  exact Nat.div_add_mod m (10 ^ d)

/-- The written number without its sign. -/
def unsigned (m d : ℕ) : List Char :=
  Nat.toDigits 10 (m / 10 ^ d) ++ (if d = 0 then [] else '.' :: fraction m d)

theorem formatFixed_eq (x : ℚ) (d : ℕ) :
    formatFixed x d = (if x < 0 then ['-'] else []) ++ unsigned (roundHalfEven (|x| * 10 ^ d)) d := by
  simp only [formatFixed, unsigned, fraction, List.append_assoc]

theorem unsigned_chars (m d : ℕ) : ∀ c ∈ unsigned m d, c.isDigit = true ∨ c = '.' := by
  intro c hc
  unfold unsigned at hc
  rw [List.mem_append] at hc
  rcases hc with hc | hc
  · exact .inl (toDigits_digit _ c hc)
  · split_ifs at hc
    · simp at hc
    · rw [List.mem_cons] at hc
      rcases hc with rfl | hc
      · exact .inr rfl
      · exact .inl (fraction_digit m d c hc)

theorem isDigits_of {l : List Char} (h0 : l ≠ []) (h : ∀ c ∈ l, c.isDigit = true) :
    isDigits l = true := by
  simp only [isDigits, Bool.and_eq_true, Bool.not_eq_true', List.all_eq_true]
  exact ⟨by simpa using h0, h⟩

theorem takeWhile_point {A B : List Char} (h : ∀ c ∈ A, c ≠ '.') :
    (A ++ '.' :: B).takeWhile (fun c => decide (c ≠ '.')) = A ∧
    ((A ++ '.' :: B).dropWhile (fun c => decide (c ≠ '.'))).drop 1 = B := by
  induction A with
  | nil => simp
  | cons c A ih =>
    have hc := h c (by simp)
    obtain ⟨h1, h2⟩ := ih fun d hd => h d (by simp [hd])
    constructor
    · rw [List.cons_append, List.takeWhile_cons_of_pos (by simpa using hc), h1]
    · rw [List.cons_append, List.dropWhile_cons_of_pos (by simpa using hc), h2]

theorem parseMantissa_unsigned (m d : ℕ) :
    parseMantissa (unsigned m d) = .ok ((m : ℚ) / 10 ^ d) := by
  unfold parseMantissa
  have hne : ∀ c ∈ Nat.toDigits 10 (m / 10 ^ d), c ≠ '.' := fun c hc =>
    digit_ne (toDigits_digit _ c hc) (by decide)
  by_cases hd : d = 0
  · subst hd
    have e : unsigned m 0 = Nat.toDigits 10 m := by simp [unsigned]
    have hne' : ∀ c ∈ Nat.toDigits 10 m, c ≠ '.' := fun c hc =>
      digit_ne (toDigits_digit _ c hc) (by decide)
    have e1 : (Nat.toDigits 10 m).takeWhile (fun c => decide (c ≠ '.')) = Nat.toDigits 10 m :=
      List.takeWhile_eq_self_iff.2 (by simpa using hne')
    have e2 : (Nat.toDigits 10 m).dropWhile (fun c => decide (c ≠ '.')) = [] :=
      List.dropWhile_eq_nil_iff.2 (by simpa using hne')
    simp only [e, e1, e2, List.drop_nil, List.append_nil, List.length_nil]
    rw [if_pos (isDigits_of Nat.toDigits_ne_nil (toDigits_digit _)),
      Nat.ofDigitChars_toDigits (by norm_num) (by norm_num)]
  · have e : unsigned m d = Nat.toDigits 10 (m / 10 ^ d) ++ '.' :: fraction m d := by
      simp [unsigned, hd]
    obtain ⟨e1, e2⟩ := takeWhile_point (B := fraction m d) hne
    simp only [e, e1, e2]
    rw [if_pos (isDigits_of (by simp [Nat.toDigits_ne_nil]) (by
      intro c hc
      rw [List.mem_append] at hc
      exact hc.elim (toDigits_digit _ c) (fraction_digit m d c))), digits_value m d hd,
      fraction_length m d hd]

theorem takeSign_plain {l : List Char} (h : ∀ c ∈ l, c ≠ '-' ∧ c ≠ '+') : takeSign l = (1, l) := by
  match l with
  | [] => rfl
  | c :: l =>
    have := h c (by simp)
    unfold takeSign
    split
    · rename_i h'; cases h'; exact absurd rfl this.1
    · rename_i h'; cases h'; exact absurd rfl this.2
    · rfl

theorem takeSign_format (x : ℚ) (d : ℕ) : takeSign (formatFixed x d) =
    (if x < 0 then -1 else 1, unsigned (roundHalfEven (|x| * 10 ^ d)) d) := by
  rw [formatFixed_eq]
  split_ifs with h
  · rfl
  · rw [List.nil_append]
    apply takeSign_plain
    intro c hc
    rcases unsigned_chars _ _ c hc with h | rfl
    · exact ⟨digit_ne h (by decide), digit_ne h (by decide)⟩
    · exact ⟨by decide, by decide⟩

theorem parseFloat_format (x : ℚ) (d : ℕ) :
    parseFloat (formatFixed x d) = .ok (roundTo d x) := by
  unfold parseFloat
  rw [takeSign_format]
  have hE : ∀ c ∈ unsigned (roundHalfEven (|x| * 10 ^ d)) d, ¬ (c = 'e' ∨ c = 'E') := by
    intro c hc
    rcases unsigned_chars _ _ c hc with h | rfl
    · exact fun e => e.elim (digit_ne h (by decide)) (digit_ne h (by decide))
    · decide
  have e1 : (unsigned (roundHalfEven (|x| * 10 ^ d)) d).takeWhile
      (fun c => decide (¬ (c = 'e' ∨ c = 'E'))) = unsigned (roundHalfEven (|x| * 10 ^ d)) d :=
    List.takeWhile_eq_self_iff.2 (by simpa using hE)
  have e2 : (unsigned (roundHalfEven (|x| * 10 ^ d)) d).dropWhile
      (fun c => decide (¬ (c = 'e' ∨ c = 'E'))) = [] :=
    List.dropWhile_eq_nil_iff.2 (by simpa using hE)
  simp only [e1, e2, parseMantissa_unsigned, bind, Except.bind, pure, Except.pure, roundTo]
  split_ifs <;> simp

theorem parseInt_digits (n : ℕ) : parseInt (Nat.toDigits 10 n) = .ok (n : ℤ) := by
  unfold parseInt
  rw [takeSign_plain fun c hc => ⟨digit_ne (toDigits_digit _ c hc) (by decide),
    digit_ne (toDigits_digit _ c hc) (by decide)⟩]
  simp only
  rw [if_pos (isDigits_of Nat.toDigits_ne_nil (toDigits_digit _)),
    Nat.ofDigitChars_toDigits (by norm_num) (by norm_num)]
  simp

theorem format_chars (x : ℚ) (d : ℕ) :
    ∀ c ∈ formatFixed x d, c.isDigit = true ∨ c = '.' ∨ c = '-' := by
  intro c hc
  rw [formatFixed_eq, List.mem_append] at hc
  rcases hc with hc | hc
  · split_ifs at hc
    · simp at hc; exact .inr (.inr hc)
    · simp at hc
  · rcases unsigned_chars _ _ c hc with h | h
    · exact .inl h
    · exact .inr (.inl h)

theorem format_ne_nil (x : ℚ) (d : ℕ) : formatFixed x d ≠ [] := by
  rw [formatFixed_eq, unsigned]
  simp [Nat.toDigits_ne_nil]

theorem format_not_space (x : ℚ) (d : ℕ) : ∀ c ∈ formatFixed x d, isSpace c = false := by
  intro c hc
  rcases format_chars x d c hc with h | rfl | rfl
  · exact digit_not_space h
  · decide
  · decide

/-- A written row without the newline. -/
def rowLine (d : ℕ) (v : Vec ℚ) : List Char :=
  writeNumber d (v 0) ++ writeNumber d (v 1) ++ writeNumber d (v 2)

theorem writeRow_eq (d : ℕ) (v : Vec ℚ) : writeRow d v = rowLine d v ++ ['\n'] := rfl

theorem tokens_number (d : ℕ) (x : ℚ) (rest : List Char) :
    tokens (writeNumber d x ++ rest) = formatFixed x d :: tokens rest := by
  unfold writeNumber
  rw [List.append_assoc, List.append_assoc, tokens_spaces, ← List.append_assoc,
    tokens_word _ _ (format_not_space x d) (format_ne_nil x d)]

theorem tokens_row (d : ℕ) (v : Vec ℚ) :
    tokens (rowLine d v) = [formatFixed (v 0) d, formatFixed (v 1) d, formatFixed (v 2) d] := by
  unfold rowLine
  rw [List.append_assoc, tokens_number, tokens_number]
  have := tokens_number d (v 2) []
  rw [List.append_nil] at this
  rw [this]
  rfl

theorem number_chars (d : ℕ) (x : ℚ) : ∀ c ∈ writeNumber d x, c ≠ '\n' ∧ c ≠ '\r' := by
  intro c hc
  simp only [writeNumber, List.mem_append, List.mem_replicate, List.mem_singleton] at hc
  rcases hc with (⟨-, rfl⟩ | hc) | rfl
  · decide
  · rcases format_chars x d c hc with h | rfl | rfl
    · exact ⟨digit_ne h (by decide), digit_ne h (by decide)⟩
    · decide
    · decide
  · decide

theorem row_chars (d : ℕ) (v : Vec ℚ) : ∀ c ∈ rowLine d v, c ≠ '\n' ∧ c ≠ '\r' := by
  intro c hc
  simp only [rowLine, List.mem_append] at hc
  rcases hc with (hc | hc) | hc <;> exact number_chars d _ c hc

theorem readFloats_row (d : ℕ) (v : Vec ℚ) :
    readFloats (rowLine d v) = .ok [roundTo d (v 0), roundTo d (v 1), roundTo d (v 2)] := by
  unfold readFloats
  rw [tokens_row]
  simp only [List.mapM_cons, List.mapM_nil, parseFloat_format, bind, Except.bind, pure, Except.pure]

/-! ### Species -/

theorem countSpecies_sorted (l : List String) (d' : PyDict String ℕ) (s : String) (n : ℕ)
    (hl : (s :: l).Pairwise (fun a b => ¬ b < a)) (hd : ∀ x ∈ s :: l, x ∉ PyDict.keys d') :
    (countSpecies l (d' ++ [(s, n)])).flatMap (fun p => List.replicate p.2 p.1) =
      (d' ++ [(s, n)]).flatMap (fun p => List.replicate p.2 p.1) ++ l := by
  induction l generalizing d' s n with
  | nil => simp [countSpecies]
  | cons x l ih =>
    rw [countSpecies, countOne]
    have hs : PyDict.get? d' s = none := (PyDict.get?_eq_none _ _).2 (hd s (by simp))
    have hget : ∀ (d : PyDict String ℕ) (k : String), PyDict.get? d k = none →
        ∀ v, PyDict.get? (d ++ [(s, v)]) k = if s = k then some v else none := by
      intro d k hk v
      induction d with
      | nil => simp [PyDict.get?]
      | cons p d ih =>
        rw [List.cons_append]
        simp only [PyDict.get?] at hk ⊢
        split_ifs at hk with q
        rw [if_neg q, ih hk]
    have hset : ∀ (d : PyDict String ℕ), PyDict.get? d s = none → ∀ v w,
        PyDict.setItem (d ++ [(s, v)]) s w = d ++ [(s, w)] := by
      intro d hk v w
      induction d with
      | nil => simp [PyDict.setItem]
      | cons p d ih =>
        rw [List.cons_append]
        simp only [PyDict.get?] at hk
        split_ifs at hk with q
        simp only [PyDict.setItem, if_neg q, ih hk, List.cons_append]
    have hx : PyDict.get? d' x = none := (PyDict.get?_eq_none _ _).2 (hd x (by simp))
    rw [hget d' x hx]
    by_cases q : s = x
    · subst q
      simp only [if_true]
      rw [hset d' hs, ih d' s (n + 1) (List.pairwise_cons.1 hl).2
        (fun y hy => hd y (List.mem_cons_of_mem _ hy))]
      simp [List.replicate_succ', List.append_assoc]
    · simp only [if_neg q]
      rw [List.pairwise_cons] at hl
      have hsx : s < x := by
        rcases lt_trichotomy s x with h | h | h
        · exact h
        · exact absurd h q
        · exact absurd h (hl.1 x (by simp))
      have hkeys : x ∉ PyDict.keys (d' ++ [(s, n)]) := by
        intro h
        simp only [PyDict.keys, List.map_append, List.mem_append, List.map_cons, List.map_nil,
          List.mem_singleton] at h
        rcases h with h | h
        · exact hd x (by simp) h
        · exact q h.symm
      rw [PyDict.setItem_append _ _ _ hkeys, ih (d' ++ [(s, n)]) x 1 hl.2]
      · simp
      · intro y hy h
        simp only [PyDict.keys, List.map_append, List.mem_append, List.map_cons, List.map_nil,
          List.mem_singleton] at h
        rcases h with h | h
        · exact hd y (List.mem_cons_of_mem _ hy) h
        · subst h
          rw [List.mem_cons] at hy
          rcases hy with hy | hy
          · exact q hy
          · exact (List.pairwise_cons.1 hl.2).1 y hy hsx

theorem countSpecies_expand (l : List String) (hl : l.Pairwise (fun a b => ¬ b < a)) :
    (countSpecies l []).flatMap (fun p => List.replicate p.2 p.1) = l := by
  cases l with
  | nil => rfl
  | cons s l =>
    have := countSpecies_sorted l [] s 1 hl (by simp [PyDict.keys])
    simpa [countSpecies, countOne, PyDict.get?, PyDict.setItem] using this

theorem countSpecies_keys (l : List String) (d : PyDict String ℕ) (s : String) :
    s ∈ (countSpecies l d).keys ↔ s ∈ d.keys ∨ s ∈ l := by
  induction l generalizing d with
  | nil => simp [countSpecies]
  | cons x l ih =>
    rw [countSpecies, ih]
    have : s ∈ PyDict.keys (countOne d x) ↔ s ∈ PyDict.keys d ∨ s = x := by
      unfold countOne
      cases hx : d.get? x with
      | none =>
        simp only [PyDict.keys_setItem]
        rw [if_neg ((PyDict.get?_eq_none _ _).1 hx)]
        simp
      | some n =>
        simp only [PyDict.keys_setItem]
        have : x ∈ d.keys := (PyDict.get?_isSome _ _).1 (by simp [hx])
        rw [if_pos this]
        constructor
        · exact .inl
        · rintro (h | rfl)
          · exact h
          · exact this
    rw [this]
    simp [or_assoc]

theorem sortAtoms_pairwise (l : List (String × Vec ℚ)) :
    ((sortAtoms l).map Prod.fst).Pairwise (fun a b => ¬ b < a) := by
  rw [List.pairwise_map]
  have := List.pairwise_mergeSort (le := fun a b : String × Vec ℚ => decide (¬ b.1 < a.1))
    (by
      intro a b c h1 h2
      simp only [decide_eq_true_eq, not_lt] at *
      exact h1.trans h2)
    (by
      intro a b
      simp only [Bool.or_eq_true, decide_eq_true_eq, not_lt]
      exact le_total _ _) l
  refine List.Pairwise.imp ?_ this
  intro a b h
  simpa using h

theorem sortAtoms_perm (l : List (String × Vec ℚ)) : (sortAtoms l).Perm l := List.mergeSort_perm _ _

theorem sortAtoms_stable (l : List (String × Vec ℚ)) (s : String) :
    (sortAtoms l).filter (fun a => a.1 = s) = l.filter (fun a => a.1 = s) := by
  have hsub : (l.filter (fun a => a.1 = s)).Sublist (sortAtoms l) := by
    apply List.sublist_mergeSort
    · intro a b c h1 h2
      simp only [decide_eq_true_eq, not_lt] at *
      exact h1.trans h2
    · intro a b
      simp only [Bool.or_eq_true, decide_eq_true_eq, not_lt]
      exact le_total _ _
    · rw [List.pairwise_iff_forall_sublist]
      intro a b hab
      have ha : a ∈ l.filter (fun a => a.1 = s) := hab.subset (by simp)
      have hb : b ∈ l.filter (fun a => a.1 = s) := hab.subset (by simp)
      simp only [List.mem_filter, decide_eq_true_eq] at ha hb
      simp [ha.2, hb.2]
    · exact List.filter_sublist
  have h2 : (l.filter (fun a => a.1 = s)).Sublist ((sortAtoms l).filter (fun a => a.1 = s)) := by
    have := hsub.filter (fun a => decide (a.1 = s))
    simpa using this
  refine (h2.eq_of_length ?_).symm
  exact ((sortAtoms_perm l).filter _).length_eq.symm

/-! ### Reading the atoms -/

theorem loadIons_ok {position : List Char → Except Err (Vec ℚ)} (s : String)
    (lines left : List (List Char)) (vs : List (Vec ℚ))
    (h : List.Forall₂ (fun line v => position line = .ok v) lines vs) :
    loadIons position (.ok s) vs.length (lines ++ left) = .ok (vs.map fun v => (s, v), left) := by
  induction h with
  | nil => simp [loadIons]
  | cons h1 h2 ih =>
    simp only [List.length_cons, List.cons_append, loadIons, h1, ih, bind, Except.bind, pure,
      Except.pure, List.map_cons]

theorem loadAtoms_ok {position : List Char → Except Err (Vec ℚ)} (d : PyDict String ℕ)
    (pre : List (List Char)) (lines : List (List Char)) (l : List (String × Vec ℚ))
    (h : List.Forall₂ (fun line (p : String × Vec ℚ) => position line = .ok p.2) lines l)
    (hd : d.flatMap (fun p => List.replicate p.2 p.1) = l.map Prod.fst) :
    loadAtoms position (some (pre ++ d.map fun p => p.1.toList)) pre.length
      (d.map fun p => (p.2 : ℤ)) lines = .ok l := by
  induction d generalizing pre lines l with
  | nil =>
    have : l = [] := by simpa using hd.symm
    subst this
    simp [loadAtoms]
  | cons p d ih =>
    obtain ⟨s, n⟩ := p
    simp only [List.map_cons, loadAtoms, Int.toNat_natCast, speciesName]
    rw [List.getElem?_append_right le_rfl, Nat.sub_self, List.getElem?_cons_zero]
    simp only [String.ofList_toList]
    rw [List.flatMap_cons] at hd
    have hn : n ≤ l.length := by
      have := congrArg List.length hd
      simp only [List.length_append, List.length_replicate, List.length_map] at this
      omega
    have hlen := h.length_eq
    have h1 : (l.take n).map Prod.fst = List.replicate n s := by
      have := congrArg (List.take n) hd
      rw [List.take_left' (by simp), ← List.map_take] at this
      exact this.symm
    have h2 : d.flatMap (fun p => List.replicate p.2 p.1) = (l.drop n).map Prod.fst := by
      have := congrArg (List.drop n) hd
      rw [List.drop_left' (by simp), ← List.map_drop] at this
      exact this
    have hf1 : List.Forall₂ (fun line v => position line = .ok v) (lines.take n)
        ((l.take n).map Prod.snd) := by
      rw [List.forall₂_map_right_iff]
      exact List.forall₂_take n h
    have hlen1 : ((l.take n).map Prod.snd).length = n := by simp [hn]
    have key := loadIons_ok s (lines.take n) (lines.drop n) _ hf1
    rw [hlen1, List.take_append_drop] at key
    rw [key]
    simp only [bind, Except.bind]
    have := ih (pre ++ [s.toList]) (lines.drop n) (l.drop n) (List.forall₂_drop n h) h2
    rw [List.length_append, List.length_singleton, List.append_assoc, List.singleton_append] at this
    rw [this]
    simp only [pure, Except.pure]
    congr 1
    have e : ((l.take n).map Prod.snd).map (fun v => (s, v)) = l.take n := by
      rw [List.map_map]
      conv_rhs => rw [← List.map_id (l.take n)]
      apply List.map_congr_left
      intro q hq
      have : q.1 ∈ (l.take n).map Prod.fst := List.mem_map_of_mem hq
      rw [h1, List.mem_replicate] at this
      simp only [Function.comp, id]
      rw [← this.2]
    rw [e, List.take_append_drop]

end Wulfric
