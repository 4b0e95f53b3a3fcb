import Verif.Lemmas.Plot
import Verif.Spec.Colour
import Verif.Lemmas.Inherit
import Mathlib.Tactic.IntervalCases

/-!
# C66: the colours of the atoms

`PlotlyEngine.plot_atoms` writes the name of each atom on a disc of the given colour (by default
the colour of the species) in black or white, whichever is easier to read.
-/

namespace Wulfric
open _root_.Spec

theorem hexDigit_spec {c : Char} {n : ℕ} (h : HexDigit c n) :
    hexDigit c = some n ∧ n < 16 ∧ isSpace c = false ∧ c ≠ '-' ∧ c ≠ '+' := by
  unfold HexDigit at h
  have hn : n < 16 := by
    by_contra hn
    rw [List.getElem?_eq_none (by simp; omega), List.getElem?_eq_none (by simp; omega)] at h
    simp at h
  interval_cases n <;> rcases h with h | h <;>
    (have e := Option.some.inj h; subst e; decide)

theorem parseHex_two {c d : Char} {m n : ℕ} (hc : HexDigit c m) (hd : HexDigit d n) :
    parseHex [c, d] = .ok (16 * m + n : ℕ) := by
  obtain ⟨h1, -, h2, h3, h4⟩ := hexDigit_spec hc
  obtain ⟨k1, -, k2, -, -⟩ := hexDigit_spec hd
  have hs : pyStrip [c, d] = [c, d] := by simp [pyStrip, List.dropWhile, h2, k2]
  have ht : takeSign [c, d] = (1, [c, d]) := by
    unfold takeSign
    split
    · simp_all
    · simp_all
    · rfl
  unfold parseHex
  rw [hs, ht]
  simp [h1, k1]

theorem parseHex_nil : parseHex [] = .error .valueError := rfl

/-- What the choice is for a colour `#rrggbb`. -/
theorem contrast_eq {text : List Char} {r g b : ℕ} (h : HexColour text r g b) :
    getGoodContrast text =
      .ok (if luminance r g b > (0.5 : ℝ) ^ (2.2 : ℝ) then "#000000" else "#FFFFFF") := by
  obtain ⟨r₁, r₀, g₁, g₀, b₁, b₀, m₁, m₀, n₁, n₀, k₁, k₀, rfl, h1, h2, h3, h4, h5, h6, rfl, rfl,
    rfl⟩ := h
  have c0 : channel ['#', r₁, r₀, g₁, g₀, b₁, b₀] 0 = .ok (((16 * m₁ + m₀ : ℕ) : ℝ) / 255) := by
    show (do let n ← parseHex [r₁, r₀]; return (n : ℝ) / 255) = _
    rw [parseHex_two h1 h2]
    simp [bind, Except.bind, pure, Except.pure]
  have c1 : channel ['#', r₁, r₀, g₁, g₀, b₁, b₀] 2 = .ok (((16 * n₁ + n₀ : ℕ) : ℝ) / 255) := by
    show (do let n ← parseHex [g₁, g₀]; return (n : ℝ) / 255) = _
    rw [parseHex_two h3 h4]
    simp [bind, Except.bind, pure, Except.pure]
  have c2 : channel ['#', r₁, r₀, g₁, g₀, b₁, b₀] 4 = .ok (((16 * k₁ + k₀ : ℕ) : ℝ) / 255) := by
    show (do let n ← parseHex [b₁, b₀]; return (n : ℝ) / 255) = _
    rw [parseHex_two h5 h6]
    simp [bind, Except.bind, pure, Except.pure]
  have p (n : ℕ) : powGamma ((n : ℝ) / 255) = .ok (((n : ℝ) / 255) ^ (22 / 10 : ℝ)) := by
    unfold powGamma
    rw [if_neg (not_lt.2 (by positivity))]
  have e1 : (22 / 10 : ℝ) = 2.2 := by norm_num
  have e2 : (1 / 2 : ℝ) = 0.5 := by norm_num
  have e3 : (2126 / 10000 : ℝ) = 0.2126 := by norm_num
  have e4 : (7152 / 10000 : ℝ) = 0.7152 := by norm_num
  have e5 : (722 / 10000 : ℝ) = 0.0722 := by norm_num
  unfold getGoodContrast luminance
  simp only [c0, c1, c2, bind, Except.bind, p, e1, e2, e3, e4, e5, pure, Except.pure]
  split <;> rfl

theorem hex_bound {text : List Char} {r g b : ℕ} (h : HexColour text r g b) :
    r ≤ 255 ∧ g ≤ 255 ∧ b ≤ 255 := by
  obtain ⟨r₁, r₀, g₁, g₀, b₁, b₀, m₁, m₀, n₁, n₀, k₁, k₀, rfl, h1, h2, h3, h4, h5, h6, rfl, rfl,
    rfl⟩ := h
  have := (hexDigit_spec h1).2.1
  have := (hexDigit_spec h2).2.1
  have := (hexDigit_spec h3).2.1
  have := (hexDigit_spec h4).2.1
  have := (hexDigit_spec h5).2.1
  have := (hexDigit_spec h6).2.1
  omega

theorem luminance_mono {r g b r' g' b' : ℕ} (hr : r ≤ r') (hg : g ≤ g') (hb : b ≤ b') :
    luminance r g b ≤ luminance r' g' b' := by
  have key {m n : ℕ} (h : m ≤ n) : ((m : ℝ) / 255) ^ (2.2 : ℝ) ≤ ((n : ℝ) / 255) ^ (2.2 : ℝ) := by
    have : (m : ℝ) ≤ n := by exact_mod_cast h
    exact Real.rpow_le_rpow (by positivity) (by linarith) (by norm_num)
  have := key hr
  have := key hg
  have := key hb
  unfold luminance
  linarith

theorem luminance_grey (v : ℕ) : luminance v v v = ((v : ℝ) / 255) ^ (2.2 : ℝ) := by
  unfold luminance
  ring

theorem half_gamma : (1 / 5 : ℝ) < (0.5 : ℝ) ^ (2.2 : ℝ) ∧ (0.5 : ℝ) ^ (2.2 : ℝ) ≤ 1 / 4 := by
  constructor
  · have h : ((1 / 5 : ℝ)) ^ (5 : ℝ) < ((0.5 : ℝ) ^ (2.2 : ℝ)) ^ (5 : ℝ) := by
      rw [← Real.rpow_mul (by norm_num)]
      have e : (2.2 : ℝ) * 5 = ((11 : ℕ) : ℝ) := by norm_num
      have e' : (5 : ℝ) = ((5 : ℕ) : ℝ) := by norm_num
      rw [e, Real.rpow_natCast]
      conv_lhs => rw [e', Real.rpow_natCast]
      norm_num
    exact (Real.rpow_lt_rpow_iff (by norm_num) (by positivity) (by norm_num)).1 h
  · have h : (0.5 : ℝ) ^ (2.2 : ℝ) ≤ (0.5 : ℝ) ^ (2 : ℝ) :=
      Real.rpow_le_rpow_of_exponent_ge (by norm_num) (by norm_num) (by norm_num)
    have e : (2 : ℝ) = ((2 : ℕ) : ℝ) := by norm_num
    refine h.trans ?_
    conv_lhs => rw [e, Real.rpow_natCast]
    norm_num

/-- C66: for a colour `#rrggbb` the text is black or white, and its luminance differs from the one
of the colour by more than a fifth of the whole scale. -/
theorem C66_readable (text : List Char) (r g b : ℕ) (h : HexColour text r g b) :
    (getGoodContrast text = .ok "#000000" ∧ luminance r g b - luminance 0 0 0 > 1 / 5) ∨
      (getGoodContrast text = .ok "#FFFFFF" ∧ luminance 255 255 255 - luminance r g b > 1 / 5) := by
  have h0 : luminance 0 0 0 = 0 := by
    rw [luminance_grey]
    simp only [Nat.cast_zero, zero_div]
    exact Real.zero_rpow (by norm_num)
  have h1 : luminance 255 255 255 = 1 := by
    rw [luminance_grey]
    norm_num
  obtain ⟨g1, g2⟩ := half_gamma
  rw [contrast_eq h, h0, h1]
  by_cases hl : luminance r g b > (0.5 : ℝ) ^ (2.2 : ℝ)
  · rw [if_pos hl]
    exact .inl ⟨rfl, by linarith⟩
  · rw [if_neg hl]
    exact .inr ⟨rfl, by linarith⟩

/-- C66: on a grey the text is black exactly from the middle of the scale on. -/
theorem C66_grey (text : List Char) (v : ℕ) (h : HexColour text v v v) :
    (getGoodContrast text = .ok "#000000" ↔ 128 ≤ v) ∧
      (getGoodContrast text = .ok "#FFFFFF" ↔ v ≤ 127) := by
  have key : luminance v v v > (0.5 : ℝ) ^ (2.2 : ℝ) ↔ 128 ≤ v := by
    rw [luminance_grey, gt_iff_lt, Real.rpow_lt_rpow_iff (by norm_num) (by positivity) (by norm_num),
      lt_div_iff₀ (by norm_num)]
    constructor
    · intro h
      by_contra hv
      have : (v : ℝ) ≤ 127 := by exact_mod_cast (by omega : v ≤ 127)
      norm_num at h
      linarith
    · intro h
      have : (128 : ℝ) ≤ v := by exact_mod_cast h
      norm_num
      linarith
  rw [contrast_eq h]
  by_cases hv : 128 ≤ v
  · rw [if_pos (key.2 hv)]
    simp [hv]
    omega
  · rw [if_neg (fun hl => hv (key.1 hl))]
    simp [hv]
    omega

/-- C66: making a colour brighter never turns the text from black to white. -/
theorem C66_monotone (text text' : List Char) (r g b r' g' b' : ℕ) (h : HexColour text r g b)
    (h' : HexColour text' r' g' b') (hr : r ≤ r') (hg : g ≤ g') (hb : b ≤ b')
    (hk : getGoodContrast text = .ok "#000000") : getGoodContrast text' = .ok "#000000" := by
  rw [contrast_eq h] at hk
  rw [contrast_eq h']
  by_cases hl : luminance r g b > (0.5 : ℝ) ^ (2.2 : ℝ)
  · rw [if_pos (lt_of_lt_of_le hl (luminance_mono hr hg hb))]
  · rw [if_neg hl] at hk
    simp at hk

/-- C66: the case of the letters does not matter: only the colour does. -/
theorem C66_colour_only (text text' : List Char) (r g b : ℕ) (h : HexColour text r g b)
    (h' : HexColour text' r g b) : getGoodContrast text = getGoodContrast text' := by
  rw [contrast_eq h, contrast_eq h']

/-! ### Default colours -/

/-- A hexadecimal digit, as a test. -/
def isHex (c : Char) : Bool :=
  "0123456789abcdef".toList.contains c || "0123456789ABCDEF".toList.contains c

theorem isHex_spec {c : Char} (h : isHex c = true) : ∃ n, HexDigit c n := by
  unfold isHex at h
  rw [Bool.or_eq_true, List.contains_iff_mem, List.contains_iff_mem] at h
  rcases h with h | h
  · obtain ⟨n, hn⟩ := List.mem_iff_getElem?.1 h
    exact ⟨n, .inl hn⟩
  · obtain ⟨n, hn⟩ := List.mem_iff_getElem?.1 h
    exact ⟨n, .inr hn⟩

/-- A colour `#rrggbb`, as a test. -/
def isColour : List Char → Bool
  | ['#', a, b, c, d, e, f] => isHex a && isHex b && isHex c && isHex d && isHex e && isHex f
  | _ => false

theorem isColour_spec {l : List Char} (h : isColour l = true) : ∃ r g b, HexColour l r g b := by
  unfold isColour at h
  split at h
  · rename_i a b c d e f
    simp only [Bool.and_eq_true] at h
    obtain ⟨⟨⟨⟨⟨ha, hb⟩, hc⟩, hd⟩, he⟩, hf⟩ := h
    obtain ⟨_, ha⟩ := isHex_spec ha
    obtain ⟨_, hb⟩ := isHex_spec hb
    obtain ⟨_, hc⟩ := isHex_spec hc
    obtain ⟨_, hd⟩ := isHex_spec hd
    obtain ⟨_, he⟩ := isHex_spec he
    obtain ⟨_, hf⟩ := isHex_spec hf
    exact ⟨_, _, _, _, _, _, _, _, _, _, _, _, _, _, _, rfl, ha, hb, hc, hd, he, hf, rfl, rfl, rfl⟩
  · simp at h

/-- The whole table of colours: all but those of palladium and erbium are colours. -/
theorem table_colours : ∀ kv ∈ atomColors,
    isColour kv.2.toList = !(kv.1 == "Pd" || kv.1 == "Er") := by
  decide +kernel

theorem table_species : ∀ s ∈ "X" :: atomSpecies, ∃ c, PyDict.get? atomColors s = some c := by
  have h : ∀ s ∈ "X" :: atomSpecies, (PyDict.get? atomColors s).isSome = true := by decide +kernel
  exact fun s hs => Option.isSome_iff_exists.1 (h s hs)

theorem get?_mem_pair {κ V : Type} [DecidableEq κ] (d : PyDict κ V) (k : κ) (v : V)
    (h : d.get? k = some v) : (k, v) ∈ d := by
  induction d with
  | nil => simp [PyDict.get?] at h
  | cons x xs ih =>
    obtain ⟨k', v'⟩ := x
    unfold PyDict.get? at h
    split at h
    · rename_i he
      simp only [Option.some.injEq] at h
      subst h
      subst he
      simp
    · exact List.mem_cons_of_mem _ (ih h)

/-- The default colour of a species can be used exactly if it is not palladium or erbium. -/
theorem default_contrast (s c : String) (h : PyDict.get? atomColors s = some c) :
    if s = "Pd" ∨ s = "Er" then getGoodContrast c.toList = .error .valueError
    else ∃ t, getGoodContrast c.toList = .ok t := by
  split
  · rename_i hs
    have e1 : PyDict.get? atomColors "Pd" = some "#6985" := by decide +kernel
    have e2 : PyDict.get? atomColors "Er" = some "#" := by decide +kernel
    rcases hs with rfl | rfl
    · rw [e1] at h
      simp only [Option.some.injEq] at h
      subst h
      have h1 : parseHex ['6', '9'] = .ok 105 := by decide +kernel
      have h2 : parseHex ['8', '5'] = .ok 133 := by decide +kernel
      have c0 : channel "#6985".toList 0 = .ok (((105 : ℤ) : ℝ) / 255) := by
        show (do let n ← parseHex ['6', '9']; return (n : ℝ) / 255) = _
        rw [h1]
        rfl
      have c1 : channel "#6985".toList 2 = .ok (((133 : ℤ) : ℝ) / 255) := by
        show (do let n ← parseHex ['8', '5']; return (n : ℝ) / 255) = _
        rw [h2]
        rfl
      have c2 : channel "#6985".toList 4 = .error .valueError := rfl
      unfold getGoodContrast
      simp only [c0, c1, c2, bind, Except.bind]
    · rw [e2] at h
      simp only [Option.some.injEq] at h
      subst h
      rfl
  · rename_i hs
    have := table_colours (s, c) (get?_mem_pair _ _ _ h)
    have hb : (s == "Pd" || s == "Er") = false := by
      simp only [Bool.or_eq_false_iff, beq_eq_false_iff_ne]
      exact ⟨fun e => hs (.inl e), fun e => hs (.inr e)⟩
    simp only [hb, Bool.not_false] at this
    obtain ⟨r, g, b, hc⟩ := isColour_spec this
    exact ⟨_, contrast_eq hc⟩

theorem mapM_bind_colors (species : List String) :
    (∃ t, ((species.mapM fun s => PyDict.getItem atomColors s) >>=
        fun l => (l.map String.toList).mapM getGoodContrast) = .ok t) ↔
      ∀ s ∈ species, (∃ c, PyDict.get? atomColors s = some c) ∧ s ≠ "Pd" ∧ s ≠ "Er" := by
  constructor
  · rintro ⟨t, ht⟩ s hs
    cases hl : (species.mapM fun s => PyDict.getItem atomColors s) with
    | error e => rw [hl] at ht; simp [bind, Except.bind] at ht
    | ok l =>
      rw [hl] at ht
      have ht : (l.map String.toList).mapM getGoodContrast = .ok t := ht
      obtain ⟨i, hi, rfl⟩ := List.mem_iff_getElem.1 hs
      have f1 := mapM_forall₂ hl
      have f2 := mapM_forall₂ ht
      have hlen := f1.length_eq
      have hlen2 := f2.length_eq
      rw [List.length_map] at hlen2
      have g1 := (List.forall₂_iff_get.1 f1).2 i hi (hlen ▸ hi)
      have g2 := (List.forall₂_iff_get.1 f2).2 i (by rw [List.length_map, ← hlen]; exact hi)
        (by rw [← hlen2, ← hlen]; exact hi)
      simp only [List.get_eq_getElem, List.getElem_map] at g1 g2
      have hg : PyDict.get? atomColors species[i] = some (l[i]'(hlen ▸ hi)) := by
        unfold PyDict.getItem at g1
        split at g1
        · rename_i v hv
          simp only [Except.ok.injEq] at g1
          rw [hv, g1]
        · simp at g1
      have hd := default_contrast _ _ hg
      refine ⟨⟨_, hg⟩, ?_, ?_⟩ <;> intro he
      · rw [if_pos (.inl he), g2] at hd; simp at hd
      · rw [if_pos (.inr he), g2] at hd; simp at hd
  · intro h
    obtain ⟨l, hl⟩ := mapM_ok_of_forall (f := fun s => PyDict.getItem atomColors s)
      (l := species) (fun s hs => by
        obtain ⟨⟨c, hc⟩, -⟩ := h s hs
        exact ⟨c, by unfold PyDict.getItem; rw [hc]⟩)
    rw [hl]
    show ∃ t, (l.map String.toList).mapM getGoodContrast = .ok t
    refine mapM_ok_of_forall fun c hc => ?_
    obtain ⟨c', hc', rfl⟩ := List.mem_map.1 hc
    obtain ⟨i, hi, rfl⟩ := List.mem_iff_getElem.1 hc'
    have f1 := mapM_forall₂ hl
    have hlen := f1.length_eq
    have g1 := (List.forall₂_iff_get.1 f1).2 i (hlen ▸ hi) hi
    simp only [List.get_eq_getElem] at g1
    have hg : PyDict.get? atomColors (species[i]'(hlen ▸ hi)) = some l[i] := by
      unfold PyDict.getItem at g1
      split at g1
      · rename_i v hv
        simp only [Except.ok.injEq] at g1
        rw [hv, g1]
      · simp at g1
    have hd := default_contrast _ _ hg
    obtain ⟨-, hp, he⟩ := h _ (List.getElem_mem (hlen ▸ hi))
    rwa [if_neg (by simp [hp, he])] at hd

/-- The result of `plot_atoms` is decided by the colours alone. -/
theorem plotAtoms_ok (lib : PlotLib) (e : Engine) (s : Style) (cell : Cell ℝ) (atoms : Atoms ℝ)
    (p : Vec ℝ) (ps : List (Vec ℝ)) (hp : atoms.positions = some (p :: ps))
    (colors : Option ColorArg) (shift : Vec ℝ) :
    (e.call lib s (.atoms cell atoms colors shift)).2 =
      (do
        let c ← plotColors lib.lower atoms (plotNames atoms (ps.length + 1)) colors
        let _ ← c.items.mapM getGoodContrast
        return ()) := by
  simp only [Engine.call, Engine.plotAtoms, hp, List.length_cons]
  cases plotColors lib.lower atoms (plotNames atoms (ps.length + 1)) colors with
  | error err => rfl
  | ok c =>
    simp only [bind, Except.bind]
    cases c.items.mapM getGoodContrast with
    | error err => rfl
    | ok t => rfl

theorem plotAtoms_default (lib : PlotLib) (e : Engine) (s : Style) (cell : Cell ℝ)
    (atoms : Atoms ℝ) (p : Vec ℝ) (ps : List (Vec ℝ)) (hp : atoms.positions = some (p :: ps))
    (shift : Vec ℝ) (species : List String)
    (hs : plotColors lib.lower atoms (plotNames atoms (ps.length + 1)) none =
      ((species.mapM fun s => PyDict.getItem atomColors s) >>= fun l => .ok (.many l))) :
    (e.call lib s (.atoms cell atoms none shift)).2 = .ok () ↔
      ∀ s ∈ species, (∃ c, PyDict.get? atomColors s = some c) ∧ s ≠ "Pd" ∧ s ≠ "Er" := by
  rw [← mapM_bind_colors, plotAtoms_ok lib e s cell atoms p ps hp, hs]
  cases (species.mapM fun s => PyDict.getItem atomColors s) with
  | error err => simp [bind, Except.bind]
  | ok l =>
    simp only [bind, Except.bind, ColorArg.items]
    cases (l.map String.toList).mapM getGoodContrast with
    | error err => simp
    | ok t => simp [pure, Except.pure]

/-- C66: with the default colours `plot_atoms` succeeds exactly if every species is in the table of
colours and is neither palladium nor erbium. -/
theorem C66_default_colours (lib : PlotLib) (e : Engine) (s : Style) (cell : Cell ℝ)
    (atoms : Atoms ℝ) (p : Vec ℝ) (ps : List (Vec ℝ)) (hp : atoms.positions = some (p :: ps))
    (species : List String) (hsp : atoms.species = some species) (shift : Vec ℝ) :
    (e.call lib s (.atoms cell atoms none shift)).2 = .ok () ↔
      ∀ x ∈ species, x ∈ "X" :: atomSpecies ∧ x ≠ "Pd" ∧ x ≠ "Er" := by
  rw [plotAtoms_default lib e s cell atoms p ps hp shift species
    (by simp only [plotColors, hsp]; rfl)]
  have hk : ∀ kv ∈ atomColors, kv.1 ∈ "X" :: atomSpecies := by decide +kernel
  constructor
  · intro h x hx
    obtain ⟨⟨c, hc⟩, h2⟩ := h x hx
    exact ⟨hk _ (get?_mem_pair _ _ _ hc), h2⟩
  · intro h x hx
    exact ⟨table_species x (h x hx).1, (h x hx).2⟩

theorem speciesLoop_mem (lower : String → String) (name : String) (l : List String) :
    ∀ found, speciesLoop lower name l found ∈ found :: l := by
  induction l with
  | nil => intro found; simp [speciesLoop]
  | cons t l ih =>
    intro found
    unfold speciesLoop
    split
    · split
      · simp
      · exact List.mem_cons_of_mem _ (ih t)
    · rcases List.mem_cons.1 (ih found) with h | h
      · rw [h]; simp
      · exact List.mem_cons_of_mem _ (List.mem_cons_of_mem _ h)

theorem getAtomSpecies_mem (lower : String → String) (name : String) :
    ∃ t, getAtomSpecies lower name false = .ok t ∧ t ∈ "X" :: atomSpecies := by
  refine ⟨speciesLoop lower name atomSpecies "X", ?_, speciesLoop_mem lower name atomSpecies "X"⟩
  simp [getAtomSpecies]

theorem forall₂_left {α β : Type} {R : α → β → Prop} {as : List α} {bs : List β}
    (h : List.Forall₂ R as bs) : ∀ a ∈ as, ∃ b ∈ bs, R a b := by
  induction h with
  | nil => simp
  | cons hr _ ih =>
    intro a ha
    rcases List.mem_cons.1 ha with rfl | ha
    · exact ⟨_, by simp, hr⟩
    · obtain ⟨b, hb, hab⟩ := ih a ha
      exact ⟨b, by simp [hb], hab⟩

/-- C66: without species the colours come from the names; then `plot_atoms` succeeds exactly if no
name is taken for palladium or erbium. -/
theorem C66_default_from_names (lib : PlotLib) (e : Engine) (s : Style) (cell : Cell ℝ)
    (atoms : Atoms ℝ) (p : Vec ℝ) (ps : List (Vec ℝ)) (hp : atoms.positions = some (p :: ps))
    (hsp : atoms.species = none) (names : List String) (hn : atoms.names = some names)
    (shift : Vec ℝ) :
    (e.call lib s (.atoms cell atoms none shift)).2 = .ok () ↔
      ∀ x ∈ names, getAtomSpecies lib.lower x false ≠ .ok "Pd" ∧
        getAtomSpecies lib.lower x false ≠ .ok "Er" := by
  obtain ⟨species, hspecies⟩ := mapM_ok_of_forall
    (f := fun name => getAtomSpecies lib.lower name false) (l := names)
    (fun x _ => ⟨_, (getAtomSpecies_mem lib.lower x).choose_spec.1⟩)
  have hf := mapM_forall₂ hspecies
  rw [plotAtoms_default lib e s cell atoms p ps hp shift species (by
    simp only [plotColors, hsp, plotNames, hn, hspecies]; rfl)]
  constructor
  · intro h x hx
    obtain ⟨y, hy, hxy⟩ := forall₂_left hf x hx
    rw [hxy]
    obtain ⟨-, h1, h2⟩ := h y hy
    exact ⟨fun e => h1 (Except.ok.inj e), fun e => h2 (Except.ok.inj e)⟩
  · intro h y hy
    obtain ⟨x, hx, hxy⟩ := forall₂_left hf.flip y hy
    obtain ⟨h1, h2⟩ := h x hx
    obtain ⟨t, ht, hm⟩ := getAtomSpecies_mem lib.lower x
    rw [hxy] at ht h1 h2
    simp only [Except.ok.injEq] at ht
    subst ht
    exact ⟨table_species _ hm, fun e => h1 (by rw [e]), fun e => h2 (by rw [e])⟩

/-! ### Given colours -/

theorem short_contrast (l : List Char) (h : l.length ≤ 1) :
    getGoodContrast l = .error .valueError := by
  match l, h with
  | [], _ => rfl
  | [_], _ => rfl

/-- C66: one colour for all atoms, given as a string, is never accepted (each of its characters is
taken for a colour). -/
theorem C66_one_colour_rejected (lib : PlotLib) (e : Engine) (s : Style) (cell : Cell ℝ)
    (atoms : Atoms ℝ) (p : Vec ℝ) (ps : List (Vec ℝ)) (hp : atoms.positions = some (p :: ps))
    (color : String) (hne : color ≠ "") (shift : Vec ℝ) :
    e.call lib s (.atoms cell atoms (some (.one color)) shift) = (e, .error .valueError) := by
  have hl : color.toList ≠ [] := by
    intro h
    apply hne
    rw [← String.toList_inj, h]
    rfl
  obtain ⟨c, cs, hc⟩ := List.exists_cons_of_ne_nil hl
  have : (ColorArg.one color).items.mapM getGoodContrast = .error .valueError := by
    simp only [ColorArg.items, hc, List.map_cons, List.mapM_cons, short_contrast [c] (by simp)]
    rfl
  simp only [Engine.call, Engine.plotAtoms, hp, plotColors, this]

/-- C66: given colours `#rrggbb`, one for each atom, are accepted and used. -/
theorem C66_given_colours (lib : PlotLib) (e : Engine) (s : Style) (cell : Cell ℝ)
    (atoms : Atoms ℝ) (p : Vec ℝ) (ps : List (Vec ℝ)) (hp : atoms.positions = some (p :: ps))
    (colors : List String) (hc : ∀ c ∈ colors, ∃ r g b, HexColour c.toList r g b)
    (shift : Vec ℝ) :
    (e.call lib s (.atoms cell atoms (some (.many colors)) shift)).2 = .ok () := by
  rw [plotAtoms_ok lib e s cell atoms p ps hp]
  obtain ⟨t, ht⟩ := mapM_ok_of_forall (f := getGoodContrast) (l := colors.map String.toList)
    (fun c hcm => by
      obtain ⟨c', hc', rfl⟩ := List.mem_map.1 hcm
      obtain ⟨r, g, b, h⟩ := hc c' hc'
      exact ⟨_, contrast_eq h⟩)
  show ((colors.map String.toList).mapM getGoodContrast >>= fun _ => pure ()) = _
  rw [ht]
  rfl

/-- C66: a colour of fewer than six characters (`"red"`, `"#fff"`) is never accepted. -/
theorem C66_short_rejected (l : List Char) (h : l.length ≤ 5) :
    ∃ err, getGoodContrast l = .error err := by
  have h4 : channel l 4 = .error .valueError := by
    have : (((l.drop 1).drop 4).take 2) = [] := by
      rw [List.drop_drop, List.drop_eq_nil_of_le (by omega)]
      rfl
    unfold channel
    rw [this, parseHex_nil]
    rfl
  unfold getGoodContrast
  simp only [bind, Except.bind]
  cases channel l 0 with
  | error e => exact ⟨_, rfl⟩
  | ok r =>
    cases channel l 2 with
    | error e => exact ⟨_, rfl⟩
    | ok g =>
      simp only [h4]
      exact ⟨_, rfl⟩

/-- C66: the discs of the atoms have the given colours, and every name is written in the contrast
colour of its own disc. -/
theorem C66_text_colours (lib : PlotLib) (e : Engine) (s : Style) (cell : Cell ℝ)
    (atoms : Atoms ℝ) (colors : List String) (shift : Vec ℝ)
    (h : (e.call lib s (.atoms cell atoms (some (.many colors)) shift)).2 = .ok ()) :
    ∃ t texts,
      (e.call lib s (.atoms cell atoms (some (.many colors)) shift)).1.traces = e.traces ++ [t] ∧
      t.color = .many colors ∧ t.textColor = .many texts ∧
      List.Forall₂ (fun c x => getGoodContrast c.toList = .ok x) colors texts := by
  simp only [Engine.call, Engine.plotAtoms, plotColors, ColorArg.items] at h ⊢
  split at h
  · simp at h
  · simp at h
  · rename_i p ps hpos
    split at h
    · simp at h
    · rename_i texts ht
      refine ⟨_, texts, (Draws.addCover s.place e _ _).traces, rfl, rfl, ?_⟩
      exact List.forall₂_map_left_iff.1 (mapM_forall₂ ht)

/-- C66: with the default colours the disc of every atom has the colour of its species. -/
theorem C66_default_table (lib : PlotLib) (e : Engine) (s : Style) (cell : Cell ℝ)
    (atoms : Atoms ℝ) (species : List String) (hsp : atoms.species = some species) (shift : Vec ℝ)
    (h : (e.call lib s (.atoms cell atoms none shift)).2 = .ok ()) :
    ∃ t colors texts,
      (e.call lib s (.atoms cell atoms none shift)).1.traces = e.traces ++ [t] ∧
      t.color = .many colors ∧ t.textColor = .many texts ∧
      List.Forall₂ (fun x c => (x, c) ∈ atomColors) species colors ∧
      List.Forall₂ (fun c x => getGoodContrast c.toList = .ok x) colors texts := by
  simp only [Engine.call, Engine.plotAtoms] at h ⊢
  split at h
  · simp at h
  · simp at h
  · rename_i p ps hpos
    split at h
    · simp at h
    · rename_i c hc
      split at h
      · simp at h
      · rename_i texts ht
        simp only [plotColors, hsp, bind, Except.bind, pure, Except.pure] at hc
        cases hm : (species.mapM fun s => PyDict.getItem atomColors s) with
        | error err => rw [hm] at hc; simp at hc
        | ok colors =>
          rw [hm] at hc
          simp only [Except.ok.injEq] at hc
          subst hc
          refine ⟨_, colors, texts, (Draws.addCover s.place e _ _).traces, rfl, rfl, ?_, ?_⟩
          · refine (mapM_forall₂ hm).imp fun x c hx => get?_mem_pair _ _ _ ?_
            unfold PyDict.getItem at hx
            split at hx
            · rename_i v hv
              simp only [Except.ok.injEq] at hx
              rw [hv, hx]
            · simp at hx
          · exact List.forall₂_map_left_iff.1 (mapM_forall₂ ht)

/-! ### Cases meeting the hypotheses -/

/-- Orange; iron. -/
example : HexColour "#FFa500".toList 255 165 0 :=
  ⟨'F', 'F', 'a', '5', '0', '0', 15, 15, 10, 5, 0, 0, by decide, .inr rfl, .inr rfl, .inl rfl,
    .inl rfl, .inl rfl, .inl rfl, rfl, rfl, rfl⟩

example : HexColour "#808080".toList 128 128 128 :=
  ⟨'8', '0', '8', '0', '8', '0', 8, 0, 8, 0, 8, 0, by decide, .inl rfl, .inl rfl, .inl rfl,
    .inl rfl, .inl rfl, .inl rfl, rfl, rfl, rfl⟩

/-- Palladium cannot be plotted with the default colour, iron can. -/
example (lib : PlotLib) (e : Engine) (s : Style) (cell : Cell ℝ) :
    (e.call lib s (.atoms cell { positions := some [0], species := some ["Pd"] } none 0)).2 ≠
      .ok () := by
  rw [Ne, C66_default_colours lib e s cell _ 0 [] rfl ["Pd"] rfl]
  simp

example (lib : PlotLib) (e : Engine) (s : Style) (cell : Cell ℝ) :
    (e.call lib s (.atoms cell { positions := some [0], species := some ["Fe"] } none 0)).2 =
      .ok () := by
  rw [C66_default_colours lib e s cell _ 0 [] rfl ["Fe"] rfl]
  decide +kernel

end Wulfric
