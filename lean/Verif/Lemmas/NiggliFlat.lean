import Verif.Lemmas.NiggliPass

/-! Passes of the exact loop that do not shorten any vector: how many there can be in a row. -/

namespace Wulfric
open Matrix Spec

set_option linter.unusedSectionVars false

variable {K : Type*} [Field K] [LinearOrder K] [IsStrictOrderedRing K]

/-- The numbers that decide what a pass does: the squares of the three lengths, the absolute values
of the three doubled scalar products, and whether the product of the latter is positive. -/
@[ext] structure NKey (K : Type*) where
  A : K
  B : K
  C : K
  x : K
  y : K
  z : K
  pos : Bool

/-- The numbers of a state. -/
def key (s : NState K) : NKey K :=
  ⟨s.A, s.B, s.C, |s.xi|, |s.eta|, |s.zeta|, decide (0 < s.xi * s.eta * s.zeta)⟩

def swap12 (k : NKey K) : NKey K := ⟨k.B, k.A, k.C, k.y, k.x, k.z, k.pos⟩
def swap23 (k : NKey K) : NKey K := ⟨k.A, k.C, k.B, k.x, k.z, k.y, k.pos⟩

/-- The two keys are equal up to the order of the vectors. -/
def Perm6 (k k' : NKey K) : Prop :=
  k' = k ∨ k' = swap12 k ∨ k' = swap23 k ∨ k' = swap12 (swap23 k) ∨ k' = swap23 (swap12 k) ∨
    k' = swap12 (swap23 (swap12 k))

theorem Perm6.refl (k : NKey K) : Perm6 k k := .inl rfl

theorem Perm6.s12 {k k' : NKey K} (h : Perm6 k k') : Perm6 k (swap12 k') := by
  rcases h with rfl | rfl | rfl | rfl | rfl | rfl <;> 
  first | exact .inl rfl | exact .inr (.inl rfl) | exact .inr (.inr (.inl rfl)) |
    exact .inr (.inr (.inr (.inl rfl))) | exact .inr (.inr (.inr (.inr (.inl rfl)))) |
    exact .inr (.inr (.inr (.inr (.inr rfl))))

theorem Perm6.s23 {k k' : NKey K} (h : Perm6 k k') : Perm6 k (swap23 k') := by
  rcases h with rfl | rfl | rfl | rfl | rfl | rfl <;> 
  first | exact .inl rfl | exact .inr (.inl rfl) | exact .inr (.inr (.inl rfl)) |
    exact .inr (.inr (.inr (.inl rfl))) | exact .inr (.inr (.inr (.inr (.inl rfl)))) |
    exact .inr (.inr (.inr (.inr (.inr rfl))))

/-- The key of a state in which the steps 5 to 8 are tested. -/
structure Ready (k : NKey K) : Prop where
  AB : k.A ≤ k.B
  BC : k.B ≤ k.C
  tie1 : k.A = k.B → k.x ≤ k.y
  tie2 : k.B = k.C → k.y ≤ k.z
  A : 0 < k.A
  x : 0 ≤ k.x
  y : 0 ≤ k.y
  z : 0 ≤ k.z
  lt : k.z < k.A + k.B
  type1 : k.pos = true → 0 < k.x ∧ 0 < k.y ∧ 0 < k.z

/-- Step 5 in the case of equality, all scalar products positive. -/
def Flat5 (k u : NKey K) : Prop :=
  k.pos = true ∧ k.x = k.B ∧ 2 * k.y < k.z ∧ u = ⟨k.A, k.B, k.C, k.B, k.z - k.y, k.z, true⟩

/-- One of the steps 5 to 8 in the case of equality. -/
def Flat (k u : NKey K) : Prop :=
  Flat5 k u ∨
  (k.pos = true ∧ k.y = k.A ∧ k.x ≤ k.B ∧ 2 * k.x < k.z ∧
    u = ⟨k.A, k.B, k.C, k.z - k.x, k.A, k.z, true⟩) ∨
  (k.pos = true ∧ k.z = k.A ∧ k.x ≤ k.B ∧ k.y ≤ k.A ∧ 2 * k.x < k.y ∧
    u = ⟨k.A, k.B, k.C, k.y - k.x, k.y, k.A, true⟩) ∨
  (k.pos = false ∧ k.x = k.B ∧ 0 < k.z ∧ u = ⟨k.A, k.B, k.C, k.B, k.y + k.z, k.z, true⟩) ∨
  (k.pos = false ∧ k.y = k.A ∧ 0 < k.z ∧ k.x < k.B ∧
    u = ⟨k.A, k.B, k.C, k.x + k.z, k.A, k.z, true⟩) ∨
  (k.pos = false ∧ k.z = k.A ∧ 0 < k.y ∧ k.y < k.A ∧ k.x < k.B ∧
    u = ⟨k.A, k.B, k.C, k.x + k.y, k.y, k.A, true⟩) ∨
  (k.pos = false ∧ k.x + k.y + k.z = k.A + k.B ∧ k.z < 2 * (k.A - k.y) ∧ k.x ≤ k.B ∧ k.y ≤ k.A ∧
    k.z ≤ k.A ∧ (k.x = k.B → k.z = 0) ∧ (k.y = k.A → k.z = 0) ∧ (k.z = k.A → k.y = 0) ∧
    u = ⟨k.A, k.B, k.C, k.B - k.A + k.y, 2 * k.A - k.y - k.z, k.z, false⟩)

theorem flat5_last {k u k' u' : NKey K} (hk : Ready k) (h : Flat5 k u) (hp : Perm6 u k')
    (hk' : Ready k') (h' : Flat k' u') : False := by
  obtain ⟨A, B, C, x, y, z, p⟩ := k
  obtain ⟨a1, a2, a3, a4, a5, a6, a7, a8, a9, a10⟩ := hk
  obtain ⟨-, h1, h2, rfl⟩ := h
  rcases hp with rfl | rfl | rfl | rfl | rfl | rfl <;>
    obtain ⟨b1, b2, b3, b4, b5, b6, b7, b8, b9, -⟩ := hk' <;>
    simp only [Flat, Flat5, swap12, swap23] at * <;> grind

theorem flat_then {k u k' u' : NKey K} (hk : Ready k) (h : Flat k u) (hp : Perm6 u k')
    (hk' : Ready k') (h' : Flat k' u') : Flat5 k' u' := by
  rcases h' with h' | h'
  · exact h'
  exfalso
  obtain ⟨A, B, C, x, y, z, p⟩ := k
  obtain ⟨a1, a2, a3, a4, a5, a6, a7, a8, a9, a10⟩ := hk
  rcases h with ⟨-, h1, h2, rfl⟩ | ⟨-, h1, h2, h3, rfl⟩ | ⟨-, h1, h2, h3, h4, rfl⟩ |
    ⟨-, h1, h2, rfl⟩ | ⟨-, h1, h2, h3, rfl⟩ | ⟨-, h1, h2, h3, h4, rfl⟩ |
    ⟨-, h1, h2, h3, h4, h5, h6, h7, h8, rfl⟩ <;>
  rcases hp with rfl | rfl | rfl | rfl | rfl | rfl <;>
    obtain ⟨b1, b2, b3, b4, b5, b6, b7, b8, b9, -⟩ := hk' <;>
    simp only [swap12, swap23] at * <;> grind

theorem key_step1 (s : NState K) :
    key (niggliStep1 0 s).2 = key s ∨ key (niggliStep1 0 s).2 = swap12 (key s) := by
  unfold niggliStep1
  dsimp only
  split
  · right
    simp only [key, swap12, mul_comm s.eta s.xi]
  · exact .inl rfl

theorem key_step2 (s : NState K) :
    key (niggliStep2 0 s).2 = key s ∨ key (niggliStep2 0 s).2 = swap23 (key s) := by
  unfold niggliStep2
  dsimp only
  split
  · right
    simp only [key, swap23, mul_assoc, mul_comm s.eta s.zeta]
  · exact .inl rfl

theorem key_step3 (s : NState K) : key (niggliStep3 0 s).2 = key s := by
  unfold niggliStep3
  dsimp only
  split
  · rename_i h
    rw [cwt_gt0] at h
    have h' : 0 < |s.xi| * |s.eta| * |s.zeta| := by
      rw [← abs_mul, ← abs_mul]
      exact abs_pos.2 h.ne'
    simp only [key, abs_abs, h, h']
  · rfl

theorem key_step4 (s : NState K) : key (niggliStep4 0 0 s).2 = key s := by
  unfold niggliStep4
  dsimp only
  split
  · rename_i h
    have h1 : ¬ 0 < s.xi * s.eta * s.zeta := by
      simpa [cwt] using h
    have h2 : ¬ 0 < -|s.xi| * -|s.eta| * -|s.zeta| := by
      rw [neg_mul_neg, mul_neg, not_lt, neg_nonpos]
      positivity
    simp only [key, abs_neg, abs_abs, h1, h2]
  · rfl

theorem key_mid (s : NState K) : key (mid s) = key s ∨ key (mid s) = swap12 (key s) := by
  unfold mid
  rw [key_step4, key_step3]
  exact key_step1 s

theorem perm_mid {k : NKey K} {s : NState K} (h : Perm6 k (key s)) : Perm6 k (key (mid s)) := by
  rcases key_mid s with e | e <;> rw [e]
  · exact h
  · exact h.s12

theorem perm_step2 {k : NKey K} {s : NState K} (h : Perm6 k (key s)) :
    Perm6 k (key (niggliStep2 0 (niggliStep1 0 s).2).2) := by
  rcases key_step2 (niggliStep1 0 s).2 with e | e <;> rcases key_step1 s with e' | e' <;>
    rw [e, e']
  · exact h
  · exact h.s12
  · exact h.s23
  · exact h.s12.s23

theorem typed_pos {t : NState K} (ht : Typed t) (h : 0 < t.xi * t.eta * t.zeta) :
    0 < t.xi ∧ 0 < t.eta ∧ 0 < t.zeta := by
  rcases ht with ht | ht
  · exact ht
  · have := mul_nonpos_of_nonneg_of_nonpos (mul_nonneg_of_nonpos_of_nonpos ht.1 ht.2.1) ht.2.2
    exact absurd h (not_lt.2 this)

theorem typed_neg {t : NState K} (ht : Typed t) (h : ¬ 0 < t.xi * t.eta * t.zeta) :
    t.xi ≤ 0 ∧ t.eta ≤ 0 ∧ t.zeta ≤ 0 := by
  rcases ht with ht | ht
  · exact absurd (mul_pos (mul_pos ht.1 ht.2.1) ht.2.2) h
  · exact ht

theorem ready_mid {cell : Cell K} {s : NState K} (hd : cell.det ≠ 0) (hg : Good cell s)
    (h2 : ¬ c2 (niggliStep1 0 s).2) : Ready (key (mid s)) := by
  have n1 : ¬ c1 (mid s) := by rw [(mid_key s).c1]; exact not_c1_step1 s
  have n2 : ¬ c2 (mid s) := by rw [(mid_key s).c2]; exact h2
  have ht := typed_mid s
  have hm := good_mid hg
  have hz : |(mid s).zeta| < (mid s).A + (mid s).B := by
    have hne (e : K) (he : e = 1 ∨ e = -1) :
        (fun i => cur cell (mid s).T 0 i + e * cur cell (mid s).T 1 i) ≠ 0 := by
      intro h0
      apply hm.curdet hd
      have (i : Fin 3) : cur cell (mid s).T 0 i = -e * cur cell (mid s).T 1 i := by
        have := congrFun h0 i
        simp only [Pi.zero_apply] at this
        linear_combination this
      rw [det_fin_three, this 0, this 1, this 2]
      ring
    have h1 := dot_self_pos (hne 1 (.inl rfl))
    have h2 := dot_self_pos (hne (-1) (.inr rfl))
    rw [hm.tr.zeta, hm.tr.A, hm.tr.B, abs_lt]
    unfold dot at *
    constructor <;> nlinarith
  have hA := hm.A_pos hd
  generalize mid s = t at *
  unfold c1 at n1
  unfold c2 at n2
  push Not at n1 n2
  refine ⟨n1.1, n2.1, n1.2, n2.2, hA, abs_nonneg _, abs_nonneg _, abs_nonneg _, hz, ?_⟩
  intro hp
  obtain ⟨h1, h2, h3⟩ := typed_pos ht (of_decide_eq_true hp)
  exact ⟨abs_pos.2 h1.ne', abs_pos.2 h2.ne', abs_pos.2 h3.ne'⟩

/-- One of the squared lengths got smaller, the others are as before. -/
def Shorter (k : NKey K) (s' : NState K) : Prop :=
  (s'.A = k.A ∧ s'.B = k.B ∧ s'.C < k.C) ∨ (s'.A = k.A ∧ s'.C = k.C ∧ s'.B < k.B)

variable {t : NState K}

theorem flat_step5 (hB : 0 < t.B) (ht : Typed t) (h : c5 t) :
    Flat (key t) (key (niggliStep5 0 t).2) ∨ Shorter (key t) (niggliStep5 0 t).2 := by
  have hc := (step5_fst t).2 h
  unfold niggliStep5 at *; dsimp only at *; rw [ite_fst] at hc; rw [if_pos hc]
  rcases h with h | ⟨h, h'⟩ | ⟨h, h'⟩
  · right
    left
    simp only [key, mul_npSign]
    refine ⟨trivial, trivial, by linarith⟩
  · have hx : 0 < t.xi := by rw [h]; exact hB
    obtain ⟨-, he, hz⟩ : 0 < t.xi ∧ 0 < t.eta ∧ 0 < t.zeta := by
      rcases ht with ht | ht
      · exact ht
      · exact absurd hx (not_lt.2 ht.1)
    left
    left
    have hp : 0 < t.xi * t.eta * t.zeta := by positivity
    have h1 : t.eta - t.zeta < 0 := by linarith
    have h2 : t.xi - 2 * t.B < 0 := by linarith
    have hp' : 0 < (t.xi - 2 * t.B) * (t.eta - t.zeta) * t.zeta :=
      mul_pos (mul_pos_of_neg_of_neg h2 h1) hz
    refine ⟨by simp only [key, hp, decide_true], ?_, ?_, ?_⟩
    · simp only [key, abs_of_pos hx]; exact h
    · simp only [key, abs_of_pos he, abs_of_pos hz, h']
    · simp only [key, npSign_pos hx, Int.cast_one, mul_one, hp', abs_of_neg h1, abs_of_neg h2,
        abs_of_pos hz, abs_of_pos he, decide_true, NKey.mk.injEq, true_and, and_true]
      refine ⟨by linarith, by linarith, by linarith⟩
  · have hx : t.xi < 0 := by rw [h]; linarith
    obtain ⟨-, he, hz⟩ : t.xi ≤ 0 ∧ t.eta ≤ 0 ∧ t.zeta ≤ 0 := by
      rcases ht with ht | ht
      · exact absurd hx (not_lt.2 ht.1.le)
      · exact ht
    left
    right; right; right; left
    have hp : ¬ 0 < t.xi * t.eta * t.zeta :=
      not_lt.2 (mul_nonpos_of_nonneg_of_nonpos (mul_nonneg_of_nonpos_of_nonpos hx.le he) hz)
    have h1 : t.eta + t.zeta < 0 := by linarith
    have h2 : 0 < t.xi + 2 * t.B := by linarith
    have hp' : 0 < (t.xi + 2 * t.B) * (t.eta + t.zeta) * t.zeta :=
      mul_pos_of_neg_of_neg (mul_neg_of_pos_of_neg h2 h1) h'
    refine ⟨by simp only [key, hp, decide_false], ?_, ?_, ?_⟩
    · simp only [key, abs_of_neg hx]; linarith
    · simp only [key, abs_of_neg h']; linarith
    · simp only [key, npSign_neg hx, Int.cast_neg, Int.cast_one, mul_neg, mul_one, sub_neg_eq_add, hp',
        abs_of_neg h1, abs_of_pos h2,
        abs_of_neg h', abs_of_nonpos he, decide_true, NKey.mk.injEq, true_and, and_true]
      refine ⟨by linarith, by linarith, by linarith⟩

theorem flat_step6 (hA : 0 < t.A) (ht : Typed t) (h5 : ¬ c5 t) (h : c6 t) :
    Flat (key t) (key (niggliStep6 0 t).2) ∨ Shorter (key t) (niggliStep6 0 t).2 := by
  have hc := (step6_fst t).2 h
  unfold niggliStep6 at *; dsimp only at *; rw [ite_fst] at hc; rw [if_pos hc]
  unfold c5 at h5
  push Not at h5
  rcases h with h | ⟨h, h'⟩ | ⟨h, h'⟩
  · right
    left
    simp only [key, mul_npSign]
    refine ⟨trivial, trivial, by linarith⟩
  · have he : 0 < t.eta := by rw [h]; exact hA
    obtain ⟨hx, -, hz⟩ : 0 < t.xi ∧ 0 < t.eta ∧ 0 < t.zeta := by
      rcases ht with ht | ht
      · exact ht
      · exact absurd he (not_lt.2 ht.2.1)
    left
    right; left
    have hp : 0 < t.xi * t.eta * t.zeta := by positivity
    have h1 : t.xi - t.zeta < 0 := by linarith
    have h2 : t.eta - 2 * t.A < 0 := by linarith
    have hp' : 0 < (t.xi - t.zeta) * (t.eta - 2 * t.A) * t.zeta :=
      mul_pos (mul_pos_of_neg_of_neg h1 h2) hz
    refine ⟨by simp only [key, hp, decide_true], ?_, h5.1, ?_, ?_⟩
    · simp only [key, abs_of_pos he]; exact h
    · simp only [key, abs_of_pos hx, abs_of_pos hz, h']
    · simp only [key, npSign_pos he, Int.cast_one, mul_one, hp', abs_of_neg h1, abs_of_neg h2,
        abs_of_pos hz, abs_of_pos hx, decide_true, NKey.mk.injEq, true_and, and_true]
      refine ⟨by linarith, by linarith, by linarith⟩
  · have he : t.eta < 0 := by rw [h]; linarith
    obtain ⟨hx, -, hz⟩ : t.xi ≤ 0 ∧ t.eta ≤ 0 ∧ t.zeta ≤ 0 := by
      rcases ht with ht | ht
      · exact absurd he (not_lt.2 ht.2.1.le)
      · exact ht
    left
    right; right; right; right; left
    have hp : ¬ 0 < t.xi * t.eta * t.zeta :=
      not_lt.2 (mul_nonpos_of_nonneg_of_nonpos (mul_nonneg_of_nonpos_of_nonpos hx he.le) hz)
    have h1 : t.xi + t.zeta < 0 := by linarith
    have h2 : 0 < t.eta + 2 * t.A := by linarith
    have hp' : 0 < (t.xi + t.zeta) * (t.eta + 2 * t.A) * t.zeta :=
      mul_pos_of_neg_of_neg (mul_neg_of_neg_of_pos h1 h2) h'
    have hxB : -t.xi < t.B := by
      have a := h5.1
      rw [abs_of_nonpos hx] at a
      refine lt_of_le_of_ne a fun e => ?_
      have := h5.2.2 (by linarith)
      linarith
    refine ⟨by simp only [key, hp, decide_false], ?_, ?_, ?_, ?_⟩
    · simp only [key, abs_of_neg he]; linarith
    · simp only [key, abs_of_neg h']; linarith
    · simp only [key, abs_of_nonpos hx]; exact hxB
    · simp only [key, npSign_neg he, Int.cast_neg, Int.cast_one, mul_neg, mul_one, sub_neg_eq_add, hp',
        abs_of_neg h1, abs_of_pos h2,
        abs_of_neg h', abs_of_nonpos hx, decide_true, NKey.mk.injEq, true_and, and_true]
      refine ⟨by linarith, by linarith, by linarith⟩

theorem flat_step7 (hA : 0 < t.A) (ht : Typed t) (h5 : ¬ c5 t) (h6 : ¬ c6 t)
    (h : c7 t) :
    Flat (key t) (key (niggliStep7 0 t).2) ∨ Shorter (key t) (niggliStep7 0 t).2 := by
  have hc := (step7_fst t).2 h
  unfold niggliStep7 at *; dsimp only at *; rw [ite_fst] at hc; rw [if_pos hc]
  unfold c5 at h5
  unfold c6 at h6
  push Not at h5 h6
  rcases h with h | ⟨h, h'⟩ | ⟨h, h'⟩
  · right
    right
    simp only [key, mul_npSign]
    refine ⟨trivial, trivial, by linarith⟩
  · have hz : 0 < t.zeta := by rw [h]; exact hA
    obtain ⟨hx, he, -⟩ : 0 < t.xi ∧ 0 < t.eta ∧ 0 < t.zeta := by
      rcases ht with ht | ht
      · exact ht
      · exact absurd hz (not_lt.2 ht.2.2)
    left
    right; right; left
    have hp : 0 < t.xi * t.eta * t.zeta := by positivity
    have h1 : t.xi - t.eta < 0 := by linarith
    have h2 : t.zeta - 2 * t.A < 0 := by linarith
    have hp' : 0 < (t.xi - t.eta) * t.eta * (t.zeta - 2 * t.A) :=
      mul_pos_of_neg_of_neg (mul_neg_of_neg_of_pos h1 he) h2
    refine ⟨by simp only [key, hp, decide_true], ?_, h5.1, h6.1, ?_, ?_⟩
    · simp only [key, abs_of_pos hz]; exact h
    · simp only [key, abs_of_pos hx, abs_of_pos he, h']
    · simp only [key, npSign_pos hz, Int.cast_one, mul_one, hp', abs_of_neg h1, abs_of_neg h2,
        abs_of_pos he, abs_of_pos hx, decide_true, NKey.mk.injEq, true_and, and_true]
      refine ⟨by linarith, by linarith, by linarith⟩
  · have hz : t.zeta < 0 := by rw [h]; linarith
    obtain ⟨hx, he, -⟩ : t.xi ≤ 0 ∧ t.eta ≤ 0 ∧ t.zeta ≤ 0 := by
      rcases ht with ht | ht
      · exact absurd hz (not_lt.2 ht.2.2.le)
      · exact ht
    left
    right; right; right; right; right; left
    have hp : ¬ 0 < t.xi * t.eta * t.zeta :=
      not_lt.2 (mul_nonpos_of_nonneg_of_nonpos (mul_nonneg_of_nonpos_of_nonpos hx he) hz.le)
    have h1 : t.xi + t.eta < 0 := by linarith
    have h2 : 0 < t.zeta + 2 * t.A := by linarith
    have hp' : 0 < (t.xi + t.eta) * t.eta * (t.zeta + 2 * t.A) :=
      mul_pos (mul_pos_of_neg_of_neg h1 h') h2
    have hxB : -t.xi < t.B := by
      have a := h5.1
      rw [abs_of_nonpos hx] at a
      refine lt_of_le_of_ne a fun e => ?_
      have := h5.2.2 (by linarith)
      linarith
    have heA : -t.eta < t.A := by
      have a := h6.1
      rw [abs_of_nonpos he] at a
      refine lt_of_le_of_ne a fun e => ?_
      have := h6.2.2 (by linarith)
      linarith
    refine ⟨by simp only [key, hp, decide_false], ?_, ?_, ?_, ?_, ?_⟩
    · simp only [key, abs_of_neg hz]; linarith
    · simp only [key, abs_of_neg h']; linarith
    · simp only [key, abs_of_nonpos he]; exact heA
    · simp only [key, abs_of_nonpos hx]; exact hxB
    · simp only [key, npSign_neg hz, Int.cast_neg, Int.cast_one, mul_neg, mul_one, sub_neg_eq_add, hp',
        abs_of_neg h1, abs_of_pos h2,
        abs_of_neg h', abs_of_nonpos hx, decide_true, NKey.mk.injEq, true_and, and_true]
      refine ⟨by linarith, by linarith, by linarith⟩

theorem flat_step8 (hA : 0 < t.A) (hAB : t.A ≤ t.B) (ht : Typed t) (h5 : ¬ c5 t) (h6 : ¬ c6 t)
    (h7 : ¬ c7 t) (h : c8 t) :
    Flat (key t) (key (niggliStep8 0 t).2) ∨ Shorter (key t) (niggliStep8 0 t).2 := by
  have hc := (step8_fst t).2 h
  unfold niggliStep8 at *; dsimp only at *; rw [ite_fst] at hc; rw [if_pos hc]
  unfold c5 at h5
  unfold c6 at h6
  unfold c7 at h7
  push Not at h5 h6 h7
  rcases h with h | ⟨h, h'⟩
  · right
    left
    simp only [key]
    refine ⟨trivial, trivial, by linarith⟩
  · obtain ⟨hx, he, hz⟩ : t.xi ≤ 0 ∧ t.eta ≤ 0 ∧ t.zeta ≤ 0 := by
      rcases ht with ht | ht
      · exfalso; linarith [ht.1, ht.2.1, ht.2.2]
      · exact ht
    left
    right; right; right; right; right; right
    have hp : ¬ 0 < t.xi * t.eta * t.zeta :=
      not_lt.2 (mul_nonpos_of_nonneg_of_nonpos (mul_nonneg_of_nonpos_of_nonpos hx he) hz)
    have h1 : 0 ≤ 2 * t.B + t.xi + t.zeta := by linarith
    have h2 : 0 ≤ 2 * t.A + t.eta + t.zeta := by linarith
    have hp' : ¬ 0 < (2 * t.B + t.xi + t.zeta) * (2 * t.A + t.eta + t.zeta) * t.zeta :=
      not_lt.2 (mul_nonpos_of_nonneg_of_nonpos (mul_nonneg h1 h2) hz)
    refine ⟨by simp only [key, hp, decide_false], ?_, ?_, h5.1, h6.1, h7.1, ?_, ?_, ?_, ?_⟩
    · simp only [key, abs_of_nonpos hx, abs_of_nonpos he, abs_of_nonpos hz]; linarith
    · simp only [key, abs_of_nonpos he, abs_of_nonpos hz]; linarith
    · simp only [key, abs_of_nonpos hx, abs_of_nonpos hz]
      intro e
      have := h5.2.2 (by linarith)
      linarith
    · simp only [key, abs_of_nonpos he, abs_of_nonpos hz]
      intro e
      have := h6.2.2 (by linarith)
      linarith
    · simp only [key, abs_of_nonpos he, abs_of_nonpos hz]
      intro e
      have := h7.2.2 (by linarith)
      linarith
    · simp only [key, hp', abs_of_nonneg h1, abs_of_nonneg h2, abs_of_nonpos he, abs_of_nonpos hz,
        decide_false, NKey.mk.injEq, true_and, and_true]
      refine ⟨by linarith, by linarith, by linarith⟩

/-- What a pass does that does not end the loop. -/
theorem pass_kind {cell : Cell K} {s : NState K} (hd : cell.det ≠ 0) (hg : Good cell s)
    (hc : (niggliPass 0 0 s).1 = true) :
    (c2 (niggliStep1 0 s).2 ∧ ¬ c2 (niggliStep1 0 (niggliPass 0 0 s).2).2 ∧
      ∀ k, Perm6 k (key s) → Perm6 k (key (niggliPass 0 0 s).2)) ∨
    ∃ k, Ready k ∧ (∀ j, Perm6 j (key s) → Perm6 j k) ∧
      (Flat k (key (niggliPass 0 0 s).2) ∨ Shorter k (niggliPass 0 0 s).2) := by
  rcases pass_cases s with ⟨h2, e⟩ | ⟨h2, h⟩
  · left
    rw [e]
    refine ⟨h2, ?_, fun k => perm_step2⟩
    have n1 := not_c1_step1 s
    generalize (niggliStep1 0 s).2 = t at *
    have hc2 := (step2_fst t).2 h2
    unfold niggliStep2 at *; dsimp only at *; rw [ite_fst] at hc2; rw [if_pos hc2]
    unfold niggliStep1
    dsimp only
    unfold c1 at n1
    unfold c2 at h2
    push Not at n1
    split
    all_goals
      rename_i h
      simp only [Bool.or_eq_true, Bool.and_eq_true, cwt_gt0, cwt_eq0] at h
      unfold c2
      dsimp only
      grind
  · right
    have hm := good_mid hg
    have hr := ready_mid hd hg h2
    have hA := hm.A_pos hd
    have hB := hm.B_pos hd
    have ht := typed_mid s
    refine ⟨key (mid s), hr, fun j => perm_mid, ?_⟩
    rcases h with ⟨c, e⟩ | ⟨n5, c, e⟩ | ⟨n5, n6, c, e⟩ | ⟨n5, n6, n7, c, e⟩ | ⟨_, _, _, _, e⟩ <;>
      rw [e] at hc ⊢
    · exact flat_step5 hB ht c
    · exact flat_step6 hA ht n5 c
    · exact flat_step7 hA ht n5 n6 c
    · exact flat_step8 hA hr.AB ht n5 n6 n7 c
    · exact absurd hc (by simp)

/-- How many passes can follow that do not shorten a vector. -/
def Room (c : ℕ) (s : NState K) : Prop :=
  c = 5 ∨
  (c = 4 ∧ ¬ c2 (niggliStep1 0 s).2) ∨
  (c = 3 ∧ ∃ k u, Ready k ∧ Flat k u ∧ Perm6 u (key s)) ∨
  (c = 2 ∧ ¬ c2 (niggliStep1 0 s).2 ∧ ∃ k u, Ready k ∧ Flat k u ∧ Perm6 u (key s)) ∨
  (c = 1 ∧ ∃ k u, Ready k ∧ Flat5 k u ∧ Perm6 u (key s)) ∨
  (c = 0 ∧ ¬ c2 (niggliStep1 0 s).2 ∧ ∃ k u, Ready k ∧ Flat5 k u ∧ Perm6 u (key s))

/-- The sum of the ranks of the squared lengths. -/
def phi (rank : K → ℕ) (k : NKey K) : ℕ := rank k.A + rank k.B + rank k.C

theorem phi_perm (rank : K → ℕ) {k k' : NKey K} (h : Perm6 k k') : phi rank k' = phi rank k := by
  rcases h with rfl | rfl | rfl | rfl | rfl | rfl <;> simp only [phi, swap12, swap23] <;> omega

theorem phi_flat (rank : K → ℕ) {k k' : NKey K} (h : Flat k k') : phi rank k' = phi rank k := by
  rcases h with ⟨-, -, -, rfl⟩ | ⟨-, -, -, -, rfl⟩ | ⟨-, -, -, -, -, rfl⟩ | ⟨-, -, -, rfl⟩ |
    ⟨-, -, -, -, rfl⟩ | ⟨-, -, -, -, -, rfl⟩ | ⟨-, -, -, -, -, -, -, -, -, rfl⟩ <;> rfl

theorem perm_norms {k k' : NKey K} (h : Perm6 k k') (V : K → Prop) (hV : V k.A ∧ V k.B ∧ V k.C) :
    V k'.A ∧ V k'.B ∧ V k'.C := by
  obtain ⟨h1, h2, h3⟩ := hV
  rcases h with rfl | rfl | rfl | rfl | rfl | rfl <;> simp only [swap12, swap23, h1, h2, h3, and_self]

/-- The exact loop ends after at most six passes per step of the ranks. -/
theorem loop_bound {cell : Cell K} (hd : cell.det ≠ 0) (V : K → Prop) (S : K) (rank : K → ℕ)
    (hV : ∀ s, Good cell s → s.A + s.B + s.C ≤ S → V s.A ∧ V s.B ∧ V s.C)
    (hrank : ∀ a b, V a → V b → a < b → rank a < rank b) (n : ℕ) :
    ∀ s c, Good cell s → s.A + s.B + s.C ≤ S → Room c s → 6 * phi rank (key s) + c < n →
      ∃ r, niggliLoop 0 0 n s = .ok r := by
  induction n with
  | zero => intro s c _ _ _ h; omega
  | succ n ih =>
    intro s c hg hS hr hn
    unfold niggliLoop
    dsimp only
    by_cases hp : (niggliPass 0 0 s).1 = true
    swap
    · rw [if_neg hp]; exact ⟨_, rfl⟩
    rw [if_pos hp]
    have hg' := good_pass hd hg
    have hS' := (pass_lex hd hg hp).sum_le.trans hS
    rcases pass_kind hd hg hp with ⟨h2, n2, hperm⟩ | ⟨k, hk, hperm, hf | hf⟩
    · have hphi := phi_perm rank (hperm _ (.refl _))
      rcases hr with rfl | ⟨rfl, hr⟩ | ⟨rfl, k, u, h1, h3, h4⟩ | ⟨rfl, hr, -⟩ |
        ⟨rfl, k, u, h1, h3, h4⟩ | ⟨rfl, hr, -⟩
      · exact ih _ 4 hg' hS' (.inr (.inl ⟨rfl, n2⟩)) (by omega)
      · exact absurd h2 hr
      · exact ih _ 2 hg' hS' (.inr (.inr (.inr (.inl ⟨rfl, n2, k, u, h1, h3, hperm _ h4⟩))))
          (by omega)
      · exact absurd h2 hr
      · exact ih _ 0 hg' hS' (.inr (.inr (.inr (.inr (.inr ⟨rfl, n2, k, u, h1, h3, hperm _ h4⟩)))))
          (by omega)
      · exact absurd h2 hr
    · have hphi : phi rank (key (niggliPass 0 0 s).2) = phi rank (key s) :=
        (phi_flat rank hf).trans (phi_perm rank (hperm _ (.refl _)))
      have start : Room 3 (niggliPass 0 0 s).2 := .inr (.inr (.inl ⟨rfl, k, _, hk, hf, .refl _⟩))
      have second {k0 u0 : NKey K} (h1 : Ready k0) (h3 : Flat k0 u0) (h4 : Perm6 u0 (key s)) :
          Room 1 (niggliPass 0 0 s).2 :=
        .inr (.inr (.inr (.inr (.inl ⟨rfl, k, _, hk, flat_then h1 h3 (hperm _ h4) hk hf, .refl _⟩))))
      rcases hr with rfl | ⟨rfl, -⟩ | ⟨rfl, k0, u0, h1, h3, h4⟩ | ⟨rfl, -, k0, u0, h1, h3, h4⟩ |
        ⟨rfl, k0, u0, h1, h3, h4⟩ | ⟨rfl, -, k0, u0, h1, h3, h4⟩
      · exact ih _ 3 hg' hS' start (by omega)
      · exact ih _ 3 hg' hS' start (by omega)
      · exact ih _ 1 hg' hS' (second h1 h3 h4) (by omega)
      · exact ih _ 1 hg' hS' (second h1 h3 h4) (by omega)
      · exact (flat5_last h1 h3 (hperm _ h4) hk hf).elim
      · exact (flat5_last h1 h3 (hperm _ h4) hk hf).elim
    · have hphi := phi_perm rank (hperm _ (.refl _))
      obtain ⟨v1, v2, v3⟩ := hV _ hg' hS'
      obtain ⟨w1, w2, w3⟩ := perm_norms (hperm _ (.refl _)) V (hV s hg hS)
      have hlt : phi rank (key (niggliPass 0 0 s).2) < phi rank k := by
        rcases hf with ⟨e1, e2, e3⟩ | ⟨e1, e2, e3⟩
        · have := hrank _ _ v3 w3 e3
          simp only [phi, key, e1, e2]
          omega
        · have := hrank _ _ v2 w2 e3
          simp only [phi, key, e1, e2]
          omega
      exact ih _ 5 hg' hS' (.inl rfl) (by omega)

end Wulfric
