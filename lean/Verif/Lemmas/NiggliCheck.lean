import Verif.Lemmas.NiggliMinima

/-! A checker for linear consequences of the Niggli conditions of two bases of one lattice. -/

namespace Spec.Reduced

/-- A linear form in the six numbers `A, B, C, xi, eta, zeta`. -/
structure Form where
  (a b c x e z : ℤ)
deriving DecidableEq

namespace Form
def add (f g : Form) : Form := ⟨f.a + g.a, f.b + g.b, f.c + g.c, f.x + g.x, f.e + g.e, f.z + g.z⟩
def smul (k : ℤ) (f : Form) : Form := ⟨k * f.a, k * f.b, k * f.c, k * f.x, k * f.e, k * f.z⟩
def zero : Form := ⟨0, 0, 0, 0, 0, 0⟩
def sub (f g : Form) : Form := f.add (g.smul (-1))
end Form

/-- What is known of a form: non-negative, positive, or zero. -/
inductive Kind | nn | st | eq
deriving DecidableEq

abbrev Fact := Kind × Form
/-- "if the first form is zero, the second is non-negative"; the first is known not to be
negative. -/
abbrev Imp := Form × Form
/-- Coefficients of a linear combination of known facts. -/
abbrev Cert := List (ℕ × ℤ)

/-- The combination, and whether it has a positive share of a positive form. -/
def comb (S : List Fact) : Cert → Option (Form × Bool)
  | [] => some (.zero, false)
  | (i, k) :: l =>
    match S[i]?, comb S l with
    | some (.nn, f), some (g, b) => if 0 ≤ k then some ((f.smul k).add g, b) else none
    | some (.st, f), some (g, b) => if 0 < k then some ((f.smul k).add g, true) else none
    | some (.eq, f), some (g, b) => some ((f.smul k).add g, b)
    | _, _ => none

/-- `k` times the form is the combination. -/
def certifies (S : List Fact) (g : Form) (k : ℤ) (c : Cert) : Bool :=
  decide (0 < k) && decide ((comb S c).map (·.1) = some (g.smul k))

/-- A proof: antecedents that must be zero, with certificates, then certificates for a contradiction
or for the equations (each as two inequalities). -/
structure Proof where
  uses : List (ℕ × ℤ × Cert)
  fin : List (ℤ × Cert)

def checkEqs (S : List Fact) : List Form → List (ℤ × Cert) → Bool
  | [], [] => true
  | g :: gs, (k, c) :: (k', c') :: l =>
    certifies S g k c && certifies S (g.smul (-1)) k' c' && checkEqs S gs l
  | _, _ => false

def check (S : List Fact) (im : List Imp) (goals : List Form) :
    List (ℕ × ℤ × Cert) → List (ℤ × Cert) → Bool
  | [], [(_, c)] => decide (comb S c = some (.zero, true))
  | [], l => checkEqs S goals l
  | (i, k, c) :: us, l =>
    match im[i]? with
    | some (E, g) => certifies S (E.smul (-1)) k c && check (S ++ [(.eq, E), (.nn, g)]) im goals us l
    | none => false

section
variable {K : Type*} [Field K] [LinearOrder K] [IsStrictOrderedRing K]
variable (A B C xi eta zeta : K)

/-- The value of a form. -/
def Form.val (f : Form) : K :=
  f.a * A + f.b * B + f.c * C + f.x * xi + f.e * eta + f.z * zeta

def Fact.Holds (s : Fact) : Prop :=
  match s.1 with
  | .nn => 0 ≤ s.2.val A B C xi eta zeta
  | .st => 0 < s.2.val A B C xi eta zeta
  | .eq => s.2.val A B C xi eta zeta = 0

def Imp.Holds (i : Imp) : Prop :=
  0 ≤ i.1.val A B C xi eta zeta ∧
    (i.1.val A B C xi eta zeta = 0 → 0 ≤ i.2.val A B C xi eta zeta)

variable {A B C xi eta zeta}

theorem val_add (f g : Form) : (f.add g).val A B C xi eta zeta =
    f.val A B C xi eta zeta + g.val A B C xi eta zeta := by
  simp only [Form.val, Form.add]; push_cast; ring

theorem val_smul (k : ℤ) (f : Form) : (f.smul k).val A B C xi eta zeta =
    k * f.val A B C xi eta zeta := by
  simp only [Form.val, Form.smul]; push_cast; ring

theorem val_sub (f g : Form) : (f.sub g).val A B C xi eta zeta =
    f.val A B C xi eta zeta - g.val A B C xi eta zeta := by
  simp only [Form.sub, val_add, val_smul]; push_cast; ring

theorem val_zero : Form.zero.val A B C xi eta zeta = 0 := by
  simp [Form.val, Form.zero]

theorem comb_sound {S : List Fact} (hS : ∀ s ∈ S, Fact.Holds A B C xi eta zeta s) {c : Cert} {g : Form}
    {b : Bool} (h : comb S c = some (g, b)) :
    0 ≤ g.val A B C xi eta zeta ∧ (b = true → 0 < g.val A B C xi eta zeta) := by
  induction c generalizing g b with
  | nil =>
    simp only [comb, Option.some.injEq, Prod.mk.injEq] at h
    obtain ⟨rfl, rfl⟩ := h
    simp [val_zero]
  | cons s l ih =>
    obtain ⟨i, k⟩ := s
    unfold comb at h
    split at h
    · rename_i f g' b' h1 h2
      split at h
      · rename_i hk
        have hf := hS _ (List.mem_of_getElem? h1)
        simp only [Fact.Holds] at hf
        cases h
        obtain ⟨i1, i2⟩ := ih h2
        have hk' : (0 : K) ≤ k := by exact_mod_cast hk
        have := mul_nonneg hk' hf
        rw [val_add, val_smul]
        exact ⟨by linarith, fun hb => by linarith [i2 hb]⟩
      · cases h
    · rename_i f g' b' h1 h2
      split at h
      · rename_i hk
        have hf := hS _ (List.mem_of_getElem? h1)
        simp only [Fact.Holds] at hf
        cases h
        obtain ⟨i1, i2⟩ := ih h2
        have hk' : (0 : K) < k := by exact_mod_cast hk
        have := mul_pos hk' hf
        rw [val_add, val_smul]
        exact ⟨by linarith, fun _ => by linarith⟩
      · cases h
    · rename_i f g' b' h1 h2
      have hf := hS _ (List.mem_of_getElem? h1)
      simp only [Fact.Holds] at hf
      cases h
      rw [val_add, val_smul, hf, mul_zero, zero_add]
      exact ih h2
    · cases h

theorem certifies_sound {S : List Fact} (hS : ∀ s ∈ S, Fact.Holds A B C xi eta zeta s) {g : Form} {k : ℤ}
    {c : Cert} (h : certifies S g k c = true) : 0 ≤ g.val A B C xi eta zeta := by
  unfold certifies at h
  simp only [Bool.and_eq_true, decide_eq_true_eq, Option.map_eq_some_iff, Prod.exists,
    exists_and_right, exists_eq_right] at h
  obtain ⟨hk, b, h⟩ := h
  have := (comb_sound hS h).1
  rw [val_smul] at this
  have hk' : (0 : K) < k := by exact_mod_cast hk
  exact nonneg_of_mul_nonneg_right this hk'

theorem checkEqs_sound {S : List Fact} (hS : ∀ s ∈ S, Fact.Holds A B C xi eta zeta s) {gs : List Form}
    {l : List (ℤ × Cert)} (h : checkEqs S gs l = true) : ∀ g ∈ gs, g.val A B C xi eta zeta = 0 := by
  induction gs generalizing l with
  | nil => simp
  | cons g gs ih =>
    match l, h with
    | (k, c) :: (k', c') :: l, h =>
      simp only [checkEqs, Bool.and_eq_true] at h
      obtain ⟨⟨h1, h2⟩, h3⟩ := h
      have h1 := certifies_sound hS h1
      have h2 := certifies_sound hS h2
      rw [val_smul] at h2
      push_cast at h2
      intro f hf
      rcases List.mem_cons.1 hf with rfl | hf
      · linarith
      · exact ih h3 f hf
    | [], h => simp [checkEqs] at h
    | [_], h => simp [checkEqs] at h

theorem check_sound {S : List Fact} {im : List Imp} {goals : List Form}
    {us : List (ℕ × ℤ × Cert)} {l : List (ℤ × Cert)} (h : check S im goals us l = true)
    (hS : ∀ s ∈ S, Fact.Holds A B C xi eta zeta s) (hi : ∀ i ∈ im, Imp.Holds A B C xi eta zeta i) :
    ∀ g ∈ goals, g.val A B C xi eta zeta = 0 := by
  induction us generalizing S with
  | nil =>
    unfold check at h
    split at h
    · rename_i c
      simp only [decide_eq_true_eq] at h
      have := (comb_sound hS h).2 rfl
      rw [val_zero] at this
      exact absurd this (lt_irrefl _)
    · exact checkEqs_sound hS h
    · rename_i e
      cases e
  | cons u us ih =>
    obtain ⟨i, k, c⟩ := u
    unfold check at h
    split at h
    · rename_i E g h1
      simp only [Bool.and_eq_true] at h
      obtain ⟨h2, h3⟩ := h
      have h2 := certifies_sound hS h2
      obtain ⟨k1, k2⟩ := hi _ (List.mem_of_getElem? h1)
      rw [val_smul] at h2
      push_cast at h2
      have hE : E.val A B C xi eta zeta = 0 := by
        simp only at k1
        linarith
      refine ih h3 fun s hs => ?_
      rcases List.mem_append.1 hs with hs | hs
      · exact hS s hs
      · simp only [List.mem_cons, List.not_mem_nil, or_false] at hs
        rcases hs with rfl | rfl
        · exact hE
        · exact k2 hE
    · cases h

end
end Spec.Reduced
