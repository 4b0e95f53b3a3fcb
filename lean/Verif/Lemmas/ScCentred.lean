import Verif.Lemmas.Crystal

/-! # Lemmas for C63: the centred lattice of the SC conventional cell -/

namespace Wulfric

open Matrix _root_.Spec Wulfric.Spec

/-- A change of the basis by a matrix with the integer inverse `N` that takes the translations `ts'`
to the translations `ts`, up to lattice vectors. -/
theorem centred_applyT (M N : Matrix (Fin 3) (Fin 3) ℤ) (hMN : M * N = 1) (ts ts' : List (Vec ℝ))
    (h1 : ∀ t ∈ ts', ∃ s ∈ ts, ∃ m : Fin 3 → ℤ, ∀ k, ∑ i, (M k i : ℝ) * t i = s k + m k)
    (h2 : ∀ s ∈ ts, ∃ t ∈ ts', ∃ m : Fin 3 → ℤ, ∀ k, ∑ i, (N k i : ℝ) * s i = t k + m k)
    (c : Cell ℝ) : centredLattice ts' (applyT M c) = centredLattice ts c := by
  have hc : ∀ p : Vec ℝ, cartesian (applyT M c) p = cartesian c fun k => ∑ i, (M k i : ℝ) * p i := by
    intro p
    ext j
    simp only [cartesian, applyT, mul_apply, Fin.sum_univ_three, map_apply, transpose_apply]
    ring
  have hinv : ∀ (q : Vec ℝ) k, ∑ i, (M k i : ℝ) * ∑ l, (N i l : ℝ) * q l = q k := by
    intro q k
    have e : ∀ l, ∑ i, (M k i : ℝ) * (N i l : ℝ) = (1 : Matrix (Fin 3) (Fin 3) ℝ) k l := by
      intro l
      have := congrFun (congrFun hMN k) l
      rw [mul_apply] at this
      have h' : ((∑ i, M k i * N i l : ℤ) : ℝ) = (((1 : Matrix (Fin 3) (Fin 3) ℤ) k l : ℤ) : ℝ) := by
        rw [this]
      push_cast at h'
      rw [h']
      simp only [one_apply]
      split_ifs <;> simp
    simp_rw [Finset.mul_sum, ← mul_assoc]
    rw [Finset.sum_comm]
    simp_rw [← Finset.sum_mul, e]
    simp [one_apply]
  ext v
  rw [mem_centred, mem_centred]
  constructor
  · rintro ⟨n, t, ht, rfl⟩
    obtain ⟨s, hs, m, hm⟩ := h1 t ht
    refine ⟨fun k => ∑ i, M k i * n i + m k, s, hs, ?_⟩
    rw [hc]
    congr 1
    ext k
    have := hm k
    simp only [Fin.sum_univ_three] at this ⊢
    push_cast
    linarith
  · rintro ⟨n, s, hs, rfl⟩
    obtain ⟨t, ht, m, hm⟩ := h2 s hs
    refine ⟨fun k => ∑ i, N k i * n i + m k, t, ht, ?_⟩
    rw [hc]
    congr 1
    ext k
    have e : (fun i => ((∑ l, N i l * n l + m i : ℤ) : ℝ) + t i) =
        fun i => ∑ l, (N i l : ℝ) * ((n l : ℝ) + s l) := by
      ext i
      have := hm i
      simp only [Fin.sum_univ_three] at this ⊢
      push_cast
      linarith
    rw [← hinv (fun l => (n l : ℝ) + s l) k]
    exact Finset.sum_congr rfl fun i _ => by rw [← congrFun e i]

theorem centred_one (ts : List (Vec ℝ)) (c : Cell ℝ) :
    centredLattice ts (applyT 1 c) = centredLattice ts c := by
  have : applyT 1 c = c := by simp [applyT]
  rw [this]

/-- Translations by halves of lattice vectors. -/
noncomputable def halves (hs : List (Fin 3 → ℤ)) : List (Vec ℝ) := hs.map fun h k => (h k : ℝ) / 2

/-- The same with translations by halves of lattice vectors, as a condition on integers. -/
theorem centred_halves (M : Matrix (Fin 3) (Fin 3) ℤ) (hs hs' : List (Fin 3 → ℤ))
    (h : M * M.transpose = 1 ∧ (∀ t ∈ hs', ∃ s ∈ hs, ∀ k, (∑ i, M k i * t i - s k) % 2 = 0) ∧
      ∀ s ∈ hs, ∃ t ∈ hs', ∀ k, (∑ i, M.transpose k i * s i - t k) % 2 = 0) (c : Cell ℝ) :
    centredLattice (halves hs') (applyT M c) = centredLattice (halves hs) c := by
  have key : ∀ (A : Matrix (Fin 3) (Fin 3) ℤ) (l l' : List (Fin 3 → ℤ)),
      (∀ t ∈ l', ∃ s ∈ l, ∀ k, (∑ i, A k i * t i - s k) % 2 = 0) →
      ∀ t ∈ halves l', ∃ s ∈ halves l, ∃ m : Fin 3 → ℤ, ∀ k, ∑ i, (A k i : ℝ) * t i = s k + m k := by
    intro A l l' hA t ht
    obtain ⟨t0, ht0, rfl⟩ := List.mem_map.1 ht
    obtain ⟨s0, hs0, h0⟩ := hA t0 ht0
    refine ⟨_, List.mem_map.2 ⟨s0, hs0, rfl⟩, fun k => (∑ i, A k i * t0 i - s0 k) / 2, fun k => ?_⟩
    simp only
    have e : (∑ i, A k i * t0 i - s0 k) = 2 * ((∑ i, A k i * t0 i - s0 k) / 2) := by
      have := h0 k; omega
    have e' : ((∑ i, A k i * t0 i - s0 k : ℤ) : ℝ) =
        ((2 * ((∑ i, A k i * t0 i - s0 k) / 2) : ℤ) : ℝ) := by rw [← e]
    rw [Int.cast_mul, Int.cast_ofNat] at e'
    generalize ((∑ i, A k i * t0 i - s0 k) / 2) = q at e'
    simp only [Fin.sum_univ_three] at e' ⊢
    push_cast at e'
    linarith
  exact centred_applyT M _ h.1 _ _ (key M _ _ h.2.1) (key _ _ _ h.2.2) c

theorem halves_F : translations ℝ 'F' = halves [![0, 0, 0], ![0, 1, 1], ![1, 0, 1], ![1, 1, 0]] := by
  simp only [halves, translations, List.map_cons, List.map_nil, List.cons.injEq, and_true]
  refine ⟨?_, ?_, ?_, ?_⟩ <;> (ext k; fin_cases k <;> simp)

theorem halves_I : translations ℝ 'I' = halves [![0, 0, 0], ![1, 1, 1]] := by
  simp only [halves, translations, List.map_cons, List.map_nil, List.cons.injEq, and_true]
  refine ⟨?_, ?_⟩ <;> (ext k; fin_cases k <;> simp)

theorem halves_C : translations ℝ 'C' = halves [![0, 0, 0], ![1, 1, 0]] := by
  simp only [halves, translations, List.map_cons, List.map_nil, List.cons.injEq, and_true]
  refine ⟨?_, ?_⟩ <;> (ext k; fin_cases k <;> simp)

theorem halves_A : translations ℝ 'A' = halves [![0, 0, 0], ![0, 1, 1]] := by
  simp only [halves, translations, List.map_cons, List.map_nil, List.cons.injEq, and_true]
  refine ⟨?_, ?_⟩ <;> (ext k; fin_cases k <;> simp)

/-- Permutations of the axes with signs keep the face- and the body-centred lattice. -/
theorem opfi_centred {c d : Cell ℝ} {l : Char} (hl : l = 'F' ∨ l = 'I')
    (h : scConventionalOPFI c = .ok d) :
    centredLattice (translations ℝ l) d = centredLattice (translations ℝ l) c := by
  unfold scConventionalOPFI at h
  cases hp : getParams c with
  | error e => rw [hp] at h; cases h
  | ok p =>
    obtain ⟨x, y, z, al, be, ga⟩ := p
    simp only [hp, bind, Except.bind, pure, Except.pure] at h
    split_ifs at h <;> cases h
    · exact centred_one _ _
    all_goals
      rcases hl with rfl | rfl
      · rw [halves_F]
        exact centred_halves _ _ _ (by decide +kernel) c
      · rw [halves_I]
        exact centred_halves _ _ _ (by decide +kernel) c

theorem oc_centred {c d : Cell ℝ} (h : scConventionalOC c = .ok d) :
    centredLattice (translations ℝ 'C') d = centredLattice (translations ℝ 'C') c := by
  unfold scConventionalOC at h
  cases hp : getParams c with
  | error e => rw [hp] at h; cases h
  | ok p =>
    obtain ⟨x, y, z, al, be, ga⟩ := p
    simp only [hp, bind, Except.bind, pure, Except.pure] at h
    split_ifs at h <;> cases h
    · exact centred_one _ _
    · rw [halves_C]
      exact centred_halves _ _ _ (by decide +kernel) c

theorem oa_centred (c : Cell ℝ) :
    centredLattice (translations ℝ 'C') (applyT !![0, 0, 1; 1, 0, 0; 0, 1, 0] c) =
      centredLattice (translations ℝ 'A') c := by
  rw [halves_C, halves_A]
  exact centred_halves _ _ _ (by decide +kernel) c

theorem m_centred {c d : Cell ℝ} {tol : ℝ} (h : scConventionalM c "C" tol = .ok d) :
    centredLattice (translations ℝ 'C') d = centredLattice (translations ℝ 'C') c := by
  unfold scConventionalM at h
  cases hp : getParams c with
  | error e => rw [hp] at h; cases h
  | ok p =>
    obtain ⟨x, y, z, al, be, ga⟩ := p
    simp only [hp, bind, Except.bind, pure, Except.pure] at h
    cases h1 : monoclinicStep1 al be ga "C" tol with
    | error e => rw [h1] at h; cases h
    | ok m1 =>
      simp only [h1, or_true, if_true] at h
      have e1 : centredLattice (translations ℝ 'C') (applyT m1 c) =
          centredLattice (translations ℝ 'C') c := by
        unfold monoclinicStep1 at h1
        rw [if_pos rfl] at h1
        split_ifs at h1 <;> cases h1
        · exact centred_one _ _
        · rw [halves_C]
          exact centred_halves _ _ _ (by decide +kernel) c
      cases h2 : getParams (applyT m1 c) with
      | error e => rw [h2] at h; cases h
      | ok p2 =>
        obtain ⟨x2, y2, z2, al2, be2, ga2⟩ := p2
        simp only [h2] at h
        cases h3 : getParams (applyT 1 (applyT m1 c)) with
        | error e => rw [h3] at h; cases h
        | ok p3 =>
          obtain ⟨x3, y3, z3, al3, be3, ga3⟩ := p3
          simp only [h3] at h
          split_ifs at h <;> cases h
          · rw [centred_one, centred_one, e1]
          · rw [← e1, ← centred_one _ (applyT m1 c), halves_C]
            exact centred_halves _ _ _ (by decide +kernel) _

end Wulfric
