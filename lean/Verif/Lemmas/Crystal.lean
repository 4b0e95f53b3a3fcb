import Verif.Spec.Crystal
import Verif.Props.C53_Primitive
import Verif.Lemmas.ScShape

/-! # Lemmas for C63: the set of all atoms -/

namespace Wulfric

open Matrix _root_.Spec Wulfric.Spec

variable {α β : Type}

theorem cartesian_add (c : Cell ℝ) (p q : Vec ℝ) :
    cartesian c (fun j => p j + q j) = cartesian c p + cartesian c q := by
  ext j; simp only [cartesian, Pi.add_apply]; ring

theorem cartesian_sub (c : Cell ℝ) (p q : Vec ℝ) :
    cartesian c (fun j => p j - q j) = cartesian c p - cartesian c q := by
  ext j; simp only [cartesian, Pi.sub_apply]; ring

theorem mem_latticePoints (c : Cell ℝ) (v : Vec ℝ) :
    v ∈ latticePoints c ↔ ∃ n : Fin 3 → ℤ, v = cartesian c fun j => (n j : ℝ) := by
  simp only [latticePoints, Set.mem_ofPred_eq, Fin.sum_univ_three]
  rfl

theorem mem_centred (ts : List (Vec ℝ)) (c : Cell ℝ) (v : Vec ℝ) :
    v ∈ centredLattice ts c ↔
      ∃ n : Fin 3 → ℤ, ∃ t ∈ ts, v = cartesian c fun j => (n j : ℝ) + t j := by
  simp only [centredLattice, Set.mem_ofPred_eq, Fin.sum_univ_three]
  rfl

theorem symmetry_iff {v : Vec ℝ} {A : Set (α × Vec ℝ)} :
    Symmetry v A ↔ ∀ l x, (l, x) ∈ A ↔ (l, x + v) ∈ A := by
  unfold Symmetry moved
  constructor
  · intro h l x
    constructor
    · intro hx
      rw [← h]
      simpa using hx
    · intro hx
      rw [← h] at hx
      simpa using hx
  · intro h
    ext ⟨l, x⟩
    have := h l (x - v)
    rw [sub_add_cancel] at this
    exact this

theorem symmetry_add {v w : Vec ℝ} {A : Set (α × Vec ℝ)} (hv : Symmetry v A) (hw : Symmetry w A) :
    Symmetry (v + w) A := by
  rw [symmetry_iff] at *
  intro l x
  rw [hv, hw, add_assoc]

theorem symmetry_lattice {c : Cell ℝ} {ps : List (Vec ℝ)} {ls : List α} {v : Vec ℝ}
    (hv : v ∈ latticePoints c) : Symmetry v (crystal c ps ls) := by
  obtain ⟨m, rfl⟩ := (mem_latticePoints c v).1 hv
  rw [symmetry_iff]
  intro l x
  constructor
  · rintro ⟨i, p, n, h1, h2, h3⟩
    refine ⟨i, p, fun j => n j + m j, h1, h2, ?_⟩
    simp only at h3 ⊢
    rw [h3, ← cartesian_add]
    congr 1
    ext j; push_cast; ring
  · rintro ⟨i, p, n, h1, h2, h3⟩
    refine ⟨i, p, fun j => n j - m j, h1, h2, ?_⟩
    simp only at h3 ⊢
    rw [eq_sub_of_add_eq h3, ← cartesian_sub]
    congr 1
    ext j; push_cast; ring

theorem symmetry_centred {c : Cell ℝ} {ps : List (Vec ℝ)} {ls : List α} {ts : List (Vec ℝ)}
    (h : ∀ t ∈ ts, Symmetry (cartesian c t) (crystal c ps ls)) {v : Vec ℝ}
    (hv : v ∈ centredLattice ts c) : Symmetry v (crystal c ps ls) := by
  obtain ⟨n, t, ht, rfl⟩ := (mem_centred ts c v).1 hv
  rw [cartesian_add]
  exact symmetry_add (symmetry_lattice ((mem_latticePoints c _).2 ⟨n, rfl⟩)) (h t ht)

/-- The same points in another cell, whose lattice is larger but consists of symmetries. -/
theorem crystal_rebase {c d : Cell ℝ} {ps qs : List (Vec ℝ)} (ls : List α)
    (h : SamePoints c ps d qs) (hsub : latticePoints c ⊆ latticePoints d)
    (hsym : ∀ v ∈ latticePoints d, Symmetry v (crystal c ps ls)) :
    crystal d qs ls = crystal c ps ls := by
  have hget : ∀ (i : ℕ) p, ps[i]? = some p → ∃ q, qs[i]? = some q ∧ cartesian c p = cartesian d q := by
    intro i p hp
    have := h.length_eq
    obtain ⟨hi, rfl⟩ := List.getElem?_eq_some_iff.1 hp
    refine ⟨qs[i], List.getElem?_eq_some_iff.2 ⟨by omega, rfl⟩, ?_⟩
    exact (List.forall₂_iff_get.1 h).2 i hi (by omega)
  have hget' : ∀ (i : ℕ) q, qs[i]? = some q → ∃ p, ps[i]? = some p ∧ cartesian c p = cartesian d q := by
    intro i q hq
    have := h.length_eq
    obtain ⟨hi, rfl⟩ := List.getElem?_eq_some_iff.1 hq
    refine ⟨ps[i], List.getElem?_eq_some_iff.2 ⟨by omega, rfl⟩, ?_⟩
    exact (List.forall₂_iff_get.1 h).2 i (by omega) hi
  ext ⟨l, x⟩
  constructor
  · rintro ⟨i, q, n, h1, h2, h3⟩
    obtain ⟨p, hp, e⟩ := hget' i q h2
    simp only at h3 h1
    rw [h3, cartesian_add, ← e]
    refine (symmetry_iff.1 (hsym _ ((mem_latticePoints d _).2 ⟨n, rfl⟩)) l _).1 ?_
    exact ⟨i, p, 0, h1, hp, by simp⟩
  · rintro ⟨i, p, n, h1, h2, h3⟩
    obtain ⟨q, hq, e⟩ := hget i p h2
    obtain ⟨m, hm⟩ := (mem_latticePoints d _).1 (hsub ((mem_latticePoints c _).2 ⟨n, rfl⟩))
    refine ⟨i, q, m, h1, hq, ?_⟩
    simp only at h3 ⊢
    rw [h3, cartesian_add, cartesian_add, e, hm]

theorem crystal_sameLattice {c d : Cell ℝ} {ps qs : List (Vec ℝ)} (ls : List α)
    (h : SamePoints c ps d qs) (hl : SameLattice c d) : crystal d qs ls = crystal c ps ls := by
  unfold SameLattice at hl
  refine crystal_rebase ls h hl.subset fun v hv => symmetry_lattice ?_
  rw [hl]; exact hv

/-- Labels that are a function of other labels. -/
theorem crystal_map (f : α → β) (c : Cell ℝ) (ps : List (Vec ℝ)) (ls : List α) :
    crystal c ps (ls.map f) = (fun a => (f a.1, a.2)) '' crystal c ps ls := by
  ext ⟨l, x⟩
  constructor
  · rintro ⟨i, p, n, h1, h2, h3⟩
    simp only [List.getElem?_map, Option.map_eq_some_iff] at h1
    obtain ⟨l0, h1, rfl⟩ := h1
    exact ⟨(l0, x), ⟨i, p, n, h1, h2, h3⟩, rfl⟩
  · rintro ⟨⟨l0, y⟩, ⟨i, p, n, h1, h2, h3⟩, e⟩
    cases e
    refine ⟨i, p, n, ?_, h2, h3⟩
    simp only at h1
    simp [h1]

theorem moved_map (f : α → β) (v : Vec ℝ) (A : Set (α × Vec ℝ)) :
    moved v ((fun a => (f a.1, a.2)) '' A) = (fun a => (f a.1, a.2)) '' moved v A := by
  ext ⟨l, x⟩
  constructor
  · rintro ⟨⟨l0, y⟩, h, e⟩
    simp only [Prod.mk.injEq] at e
    refine ⟨(l0, x), ?_, by simp [e.1]⟩
    show (l0, x - v) ∈ A
    rw [← e.2]; exact h
  · rintro ⟨⟨l0, y⟩, h, e⟩
    cases e
    exact ⟨(l0, y - v), h, rfl⟩

theorem within_map (f : α → β) {δ : ℝ} {c : Cell ℝ} {A B : Set (α × Vec ℝ)} (h : NearBy δ c A B) :
    NearBy δ c ((fun a => (f a.1, a.2)) '' A) ((fun a => (f a.1, a.2)) '' B) := by
  rintro _ ⟨a, ha, rfl⟩
  obtain ⟨b, hb, e, h1⟩ := h a ha
  exact ⟨_, ⟨b, hb, rfl⟩, by simp [e], h1⟩

/-- Inherited labels are a function of the types. -/
theorem inherited_map {pickTo : ℤ → ℕ → Prop} {orig ts : List ℤ}
    (hp : ∀ t i, pickTo t i → orig[i]? = some t) {f : ℤ → α}
    {new : Option (List α)} (h : Inherited pickTo (some (orig.map f)) ts new) :
    new = some (ts.map f) := by
  obtain ⟨l', rfl, h2⟩ := h.2 _ rfl
  congr 1
  clear h
  induction h2 with
  | nil => rfl
  | cons hx _ ih =>
    obtain ⟨i, hi, e⟩ := hx
    rw [List.getElem?_map, hp _ _ hi] at e
    simp only [Option.map_some, Option.some.injEq] at e
    rw [List.map_cons, e, ← ih]

/-- Labels that are equal where the types are equal are a function of the types. -/
theorem exists_label [Inhabited α] (ts : List ℤ) (ls : List α) (hlen : ls.length = ts.length)
    (h : ∀ (i j : ℕ) t, ts[i]? = some t → ts[j]? = some t → ls[i]? = ls[j]?) :
    ∃ f : ℤ → α, ls = ts.map f := by
  refine ⟨fun t => ls.getD (ts.idxOf t) default, ?_⟩
  apply List.ext_getElem?
  intro i
  rw [List.getElem?_map]
  cases hi : ts[i]? with
  | none =>
    rw [List.getElem?_eq_none_iff] at hi
    simp [hlen, hi]
  | some t =>
    have hm : t ∈ ts := List.mem_of_getElem? hi
    have h2 : ts[ts.idxOf t]? = some t := by
      have := List.idxOf_lt_length_of_mem hm
      rw [List.getElem?_eq_getElem this, List.getElem_idxOf]
    have := h i _ t hi h2
    have hlt : i < ls.length := by rw [hlen]; exact (List.getElem?_eq_some_iff.1 hi).1
    have hlt' : ts.idxOf t < ls.length := by
      rw [hlen]; exact List.idxOf_lt_length_of_mem hm
    rw [this, List.getElem?_eq_getElem hlt']
    simp [List.getD, List.getElem?_eq_getElem hlt']

/-! ## The atoms kept by `_get_unique` -/

/-- The kept atoms, rounded, against all atoms. -/
theorem unique_within {prim : Cell ℝ} {ws vs : List (Vec ℝ)} {kept : List ℕ} {ts : List ℤ} {tol : ℝ}
    (h1 : List.Forall₂ WrappedTo ws vs) (h2 : ∀ i ∈ kept, i < ws.length)
    (hts : ts.length = ws.length)
    (h3 : ∀ j < ws.length, ∃ i ∈ kept, i ≤ j ∧ (i = j ∨ Coincide tol (vs.getD i 0) (vs.getD j 0)))
    (hs : Sparse (tol + 1 / 10 ^ 8) prim (crystal prim ws ts)) :
    NearBy (1 / 2 / 10 ^ 8) prim
      (crystal prim (kept.map fun i => vs.getD i 0) (kept.map fun i => ts.getD i 0))
      (crystal prim ws ts) ∧
    NearBy (1 / 2 / 10 ^ 8) prim (crystal prim ws ts)
      (crystal prim (kept.map fun i => vs.getD i 0) (kept.map fun i => ts.getD i 0)) := by
  have hlen := h1.length_eq
  -- every atom, moved to the cell at the origin
  have hw : ∀ i (hi : i < ws.length), ∃ (m : Fin 3 → ℤ) (e : Vec ℝ), (∀ j, |e j| ≤ 1 / 2 / 10 ^ 8) ∧
      ∀ j, vs.getD i 0 j = ws[i] j - m j + e j := by
    intro i hi
    have := (List.forall₂_iff_get.1 h1).2 i hi (by omega)
    choose n hn using fun j => (this j).2.2.2
    refine ⟨n, fun j => vs.getD i 0 j - (ws[i] j - n j), fun j => ?_, fun j => by ring⟩
    have e : vs.getD i 0 = vs[i] := by
      simp [List.getD, List.getElem?_eq_getElem (show i < vs.length by omega)]
    rw [e, abs_sub_comm]
    exact hn j
  have htg : ∀ i (hi : i < ws.length), ts[i]? = some (ts.getD i 0) := by
    intro i hi
    simp [List.getD, List.getElem?_eq_getElem (show i < ts.length by omega)]
  constructor
  · rintro ⟨t, x⟩ ⟨k, p, n, hk1, hk2, hx⟩
    simp only [List.getElem?_map, Option.map_eq_some_iff] at hk1 hk2 hx
    obtain ⟨i, hi, rfl⟩ := hk1
    obtain ⟨i', hi', rfl⟩ := hk2
    rw [hi] at hi'
    cases hi'
    have hil := h2 i (List.mem_of_getElem? hi)
    obtain ⟨m, e, he, hv⟩ := hw i hil
    refine ⟨(ts.getD i 0, cartesian prim fun j => ws[i] j + ((n j - m j : ℤ) : ℝ)),
      ⟨i, ws[i], fun j => n j - m j, htg i hil, List.getElem?_eq_getElem hil, rfl⟩, rfl, e, he, ?_⟩
    simp only
    rw [hx, ← cartesian_sub]
    congr 1
    ext j
    rw [hv j]
    push_cast
    ring
  · rintro ⟨t, x⟩ ⟨j, p, n, hj1, hj2, hx⟩
    simp only at hj1 hx
    obtain ⟨hj, rfl⟩ := List.getElem?_eq_some_iff.1 hj2
    obtain ⟨i, hi, -, hij⟩ := h3 j hj
    have hil := h2 i hi
    obtain ⟨k, hk, hk'⟩ := List.getElem_of_mem hi
    have hkk : kept[k]? = some i := List.getElem?_eq_some_iff.2 ⟨hk, hk'⟩
    obtain ⟨m, e, he, hv⟩ := hw i hil
    obtain ⟨m', e', he', hv'⟩ := hw j hj
    -- atom `i`, moved by a lattice vector, is atom `j`
    have hsame : (ts.getD i 0, cartesian prim fun q => ws[i] q + ((m' q - m q + n q : ℤ) : ℝ)) =
        ((t, x) : ℤ × Vec ℝ) := by
      rcases hij with rfl | hco
      · have hm : ∀ q, (m q : ℝ) = m' q := by
          intro q
          have a1 := he q
          have a2 := he' q
          have a3 := hv q
          have a4 := hv' q
          rw [abs_le] at a1 a2
          have : |((m q - m' q : ℤ) : ℝ)| < 1 := by
            rw [abs_lt]; push_cast
            constructor <;> linarith
          have h0 : m q - m' q = 0 := by
            have : |m q - m' q| < 1 := by exact_mod_cast this
            exact Int.abs_lt_one_iff.1 this
          have : m q = m' q := by omega
          rw [this]
        rw [htg i hil] at hj1
        cases hj1
        rw [hx]
        congr 2
        ext q
        push_cast
        rw [hm q]
        ring
      · refine hs _ ⟨i, ws[i], fun q => m' q - m q + n q, htg i hil, List.getElem?_eq_getElem hil, rfl⟩
          _ ⟨j, ws[j], n, hj1, hj2, hx⟩ (fun q => (ws[i] q - m q) - (ws[j] q - m' q)) (fun q => ?_) ?_
        · obtain ⟨h0, hc⟩ := hco
          have hq : |vs.getD i 0 q - vs.getD j 0 q| ≤ tol := by
            apply abs_le_of_sq_le_sq _ h0
            have s0 := sq_nonneg (vs.getD i 0 0 - vs.getD j 0 0)
            have s1 := sq_nonneg (vs.getD i 0 1 - vs.getD j 0 1)
            have s2 := sq_nonneg (vs.getD i 0 2 - vs.getD j 0 2)
            fin_cases q
            · show (vs.getD i 0 0 - vs.getD j 0 0) ^ 2 ≤ _; linarith
            · show (vs.getD i 0 1 - vs.getD j 0 1) ^ 2 ≤ _; linarith
            · show (vs.getD i 0 2 - vs.getD j 0 2) ^ 2 ≤ _; linarith
          rw [hv q, hv' q] at hq
          have a1 := he q
          have a2 := he' q
          rw [abs_le] at a1 a2 hq ⊢
          constructor <;> linarith
        · simp only
          rw [hx, ← cartesian_sub]
          congr 1
          ext q
          push_cast
          ring
    refine ⟨(ts.getD i 0, cartesian prim fun q => vs.getD i 0 q + ((m' q + n q : ℤ) : ℝ)),
      ⟨k, vs.getD i 0, fun q => m' q + n q, by simp [hkk], by simp [hkk], rfl⟩, ?_, fun q => -e q, ?_, ?_⟩
    · exact (congrArg Prod.fst hsame).symm
    · intro q; rw [abs_neg]; exact he q
    · have hx2 : x = _ := (congrArg Prod.snd hsame).symm
      simp only
      rw [hx2, ← cartesian_sub]
      congr 1
      ext q
      rw [hv q]
      push_cast
      ring

end Wulfric
