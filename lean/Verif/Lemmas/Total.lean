import Verif.Spec.Total
import Verif.Props.C63_SameCrystal

/-! # Counting equivalent atoms of a centred cell -/

namespace Wulfric

open Matrix _root_.Spec Wulfric.Spec

theorem cartesian_vecMul (c : Cell ℝ) (p : Vec ℝ) : cartesian c p = p ᵥ* c := by
  ext j
  simp [cartesian, vecMul, dotProduct, Fin.sum_univ_three]

theorem cartesian_inj {c : Cell ℝ} (hc : c.det ≠ 0) {p q : Vec ℝ} (h : cartesian c p = cartesian c q) :
    p = q := by
  rw [cartesian_vecMul, cartesian_vecMul] at h
  have e : c * c⁻¹ = 1 := mul_nonsing_inv _ (Ne.isUnit hc)
  have := congrArg (fun v => v ᵥ* c⁻¹) h
  simpa [vecMul_vecMul, e] using this

theorem npRint_shift (x : ℝ) (n : ℤ) : npRint (x + ((2 * n : ℤ) : ℝ)) = npRint x + 2 * n := by
  unfold npRint
  simp only [Int.floor_add_intCast]
  have e : x + ((2 * n : ℤ) : ℝ) - ((⌊x⌋ + 2 * n : ℤ) : ℝ) = x - (⌊x⌋ : ℝ) := by
    push_cast; ring
  rw [e]
  have hp : (⌊x⌋ + 2 * n) % 2 = ⌊x⌋ % 2 := by omega
  rw [hp]
  split_ifs <;> ring

/-- Positions that differ by a lattice vector are reduced to the same one. -/
theorem reduce_shift {v w : Vec ℝ} {n : Fin 3 → ℤ} (h : ∀ j, v j - w j = n j) :
    reducePosition v = reducePosition w := by
  funext j
  unfold reducePosition
  have e : npRound8 (v j) = npRound8 (w j) + (n j : ℝ) := by
    unfold npRound8
    have : v j * 10 ^ 8 = w j * 10 ^ 8 + ((2 * (n j * 50000000) : ℤ) : ℝ) := by
      have := h j
      push_cast
      linarith
    rw [this, npRint_shift]
    push_cast
    field_simp
    ring
  rw [e]
  congr 1
  unfold pyMod1
  rw [Int.floor_add_intCast]
  push_cast
  ring

/-- Reduced positions coincide exactly if the positions differ by a lattice vector. -/
theorem coincide_iff {prim : Cell ℝ} {ws : List (Vec ℝ)} {ts : List ℤ} {tol : ℝ} (htol : 0 ≤ tol)
    (hdet : prim.det ≠ 0) (hlen : ts.length = ws.length)
    (hs : Sparse (tol + 1 / 10 ^ 8) prim (crystal prim ws ts)) {i j : ℕ} {p q : Vec ℝ}
    (hp : ws[i]? = some p) (hq : ws[j]? = some q) :
    Coincide tol (reducePosition p) (reducePosition q) ↔ ∃ n : Fin 3 → ℤ, ∀ k, p k - q k = n k := by
  constructor
  · rintro ⟨-, h⟩
    have hi := (List.getElem?_eq_some_iff.1 hp).1
    have hj := (List.getElem?_eq_some_iff.1 hq).1
    have ti := List.getElem?_eq_getElem (l := ts) (i := i) (by omega)
    have tj := List.getElem?_eq_getElem (l := ts) (i := j) (by omega)
    have w1 := wrapped p
    have w2 := wrapped q
    choose n hn using fun k => (w1 k).2.2.2
    choose m hm using fun k => (w2 k).2.2.2
    have key : ∀ k, |(reducePosition p k - reducePosition q k)| ≤ tol := by
      intro k
      have : (reducePosition p k - reducePosition q k) ^ 2 ≤ tol ^ 2 := by
        refine le_trans ?_ h
        have a0 := sq_nonneg (reducePosition p 0 - reducePosition q 0)
        have a1 := sq_nonneg (reducePosition p 1 - reducePosition q 1)
        have a2 := sq_nonneg (reducePosition p 2 - reducePosition q 2)
        fin_cases k <;> simp only [Fin.zero_eta, Fin.mk_one, Fin.reduceFinMk] <;> linarith
      exact abs_le_of_sq_le_sq this htol
    have hh := hs (ts[i], cartesian prim fun k => p k + ((-n k : ℤ) : ℝ))
      ⟨i, p, fun k => -n k, ti, hp, rfl⟩ (ts[j], cartesian prim fun k => q k + ((-m k : ℤ) : ℝ))
      ⟨j, q, fun k => -m k, tj, hq, rfl⟩ (fun k => p k - n k - (q k - m k)) (by
        intro k
        have a1 := hn k
        have a2 := hm k
        have a3 := key k
        rw [abs_le] at a1 a2 a3 ⊢
        constructor <;> linarith) (by
        simp only
        rw [← cartesian_sub]
        congr 1
        ext k
        push_cast
        ring)
    have e := cartesian_inj (c := prim) (p := fun k => p k + ((-n k : ℤ) : ℝ))
      (q := fun k => q k + ((-m k : ℤ) : ℝ)) hdet (congrArg Prod.snd hh)
    refine ⟨fun k => n k - m k, fun k => ?_⟩
    have := congrFun e k
    push_cast at this ⊢
    linarith
  · rintro ⟨n, h⟩
    rw [reduce_shift h]
    exact ⟨htol, by simp; positivity⟩

/-- No two of the translations differ by a vector of integers. -/
def Incongruent (ts : List (Vec ℝ)) : Prop :=
  ∀ (k l : ℕ) (t u : Vec ℝ), ts[k]? = some t → ts[l]? = some u →
    (∃ n : Fin 3 → ℤ, ∀ j, t j - u j = n j) → k = l

/-- Every atom of the centred cell has as many equivalent atoms, itself included, as there are
centring translations. -/
theorem twins_centred {prim conv : Cell ℝ} {qs ws : List (Vec ℝ)} {cts : List ℤ} {tol : ℝ}
    {ts : List (Vec ℝ)} (htol : 0 ≤ tol) (hpd : prim.det ≠ 0) (hcd : conv.det ≠ 0)
    (hlen : cts.length = ws.length) (hsame : SamePoints conv qs prim ws)
    (hlat : latticePoints prim = centredLattice ts conv) (hts : Incongruent ts)
    (hcr : crystal prim ws cts = crystal conv qs cts) (hd : DistinctSites qs)
    (hs : Sparse (tol + 1 / 10 ^ 8) prim (crystal prim ws cts)) :
    ∀ p ∈ ws.map reducePosition, Twins tol (ws.map reducePosition) p ts.length := by
  classical
  intro p hp
  obtain ⟨w, hw, rfl⟩ := List.mem_map.1 hp
  obtain ⟨i, hi, hiw⟩ := List.getElem_of_mem hw
  have hwi : ws[i]? = some w := List.getElem?_eq_some_iff.2 ⟨hi, hiw⟩
  have hql : qs.length = ws.length := hsame.length_eq
  have hget : ∀ (j : ℕ) (hj : j < ws.length), ∃ q, qs[j]? = some q ∧
      cartesian conv q = cartesian prim ws[j] := by
    intro j hj
    exact ⟨qs[j], List.getElem?_eq_getElem (by omega),
      (List.forall₂_iff_get.1 hsame).2 j (by omega) hj⟩
  obtain ⟨q, hq, hqw⟩ := hget i hi
  rw [hiw] at hqw
  -- the atom that the translation leads to
  have hex : ∀ k : Fin ts.length, ∃ j : Fin ws.length, ∃ q' : Vec ℝ, ∃ m : Fin 3 → ℤ,
      qs[(j : ℕ)]? = some q' ∧ ∀ x, q x + ts[k] x = q' x + m x := by
    intro k
    have h1 : cartesian conv ts[k] ∈ latticePoints prim := by
      rw [hlat, mem_centred]
      exact ⟨0, ts[k], List.getElem_mem _, by congr 1; ext j; simp⟩
    obtain ⟨n, hn⟩ := (mem_latticePoints prim _).1 h1
    have h2 : (cts[i], cartesian conv fun x => q x + ts[k] x) ∈ crystal prim ws cts := by
      refine ⟨i, w, n, List.getElem?_eq_getElem (by omega), hwi, ?_⟩
      simp only
      rw [cartesian_add, cartesian_add, hn, hqw]
    rw [hcr] at h2
    obtain ⟨j, q', m, -, h4, h5⟩ := h2
    refine ⟨⟨j, ?_⟩, q', m, h4, fun x => ?_⟩
    · rw [← hql]
      exact (List.getElem?_eq_some_iff.1 h4).1
    · exact congrFun (cartesian_inj (c := conv) (p := fun x => q x + ts[k] x)
        (q := fun x => q' x + m x) hcd h5) x
  choose f g m hf1 hf2 using hex
  have hinj : Function.Injective f := by
    intro k l hkl
    have e : g k = g l := by
      have a := hf1 k
      rw [hkl, hf1 l] at a
      exact (Option.some.inj a).symm
    refine Fin.ext (hts k l ts[k] ts[l] (List.getElem?_eq_getElem k.2)
      (List.getElem?_eq_getElem l.2) ⟨fun x => m k x - m l x, fun x => ?_⟩)
    have a := hf2 k x
    have b := hf2 l x
    rw [e] at a
    push_cast
    linarith
  have hcast : (ws.map reducePosition).length = ws.length := List.length_map _
  refine ⟨Finset.univ.image fun k => Fin.cast hcast.symm (f k), ?_, fun j => ?_⟩
  · rw [Finset.card_image_of_injective, Finset.card_univ, Fintype.card_fin]
    intro k l h
    exact hinj (Fin.cast_injective _ h)
  · have hj : (j : ℕ) < ws.length := by rw [← hcast]; exact j.2
    have hwj : ws[(j : ℕ)]? = some ws[(j : ℕ)] := List.getElem?_eq_getElem hj
    rw [show (ws.map reducePosition).get j = reducePosition ws[(j : ℕ)] by simp,
      coincide_iff htol hpd hlen hs hwi hwj]
    obtain ⟨r, hr, hrw⟩ := hget j hj
    constructor
    · intro h
      obtain ⟨k, -, hk⟩ := Finset.mem_image.1 h
      have hjf : (j : ℕ) = f k := by rw [← hk]; rfl
      have hrg : r = g k := by
        have := hf1 k
        rw [← hjf, hr] at this
        exact Option.some.inj this
      have h1 : cartesian conv (fun x => ((-m k x : ℤ) : ℝ) + ts[k] x) ∈ latticePoints prim := by
        rw [hlat, mem_centred]
        exact ⟨fun x => -m k x, ts[k], List.getElem_mem _, rfl⟩
      obtain ⟨n, hn⟩ := (mem_latticePoints prim _).1 h1
      refine ⟨fun x => -n x, fun x => ?_⟩
      have e : ws[(j : ℕ)] = fun x => w x + n x := by
        apply cartesian_inj hpd
        rw [cartesian_add, ← hrw, ← hn, ← hqw, ← cartesian_add]
        congr 1
        ext y
        have := hf2 k y
        rw [← hrg] at this
        push_cast
        linarith
      rw [e]
      push_cast
      ring
    · rintro ⟨n, hn⟩
      have h1 : cartesian prim (fun x => ((-n x : ℤ) : ℝ)) ∈ latticePoints prim :=
        (mem_latticePoints prim _).2 ⟨fun x => -n x, rfl⟩
      rw [hlat, mem_centred] at h1
      obtain ⟨l, t, ht, hlt⟩ := h1
      obtain ⟨k, hk, rfl⟩ := List.getElem_of_mem ht
      have e : r = fun x => q x + (l x + ts[k] x) := by
        apply cartesian_inj hcd
        rw [cartesian_add, hqw, hrw, ← hlt, ← cartesian_add]
        congr 1
        ext x
        have := hn x
        push_cast
        linarith
      have hjj : (j : ℕ) = f ⟨k, hk⟩ := by
        refine hd _ _ r (g ⟨k, hk⟩) hr (hf1 _) ⟨fun x => l x + m ⟨k, hk⟩ x, fun x => ?_⟩
        have := hf2 ⟨k, hk⟩ x
        rw [e]
        simp only [Fin.getElem_fin] at this
        push_cast
        linarith
      refine Finset.mem_image.2 ⟨⟨k, hk⟩, Finset.mem_univ _, ?_⟩
      apply Fin.ext
      exact hjj.symm

/-- The centring translations are incongruent. -/
theorem incongruent_translations (l : Char) : Incongruent (translations ℝ l) := by
  have key : ∀ (x : ℝ) (n : ℤ), 0 < x → x < 1 → x ≠ n := by
    intro x n h0 h1 e
    rw [e] at h0 h1
    have a : (0 : ℤ) < n := by exact_mod_cast h0
    have b : n < (1 : ℤ) := by exact_mod_cast h1
    omega
  have key' : ∀ (x : ℝ) (n : ℤ), -1 < x → x < 0 → x ≠ n := by
    intro x n h0 h1 e
    rw [e] at h0 h1
    have a : (-1 : ℤ) < n := by exact_mod_cast h0
    have b : n < (0 : ℤ) := by exact_mod_cast h1
    omega
  intro k m t u ht hu hn
  obtain ⟨n, hn⟩ := hn
  have h0 := hn 0
  have h1 := hn 1
  have h2 := hn 2
  unfold translations at ht hu
  split at ht
  all_goals
    have hk := (List.getElem?_eq_some_iff.1 ht).1
    have hm := (List.getElem?_eq_some_iff.1 hu).1
    simp only [List.length_cons, List.length_nil, Nat.reduceAdd] at hk hm
    by_contra hkm
    interval_cases k <;> interval_cases m <;> first
      | exact hkm rfl
      | (simp only [List.getElem?_cons_zero, List.getElem?_cons_succ, Option.some.injEq] at ht hu
         subst ht
         subst hu
         first
          | (refine key _ _ ?_ ?_ h0 <;> norm_num <;> done)
          | (refine key' _ _ ?_ ?_ h0 <;> norm_num <;> done)
          | (refine key _ _ ?_ ?_ h1 <;> norm_num <;> done)
          | (refine key' _ _ ?_ ?_ h1 <;> norm_num <;> done))

end Wulfric
