import Verif.Spec.PerCell
import Verif.Props.C68_PathInZone
import Verif.Props.C77_Total

/-! # C83: the conventions agree on the lattice and on the atoms per primitive cell -/

namespace Wulfric

open Matrix _root_.Spec Wulfric.Spec

section
variable {α : Type}

theorem lattice_zero (c : Cell ℝ) : (0 : Vec ℝ) ∈ latticePoints c :=
  (mem_latticePoints c 0).2 ⟨0, by ext j; simp [cartesian]⟩

theorem lattice_sub {c : Cell ℝ} {x y : Vec ℝ} (hx : x ∈ latticePoints c)
    (hy : y ∈ latticePoints c) : x - y ∈ latticePoints c := by
  obtain ⟨n, rfl⟩ := (mem_latticePoints c x).1 hx
  obtain ⟨m, rfl⟩ := (mem_latticePoints c y).1 hy
  refine (mem_latticePoints c _).2 ⟨fun j => n j - m j, ?_⟩
  rw [← cartesian_sub]
  congr 1
  ext j
  push_cast
  ring

theorem lattice_neg {c : Cell ℝ} {x : Vec ℝ} (hx : x ∈ latticePoints c) :
    -x ∈ latticePoints c := by
  simpa using lattice_sub (lattice_zero c) hx

theorem lattice_add {c : Cell ℝ} {x y : Vec ℝ} (hx : x ∈ latticePoints c)
    (hy : y ∈ latticePoints c) : x + y ∈ latticePoints c := by
  simpa using lattice_sub hx (lattice_neg hy)

/-- The atoms of the lattice translates of `x`. -/
def translates (c : Cell ℝ) (x : Vec ℝ) : Set (Vec ℝ) := {y | y - x ∈ latticePoints c}

theorem translates_eq {c : Cell ℝ} {x y : Vec ℝ} :
    translates c x = translates c y ↔ x - y ∈ latticePoints c := by
  constructor
  · intro h
    have : x ∈ translates c x := by
      show x - x ∈ latticePoints c
      rw [sub_self]; exact lattice_zero c
    rw [h] at this
    exact this
  · intro h
    ext z
    show z - x ∈ latticePoints c ↔ z - y ∈ latticePoints c
    constructor
    · intro k
      have := lattice_add k h
      rwa [sub_add_sub_cancel] at this
    · intro k
      have := lattice_sub k h
      rwa [sub_sub_sub_cancel_right] at this

/-- The origin does not matter. -/
theorem perCell_moved (c : Cell ℝ) (v : Vec ℝ) (A : Set (α × Vec ℝ)) (l : α) :
    perCell c (moved v A) l = perCell c A l := by
  unfold perCell
  rw [← Set.ncard_image_of_injective {q | ∃ x, (l, x) ∈ A ∧ q = {y | y - x ∈ latticePoints c}}
    (f := fun q => (fun y : Vec ℝ => y - v) ⁻¹' q)
    (Set.preimage_injective.2 fun y => ⟨y + v, by simp⟩)]
  congr 1
  ext q
  constructor
  · rintro ⟨x, hx, rfl⟩
    refine ⟨_, ⟨x - v, hx, rfl⟩, ?_⟩
    ext y
    show y - v - (x - v) ∈ latticePoints c ↔ y - x ∈ latticePoints c
    rw [sub_sub_sub_cancel_right]
  · rintro ⟨_, ⟨x, hx, rfl⟩, rfl⟩
    refine ⟨x + v, ?_, ?_⟩
    · show (l, x + v - v) ∈ A
      simpa using hx
    · ext y
      show y - v - x ∈ latticePoints c ↔ y - (x + v) ∈ latticePoints c
      rw [sub_sub, add_comm]

/-- Only the lattice matters. -/
theorem perCell_lattice {c d : Cell ℝ} (h : SameLattice c d) (A : Set (α × Vec ℝ)) (l : α) :
    perCell c A l = perCell d A l := by
  unfold perCell
  rw [show latticePoints c = latticePoints d from h]

/-- A list of indices with one atom of each class counts the classes. -/
theorem perCell_count {c : Cell ℝ} {ws : List (Vec ℝ)} {cts : List ℤ} {kept : List ℕ}
    (hlen : cts.length = ws.length) (hk : kept.Nodup) (hkl : ∀ i ∈ kept, i < ws.length)
    (hinj : ∀ i ∈ kept, ∀ j ∈ kept,
      cartesian c (ws.getD i 0) - cartesian c (ws.getD j 0) ∈ latticePoints c → i = j)
    (hsur : ∀ j < ws.length, ∃ i ∈ kept, cts.getD i 0 = cts.getD j 0 ∧
      cartesian c (ws.getD j 0) - cartesian c (ws.getD i 0) ∈ latticePoints c) (t : ℤ) :
    perCell c (crystal c ws cts) t = (kept.map fun i => cts.getD i 0).count t := by
  classical
  have hset : {q : Set (Vec ℝ) | ∃ x, (t, x) ∈ crystal c ws cts ∧
      q = {y | y - x ∈ latticePoints c}} =
      (fun i => translates c (cartesian c (ws.getD i 0))) ''
        (((kept.filter fun i => cts.getD i 0 = t).toFinset : Finset ℕ) : Set ℕ) := by
    ext q
    constructor
    · rintro ⟨x, ⟨j, p, n, h1, h2, h3⟩, rfl⟩
      obtain ⟨hj, rfl⟩ := List.getElem?_eq_some_iff.1 h2
      simp only at h1 h3
      obtain ⟨i, hi, e1, e2⟩ := hsur j hj
      have hw : ws.getD j 0 = ws[j] := by simp [List.getD, List.getElem?_eq_getElem hj]
      have ht : cts.getD j 0 = t := by simp [List.getD, h1]
      refine ⟨i, ?_, ?_⟩
      · simp only [List.coe_toFinset, List.mem_filter, decide_eq_true_eq, Set.mem_ofPred_eq]
        exact ⟨hi, e1.trans ht⟩
      · show translates c _ = translates c x
        rw [translates_eq, h3, cartesian_add]
        rw [hw] at e2
        have := lattice_neg (lattice_add e2 ((mem_latticePoints c _).2 ⟨n, rfl⟩))
        convert this using 1
        abel
    · rintro ⟨i, hi, rfl⟩
      simp only [List.coe_toFinset, List.mem_filter, decide_eq_true_eq, Set.mem_ofPred_eq] at hi
      have hil := hkl i hi.1
      refine ⟨cartesian c (ws.getD i 0), ⟨i, ws.getD i 0, 0, ?_, ?_, ?_⟩, rfl⟩
      · have : cts[i]? = some (cts.getD i 0) := by
          simp [List.getD, List.getElem?_eq_getElem (show i < cts.length by omega)]
        rw [this, hi.2]
      · simp [List.getD, List.getElem?_eq_getElem hil]
      · simp
  unfold perCell
  rw [hset, Set.InjOn.ncard_image, Set.ncard_coe_finset,
    List.toFinset_card_of_nodup (hk.filter _), List.count_eq_countP, List.countP_map,
    List.countP_eq_length_filter]
  · rfl
  · intro i hi j hj h
    simp only [List.coe_toFinset, List.mem_filter, decide_eq_true_eq, Set.mem_ofPred_eq] at hi hj
    exact hinj i hi.1 j hj.1 (translates_eq.1 h)

end

section
variable {lower : String → String} {getData : Cell ℝ → Atoms ℝ → Except Err SpglibData}
  {niggli : Cell ℝ → Except Err (Cell ℝ)} {cell : Cell ℝ} {atoms : Atoms ℝ}
  {given : Option SpglibData} {data : SpglibData}
  (hd : resolveData lower getData cell atoms given = .ok data) (hs : SoundData data atoms)
  (hpl : latticePoints data.primitiveCell = centredLattice (translations ℝ
    (hpkotLetter (family data.spaceGroupNumber ++ centring data.spaceGroupNumber)))
    data.conventionalCell)
  (hnig : ∀ r r', niggli r = .ok r' → SameLattice r r')
  (hl1 : lower "hpkot" = "hpkot") (hl2 : lower "sc" = "sc")

include hd hs hpl hnig hl1 hl2

/-- C83, one convention: the returned primitive cell is a cell of the lattice of the crystal, and it
has as many atoms of each type as the crystal has per cell of this lattice. -/
theorem C83_primitive {convention : String} {prim : Cell ℝ} {atoms' : Atoms ℝ}
    (hR : lower convention = "hpkot" →
      family data.spaceGroupNumber ++ centring data.spaceGroupNumber ≠ "hR")
    (h : getPrimitive lower getData niggli cell atoms convention given = .ok (prim, atoms')) :
    latticePoints prim = latticePoints data.primitiveCell ∧
    ((lower convention ≠ "spglib" → Sparse (data.symprec + 1 / 10 ^ 8) prim data.given) →
      ∃ ps ts, Describes data atoms atoms' ps ts ∧ ts.length = ps.length ∧
        ∀ t, ts.count t = perCell data.primitiveCell data.given t) := by
  obtain ⟨d, ps, ts, h1, h2, h3⟩ := getPrimitive_steps h
  rw [hd] at h1
  cases h1
  have hdes := newAtoms_describes (firstIndex_iff _) (fun t i hi => hi.1) hs.types h3
  by_cases hcs : lower convention = "spglib"
  · unfold primitiveParts at h2
    rw [if_pos hcs] at h2
    cases h2
    refine ⟨rfl, fun _ => ⟨_, _, hdes, hs.primitive_len, fun t => ?_⟩⟩
    obtain ⟨v, hv⟩ := hs.standardised.primitive
    rw [← perCell_moved _ v, ← hv, perCell_count (kept := List.range data.primitiveTypes.length)
      hs.primitive_len List.nodup_range (fun i hi => by
        rw [← hs.primitive_len]; exact List.mem_range.1 hi)]
    · congr 1
      apply List.ext_getElem
      · simp
      · intro i a b
        simp [a]
    · intro i hi j hj hij
      have hi := List.mem_range.1 hi
      have hj := List.mem_range.1 hj
      rw [hs.primitive_len] at hi hj
      rw [← cartesian_sub] at hij
      obtain ⟨n, hn⟩ := (mem_latticePoints _ _).1 hij
      refine hs.primitive_distinct i j _ _ (List.getElem?_eq_getElem hi)
        (List.getElem?_eq_getElem hj) ⟨n, fun k => ?_⟩
      have := congrFun (cartesian_inj hs.primitive_det hn) k
      simpa [List.getD, List.getElem?_eq_getElem hi, List.getElem?_eq_getElem hj] using this
    · intro j hj
      refine ⟨j, List.mem_range.2 (by rw [hs.primitive_len]; exact hj), rfl, ?_⟩
      rw [sub_self]
      exact lattice_zero _
  obtain ⟨hcv, conv, ca, matrix, qs, ws, e1, e2, e3, e4, e5, e6, e7⟩ := primitiveParts_steps hcs h2
  obtain ⟨d2, qs2, cts, g1, g2, g3⟩ := getConventional_steps e1
  have hd2 : d2 = data := by
    obtain ⟨-, ⟨e, -⟩ | ⟨e, -⟩⟩ := resolveData_ok g1
    · cases e
    · cases e; rfl
  subst hd2
  have hll : lower (lower convention) = lower convention := by
    rcases hcv with e | e <;> rw [e] <;> assumption
  rw [hll] at g2
  obtain ⟨hpos, hty, -⟩ := newAtoms_describes (lastIndex_iff _) (fun t i hi => hi.1) hs.types g3
  rw [e5] at hpos
  cases hpos
  rw [hty, Option.getD_some] at e7
  have hlat : latticePoints prim = latticePoints d2.primitiveCell := by
    by_cases hhR : lower convention = "sc" ∧ d2.crystalFamily = "h" ∧ d2.centringType = "R"
    · obtain ⟨p1, p2, p3⟩ := parts_ok g2
      rw [sourceOf, if_pos hhR] at p3
      have hl : SameLattice d2.primitiveCell conv := by
        rcases p3 with p | ⟨e, -, -⟩
        · exact p.sameLattice.1
        · rw [hhR.1] at e; exact absurd e (by decide)
      have := (C34_sc _ _ (e3 hhR.1) conv).1
      rw [← e4, hhR.2.1, hhR.2.2, show scLetter ("h" ++ "R") = 'P' by decide +kernel,
        centredP] at this
      rw [this]
      exact hl.symm
    · rw [hpl]
      exact primitive_lattice hs.number hs.family hs.centring hnig hcv hll hR e1 e2 e3 e4 g2 hhR
  refine ⟨hlat, fun hsp => ⟨ps, ts, hdes, ?_⟩⟩
  obtain ⟨v, hv, -⟩ := primitive_before hs.number hs.family hs.centring hs.standardised hnig hcv hll
    hR e1 e2 e3 e4 e6 g2
  have hlen : cts.length = ws.length := by
    unfold getUnique at e7
    simp only at e7
    split_ifs at e7 with q1 q2 q3
    rw [q3, List.length_map]
  have hdet : prim.det ≠ 0 := det_sameLattice hlat.symm hs.primitive_det
  obtain ⟨vs, kept, rfl, k1, k2, k3, rfl, rfl, k6, k7, -⟩ := unique_kept _ _ _ _ _ _ e7
  have hsparse : Sparse (d2.symprec + 1 / 10 ^ 8) prim (crystal prim ws cts) := by
    rw [hv]
    rintro ⟨l, x⟩ ha ⟨l', y⟩ hb e he hxy
    have := hsp hcs _ ha _ hb e he (by simpa using hxy)
    simp only [Prod.mk.injEq, sub_left_inj] at this
    rw [this.1, this.2]
  have hget : ∀ i (hi : i < ws.length), (ws.map reducePosition).getD i 0 =
      reducePosition (ws.getD i 0) ∧ ws[i]? = some (ws.getD i 0) := by
    intro i hi
    simp [List.getD, List.getElem?_eq_getElem hi]
  refine ⟨by simp, fun t => ?_⟩
  rw [perCell_lattice (c := d2.primitiveCell) (d := prim) hlat.symm, ← perCell_moved _ v, ← hv,
    perCell_count hlen (k2.imp fun h => Nat.ne_of_lt h) k3]
  · intro i hi j hj hij
    by_contra hne
    rw [← cartesian_sub] at hij
    obtain ⟨n, hn⟩ := (mem_latticePoints _ _).1 hij
    refine k6 i hi j hj hne ?_
    rw [(hget i (k3 i hi)).1, (hget j (k3 j hj)).1]
    exact (coincide_iff hs.symprec hdet hlen hsparse (hget i (k3 i hi)).2 (hget j (k3 j hj)).2).2
      ⟨n, fun k => congrFun (cartesian_inj hdet hn) k⟩
  · intro j hj
    obtain ⟨i, hi, -, hij⟩ := k7 j hj
    rcases hij with rfl | hij
    · exact ⟨i, hi, rfl, by rw [sub_self]; exact lattice_zero _⟩
    have hil := k3 i hi
    rw [(hget i hil).1, (hget j hj).1] at hij
    obtain ⟨n, hn⟩ := (coincide_iff hs.symprec hdet hlen hsparse (hget i hil).2 (hget j hj).2).1 hij
    have hpts : cartesian prim (ws.getD j 0) - cartesian prim (ws.getD i 0) =
        cartesian prim fun k => ((-n k : ℤ) : ℝ) := by
      rw [← cartesian_sub]
      congr 1
      ext k
      have := hn k
      push_cast
      linarith
    refine ⟨i, hi, ?_, (mem_latticePoints _ _).2 ⟨fun k => -n k, hpts⟩⟩
    -- the two atoms are one place of the crystal, so they are one atom
    have htg : ∀ i (hi : i < ws.length), cts[i]? = some (cts.getD i 0) := by
      intro i hi
      simp [List.getD, List.getElem?_eq_getElem (show i < cts.length by omega)]
    have := hsparse (cts.getD i 0, cartesian prim fun k => ws.getD i 0 k + ((-n k : ℤ) : ℝ))
      ⟨i, ws.getD i 0, fun k => -n k, htg i hil, (hget i hil).2, rfl⟩
      (cts.getD j 0, cartesian prim fun k => ws.getD j 0 k + ((0 : ℤ) : ℝ))
      ⟨j, ws.getD j 0, fun _ => 0, htg j hj, (hget j hj).2, rfl⟩ 0 (fun k => by
        have := hs.symprec
        simp only [Pi.zero_apply, abs_zero]
        positivity) (by
        simp only
        rw [← cartesian_sub]
        congr 1
        ext k
        have := hn k
        push_cast
        simp only [Pi.zero_apply]
        linarith)
    exact congrArg Prod.fst this

/-- C83: two conventions return cells of one lattice, hence of one volume and with one Brillouin
zone, with the same numbers of atoms of each type, and of each species or name if atoms of one type
have one species or name. -/
theorem C83_conventions {c1 c2 : String} {p1 p2 : Cell ℝ} {a1 a2 : Atoms ℝ}
    (hR : lower c1 = "hpkot" ∨ lower c2 = "hpkot" →
      family data.spaceGroupNumber ++ centring data.spaceGroupNumber ≠ "hR")
    (h1 : getPrimitive lower getData niggli cell atoms c1 given = .ok (p1, a1))
    (h2 : getPrimitive lower getData niggli cell atoms c2 given = .ok (p2, a2)) :
    SameLattice p1 p2 ∧ |p1.det| = |p2.det| ∧
    (∀ r1 r2, getReciprocal p1 = .ok r1 → getReciprocal p2 = .ok r2 →
      ∀ k, InZone r1 k ↔ InZone r2 k) ∧
    ((lower c1 ≠ "spglib" → Sparse (data.symprec + 1 / 10 ^ 8) p1 data.given) →
      (lower c2 ≠ "spglib" → Sparse (data.symprec + 1 / 10 ^ 8) p2 data.given) →
      (∃ t1 t2, a1.spglibTypes = some t1 ∧ a2.spglibTypes = some t2 ∧ t1.Perm t2) ∧
      ∀ f : ℤ → String,
        (atoms.species = some (data.original.types.map f) →
          ∃ s1 s2, a1.species = some s1 ∧ a2.species = some s2 ∧ s1.Perm s2) ∧
        (atoms.names = some (data.original.types.map f) →
          ∃ s1 s2, a1.names = some s1 ∧ a2.names = some s2 ∧ s1.Perm s2)) := by
  obtain ⟨l1, k1⟩ := C83_primitive hd hs hpl hnig hl1 hl2 (fun e => hR (.inl e)) h1
  obtain ⟨l2, k2⟩ := C83_primitive hd hs hpl hnig hl1 hl2 (fun e => hR (.inr e)) h2
  have hl : SameLattice p1 p2 := l1.trans l2.symm
  refine ⟨hl, hl.symm.abs_det, fun r1 r2 e1 e2 k => C68_zone_of_lattice p1 p2 r1 r2 hl e1 e2 k,
    fun s1 s2 => ?_⟩
  obtain ⟨ps1, ts1, d1, -, n1⟩ := k1 s1
  obtain ⟨ps2, ts2, d2, -, n2⟩ := k2 s2
  have hp : ts1.Perm ts2 := List.perm_iff_count.2 fun t => (n1 t).trans (n2 t).symm
  refine ⟨⟨ts1, ts2, d1.2.1, d2.2.1, hp⟩, fun f => ⟨fun e => ?_, fun e => ?_⟩⟩
  · exact ⟨_, _, (d1.2.2 f).2 e, (d2.2.2 f).2 e, hp.map f⟩
  · exact ⟨_, _, (d1.2.2 f).1 e, (d2.2.2 f).1 e, hp.map f⟩

end

/-- The hypotheses are met: one atom in a box, P222, with "HPKOT" and "spglib". -/
example : ∃ p1 p2 a1 a2, getPrimitive String.toLower (fun _ _ => .error .runtimeError)
      (fun c => .ok c) !![3, 0, 0; 0, 5, 0; 0, 0, 4] boxAtoms
      "HPKOT" (some (oneData !![3, 0, 0; 0, 5, 0; 0, 0, 4] 16 "o" "P")) = .ok (p1, a1) ∧
    getPrimitive String.toLower (fun _ _ => .error .runtimeError)
      (fun c => .ok c) !![3, 0, 0; 0, 5, 0; 0, 0, 4] boxAtoms
      "spglib" (some (oneData !![3, 0, 0; 0, 5, 0; 0, 0, 4] 16 "o" "P")) = .ok (p2, a2) ∧
    SameLattice p1 p2 := by
  set c : Cell ℝ := !![3, 0, 0; 0, 5, 0; 0, 0, 4] with hcell
  have hdet : c.det ≠ 0 := by simp [hcell, det_fin_three]
  have hl : String.toLower "HPKOT" = "hpkot" := by decide +kernel
  have hl' : String.toLower "hpkot" = "hpkot" := by decide +kernel
  have hsnd : SoundData (oneData c 16 "o" "P") boxAtoms :=
    one_sound _ hdet 16 (by norm_num) (by decide +kernel) (by decide +kernel) (by decide +kernel)
  have hconv := (C36_unchanged (fun c => .ok c) (oneData c 16 "o" "P")).2 (by simp [oneData])
  rw [← hl] at hconv
  have hres := one_resolve String.toLower (fun _ _ => .error .runtimeError) c 16 "o" "P"
  have hnig : ∀ r r' : Cell ℝ, (Except.ok r : Except Err (Cell ℝ)) = .ok r' → SameLattice r r' := by
    intro r r' h; cases h; rfl
  obtain ⟨ca, hca⟩ := C77_conventional hres hsnd hconv
  obtain ⟨p1, a1, h1, -, -⟩ := C77_primitive hres hsnd hnig hres (.inl hl) (by rw [hl, hl'])
    (fun _ => by decide +kernel) hca (by
      intro m hm
      rw [show (oneData c 16 "o" "P").crystalFamily ++ (oneData c 16 "o" "P").centringType =
        "o" ++ "P" from rfl, one_matrix (by decide)] at hm
      cases hm
      rw [transpose_one, one_mul]
      exact one_sparse hdet _ (by norm_num [oneData]))
  obtain ⟨p2, a2, h2⟩ := (C77_spglib (niggli := fun c => .ok c) (convention := "spglib") hres hsnd
    (by decide +kernel)).2
  refine ⟨p1, p2, a1, a2, h1, h2, ?_⟩
  refine (C83_conventions hres hsnd ?_ hnig hl' (by decide +kernel) (fun _ => by decide +kernel)
    h1 h2).1
  show latticePoints c = centredLattice (translations ℝ (hpkotLetter ("o" ++ "P"))) c
  rw [show hpkotLetter ("o" ++ "P") = 'P' by decide +kernel, centredP]

end Wulfric
