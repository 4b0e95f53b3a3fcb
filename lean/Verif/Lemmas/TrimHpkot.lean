import Verif.Lemmas.Trim

/-! # The time-reversal-invariant momenta in the tables of HPKOT -/

namespace Wulfric

open Matrix _root_.Spec Wulfric.Spec

theorem trims_hpkot_cP_69 {conv r : Cell ℝ} {a : ℝ} (h : HasParams conv a a a 90 90 90)
   (hr : getReciprocal ((!![1, 0, 0; 0, 1, 0; 0, 0, 1] : Cell ℝ).transpose *
      conv) = .ok r) : TrimTable r ["GAMMA", "X", "M", "R"] hpkotTable69 := by
  have hG := metric_box h
  have s0 : LatSym r !![1, 0, 0; 0, 1, 0; 0, 0, 1] := latSym_one r
  have s1 : LatSym r !![0, 0, 1; 1, 0, 0; 0, 1, 0] :=
    latSym_of hr !![0, 0, 1; 1, 0, 0; 0, 1, 0] !![0, 0, 1; 1, 0, 0; 0, 1, 0]
      !![0, 0, 1; 1, 0, 0; 0, 1, 0] (by rw [hG]; sym_check) (by sym_check) (by decide)
  have s2 : LatSym r !![0, 1, 0; 0, 0, 1; 1, 0, 0] :=
    latSym_of hr !![0, 1, 0; 0, 0, 1; 1, 0, 0] !![0, 1, 0; 0, 0, 1; 1, 0, 0]
      !![0, 1, 0; 0, 0, 1; 1, 0, 0] (by rw [hG]; sym_check) (by sym_check) (by decide)
  refine trims_of (recip_unit hr) ?_
  simp only [parities, List.forall_mem_cons, List.not_mem_nil, false_implies, implies_true, and_true]
  refine ⟨?_, ?_, ?_, ?_, ?_, ?_, ?_, ?_⟩
  · exact ⟨("GAMMA", ![0, 0, 0]), List.mem_of_getElem? (i := 0) rfl, by simp, _, s0, ![0, 0, 0],
      by half_check⟩
  · exact ⟨("X", ![0, 1 / 2, 0]), List.mem_of_getElem? (i := 3) rfl, by simp, _, s1, ![0, 0, 0],
      by half_check⟩
  · exact ⟨("X", ![0, 1 / 2, 0]), List.mem_of_getElem? (i := 3) rfl, by simp, _, s0, ![0, 0, 0],
      by half_check⟩
  · exact ⟨("M", ![1 / 2, 1 / 2, 0]), List.mem_of_getElem? (i := 2) rfl, by simp, _, s1, ![0, 0, 0],
      by half_check⟩
  · exact ⟨("X", ![0, 1 / 2, 0]), List.mem_of_getElem? (i := 3) rfl, by simp, _, s2, ![0, 0, 0],
      by half_check⟩
  · exact ⟨("M", ![1 / 2, 1 / 2, 0]), List.mem_of_getElem? (i := 2) rfl, by simp, _, s2, ![0, 0, 0],
      by half_check⟩
  · exact ⟨("M", ![1 / 2, 1 / 2, 0]), List.mem_of_getElem? (i := 2) rfl, by simp, _, s0, ![0, 0, 0],
      by half_check⟩
  · exact ⟨("R", ![1 / 2, 1 / 2, 1 / 2]), List.mem_of_getElem? (i := 1) rfl, by simp, _, s0, ![0, 0, 0],
      by half_check⟩

theorem trims_hpkot_cF_70 {conv r : Cell ℝ} {a : ℝ} (h : HasParams conv a a a 90 90 90)
   (hr : getReciprocal ((!![0, 1 / 2, 1 / 2; 1 / 2, 0, 1 / 2; 1 / 2, 1 / 2, 0] : Cell ℝ).transpose *
      conv) = .ok r) : TrimTable r ["GAMMA", "L", "X"] hpkotTable70 := by
  have hG := metric_box h
  have s0 : LatSym r !![1, 0, 0; 0, 1, 0; 0, 0, 1] := latSym_one r
  have s1 : LatSym r !![0, 0, -1; 0, -1, 0; 1, 1, 1] :=
    latSym_of hr !![0, 1, 0; 0, 0, 1; -1, 0, 0] !![1, 0, -1; 1, -1, 0; 1, 0, 0]
      !![0, 0, -1; 0, -1, 0; 1, 1, 1] (by rw [hG]; sym_check) (by sym_check) (by decide)
  have s2 : LatSym r !![0, 0, -1; 1, 1, 1; -1, 0, 0] :=
    latSym_of hr !![1, 0, 0; 0, -1, 0; 0, 0, 1] !![0, 1, -1; 0, 1, 0; -1, 1, 0]
      !![0, 0, -1; 1, 1, 1; -1, 0, 0] (by rw [hG]; sym_check) (by sym_check) (by decide)
  have s3 : LatSym r !![0, 1, 0; 0, 0, 1; 1, 0, 0] :=
    latSym_of hr !![0, 1, 0; 0, 0, 1; 1, 0, 0] !![0, 1, 0; 0, 0, 1; 1, 0, 0]
      !![0, 1, 0; 0, 0, 1; 1, 0, 0] (by rw [hG]; sym_check) (by sym_check) (by decide)
  have s4 : LatSym r !![1, 1, 1; 0, 0, -1; 0, -1, 0] :=
    latSym_of hr !![-1, 0, 0; 0, 1, 0; 0, 0, 1] !![1, 0, 0; 1, 0, -1; 1, -1, 0]
      !![1, 1, 1; 0, 0, -1; 0, -1, 0] (by rw [hG]; sym_check) (by sym_check) (by decide)
  have s5 : LatSym r !![0, 0, 1; 1, 0, 0; 0, 1, 0] :=
    latSym_of hr !![0, 0, 1; 1, 0, 0; 0, 1, 0] !![0, 0, 1; 1, 0, 0; 0, 1, 0]
      !![0, 0, 1; 1, 0, 0; 0, 1, 0] (by rw [hG]; sym_check) (by sym_check) (by decide)
  refine trims_of (recip_unit hr) ?_
  simp only [parities, List.forall_mem_cons, List.not_mem_nil, false_implies, implies_true, and_true]
  refine ⟨?_, ?_, ?_, ?_, ?_, ?_, ?_, ?_⟩
  · exact ⟨("GAMMA", ![0, 0, 0]), List.mem_of_getElem? (i := 0) rfl, by simp, _, s0, ![0, 0, 0],
      by half_check⟩
  · exact ⟨("L", ![1 / 2, 1 / 2, 1 / 2]), List.mem_of_getElem? (i := 2) rfl, by simp, _, s1, ![0, 0, 0],
      by half_check⟩
  · exact ⟨("L", ![1 / 2, 1 / 2, 1 / 2]), List.mem_of_getElem? (i := 2) rfl, by simp, _, s2, ![0, 0, 0],
      by half_check⟩
  · exact ⟨("X", ![1 / 2, 0, 1 / 2]), List.mem_of_getElem? (i := 1) rfl, by simp, _, s3, ![0, 0, 0],
      by half_check⟩
  · exact ⟨("L", ![1 / 2, 1 / 2, 1 / 2]), List.mem_of_getElem? (i := 2) rfl, by simp, _, s4, ![0, 0, 0],
      by half_check⟩
  · exact ⟨("X", ![1 / 2, 0, 1 / 2]), List.mem_of_getElem? (i := 1) rfl, by simp, _, s0, ![0, 0, 0],
      by half_check⟩
  · exact ⟨("X", ![1 / 2, 0, 1 / 2]), List.mem_of_getElem? (i := 1) rfl, by simp, _, s5, ![0, 0, 0],
      by half_check⟩
  · exact ⟨("L", ![1 / 2, 1 / 2, 1 / 2]), List.mem_of_getElem? (i := 2) rfl, by simp, _, s0, ![0, 0, 0],
      by half_check⟩

theorem trims_hpkot_cI_71 {conv r : Cell ℝ} {a : ℝ} (h : HasParams conv a a a 90 90 90)
   (hr : getReciprocal ((!![-1 / 2, 1 / 2, 1 / 2; 1 / 2, -1 / 2, 1 / 2; 1 / 2, 1 / 2, -1 / 2] : Cell ℝ).transpose *
      conv) = .ok r) : TrimTable r ["GAMMA", "N", "H"] hpkotTable71 := by
  have hG := metric_box h
  have s0 : LatSym r !![1, 0, 0; 0, 1, 0; 0, 0, 1] := latSym_one r
  have s1 : LatSym r !![0, 1, 0; 0, 0, 1; 1, 0, 0] :=
    latSym_of hr !![0, 1, 0; 0, 0, 1; 1, 0, 0] !![0, 1, 0; 0, 0, 1; 1, 0, 0]
      !![0, 1, 0; 0, 0, 1; 1, 0, 0] (by rw [hG]; sym_check) (by sym_check) (by decide)
  have s2 : LatSym r !![1, -1, 0; 1, 0, 0; 1, 0, -1] :=
    latSym_of hr !![0, 0, 1; -1, 0, 0; 0, 1, 0] !![0, -1, 0; 1, 1, 1; 0, 0, -1]
      !![1, -1, 0; 1, 0, 0; 1, 0, -1] (by rw [hG]; sym_check) (by sym_check) (by decide)
  have s3 : LatSym r !![0, 0, 1; 1, 0, 0; 0, 1, 0] :=
    latSym_of hr !![0, 0, 1; 1, 0, 0; 0, 1, 0] !![0, 0, 1; 1, 0, 0; 0, 1, 0]
      !![0, 0, 1; 1, 0, 0; 0, 1, 0] (by rw [hG]; sym_check) (by sym_check) (by decide)
  have s4 : LatSym r !![1, 0, -1; 1, -1, 0; 1, 0, 0] :=
    latSym_of hr !![0, 1, 0; 0, 0, 1; -1, 0, 0] !![0, 0, -1; 0, -1, 0; 1, 1, 1]
      !![1, 0, -1; 1, -1, 0; 1, 0, 0] (by rw [hG]; sym_check) (by sym_check) (by decide)
  have s5 : LatSym r !![1, 0, 0; 1, 0, -1; 1, -1, 0] :=
    latSym_of hr !![-1, 0, 0; 0, 1, 0; 0, 0, 1] !![1, 1, 1; 0, 0, -1; 0, -1, 0]
      !![1, 0, 0; 1, 0, -1; 1, -1, 0] (by rw [hG]; sym_check) (by sym_check) (by decide)
  refine trims_of (recip_unit hr) ?_
  simp only [parities, List.forall_mem_cons, List.not_mem_nil, false_implies, implies_true, and_true]
  refine ⟨?_, ?_, ?_, ?_, ?_, ?_, ?_, ?_⟩
  · exact ⟨("GAMMA", ![0, 0, 0]), List.mem_of_getElem? (i := 0) rfl, by simp, _, s0, ![0, 0, 0],
      by half_check⟩
  · exact ⟨("N", ![0, 0, 1 / 2]), List.mem_of_getElem? (i := 3) rfl, by simp, _, s0, ![0, 0, 0],
      by half_check⟩
  · exact ⟨("N", ![0, 0, 1 / 2]), List.mem_of_getElem? (i := 3) rfl, by simp, _, s1, ![0, 0, 0],
      by half_check⟩
  · exact ⟨("N", ![0, 0, 1 / 2]), List.mem_of_getElem? (i := 3) rfl, by simp, _, s2, ![1, 0, -1],
      by half_check⟩
  · exact ⟨("N", ![0, 0, 1 / 2]), List.mem_of_getElem? (i := 3) rfl, by simp, _, s3, ![0, 0, 0],
      by half_check⟩
  · exact ⟨("N", ![0, 0, 1 / 2]), List.mem_of_getElem? (i := 3) rfl, by simp, _, s4, ![1, 0, -1],
      by half_check⟩
  · exact ⟨("N", ![0, 0, 1 / 2]), List.mem_of_getElem? (i := 3) rfl, by simp, _, s5, ![1, 0, -1],
      by half_check⟩
  · exact ⟨("H", ![1 / 2, -1 / 2, 1 / 2]), List.mem_of_getElem? (i := 1) rfl, by simp, _, s0, ![0, 1, 0],
      by half_check⟩

theorem trims_hpkot_tP_72 {conv r : Cell ℝ} {a c : ℝ} (h : HasParams conv a a c 90 90 90)
   (hr : getReciprocal ((!![1, 0, 0; 0, 1, 0; 0, 0, 1] : Cell ℝ).transpose *
      conv) = .ok r) : TrimTable r ["GAMMA", "Z", "X", "R", "M", "A"] hpkotTable72 := by
  have hG := metric_box h
  have s0 : LatSym r !![1, 0, 0; 0, 1, 0; 0, 0, 1] := latSym_one r
  have s1 : LatSym r !![0, 1, 0; 1, 0, 0; 0, 0, 1] :=
    latSym_of hr !![0, 1, 0; 1, 0, 0; 0, 0, 1] !![0, 1, 0; 1, 0, 0; 0, 0, 1]
      !![0, 1, 0; 1, 0, 0; 0, 0, 1] (by rw [hG]; sym_check) (by sym_check) (by decide)
  refine trims_of (recip_unit hr) ?_
  simp only [parities, List.forall_mem_cons, List.not_mem_nil, false_implies, implies_true, and_true]
  refine ⟨?_, ?_, ?_, ?_, ?_, ?_, ?_, ?_⟩
  · exact ⟨("GAMMA", ![0, 0, 0]), List.mem_of_getElem? (i := 0) rfl, by simp, _, s0, ![0, 0, 0],
      by half_check⟩
  · exact ⟨("Z", ![0, 0, 1 / 2]), List.mem_of_getElem? (i := 1) rfl, by simp, _, s0, ![0, 0, 0],
      by half_check⟩
  · exact ⟨("X", ![0, 1 / 2, 0]), List.mem_of_getElem? (i := 5) rfl, by simp, _, s0, ![0, 0, 0],
      by half_check⟩
  · exact ⟨("R", ![0, 1 / 2, 1 / 2]), List.mem_of_getElem? (i := 4) rfl, by simp, _, s0, ![0, 0, 0],
      by half_check⟩
  · exact ⟨("X", ![0, 1 / 2, 0]), List.mem_of_getElem? (i := 5) rfl, by simp, _, s1, ![0, 0, 0],
      by half_check⟩
  · exact ⟨("R", ![0, 1 / 2, 1 / 2]), List.mem_of_getElem? (i := 4) rfl, by simp, _, s1, ![0, 0, 0],
      by half_check⟩
  · exact ⟨("M", ![1 / 2, 1 / 2, 0]), List.mem_of_getElem? (i := 2) rfl, by simp, _, s0, ![0, 0, 0],
      by half_check⟩
  · exact ⟨("A", ![1 / 2, 1 / 2, 1 / 2]), List.mem_of_getElem? (i := 3) rfl, by simp, _, s0, ![0, 0, 0],
      by half_check⟩

theorem trims_hpkot_tI_73 {conv r : Cell ℝ} {a c : ℝ} (h : HasParams conv a a c 90 90 90)
   (hr : getReciprocal ((!![-1 / 2, 1 / 2, 1 / 2; 1 / 2, -1 / 2, 1 / 2; 1 / 2, 1 / 2, -1 / 2] : Cell ℝ).transpose *
      conv) = .ok r) (x0 x1 : ℝ) : TrimTable r ["GAMMA", "X", "N", "M"] (hpkotTable73 x0 x1) := by
  have hG := metric_box h
  have s0 : LatSym r !![1, 0, 0; 0, 1, 0; 0, 0, 1] := latSym_one r
  have s1 : LatSym r !![1, 0, -1; 1, 0, 0; 1, -1, 0] :=
    latSym_of hr !![0, 1, 0; -1, 0, 0; 0, 0, 1] !![0, 0, -1; 1, 1, 1; 0, -1, 0]
      !![1, 0, -1; 1, 0, 0; 1, -1, 0] (by rw [hG]; sym_check) (by sym_check) (by decide)
  have s2 : LatSym r !![0, 1, 0; 1, 0, 0; 0, 0, 1] :=
    latSym_of hr !![0, 1, 0; 1, 0, 0; 0, 0, 1] !![0, 1, 0; 1, 0, 0; 0, 0, 1]
      !![0, 1, 0; 1, 0, 0; 0, 0, 1] (by rw [hG]; sym_check) (by sym_check) (by decide)
  have s3 : LatSym r !![1, 0, 0; 1, 0, -1; 1, -1, 0] :=
    latSym_of hr !![-1, 0, 0; 0, 1, 0; 0, 0, 1] !![1, 1, 1; 0, 0, -1; 0, -1, 0]
      !![1, 0, 0; 1, 0, -1; 1, -1, 0] (by rw [hG]; sym_check) (by sym_check) (by decide)
  refine trims_of (recip_unit hr) ?_
  simp only [parities, List.forall_mem_cons, List.not_mem_nil, false_implies, implies_true, and_true]
  refine ⟨?_, ?_, ?_, ?_, ?_, ?_, ?_, ?_⟩
  · exact ⟨("GAMMA", ![0, 0, 0]), List.mem_of_getElem? (i := 0) rfl, by simp, _, s0, ![0, 0, 0],
      by half_check⟩
  · exact ⟨("X", ![0, 0, 1 / 2]), List.mem_of_getElem? (i := 2) rfl, by simp, _, s0, ![0, 0, 0],
      by half_check⟩
  · exact ⟨("N", ![0, 1 / 2, 0]), List.mem_of_getElem? (i := 6) rfl, by simp, _, s0, ![0, 0, 0],
      by half_check⟩
  · exact ⟨("N", ![0, 1 / 2, 0]), List.mem_of_getElem? (i := 6) rfl, by simp, _, s1, ![1, -1, 0],
      by half_check⟩
  · exact ⟨("N", ![0, 1 / 2, 0]), List.mem_of_getElem? (i := 6) rfl, by simp, _, s2, ![0, 0, 0],
      by half_check⟩
  · exact ⟨("N", ![0, 1 / 2, 0]), List.mem_of_getElem? (i := 6) rfl, by simp, _, s3, ![1, -1, 0],
      by half_check⟩
  · exact ⟨("X", ![0, 0, 1 / 2]), List.mem_of_getElem? (i := 2) rfl, by simp, _, s3, ![1, 0, -1],
      by half_check⟩
  · exact ⟨("M", ![-1 / 2, 1 / 2, 1 / 2]), List.mem_of_getElem? (i := 1) rfl, by simp, _, s0, ![1, 0, 0],
      by half_check⟩

theorem trims_hpkot_tI_74 {conv r : Cell ℝ} {a c : ℝ} (h : HasParams conv a a c 90 90 90)
   (hr : getReciprocal ((!![-1 / 2, 1 / 2, 1 / 2; 1 / 2, -1 / 2, 1 / 2; 1 / 2, 1 / 2, -1 / 2] : Cell ℝ).transpose *
      conv) = .ok r) (x0 x1 : ℝ) : TrimTable r ["GAMMA", "X", "N", "M"] (hpkotTable74 x0 x1) := by
  have hG := metric_box h
  have s0 : LatSym r !![1, 0, 0; 0, 1, 0; 0, 0, 1] := latSym_one r
  have s1 : LatSym r !![1, 0, -1; 1, 0, 0; 1, -1, 0] :=
    latSym_of hr !![0, 1, 0; -1, 0, 0; 0, 0, 1] !![0, 0, -1; 1, 1, 1; 0, -1, 0]
      !![1, 0, -1; 1, 0, 0; 1, -1, 0] (by rw [hG]; sym_check) (by sym_check) (by decide)
  have s2 : LatSym r !![0, 1, 0; 1, 0, 0; 0, 0, 1] :=
    latSym_of hr !![0, 1, 0; 1, 0, 0; 0, 0, 1] !![0, 1, 0; 1, 0, 0; 0, 0, 1]
      !![0, 1, 0; 1, 0, 0; 0, 0, 1] (by rw [hG]; sym_check) (by sym_check) (by decide)
  have s3 : LatSym r !![1, 0, 0; 1, 0, -1; 1, -1, 0] :=
    latSym_of hr !![-1, 0, 0; 0, 1, 0; 0, 0, 1] !![1, 1, 1; 0, 0, -1; 0, -1, 0]
      !![1, 0, 0; 1, 0, -1; 1, -1, 0] (by rw [hG]; sym_check) (by sym_check) (by decide)
  refine trims_of (recip_unit hr) ?_
  simp only [parities, List.forall_mem_cons, List.not_mem_nil, false_implies, implies_true, and_true]
  refine ⟨?_, ?_, ?_, ?_, ?_, ?_, ?_, ?_⟩
  · exact ⟨("GAMMA", ![0, 0, 0]), List.mem_of_getElem? (i := 0) rfl, by simp, _, s0, ![0, 0, 0],
      by half_check⟩
  · exact ⟨("X", ![0, 0, 1 / 2]), List.mem_of_getElem? (i := 2) rfl, by simp, _, s0, ![0, 0, 0],
      by half_check⟩
  · exact ⟨("N", ![0, 1 / 2, 0]), List.mem_of_getElem? (i := 4) rfl, by simp, _, s0, ![0, 0, 0],
      by half_check⟩
  · exact ⟨("N", ![0, 1 / 2, 0]), List.mem_of_getElem? (i := 4) rfl, by simp, _, s1, ![1, -1, 0],
      by half_check⟩
  · exact ⟨("N", ![0, 1 / 2, 0]), List.mem_of_getElem? (i := 4) rfl, by simp, _, s2, ![0, 0, 0],
      by half_check⟩
  · exact ⟨("N", ![0, 1 / 2, 0]), List.mem_of_getElem? (i := 4) rfl, by simp, _, s3, ![1, -1, 0],
      by half_check⟩
  · exact ⟨("X", ![0, 0, 1 / 2]), List.mem_of_getElem? (i := 2) rfl, by simp, _, s3, ![1, 0, -1],
      by half_check⟩
  · exact ⟨("M", ![1 / 2, 1 / 2, -1 / 2]), List.mem_of_getElem? (i := 1) rfl, by simp, _, s0, ![0, 0, 1],
      by half_check⟩

theorem trims_hpkot_oP_75 {conv r : Cell ℝ} {a b c : ℝ} (h : HasParams conv a b c 90 90 90)
   (hr : getReciprocal ((!![1, 0, 0; 0, 1, 0; 0, 0, 1] : Cell ℝ).transpose *
      conv) = .ok r) : TrimTable r ["GAMMA", "Z", "Y", "T", "X", "U", "S", "R"] hpkotTable75 := by
  have hG := metric_box h
  have s0 : LatSym r !![1, 0, 0; 0, 1, 0; 0, 0, 1] := latSym_one r
  refine trims_of (recip_unit hr) ?_
  simp only [parities, List.forall_mem_cons, List.not_mem_nil, false_implies, implies_true, and_true]
  refine ⟨?_, ?_, ?_, ?_, ?_, ?_, ?_, ?_⟩
  · exact ⟨("GAMMA", ![0, 0, 0]), List.mem_of_getElem? (i := 0) rfl, by simp, _, s0, ![0, 0, 0],
      by half_check⟩
  · exact ⟨("Z", ![0, 0, 1 / 2]), List.mem_of_getElem? (i := 2) rfl, by simp, _, s0, ![0, 0, 0],
      by half_check⟩
  · exact ⟨("Y", ![0, 1 / 2, 0]), List.mem_of_getElem? (i := 4) rfl, by simp, _, s0, ![0, 0, 0],
      by half_check⟩
  · exact ⟨("T", ![0, 1 / 2, 1 / 2]), List.mem_of_getElem? (i := 6) rfl, by simp, _, s0, ![0, 0, 0],
      by half_check⟩
  · exact ⟨("X", ![1 / 2, 0, 0]), List.mem_of_getElem? (i := 1) rfl, by simp, _, s0, ![0, 0, 0],
      by half_check⟩
  · exact ⟨("U", ![1 / 2, 0, 1 / 2]), List.mem_of_getElem? (i := 3) rfl, by simp, _, s0, ![0, 0, 0],
      by half_check⟩
  · exact ⟨("S", ![1 / 2, 1 / 2, 0]), List.mem_of_getElem? (i := 5) rfl, by simp, _, s0, ![0, 0, 0],
      by half_check⟩
  · exact ⟨("R", ![1 / 2, 1 / 2, 1 / 2]), List.mem_of_getElem? (i := 7) rfl, by simp, _, s0, ![0, 0, 0],
      by half_check⟩

theorem trims_hpkot_oF_76 {conv r : Cell ℝ} {a b c : ℝ} (h : HasParams conv a b c 90 90 90)
   (hr : getReciprocal ((!![0, 1 / 2, 1 / 2; 1 / 2, 0, 1 / 2; 1 / 2, 1 / 2, 0] : Cell ℝ).transpose *
      conv) = .ok r) (x0 x1 x2 : ℝ) : TrimTable r ["GAMMA", "L", "T", "Y", "Z"] (hpkotTable76 x0 x1 x2) := by
  have hG := metric_box h
  have s0 : LatSym r !![1, 0, 0; 0, 1, 0; 0, 0, 1] := latSym_one r
  have s1 : LatSym r !![0, -1, 0; -1, 0, 0; 1, 1, 1] :=
    latSym_of hr !![1, 0, 0; 0, 1, 0; 0, 0, -1] !![0, -1, 1; -1, 0, 1; 0, 0, 1]
      !![0, -1, 0; -1, 0, 0; 1, 1, 1] (by rw [hG]; sym_check) (by sym_check) (by decide)
  have s2 : LatSym r !![0, 0, -1; 1, 1, 1; -1, 0, 0] :=
    latSym_of hr !![1, 0, 0; 0, -1, 0; 0, 0, 1] !![0, 1, -1; 0, 1, 0; -1, 1, 0]
      !![0, 0, -1; 1, 1, 1; -1, 0, 0] (by rw [hG]; sym_check) (by sym_check) (by decide)
  have s3 : LatSym r !![1, 1, 1; 0, 0, -1; 0, -1, 0] :=
    latSym_of hr !![-1, 0, 0; 0, 1, 0; 0, 0, 1] !![1, 0, 0; 1, 0, -1; 1, -1, 0]
      !![1, 1, 1; 0, 0, -1; 0, -1, 0] (by rw [hG]; sym_check) (by sym_check) (by decide)
  refine trims_of (recip_unit hr) ?_
  simp only [parities, List.forall_mem_cons, List.not_mem_nil, false_implies, implies_true, and_true]
  refine ⟨?_, ?_, ?_, ?_, ?_, ?_, ?_, ?_⟩
  · exact ⟨("GAMMA", ![0, 0, 0]), List.mem_of_getElem? (i := 0) rfl, by simp, _, s0, ![0, 0, 0],
      by half_check⟩
  · exact ⟨("L", ![1 / 2, 1 / 2, 1 / 2]), List.mem_of_getElem? (i := 8) rfl, by simp, _, s1, ![0, 0, 0],
      by half_check⟩
  · exact ⟨("L", ![1 / 2, 1 / 2, 1 / 2]), List.mem_of_getElem? (i := 8) rfl, by simp, _, s2, ![0, 0, 0],
      by half_check⟩
  · exact ⟨("T", ![1, 1 / 2, 1 / 2]), List.mem_of_getElem? (i := 1) rfl, by simp, _, s0, ![-1, 0, 0],
      by half_check⟩
  · exact ⟨("L", ![1 / 2, 1 / 2, 1 / 2]), List.mem_of_getElem? (i := 8) rfl, by simp, _, s3, ![0, 0, 0],
      by half_check⟩
  · exact ⟨("Y", ![1 / 2, 0, 1 / 2]), List.mem_of_getElem? (i := 3) rfl, by simp, _, s0, ![0, 0, 0],
      by half_check⟩
  · exact ⟨("Z", ![1 / 2, 1 / 2, 0]), List.mem_of_getElem? (i := 2) rfl, by simp, _, s0, ![0, 0, 0],
      by half_check⟩
  · exact ⟨("L", ![1 / 2, 1 / 2, 1 / 2]), List.mem_of_getElem? (i := 8) rfl, by simp, _, s0, ![0, 0, 0],
      by half_check⟩

theorem trims_hpkot_oF_77 {conv r : Cell ℝ} {a b c : ℝ} (h : HasParams conv a b c 90 90 90)
   (hr : getReciprocal ((!![0, 1 / 2, 1 / 2; 1 / 2, 0, 1 / 2; 1 / 2, 1 / 2, 0] : Cell ℝ).transpose *
      conv) = .ok r) (x0 x1 x2 : ℝ) : TrimTable r ["GAMMA", "L", "T", "Y", "Z"] (hpkotTable77 x0 x1 x2) := by
  have hG := metric_box h
  have s0 : LatSym r !![1, 0, 0; 0, 1, 0; 0, 0, 1] := latSym_one r
  have s1 : LatSym r !![0, -1, 0; -1, 0, 0; 1, 1, 1] :=
    latSym_of hr !![1, 0, 0; 0, 1, 0; 0, 0, -1] !![0, -1, 1; -1, 0, 1; 0, 0, 1]
      !![0, -1, 0; -1, 0, 0; 1, 1, 1] (by rw [hG]; sym_check) (by sym_check) (by decide)
  have s2 : LatSym r !![0, 0, -1; 1, 1, 1; -1, 0, 0] :=
    latSym_of hr !![1, 0, 0; 0, -1, 0; 0, 0, 1] !![0, 1, -1; 0, 1, 0; -1, 1, 0]
      !![0, 0, -1; 1, 1, 1; -1, 0, 0] (by rw [hG]; sym_check) (by sym_check) (by decide)
  have s3 : LatSym r !![1, 1, 1; 0, 0, -1; 0, -1, 0] :=
    latSym_of hr !![-1, 0, 0; 0, 1, 0; 0, 0, 1] !![1, 0, 0; 1, 0, -1; 1, -1, 0]
      !![1, 1, 1; 0, 0, -1; 0, -1, 0] (by rw [hG]; sym_check) (by sym_check) (by decide)
  refine trims_of (recip_unit hr) ?_
  simp only [parities, List.forall_mem_cons, List.not_mem_nil, false_implies, implies_true, and_true]
  refine ⟨?_, ?_, ?_, ?_, ?_, ?_, ?_, ?_⟩
  · exact ⟨("GAMMA", ![0, 0, 0]), List.mem_of_getElem? (i := 0) rfl, by simp, _, s0, ![0, 0, 0],
      by half_check⟩
  · exact ⟨("L", ![1 / 2, 1 / 2, 1 / 2]), List.mem_of_getElem? (i := 8) rfl, by simp, _, s1, ![0, 0, 0],
      by half_check⟩
  · exact ⟨("L", ![1 / 2, 1 / 2, 1 / 2]), List.mem_of_getElem? (i := 8) rfl, by simp, _, s2, ![0, 0, 0],
      by half_check⟩
  · exact ⟨("T", ![0, 1 / 2, 1 / 2]), List.mem_of_getElem? (i := 1) rfl, by simp, _, s0, ![0, 0, 0],
      by half_check⟩
  · exact ⟨("L", ![1 / 2, 1 / 2, 1 / 2]), List.mem_of_getElem? (i := 8) rfl, by simp, _, s3, ![0, 0, 0],
      by half_check⟩
  · exact ⟨("Y", ![1 / 2, 0, 1 / 2]), List.mem_of_getElem? (i := 3) rfl, by simp, _, s0, ![0, 0, 0],
      by half_check⟩
  · exact ⟨("Z", ![1 / 2, 1 / 2, 1]), List.mem_of_getElem? (i := 2) rfl, by simp, _, s0, ![0, 0, -1],
      by half_check⟩
  · exact ⟨("L", ![1 / 2, 1 / 2, 1 / 2]), List.mem_of_getElem? (i := 8) rfl, by simp, _, s0, ![0, 0, 0],
      by half_check⟩

theorem trims_hpkot_oF_78 {conv r : Cell ℝ} {a b c : ℝ} (h : HasParams conv a b c 90 90 90)
   (hr : getReciprocal ((!![0, 1 / 2, 1 / 2; 1 / 2, 0, 1 / 2; 1 / 2, 1 / 2, 0] : Cell ℝ).transpose *
      conv) = .ok r) (x0 x1 x2 : ℝ) : TrimTable r ["GAMMA", "L", "T", "Y", "Z"] (hpkotTable78 x0 x1 x2) := by
  have hG := metric_box h
  have s0 : LatSym r !![1, 0, 0; 0, 1, 0; 0, 0, 1] := latSym_one r
  have s1 : LatSym r !![0, -1, 0; -1, 0, 0; 1, 1, 1] :=
    latSym_of hr !![1, 0, 0; 0, 1, 0; 0, 0, -1] !![0, -1, 1; -1, 0, 1; 0, 0, 1]
      !![0, -1, 0; -1, 0, 0; 1, 1, 1] (by rw [hG]; sym_check) (by sym_check) (by decide)
  have s2 : LatSym r !![0, 0, -1; 1, 1, 1; -1, 0, 0] :=
    latSym_of hr !![1, 0, 0; 0, -1, 0; 0, 0, 1] !![0, 1, -1; 0, 1, 0; -1, 1, 0]
      !![0, 0, -1; 1, 1, 1; -1, 0, 0] (by rw [hG]; sym_check) (by sym_check) (by decide)
  have s3 : LatSym r !![1, 1, 1; 0, 0, -1; 0, -1, 0] :=
    latSym_of hr !![-1, 0, 0; 0, 1, 0; 0, 0, 1] !![1, 0, 0; 1, 0, -1; 1, -1, 0]
      !![1, 1, 1; 0, 0, -1; 0, -1, 0] (by rw [hG]; sym_check) (by sym_check) (by decide)
  refine trims_of (recip_unit hr) ?_
  simp only [parities, List.forall_mem_cons, List.not_mem_nil, false_implies, implies_true, and_true]
  refine ⟨?_, ?_, ?_, ?_, ?_, ?_, ?_, ?_⟩
  · exact ⟨("GAMMA", ![0, 0, 0]), List.mem_of_getElem? (i := 0) rfl, by simp, _, s0, ![0, 0, 0],
      by half_check⟩
  · exact ⟨("L", ![1 / 2, 1 / 2, 1 / 2]), List.mem_of_getElem? (i := 10) rfl, by simp, _, s1, ![0, 0, 0],
      by half_check⟩
  · exact ⟨("L", ![1 / 2, 1 / 2, 1 / 2]), List.mem_of_getElem? (i := 10) rfl, by simp, _, s2, ![0, 0, 0],
      by half_check⟩
  · exact ⟨("T", ![0, 1 / 2, 1 / 2]), List.mem_of_getElem? (i := 1) rfl, by simp, _, s0, ![0, 0, 0],
      by half_check⟩
  · exact ⟨("L", ![1 / 2, 1 / 2, 1 / 2]), List.mem_of_getElem? (i := 10) rfl, by simp, _, s3, ![0, 0, 0],
      by half_check⟩
  · exact ⟨("Y", ![1 / 2, 0, 1 / 2]), List.mem_of_getElem? (i := 3) rfl, by simp, _, s0, ![0, 0, 0],
      by half_check⟩
  · exact ⟨("Z", ![1 / 2, 1 / 2, 0]), List.mem_of_getElem? (i := 2) rfl, by simp, _, s0, ![0, 0, 0],
      by half_check⟩
  · exact ⟨("L", ![1 / 2, 1 / 2, 1 / 2]), List.mem_of_getElem? (i := 10) rfl, by simp, _, s0, ![0, 0, 0],
      by half_check⟩

theorem trims_hpkot_oI_79 {conv r : Cell ℝ} {a b c : ℝ} (h : HasParams conv a b c 90 90 90)
   (hr : getReciprocal ((!![-1 / 2, 1 / 2, 1 / 2; 1 / 2, -1 / 2, 1 / 2; 1 / 2, 1 / 2, -1 / 2] : Cell ℝ).transpose *
      conv) = .ok r) (x0 x1 x2 : ℝ) : TrimTable r ["GAMMA", "T", "R", "S", "X"] (hpkotTable79 x0 x1 x2) := by
  have hG := metric_box h
  have s0 : LatSym r !![1, 0, 0; 0, 1, 0; 0, 0, 1] := latSym_one r
  have s1 : LatSym r !![0, 1, -1; 0, 1, 0; -1, 1, 0] :=
    latSym_of hr !![1, 0, 0; 0, -1, 0; 0, 0, 1] !![0, 0, -1; 1, 1, 1; -1, 0, 0]
      !![0, 1, -1; 0, 1, 0; -1, 1, 0] (by rw [hG]; sym_check) (by sym_check) (by decide)
  have s2 : LatSym r !![1, 0, 0; 1, 0, -1; 1, -1, 0] :=
    latSym_of hr !![-1, 0, 0; 0, 1, 0; 0, 0, 1] !![1, 1, 1; 0, 0, -1; 0, -1, 0]
      !![1, 0, 0; 1, 0, -1; 1, -1, 0] (by rw [hG]; sym_check) (by sym_check) (by decide)
  refine trims_of (recip_unit hr) ?_
  simp only [parities, List.forall_mem_cons, List.not_mem_nil, false_implies, implies_true, and_true]
  refine ⟨?_, ?_, ?_, ?_, ?_, ?_, ?_, ?_⟩
  · exact ⟨("GAMMA", ![0, 0, 0]), List.mem_of_getElem? (i := 0) rfl, by simp, _, s0, ![0, 0, 0],
      by half_check⟩
  · exact ⟨("T", ![0, 0, 1 / 2]), List.mem_of_getElem? (i := 4) rfl, by simp, _, s0, ![0, 0, 0],
      by half_check⟩
  · exact ⟨("R", ![0, 1 / 2, 0]), List.mem_of_getElem? (i := 3) rfl, by simp, _, s0, ![0, 0, 0],
      by half_check⟩
  · exact ⟨("S", ![1 / 2, 0, 0]), List.mem_of_getElem? (i := 2) rfl, by simp, _, s1, ![-1, 1, 0],
      by half_check⟩
  · exact ⟨("S", ![1 / 2, 0, 0]), List.mem_of_getElem? (i := 2) rfl, by simp, _, s0, ![0, 0, 0],
      by half_check⟩
  · exact ⟨("R", ![0, 1 / 2, 0]), List.mem_of_getElem? (i := 3) rfl, by simp, _, s2, ![1, -1, 0],
      by half_check⟩
  · exact ⟨("T", ![0, 0, 1 / 2]), List.mem_of_getElem? (i := 4) rfl, by simp, _, s2, ![1, 0, -1],
      by half_check⟩
  · exact ⟨("X", ![1 / 2, 1 / 2, -1 / 2]), List.mem_of_getElem? (i := 1) rfl, by simp, _, s0, ![0, 0, 1],
      by half_check⟩

theorem trims_hpkot_oI_80 {conv r : Cell ℝ} {a b c : ℝ} (h : HasParams conv a b c 90 90 90)
   (hr : getReciprocal ((!![-1 / 2, 1 / 2, 1 / 2; 1 / 2, -1 / 2, 1 / 2; 1 / 2, 1 / 2, -1 / 2] : Cell ℝ).transpose *
      conv) = .ok r) (x0 x1 x2 : ℝ) : TrimTable r ["GAMMA", "T", "R", "S", "X"] (hpkotTable80 x0 x1 x2) := by
  have hG := metric_box h
  have s0 : LatSym r !![1, 0, 0; 0, 1, 0; 0, 0, 1] := latSym_one r
  have s1 : LatSym r !![0, 1, -1; 0, 1, 0; -1, 1, 0] :=
    latSym_of hr !![1, 0, 0; 0, -1, 0; 0, 0, 1] !![0, 0, -1; 1, 1, 1; -1, 0, 0]
      !![0, 1, -1; 0, 1, 0; -1, 1, 0] (by rw [hG]; sym_check) (by sym_check) (by decide)
  have s2 : LatSym r !![1, 0, 0; 1, 0, -1; 1, -1, 0] :=
    latSym_of hr !![-1, 0, 0; 0, 1, 0; 0, 0, 1] !![1, 1, 1; 0, 0, -1; 0, -1, 0]
      !![1, 0, 0; 1, 0, -1; 1, -1, 0] (by rw [hG]; sym_check) (by sym_check) (by decide)
  refine trims_of (recip_unit hr) ?_
  simp only [parities, List.forall_mem_cons, List.not_mem_nil, false_implies, implies_true, and_true]
  refine ⟨?_, ?_, ?_, ?_, ?_, ?_, ?_, ?_⟩
  · exact ⟨("GAMMA", ![0, 0, 0]), List.mem_of_getElem? (i := 0) rfl, by simp, _, s0, ![0, 0, 0],
      by half_check⟩
  · exact ⟨("T", ![0, 0, 1 / 2]), List.mem_of_getElem? (i := 4) rfl, by simp, _, s0, ![0, 0, 0],
      by half_check⟩
  · exact ⟨("R", ![0, 1 / 2, 0]), List.mem_of_getElem? (i := 3) rfl, by simp, _, s0, ![0, 0, 0],
      by half_check⟩
  · exact ⟨("S", ![1 / 2, 0, 0]), List.mem_of_getElem? (i := 2) rfl, by simp, _, s1, ![-1, 1, 0],
      by half_check⟩
  · exact ⟨("S", ![1 / 2, 0, 0]), List.mem_of_getElem? (i := 2) rfl, by simp, _, s0, ![0, 0, 0],
      by half_check⟩
  · exact ⟨("R", ![0, 1 / 2, 0]), List.mem_of_getElem? (i := 3) rfl, by simp, _, s2, ![1, -1, 0],
      by half_check⟩
  · exact ⟨("T", ![0, 0, 1 / 2]), List.mem_of_getElem? (i := 4) rfl, by simp, _, s2, ![1, 0, -1],
      by half_check⟩
  · exact ⟨("X", ![-1 / 2, 1 / 2, 1 / 2]), List.mem_of_getElem? (i := 1) rfl, by simp, _, s0, ![1, 0, 0],
      by half_check⟩

theorem trims_hpkot_oI_81 {conv r : Cell ℝ} {a b c : ℝ} (h : HasParams conv a b c 90 90 90)
   (hr : getReciprocal ((!![-1 / 2, 1 / 2, 1 / 2; 1 / 2, -1 / 2, 1 / 2; 1 / 2, 1 / 2, -1 / 2] : Cell ℝ).transpose *
      conv) = .ok r) (x0 x1 x2 : ℝ) : TrimTable r ["GAMMA", "T", "R", "S", "X"] (hpkotTable81 x0 x1 x2) := by
  have hG := metric_box h
  have s0 : LatSym r !![1, 0, 0; 0, 1, 0; 0, 0, 1] := latSym_one r
  have s1 : LatSym r !![0, 1, -1; 0, 1, 0; -1, 1, 0] :=
    latSym_of hr !![1, 0, 0; 0, -1, 0; 0, 0, 1] !![0, 0, -1; 1, 1, 1; -1, 0, 0]
      !![0, 1, -1; 0, 1, 0; -1, 1, 0] (by rw [hG]; sym_check) (by sym_check) (by decide)
  have s2 : LatSym r !![1, 0, 0; 1, 0, -1; 1, -1, 0] :=
    latSym_of hr !![-1, 0, 0; 0, 1, 0; 0, 0, 1] !![1, 1, 1; 0, 0, -1; 0, -1, 0]
      !![1, 0, 0; 1, 0, -1; 1, -1, 0] (by rw [hG]; sym_check) (by sym_check) (by decide)
  refine trims_of (recip_unit hr) ?_
  simp only [parities, List.forall_mem_cons, List.not_mem_nil, false_implies, implies_true, and_true]
  refine ⟨?_, ?_, ?_, ?_, ?_, ?_, ?_, ?_⟩
  · exact ⟨("GAMMA", ![0, 0, 0]), List.mem_of_getElem? (i := 0) rfl, by simp, _, s0, ![0, 0, 0],
      by half_check⟩
  · exact ⟨("T", ![0, 0, 1 / 2]), List.mem_of_getElem? (i := 4) rfl, by simp, _, s0, ![0, 0, 0],
      by half_check⟩
  · exact ⟨("R", ![0, 1 / 2, 0]), List.mem_of_getElem? (i := 3) rfl, by simp, _, s0, ![0, 0, 0],
      by half_check⟩
  · exact ⟨("S", ![1 / 2, 0, 0]), List.mem_of_getElem? (i := 2) rfl, by simp, _, s1, ![-1, 1, 0],
      by half_check⟩
  · exact ⟨("S", ![1 / 2, 0, 0]), List.mem_of_getElem? (i := 2) rfl, by simp, _, s0, ![0, 0, 0],
      by half_check⟩
  · exact ⟨("R", ![0, 1 / 2, 0]), List.mem_of_getElem? (i := 3) rfl, by simp, _, s2, ![1, -1, 0],
      by half_check⟩
  · exact ⟨("T", ![0, 0, 1 / 2]), List.mem_of_getElem? (i := 4) rfl, by simp, _, s2, ![1, 0, -1],
      by half_check⟩
  · exact ⟨("X", ![1 / 2, -1 / 2, 1 / 2]), List.mem_of_getElem? (i := 1) rfl, by simp, _, s0, ![0, 1, 0],
      by half_check⟩

theorem trims_hpkot_oC_82 {conv r : Cell ℝ} {a b c : ℝ} (h : HasParams conv a b c 90 90 90)
   (hr : getReciprocal ((!![1 / 2, 1 / 2, 0; -1 / 2, 1 / 2, 0; 0, 0, 1] : Cell ℝ).transpose *
      conv) = .ok r) (x0 : ℝ) : TrimTable r ["GAMMA", "Z", "S", "R", "Y", "T"] (hpkotTable82 x0) := by
  have hG := metric_box h
  have s0 : LatSym r !![1, 0, 0; 0, 1, 0; 0, 0, 1] := latSym_one r
  have s1 : LatSym r !![0, -1, 0; -1, 0, 0; 0, 0, 1] :=
    latSym_of hr !![-1, 0, 0; 0, 1, 0; 0, 0, 1] !![0, -1, 0; -1, 0, 0; 0, 0, 1]
      !![0, -1, 0; -1, 0, 0; 0, 0, 1] (by rw [hG]; sym_check) (by sym_check) (by decide)
  refine trims_of (recip_unit hr) ?_
  simp only [parities, List.forall_mem_cons, List.not_mem_nil, false_implies, implies_true, and_true]
  refine ⟨?_, ?_, ?_, ?_, ?_, ?_, ?_, ?_⟩
  · exact ⟨("GAMMA", ![0, 0, 0]), List.mem_of_getElem? (i := 0) rfl, by simp, _, s0, ![0, 0, 0],
      by half_check⟩
  · exact ⟨("Z", ![0, 0, 1 / 2]), List.mem_of_getElem? (i := 3) rfl, by simp, _, s0, ![0, 0, 0],
      by half_check⟩
  · exact ⟨("S", ![0, 1 / 2, 0]), List.mem_of_getElem? (i := 4) rfl, by simp, _, s0, ![0, 0, 0],
      by half_check⟩
  · exact ⟨("R", ![0, 1 / 2, 1 / 2]), List.mem_of_getElem? (i := 5) rfl, by simp, _, s0, ![0, 0, 0],
      by half_check⟩
  · exact ⟨("S", ![0, 1 / 2, 0]), List.mem_of_getElem? (i := 4) rfl, by simp, _, s1, ![0, -1, 0],
      by half_check⟩
  · exact ⟨("R", ![0, 1 / 2, 1 / 2]), List.mem_of_getElem? (i := 5) rfl, by simp, _, s1, ![0, -1, 0],
      by half_check⟩
  · exact ⟨("Y", ![-1 / 2, 1 / 2, 0]), List.mem_of_getElem? (i := 1) rfl, by simp, _, s0, ![1, 0, 0],
      by half_check⟩
  · exact ⟨("T", ![-1 / 2, 1 / 2, 1 / 2]), List.mem_of_getElem? (i := 2) rfl, by simp, _, s0, ![1, 0, 0],
      by half_check⟩

theorem trims_hpkot_oC_83 {conv r : Cell ℝ} {a b c : ℝ} (h : HasParams conv a b c 90 90 90)
   (hr : getReciprocal ((!![1 / 2, 1 / 2, 0; -1 / 2, 1 / 2, 0; 0, 0, 1] : Cell ℝ).transpose *
      conv) = .ok r) (x0 : ℝ) : TrimTable r ["GAMMA", "Z", "S", "R", "Y", "T"] (hpkotTable83 x0) := by
  have hG := metric_box h
  have s0 : LatSym r !![1, 0, 0; 0, 1, 0; 0, 0, 1] := latSym_one r
  have s1 : LatSym r !![0, -1, 0; -1, 0, 0; 0, 0, 1] :=
    latSym_of hr !![-1, 0, 0; 0, 1, 0; 0, 0, 1] !![0, -1, 0; -1, 0, 0; 0, 0, 1]
      !![0, -1, 0; -1, 0, 0; 0, 0, 1] (by rw [hG]; sym_check) (by sym_check) (by decide)
  refine trims_of (recip_unit hr) ?_
  simp only [parities, List.forall_mem_cons, List.not_mem_nil, false_implies, implies_true, and_true]
  refine ⟨?_, ?_, ?_, ?_, ?_, ?_, ?_, ?_⟩
  · exact ⟨("GAMMA", ![0, 0, 0]), List.mem_of_getElem? (i := 0) rfl, by simp, _, s0, ![0, 0, 0],
      by half_check⟩
  · exact ⟨("Z", ![0, 0, 1 / 2]), List.mem_of_getElem? (i := 4) rfl, by simp, _, s0, ![0, 0, 0],
      by half_check⟩
  · exact ⟨("S", ![0, 1 / 2, 0]), List.mem_of_getElem? (i := 6) rfl, by simp, _, s0, ![0, 0, 0],
      by half_check⟩
  · exact ⟨("R", ![0, 1 / 2, 1 / 2]), List.mem_of_getElem? (i := 7) rfl, by simp, _, s0, ![0, 0, 0],
      by half_check⟩
  · exact ⟨("S", ![0, 1 / 2, 0]), List.mem_of_getElem? (i := 6) rfl, by simp, _, s1, ![0, -1, 0],
      by half_check⟩
  · exact ⟨("R", ![0, 1 / 2, 1 / 2]), List.mem_of_getElem? (i := 7) rfl, by simp, _, s1, ![0, -1, 0],
      by half_check⟩
  · exact ⟨("Y", ![1 / 2, 1 / 2, 0]), List.mem_of_getElem? (i := 1) rfl, by simp, _, s0, ![0, 0, 0],
      by half_check⟩
  · exact ⟨("T", ![1 / 2, 1 / 2, 1 / 2]), List.mem_of_getElem? (i := 2) rfl, by simp, _, s0, ![0, 0, 0],
      by half_check⟩

theorem trims_hpkot_oA_82 {conv r : Cell ℝ} {a b c : ℝ} (h : HasParams conv a b c 90 90 90)
   (hr : getReciprocal ((!![0, 0, 1; 1 / 2, 1 / 2, 0; -1 / 2, 1 / 2, 0] : Cell ℝ).transpose *
      conv) = .ok r) (x0 : ℝ) : TrimTable r ["GAMMA", "Z", "S", "R", "Y", "T"] (hpkotTable82 x0) := by
  have hG := metric_box h
  have s0 : LatSym r !![1, 0, 0; 0, 1, 0; 0, 0, 1] := latSym_one r
  have s1 : LatSym r !![0, -1, 0; -1, 0, 0; 0, 0, 1] :=
    latSym_of hr !![1, 0, 0; 0, -1, 0; 0, 0, 1] !![0, -1, 0; -1, 0, 0; 0, 0, 1]
      !![0, -1, 0; -1, 0, 0; 0, 0, 1] (by rw [hG]; sym_check) (by sym_check) (by decide)
  refine trims_of (recip_unit hr) ?_
  simp only [parities, List.forall_mem_cons, List.not_mem_nil, false_implies, implies_true, and_true]
  refine ⟨?_, ?_, ?_, ?_, ?_, ?_, ?_, ?_⟩
  · exact ⟨("GAMMA", ![0, 0, 0]), List.mem_of_getElem? (i := 0) rfl, by simp, _, s0, ![0, 0, 0],
      by half_check⟩
  · exact ⟨("Z", ![0, 0, 1 / 2]), List.mem_of_getElem? (i := 3) rfl, by simp, _, s0, ![0, 0, 0],
      by half_check⟩
  · exact ⟨("S", ![0, 1 / 2, 0]), List.mem_of_getElem? (i := 4) rfl, by simp, _, s0, ![0, 0, 0],
      by half_check⟩
  · exact ⟨("R", ![0, 1 / 2, 1 / 2]), List.mem_of_getElem? (i := 5) rfl, by simp, _, s0, ![0, 0, 0],
      by half_check⟩
  · exact ⟨("S", ![0, 1 / 2, 0]), List.mem_of_getElem? (i := 4) rfl, by simp, _, s1, ![0, -1, 0],
      by half_check⟩
  · exact ⟨("R", ![0, 1 / 2, 1 / 2]), List.mem_of_getElem? (i := 5) rfl, by simp, _, s1, ![0, -1, 0],
      by half_check⟩
  · exact ⟨("Y", ![-1 / 2, 1 / 2, 0]), List.mem_of_getElem? (i := 1) rfl, by simp, _, s0, ![1, 0, 0],
      by half_check⟩
  · exact ⟨("T", ![-1 / 2, 1 / 2, 1 / 2]), List.mem_of_getElem? (i := 2) rfl, by simp, _, s0, ![1, 0, 0],
      by half_check⟩

theorem trims_hpkot_oA_83 {conv r : Cell ℝ} {a b c : ℝ} (h : HasParams conv a b c 90 90 90)
   (hr : getReciprocal ((!![0, 0, 1; 1 / 2, 1 / 2, 0; -1 / 2, 1 / 2, 0] : Cell ℝ).transpose *
      conv) = .ok r) (x0 : ℝ) : TrimTable r ["GAMMA", "Z", "S", "R", "Y", "T"] (hpkotTable83 x0) := by
  have hG := metric_box h
  have s0 : LatSym r !![1, 0, 0; 0, 1, 0; 0, 0, 1] := latSym_one r
  have s1 : LatSym r !![0, -1, 0; -1, 0, 0; 0, 0, 1] :=
    latSym_of hr !![1, 0, 0; 0, -1, 0; 0, 0, 1] !![0, -1, 0; -1, 0, 0; 0, 0, 1]
      !![0, -1, 0; -1, 0, 0; 0, 0, 1] (by rw [hG]; sym_check) (by sym_check) (by decide)
  refine trims_of (recip_unit hr) ?_
  simp only [parities, List.forall_mem_cons, List.not_mem_nil, false_implies, implies_true, and_true]
  refine ⟨?_, ?_, ?_, ?_, ?_, ?_, ?_, ?_⟩
  · exact ⟨("GAMMA", ![0, 0, 0]), List.mem_of_getElem? (i := 0) rfl, by simp, _, s0, ![0, 0, 0],
      by half_check⟩
  · exact ⟨("Z", ![0, 0, 1 / 2]), List.mem_of_getElem? (i := 4) rfl, by simp, _, s0, ![0, 0, 0],
      by half_check⟩
  · exact ⟨("S", ![0, 1 / 2, 0]), List.mem_of_getElem? (i := 6) rfl, by simp, _, s0, ![0, 0, 0],
      by half_check⟩
  · exact ⟨("R", ![0, 1 / 2, 1 / 2]), List.mem_of_getElem? (i := 7) rfl, by simp, _, s0, ![0, 0, 0],
      by half_check⟩
  · exact ⟨("S", ![0, 1 / 2, 0]), List.mem_of_getElem? (i := 6) rfl, by simp, _, s1, ![0, -1, 0],
      by half_check⟩
  · exact ⟨("R", ![0, 1 / 2, 1 / 2]), List.mem_of_getElem? (i := 7) rfl, by simp, _, s1, ![0, -1, 0],
      by half_check⟩
  · exact ⟨("Y", ![1 / 2, 1 / 2, 0]), List.mem_of_getElem? (i := 1) rfl, by simp, _, s0, ![0, 0, 0],
      by half_check⟩
  · exact ⟨("T", ![1 / 2, 1 / 2, 1 / 2]), List.mem_of_getElem? (i := 2) rfl, by simp, _, s0, ![0, 0, 0],
      by half_check⟩

theorem trims_hpkot_hP_84 {conv r : Cell ℝ} {a c : ℝ} (h : HasParams conv a a c 90 90 120)
   (hr : getReciprocal ((!![1, 0, 0; 0, 1, 0; 0, 0, 1] : Cell ℝ).transpose *
      conv) = .ok r) : TrimTable r ["GAMMA", "A", "M", "L"] hpkotTable84 := by
  have hG := metric_hex h
  have s0 : LatSym r !![1, 0, 0; 0, 1, 0; 0, 0, 1] := latSym_one r
  have s1 : LatSym r !![0, 1, 0; 1, 0, 0; 0, 0, 1] :=
    latSym_of hr !![0, 1, 0; 1, 0, 0; 0, 0, 1] !![0, 1, 0; 1, 0, 0; 0, 0, 1]
      !![0, 1, 0; 1, 0, 0; 0, 0, 1] (by rw [hG]; sym_check) (by sym_check) (by decide)
  have s2 : LatSym r !![0, 1, 0; -1, 1, 0; 0, 0, 1] :=
    latSym_of hr !![1, 1, 0; -1, 0, 0; 0, 0, 1] !![1, 1, 0; -1, 0, 0; 0, 0, 1]
      !![0, 1, 0; -1, 1, 0; 0, 0, 1] (by rw [hG]; sym_check) (by sym_check) (by decide)
  refine trims_of (recip_unit hr) ?_
  simp only [parities, List.forall_mem_cons, List.not_mem_nil, false_implies, implies_true, and_true]
  refine ⟨?_, ?_, ?_, ?_, ?_, ?_, ?_, ?_⟩
  · exact ⟨("GAMMA", ![0, 0, 0]), List.mem_of_getElem? (i := 0) rfl, by simp, _, s0, ![0, 0, 0],
      by half_check⟩
  · exact ⟨("A", ![0, 0, 1 / 2]), List.mem_of_getElem? (i := 1) rfl, by simp, _, s0, ![0, 0, 0],
      by half_check⟩
  · exact ⟨("M", ![1 / 2, 0, 0]), List.mem_of_getElem? (i := 5) rfl, by simp, _, s1, ![0, 0, 0],
      by half_check⟩
  · exact ⟨("L", ![1 / 2, 0, 1 / 2]), List.mem_of_getElem? (i := 6) rfl, by simp, _, s1, ![0, 0, 0],
      by half_check⟩
  · exact ⟨("M", ![1 / 2, 0, 0]), List.mem_of_getElem? (i := 5) rfl, by simp, _, s0, ![0, 0, 0],
      by half_check⟩
  · exact ⟨("L", ![1 / 2, 0, 1 / 2]), List.mem_of_getElem? (i := 6) rfl, by simp, _, s0, ![0, 0, 0],
      by half_check⟩
  · exact ⟨("M", ![1 / 2, 0, 0]), List.mem_of_getElem? (i := 5) rfl, by simp, _, s2, ![-1, 1, 0],
      by half_check⟩
  · exact ⟨("L", ![1 / 2, 0, 1 / 2]), List.mem_of_getElem? (i := 6) rfl, by simp, _, s2, ![-1, 1, 0],
      by half_check⟩

theorem trims_hpkot_hR_85 {conv r : Cell ℝ} {a c : ℝ} (h : HasParams conv a a c 90 90 120)
   (hr : getReciprocal ((!![1, -1 / 2, -1 / 2; 1 / 2, 1 / 2, -1; 1 / 2, 1 / 2, 1 / 2] : Cell ℝ).transpose *
      conv) = .ok r) (x0 x1 : ℝ) : TrimTable r ["GAMMA", "L", "F", "T"] (hpkotTable85 x0 x1) := by
  have hG := metric_hex h
  have s0 : LatSym r !![1, 0, 0; 0, 1, 0; 0, 0, 1] := latSym_one r
  have s1 : LatSym r !![0, 1, 0; 0, 0, 1; 1, 0, 0] :=
    latSym_of hr !![0, 1, 0; -1, -1, 0; 0, 0, 1] !![0, 1, 0; 0, 0, 1; 1, 0, 0]
      !![0, 1, 0; 0, 0, 1; 1, 0, 0] (by rw [hG]; sym_check) (by sym_check) (by decide)
  have s2 : LatSym r !![0, 0, 1; 1, 0, 0; 0, 1, 0] :=
    latSym_of hr !![-1, -1, 0; 1, 0, 0; 0, 0, 1] !![0, 0, 1; 1, 0, 0; 0, 1, 0]
      !![0, 0, 1; 1, 0, 0; 0, 1, 0] (by rw [hG]; sym_check) (by sym_check) (by decide)
  refine trims_of (recip_unit hr) ?_
  simp only [parities, List.forall_mem_cons, List.not_mem_nil, false_implies, implies_true, and_true]
  refine ⟨?_, ?_, ?_, ?_, ?_, ?_, ?_, ?_⟩
  · exact ⟨("GAMMA", ![0, 0, 0]), List.mem_of_getElem? (i := 0) rfl, by simp, _, s0, ![0, 0, 0],
      by half_check⟩
  · exact ⟨("L", ![1 / 2, 0, 0]), List.mem_of_getElem? (i := 2) rfl, by simp, _, s1, ![0, 0, 0],
      by half_check⟩
  · exact ⟨("L", ![1 / 2, 0, 0]), List.mem_of_getElem? (i := 2) rfl, by simp, _, s2, ![0, 0, 0],
      by half_check⟩
  · exact ⟨("F", ![1 / 2, 0, 1 / 2]), List.mem_of_getElem? (i := 5) rfl, by simp, _, s1, ![0, 0, 0],
      by half_check⟩
  · exact ⟨("L", ![1 / 2, 0, 0]), List.mem_of_getElem? (i := 2) rfl, by simp, _, s0, ![0, 0, 0],
      by half_check⟩
  · exact ⟨("F", ![1 / 2, 0, 1 / 2]), List.mem_of_getElem? (i := 5) rfl, by simp, _, s0, ![0, 0, 0],
      by half_check⟩
  · exact ⟨("F", ![1 / 2, 0, 1 / 2]), List.mem_of_getElem? (i := 5) rfl, by simp, _, s2, ![0, 0, 0],
      by half_check⟩
  · exact ⟨("T", ![1 / 2, 1 / 2, 1 / 2]), List.mem_of_getElem? (i := 1) rfl, by simp, _, s0, ![0, 0, 0],
      by half_check⟩

theorem trims_hpkot_hR_86 {conv r : Cell ℝ} {a c : ℝ} (h : HasParams conv a a c 90 90 120)
   (hr : getReciprocal ((!![1, -1 / 2, -1 / 2; 1 / 2, 1 / 2, -1; 1 / 2, 1 / 2, 1 / 2] : Cell ℝ).transpose *
      conv) = .ok r) (x0 x1 : ℝ) : TrimTable r ["GAMMA", "L", "F", "T"] (hpkotTable86 x0 x1) := by
  have hG := metric_hex h
  have s0 : LatSym r !![1, 0, 0; 0, 1, 0; 0, 0, 1] := latSym_one r
  have s1 : LatSym r !![0, 1, 0; 0, 0, 1; 1, 0, 0] :=
    latSym_of hr !![0, 1, 0; -1, -1, 0; 0, 0, 1] !![0, 1, 0; 0, 0, 1; 1, 0, 0]
      !![0, 1, 0; 0, 0, 1; 1, 0, 0] (by rw [hG]; sym_check) (by sym_check) (by decide)
  have s2 : LatSym r !![0, 0, 1; 1, 0, 0; 0, 1, 0] :=
    latSym_of hr !![-1, -1, 0; 1, 0, 0; 0, 0, 1] !![0, 0, 1; 1, 0, 0; 0, 1, 0]
      !![0, 0, 1; 1, 0, 0; 0, 1, 0] (by rw [hG]; sym_check) (by sym_check) (by decide)
  have s3 : LatSym r !![0, 0, 1; 0, 1, 0; 1, 0, 0] :=
    latSym_of hr !![0, -1, 0; -1, 0, 0; 0, 0, 1] !![0, 0, 1; 0, 1, 0; 1, 0, 0]
      !![0, 0, 1; 0, 1, 0; 1, 0, 0] (by rw [hG]; sym_check) (by sym_check) (by decide)
  refine trims_of (recip_unit hr) ?_
  simp only [parities, List.forall_mem_cons, List.not_mem_nil, false_implies, implies_true, and_true]
  refine ⟨?_, ?_, ?_, ?_, ?_, ?_, ?_, ?_⟩
  · exact ⟨("GAMMA", ![0, 0, 0]), List.mem_of_getElem? (i := 0) rfl, by simp, _, s0, ![0, 0, 0],
      by half_check⟩
  · exact ⟨("L", ![1 / 2, 0, 0]), List.mem_of_getElem? (i := 7) rfl, by simp, _, s1, ![0, 0, 0],
      by half_check⟩
  · exact ⟨("L", ![1 / 2, 0, 0]), List.mem_of_getElem? (i := 7) rfl, by simp, _, s2, ![0, 0, 0],
      by half_check⟩
  · exact ⟨("F", ![1 / 2, -1 / 2, 0]), List.mem_of_getElem? (i := 8) rfl, by simp, _, s3, ![0, 1, 0],
      by half_check⟩
  · exact ⟨("L", ![1 / 2, 0, 0]), List.mem_of_getElem? (i := 7) rfl, by simp, _, s0, ![0, 0, 0],
      by half_check⟩
  · exact ⟨("F", ![1 / 2, -1 / 2, 0]), List.mem_of_getElem? (i := 8) rfl, by simp, _, s1, ![0, 1, 0],
      by half_check⟩
  · exact ⟨("F", ![1 / 2, -1 / 2, 0]), List.mem_of_getElem? (i := 8) rfl, by simp, _, s0, ![0, 1, 0],
      by half_check⟩
  · exact ⟨("T", ![1 / 2, -1 / 2, 1 / 2]), List.mem_of_getElem? (i := 1) rfl, by simp, _, s0, ![0, 1, 0],
      by half_check⟩

theorem trims_hpkot_mP_87 {conv r : Cell ℝ} {a b c be : ℝ} (h : HasParams conv a b c 90 be 90)
   (hr : getReciprocal ((!![1, 0, 0; 0, 1, 0; 0, 0, 1] : Cell ℝ).transpose *
      conv) = .ok r) (x0 x1 x2 : ℝ) : TrimTable r ["GAMMA", "B", "Z", "D", "Y2", "A", "C2", "E"] (hpkotTable87 x0 x1 x2) := by
  obtain ⟨w, hG⟩ := metric_mb h
  have s0 : LatSym r !![1, 0, 0; 0, 1, 0; 0, 0, 1] := latSym_one r
  refine trims_of (recip_unit hr) ?_
  simp only [parities, List.forall_mem_cons, List.not_mem_nil, false_implies, implies_true, and_true]
  refine ⟨?_, ?_, ?_, ?_, ?_, ?_, ?_, ?_⟩
  · exact ⟨("GAMMA", ![0, 0, 0]), List.mem_of_getElem? (i := 0) rfl, by simp, _, s0, ![0, 0, 0],
      by half_check⟩
  · exact ⟨("B", ![0, 0, 1 / 2]), List.mem_of_getElem? (i := 2) rfl, by simp, _, s0, ![0, 0, 0],
      by half_check⟩
  · exact ⟨("Z", ![0, 1 / 2, 0]), List.mem_of_getElem? (i := 1) rfl, by simp, _, s0, ![0, 0, 0],
      by half_check⟩
  · exact ⟨("D", ![0, 1 / 2, 1 / 2]), List.mem_of_getElem? (i := 8) rfl, by simp, _, s0, ![0, 0, 0],
      by half_check⟩
  · exact ⟨("Y2", ![-1 / 2, 0, 0]), List.mem_of_getElem? (i := 5) rfl, by simp, _, s0, ![1, 0, 0],
      by half_check⟩
  · exact ⟨("A", ![-1 / 2, 0, 1 / 2]), List.mem_of_getElem? (i := 10) rfl, by simp, _, s0, ![1, 0, 0],
      by half_check⟩
  · exact ⟨("C2", ![-1 / 2, 1 / 2, 0]), List.mem_of_getElem? (i := 7) rfl, by simp, _, s0, ![1, 0, 0],
      by half_check⟩
  · exact ⟨("E", ![-1 / 2, 1 / 2, 1 / 2]), List.mem_of_getElem? (i := 11) rfl, by simp, _, s0, ![1, 0, 0],
      by half_check⟩

theorem trims_hpkot_mC_88 {conv r : Cell ℝ} {a b c be : ℝ} (h : HasParams conv a b c 90 be 90)
   (hr : getReciprocal ((!![1 / 2, -1 / 2, 0; 1 / 2, 1 / 2, 0; 0, 0, 1] : Cell ℝ).transpose *
      conv) = .ok r) (x0 x1 x2 x3 : ℝ) : TrimTable r ["GAMMA", "A", "V2", "L2", "Y2", "M2"] (hpkotTable88 x0 x1 x2 x3) := by
  obtain ⟨w, hG⟩ := metric_mb h
  have s0 : LatSym r !![1, 0, 0; 0, 1, 0; 0, 0, 1] := latSym_one r
  have s1 : LatSym r !![0, -1, 0; -1, 0, 0; 0, 0, 1] :=
    latSym_of hr !![1, 0, 0; 0, -1, 0; 0, 0, 1] !![0, -1, 0; -1, 0, 0; 0, 0, 1]
      !![0, -1, 0; -1, 0, 0; 0, 0, 1] (by rw [hG]; sym_check) (by sym_check) (by decide)
  refine trims_of (recip_unit hr) ?_
  simp only [parities, List.forall_mem_cons, List.not_mem_nil, false_implies, implies_true, and_true]
  refine ⟨?_, ?_, ?_, ?_, ?_, ?_, ?_, ?_⟩
  · exact ⟨("GAMMA", ![0, 0, 0]), List.mem_of_getElem? (i := 0) rfl, by simp, _, s0, ![0, 0, 0],
      by half_check⟩
  · exact ⟨("A", ![0, 0, 1 / 2]), List.mem_of_getElem? (i := 3) rfl, by simp, _, s0, ![0, 0, 0],
      by half_check⟩
  · exact ⟨("V2", ![0, 1 / 2, 0]), List.mem_of_getElem? (i := 6) rfl, by simp, _, s0, ![0, 0, 0],
      by half_check⟩
  · exact ⟨("L2", ![0, 1 / 2, 1 / 2]), List.mem_of_getElem? (i := 7) rfl, by simp, _, s0, ![0, 0, 0],
      by half_check⟩
  · exact ⟨("V2", ![0, 1 / 2, 0]), List.mem_of_getElem? (i := 6) rfl, by simp, _, s1, ![0, -1, 0],
      by half_check⟩
  · exact ⟨("L2", ![0, 1 / 2, 1 / 2]), List.mem_of_getElem? (i := 7) rfl, by simp, _, s1, ![0, -1, 0],
      by half_check⟩
  · exact ⟨("Y2", ![-1 / 2, 1 / 2, 0]), List.mem_of_getElem? (i := 1) rfl, by simp, _, s0, ![1, 0, 0],
      by half_check⟩
  · exact ⟨("M2", ![-1 / 2, 1 / 2, 1 / 2]), List.mem_of_getElem? (i := 4) rfl, by simp, _, s0, ![1, 0, 0],
      by half_check⟩

theorem trims_hpkot_mC_89 {conv r : Cell ℝ} {a b c be : ℝ} (h : HasParams conv a b c 90 be 90)
   (hr : getReciprocal ((!![1 / 2, -1 / 2, 0; 1 / 2, 1 / 2, 0; 0, 0, 1] : Cell ℝ).transpose *
      conv) = .ok r) (x0 x1 x2 x3 : ℝ) : TrimTable r ["GAMMA", "A", "V2", "L2", "Y", "M"] (hpkotTable89 x0 x1 x2 x3) := by
  obtain ⟨w, hG⟩ := metric_mb h
  have s0 : LatSym r !![1, 0, 0; 0, 1, 0; 0, 0, 1] := latSym_one r
  have s1 : LatSym r !![0, -1, 0; -1, 0, 0; 0, 0, 1] :=
    latSym_of hr !![1, 0, 0; 0, -1, 0; 0, 0, 1] !![0, -1, 0; -1, 0, 0; 0, 0, 1]
      !![0, -1, 0; -1, 0, 0; 0, 0, 1] (by rw [hG]; sym_check) (by sym_check) (by decide)
  refine trims_of (recip_unit hr) ?_
  simp only [parities, List.forall_mem_cons, List.not_mem_nil, false_implies, implies_true, and_true]
  refine ⟨?_, ?_, ?_, ?_, ?_, ?_, ?_, ?_⟩
  · exact ⟨("GAMMA", ![0, 0, 0]), List.mem_of_getElem? (i := 0) rfl, by simp, _, s0, ![0, 0, 0],
      by half_check⟩
  · exact ⟨("A", ![0, 0, 1 / 2]), List.mem_of_getElem? (i := 2) rfl, by simp, _, s0, ![0, 0, 0],
      by half_check⟩
  · exact ⟨("V2", ![0, 1 / 2, 0]), List.mem_of_getElem? (i := 4) rfl, by simp, _, s0, ![0, 0, 0],
      by half_check⟩
  · exact ⟨("L2", ![0, 1 / 2, 1 / 2]), List.mem_of_getElem? (i := 5) rfl, by simp, _, s0, ![0, 0, 0],
      by half_check⟩
  · exact ⟨("V2", ![0, 1 / 2, 0]), List.mem_of_getElem? (i := 4) rfl, by simp, _, s1, ![0, -1, 0],
      by half_check⟩
  · exact ⟨("L2", ![0, 1 / 2, 1 / 2]), List.mem_of_getElem? (i := 5) rfl, by simp, _, s1, ![0, -1, 0],
      by half_check⟩
  · exact ⟨("Y", ![1 / 2, 1 / 2, 0]), List.mem_of_getElem? (i := 1) rfl, by simp, _, s0, ![0, 0, 0],
      by half_check⟩
  · exact ⟨("M", ![1 / 2, 1 / 2, 1 / 2]), List.mem_of_getElem? (i := 3) rfl, by simp, _, s0, ![0, 0, 0],
      by half_check⟩

theorem trims_hpkot_mC_90 {conv r : Cell ℝ} {a b c be : ℝ} (h : HasParams conv a b c 90 be 90)
   (hr : getReciprocal ((!![1 / 2, -1 / 2, 0; 1 / 2, 1 / 2, 0; 0, 0, 1] : Cell ℝ).transpose *
      conv) = .ok r) (x0 x1 x2 x3 : ℝ) : TrimTable r ["GAMMA", "A", "V2", "L2", "Y", "M2"] (hpkotTable90 x0 x1 x2 x3) := by
  obtain ⟨w, hG⟩ := metric_mb h
  have s0 : LatSym r !![1, 0, 0; 0, 1, 0; 0, 0, 1] := latSym_one r
  have s1 : LatSym r !![0, -1, 0; -1, 0, 0; 0, 0, 1] :=
    latSym_of hr !![1, 0, 0; 0, -1, 0; 0, 0, 1] !![0, -1, 0; -1, 0, 0; 0, 0, 1]
      !![0, -1, 0; -1, 0, 0; 0, 0, 1] (by rw [hG]; sym_check) (by sym_check) (by decide)
  refine trims_of (recip_unit hr) ?_
  simp only [parities, List.forall_mem_cons, List.not_mem_nil, false_implies, implies_true, and_true]
  refine ⟨?_, ?_, ?_, ?_, ?_, ?_, ?_, ?_⟩
  · exact ⟨("GAMMA", ![0, 0, 0]), List.mem_of_getElem? (i := 0) rfl, by simp, _, s0, ![0, 0, 0],
      by half_check⟩
  · exact ⟨("A", ![0, 0, 1 / 2]), List.mem_of_getElem? (i := 2) rfl, by simp, _, s0, ![0, 0, 0],
      by half_check⟩
  · exact ⟨("V2", ![0, 1 / 2, 0]), List.mem_of_getElem? (i := 5) rfl, by simp, _, s0, ![0, 0, 0],
      by half_check⟩
  · exact ⟨("L2", ![0, 1 / 2, 1 / 2]), List.mem_of_getElem? (i := 6) rfl, by simp, _, s0, ![0, 0, 0],
      by half_check⟩
  · exact ⟨("V2", ![0, 1 / 2, 0]), List.mem_of_getElem? (i := 5) rfl, by simp, _, s1, ![0, -1, 0],
      by half_check⟩
  · exact ⟨("L2", ![0, 1 / 2, 1 / 2]), List.mem_of_getElem? (i := 6) rfl, by simp, _, s1, ![0, -1, 0],
      by half_check⟩
  · exact ⟨("Y", ![1 / 2, 1 / 2, 0]), List.mem_of_getElem? (i := 1) rfl, by simp, _, s0, ![0, 0, 0],
      by half_check⟩
  · exact ⟨("M2", ![-1 / 2, 1 / 2, 1 / 2]), List.mem_of_getElem? (i := 3) rfl, by simp, _, s0, ![1, 0, 0],
      by half_check⟩

theorem trims_hpkot_aP_92 {conv r : Cell ℝ}  
   (hr : getReciprocal ((!![1, 0, 0; 0, 1, 0; 0, 0, 1] : Cell ℝ).transpose *
      conv) = .ok r) : TrimTable r ["GAMMA", "Z", "Y", "T2", "X", "U2", "V2", "R2"] hpkotTable92 := by
  have s0 : LatSym r !![1, 0, 0; 0, 1, 0; 0, 0, 1] := latSym_one r
  refine trims_of (recip_unit hr) ?_
  simp only [parities, List.forall_mem_cons, List.not_mem_nil, false_implies, implies_true, and_true]
  refine ⟨?_, ?_, ?_, ?_, ?_, ?_, ?_, ?_⟩
  · exact ⟨("GAMMA", ![0, 0, 0]), List.mem_of_getElem? (i := 0) rfl, by simp, _, s0, ![0, 0, 0],
      by half_check⟩
  · exact ⟨("Z", ![0, 0, 1 / 2]), List.mem_of_getElem? (i := 1) rfl, by simp, _, s0, ![0, 0, 0],
      by half_check⟩
  · exact ⟨("Y", ![0, 1 / 2, 0]), List.mem_of_getElem? (i := 2) rfl, by simp, _, s0, ![0, 0, 0],
      by half_check⟩
  · exact ⟨("T2", ![0, -1 / 2, 1 / 2]), List.mem_of_getElem? (i := 7) rfl, by simp, _, s0, ![0, 1, 0],
      by half_check⟩
  · exact ⟨("X", ![1 / 2, 0, 0]), List.mem_of_getElem? (i := 4) rfl, by simp, _, s0, ![0, 0, 0],
      by half_check⟩
  · exact ⟨("U2", ![-1 / 2, 0, 1 / 2]), List.mem_of_getElem? (i := 6) rfl, by simp, _, s0, ![1, 0, 0],
      by half_check⟩
  · exact ⟨("V2", ![1 / 2, -1 / 2, 0]), List.mem_of_getElem? (i := 5) rfl, by simp, _, s0, ![0, 1, 0],
      by half_check⟩
  · exact ⟨("R2", ![-1 / 2, -1 / 2, 1 / 2]), List.mem_of_getElem? (i := 8) rfl, by simp, _, s0, ![1, 1, 0],
      by half_check⟩

end Wulfric
