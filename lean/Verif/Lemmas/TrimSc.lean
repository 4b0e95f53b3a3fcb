import Verif.Lemmas.Trim

/-! # The time-reversal-invariant momenta in the tables of SC -/

namespace Wulfric

open Matrix _root_.Spec Wulfric.Spec

theorem trims_sc_cP_2 {conv r : Cell ℝ} {a : ℝ} (h : HasParams conv a a a 90 90 90)
   (hr : getReciprocal ((!![1, 0, 0; 0, 1, 0; 0, 0, 1] : Cell ℝ).transpose *
      conv) = .ok r) : TrimTable r ["GAMMA", "X", "M", "R"] scTable2 := by
  have hG := metric_box h
  have s0 : LatSym r !![1, 0, 0; 0, 1, 0; 0, 0, 1] := latSym_one r
  have s1 : LatSym r !![0, 0, 1; 1, 0, 0; 0, 1, 0] :=
    latSym_of hr !![0, 0, 1; 1, 0, 0; 0, 1, 0] !![0, 0, 1; 1, 0, 0; 0, 1, 0]
      !![0, 0, 1; 1, 0, 0; 0, 1, 0] (by rw [hG]; sym_check) (by sym_check) (by decide)
  have s2 : LatSym r !![0, 1, 0; 0, 0, 1; 1, 0, 0] :=
    latSym_of hr !![0, 1, 0; 0, 0, 1; 1, 0, 0] !![0, 1, 0; 0, 0, 1; 1, 0, 0]
      !![0, 1, 0; 0, 0, 1; 1, 0, 0] (by rw [hG]; sym_check) (by sym_check) (by decide)
  refine trims_of (recip_unit hr) ?_
  simp only [parities, List.forall_mem_cons, List.not_mem_nil, false_implies, implies_true, and_true]
  refine ⟨?_, ?_, ?_, ?_, ?_, ?_, ?_, ?_⟩
  · exact ⟨("GAMMA", ![0, 0, 0]), List.mem_of_getElem? (i := 0) rfl, by simp, _, s0, ![0, 0, 0],
      by half_check⟩
  · exact ⟨("X", ![0, 1 / 2, 0]), List.mem_of_getElem? (i := 3) rfl, by simp, _, s1, ![0, 0, 0],
      by half_check⟩
  · exact ⟨("X", ![0, 1 / 2, 0]), List.mem_of_getElem? (i := 3) rfl, by simp, _, s0, ![0, 0, 0],
      by half_check⟩
  · exact ⟨("M", ![1 / 2, 1 / 2, 0]), List.mem_of_getElem? (i := 1) rfl, by simp, _, s1, ![0, 0, 0],
      by half_check⟩
  · exact ⟨("X", ![0, 1 / 2, 0]), List.mem_of_getElem? (i := 3) rfl, by simp, _, s2, ![0, 0, 0],
      by half_check⟩
  · exact ⟨("M", ![1 / 2, 1 / 2, 0]), List.mem_of_getElem? (i := 1) rfl, by simp, _, s2, ![0, 0, 0],
      by half_check⟩
  · exact ⟨("M", ![1 / 2, 1 / 2, 0]), List.mem_of_getElem? (i := 1) rfl, by simp, _, s0, ![0, 0, 0],
      by half_check⟩
  · exact ⟨("R", ![1 / 2, 1 / 2, 1 / 2]), List.mem_of_getElem? (i := 2) rfl, by simp, _, s0, ![0, 0, 0],
      by half_check⟩

theorem trims_sc_cF_3 {conv r : Cell ℝ} {a : ℝ} (h : HasParams conv a a a 90 90 90)
   (hr : getReciprocal ((!![0, 1 / 2, 1 / 2; 1 / 2, 0, 1 / 2; 1 / 2, 1 / 2, 0] : Cell ℝ).transpose *
      conv) = .ok r) : TrimTable r ["GAMMA", "L", "X"] scTable3 := by
  have hG := metric_box h
  have s0 : LatSym r !![1, 0, 0; 0, 1, 0; 0, 0, 1] := latSym_one r
  have s1 : LatSym r !![0, 0, -1; 0, -1, 0; 1, 1, 1] :=
    latSym_of hr !![0, 1, 0; 0, 0, 1; -1, 0, 0] !![1, 0, -1; 1, -1, 0; 1, 0, 0]
      !![0, 0, -1; 0, -1, 0; 1, 1, 1] (by rw [hG]; sym_check) (by sym_check) (by decide)
  have s2 : LatSym r !![0, 0, -1; 1, 1, 1; -1, 0, 0] :=
    latSym_of hr !![1, 0, 0; 0, -1, 0; 0, 0, 1] !![0, 1, -1; 0, 1, 0; -1, 1, 0]
      !![0, 0, -1; 1, 1, 1; -1, 0, 0] (by rw [hG]; sym_check) (by sym_check) (by decide)
  have s3 : LatSym r !![0, 1, 0; 0, 0, 1; 1, 0, 0] :=
    latSym_of hr !![0, 1, 0; 0, 0, 1; 1, 0, 0] !![0, 1, 0; 0, 0, 1; 1, 0, 0]
      !![0, 1, 0; 0, 0, 1; 1, 0, 0] (by rw [hG]; sym_check) (by sym_check) (by decide)
  have s4 : LatSym r !![1, 1, 1; 0, 0, -1; 0, -1, 0] :=
    latSym_of hr !![-1, 0, 0; 0, 1, 0; 0, 0, 1] !![1, 0, 0; 1, 0, -1; 1, -1, 0]
      !![1, 1, 1; 0, 0, -1; 0, -1, 0] (by rw [hG]; sym_check) (by sym_check) (by decide)
  have s5 : LatSym r !![0, 0, 1; 1, 0, 0; 0, 1, 0] :=
    latSym_of hr !![0, 0, 1; 1, 0, 0; 0, 1, 0] !![0, 0, 1; 1, 0, 0; 0, 1, 0]
      !![0, 0, 1; 1, 0, 0; 0, 1, 0] (by rw [hG]; sym_check) (by sym_check) (by decide)
  refine trims_of (recip_unit hr) ?_
  simp only [parities, List.forall_mem_cons, List.not_mem_nil, false_implies, implies_true, and_true]
  refine ⟨?_, ?_, ?_, ?_, ?_, ?_, ?_, ?_⟩
  · exact ⟨("GAMMA", ![0, 0, 0]), List.mem_of_getElem? (i := 0) rfl, by simp, _, s0, ![0, 0, 0],
      by half_check⟩
  · exact ⟨("L", ![1 / 2, 1 / 2, 1 / 2]), List.mem_of_getElem? (i := 2) rfl, by simp, _, s1, ![0, 0, 0],
      by half_check⟩
  · exact ⟨("L", ![1 / 2, 1 / 2, 1 / 2]), List.mem_of_getElem? (i := 2) rfl, by simp, _, s2, ![0, 0, 0],
      by half_check⟩
  · exact ⟨("X", ![1 / 2, 0, 1 / 2]), List.mem_of_getElem? (i := 5) rfl, by simp, _, s3, ![0, 0, 0],
      by half_check⟩
  · exact ⟨("L", ![1 / 2, 1 / 2, 1 / 2]), List.mem_of_getElem? (i := 2) rfl, by simp, _, s4, ![0, 0, 0],
      by half_check⟩
  · exact ⟨("X", ![1 / 2, 0, 1 / 2]), List.mem_of_getElem? (i := 5) rfl, by simp, _, s0, ![0, 0, 0],
      by half_check⟩
  · exact ⟨("X", ![1 / 2, 0, 1 / 2]), List.mem_of_getElem? (i := 5) rfl, by simp, _, s5, ![0, 0, 0],
      by half_check⟩
  · exact ⟨("L", ![1 / 2, 1 / 2, 1 / 2]), List.mem_of_getElem? (i := 2) rfl, by simp, _, s0, ![0, 0, 0],
      by half_check⟩

theorem trims_sc_cI_4 {conv r : Cell ℝ} {a : ℝ} (h : HasParams conv a a a 90 90 90)
   (hr : getReciprocal ((!![-1 / 2, 1 / 2, 1 / 2; 1 / 2, -1 / 2, 1 / 2; 1 / 2, 1 / 2, -1 / 2] : Cell ℝ).transpose *
      conv) = .ok r) : TrimTable r ["GAMMA", "N", "H"] scTable4 := by
  have hG := metric_box h
  have s0 : LatSym r !![1, 0, 0; 0, 1, 0; 0, 0, 1] := latSym_one r
  have s1 : LatSym r !![0, 1, 0; 0, 0, 1; 1, 0, 0] :=
    latSym_of hr !![0, 1, 0; 0, 0, 1; 1, 0, 0] !![0, 1, 0; 0, 0, 1; 1, 0, 0]
      !![0, 1, 0; 0, 0, 1; 1, 0, 0] (by rw [hG]; sym_check) (by sym_check) (by decide)
  have s2 : LatSym r !![1, -1, 0; 1, 0, 0; 1, 0, -1] :=
    latSym_of hr !![0, 0, 1; -1, 0, 0; 0, 1, 0] !![0, -1, 0; 1, 1, 1; 0, 0, -1]
      !![1, -1, 0; 1, 0, 0; 1, 0, -1] (by rw [hG]; sym_check) (by sym_check) (by decide)
  have s3 : LatSym r !![0, 0, 1; 1, 0, 0; 0, 1, 0] :=
    latSym_of hr !![0, 0, 1; 1, 0, 0; 0, 1, 0] !![0, 0, 1; 1, 0, 0; 0, 1, 0]
      !![0, 0, 1; 1, 0, 0; 0, 1, 0] (by rw [hG]; sym_check) (by sym_check) (by decide)
  have s4 : LatSym r !![1, 0, -1; 1, -1, 0; 1, 0, 0] :=
    latSym_of hr !![0, 1, 0; 0, 0, 1; -1, 0, 0] !![0, 0, -1; 0, -1, 0; 1, 1, 1]
      !![1, 0, -1; 1, -1, 0; 1, 0, 0] (by rw [hG]; sym_check) (by sym_check) (by decide)
  have s5 : LatSym r !![1, 0, 0; 1, 0, -1; 1, -1, 0] :=
    latSym_of hr !![-1, 0, 0; 0, 1, 0; 0, 0, 1] !![1, 1, 1; 0, 0, -1; 0, -1, 0]
      !![1, 0, 0; 1, 0, -1; 1, -1, 0] (by rw [hG]; sym_check) (by sym_check) (by decide)
  refine trims_of (recip_unit hr) ?_
  simp only [parities, List.forall_mem_cons, List.not_mem_nil, false_implies, implies_true, and_true]
  refine ⟨?_, ?_, ?_, ?_, ?_, ?_, ?_, ?_⟩
  · exact ⟨("GAMMA", ![0, 0, 0]), List.mem_of_getElem? (i := 0) rfl, by simp, _, s0, ![0, 0, 0],
      by half_check⟩
  · exact ⟨("N", ![0, 0, 1 / 2]), List.mem_of_getElem? (i := 3) rfl, by simp, _, s0, ![0, 0, 0],
      by half_check⟩
  · exact ⟨("N", ![0, 0, 1 / 2]), List.mem_of_getElem? (i := 3) rfl, by simp, _, s1, ![0, 0, 0],
      by half_check⟩
  · exact ⟨("N", ![0, 0, 1 / 2]), List.mem_of_getElem? (i := 3) rfl, by simp, _, s2, ![1, 0, -1],
      by half_check⟩
  · exact ⟨("N", ![0, 0, 1 / 2]), List.mem_of_getElem? (i := 3) rfl, by simp, _, s3, ![0, 0, 0],
      by half_check⟩
  · exact ⟨("N", ![0, 0, 1 / 2]), List.mem_of_getElem? (i := 3) rfl, by simp, _, s4, ![1, 0, -1],
      by half_check⟩
  · exact ⟨("N", ![0, 0, 1 / 2]), List.mem_of_getElem? (i := 3) rfl, by simp, _, s5, ![1, 0, -1],
      by half_check⟩
  · exact ⟨("H", ![1 / 2, -1 / 2, 1 / 2]), List.mem_of_getElem? (i := 1) rfl, by simp, _, s0, ![0, 1, 0],
      by half_check⟩

theorem trims_sc_tP_5 {conv r : Cell ℝ} {a c : ℝ} (h : HasParams conv a a c 90 90 90)
   (hr : getReciprocal ((!![1, 0, 0; 0, 1, 0; 0, 0, 1] : Cell ℝ).transpose *
      conv) = .ok r) : TrimTable r ["GAMMA", "Z", "X", "R", "M", "A"] scTable5 := by
  have hG := metric_box h
  have s0 : LatSym r !![1, 0, 0; 0, 1, 0; 0, 0, 1] := latSym_one r
  have s1 : LatSym r !![0, 1, 0; 1, 0, 0; 0, 0, 1] :=
    latSym_of hr !![0, 1, 0; 1, 0, 0; 0, 0, 1] !![0, 1, 0; 1, 0, 0; 0, 0, 1]
      !![0, 1, 0; 1, 0, 0; 0, 0, 1] (by rw [hG]; sym_check) (by sym_check) (by decide)
  refine trims_of (recip_unit hr) ?_
  simp only [parities, List.forall_mem_cons, List.not_mem_nil, false_implies, implies_true, and_true]
  refine ⟨?_, ?_, ?_, ?_, ?_, ?_, ?_, ?_⟩
  · exact ⟨("GAMMA", ![0, 0, 0]), List.mem_of_getElem? (i := 0) rfl, by simp, _, s0, ![0, 0, 0],
      by half_check⟩
  · exact ⟨("Z", ![0, 0, 1 / 2]), List.mem_of_getElem? (i := 5) rfl, by simp, _, s0, ![0, 0, 0],
      by half_check⟩
  · exact ⟨("X", ![0, 1 / 2, 0]), List.mem_of_getElem? (i := 4) rfl, by simp, _, s0, ![0, 0, 0],
      by half_check⟩
  · exact ⟨("R", ![0, 1 / 2, 1 / 2]), List.mem_of_getElem? (i := 3) rfl, by simp, _, s0, ![0, 0, 0],
      by half_check⟩
  · exact ⟨("X", ![0, 1 / 2, 0]), List.mem_of_getElem? (i := 4) rfl, by simp, _, s1, ![0, 0, 0],
      by half_check⟩
  · exact ⟨("R", ![0, 1 / 2, 1 / 2]), List.mem_of_getElem? (i := 3) rfl, by simp, _, s1, ![0, 0, 0],
      by half_check⟩
  · exact ⟨("M", ![1 / 2, 1 / 2, 0]), List.mem_of_getElem? (i := 2) rfl, by simp, _, s0, ![0, 0, 0],
      by half_check⟩
  · exact ⟨("A", ![1 / 2, 1 / 2, 1 / 2]), List.mem_of_getElem? (i := 1) rfl, by simp, _, s0, ![0, 0, 0],
      by half_check⟩

theorem trims_sc_tI_6 {conv r : Cell ℝ} {a c : ℝ} (h : HasParams conv a a c 90 90 90)
   (hr : getReciprocal ((!![-1 / 2, 1 / 2, 1 / 2; 1 / 2, -1 / 2, 1 / 2; 1 / 2, 1 / 2, -1 / 2] : Cell ℝ).transpose *
      conv) = .ok r) (x0 x1 : ℝ) : TrimTable r ["GAMMA", "X", "N", "M"] (scTable6 x0 x1) := by
  have hG := metric_box h
  have s0 : LatSym r !![1, 0, 0; 0, 1, 0; 0, 0, 1] := latSym_one r
  have s1 : LatSym r !![1, 0, -1; 1, 0, 0; 1, -1, 0] :=
    latSym_of hr !![0, 1, 0; -1, 0, 0; 0, 0, 1] !![0, 0, -1; 1, 1, 1; 0, -1, 0]
      !![1, 0, -1; 1, 0, 0; 1, -1, 0] (by rw [hG]; sym_check) (by sym_check) (by decide)
  have s2 : LatSym r !![0, 1, 0; 1, 0, 0; 0, 0, 1] :=
    latSym_of hr !![0, 1, 0; 1, 0, 0; 0, 0, 1] !![0, 1, 0; 1, 0, 0; 0, 0, 1]
      !![0, 1, 0; 1, 0, 0; 0, 0, 1] (by rw [hG]; sym_check) (by sym_check) (by decide)
  have s3 : LatSym r !![1, 0, 0; 1, 0, -1; 1, -1, 0] :=
    latSym_of hr !![-1, 0, 0; 0, 1, 0; 0, 0, 1] !![1, 1, 1; 0, 0, -1; 0, -1, 0]
      !![1, 0, 0; 1, 0, -1; 1, -1, 0] (by rw [hG]; sym_check) (by sym_check) (by decide)
  refine trims_of (recip_unit hr) ?_
  simp only [parities, List.forall_mem_cons, List.not_mem_nil, false_implies, implies_true, and_true]
  refine ⟨?_, ?_, ?_, ?_, ?_, ?_, ?_, ?_⟩
  · exact ⟨("GAMMA", ![0, 0, 0]), List.mem_of_getElem? (i := 0) rfl, by simp, _, s0, ![0, 0, 0],
      by half_check⟩
  · exact ⟨("X", ![0, 0, 1 / 2]), List.mem_of_getElem? (i := 4) rfl, by simp, _, s0, ![0, 0, 0],
      by half_check⟩
  · exact ⟨("N", ![0, 1 / 2, 0]), List.mem_of_getElem? (i := 2) rfl, by simp, _, s0, ![0, 0, 0],
      by half_check⟩
  · exact ⟨("N", ![0, 1 / 2, 0]), List.mem_of_getElem? (i := 2) rfl, by simp, _, s1, ![1, -1, 0],
      by half_check⟩
  · exact ⟨("N", ![0, 1 / 2, 0]), List.mem_of_getElem? (i := 2) rfl, by simp, _, s2, ![0, 0, 0],
      by half_check⟩
  · exact ⟨("N", ![0, 1 / 2, 0]), List.mem_of_getElem? (i := 2) rfl, by simp, _, s3, ![1, -1, 0],
      by half_check⟩
  · exact ⟨("X", ![0, 0, 1 / 2]), List.mem_of_getElem? (i := 4) rfl, by simp, _, s3, ![1, 0, -1],
      by half_check⟩
  · exact ⟨("M", ![-1 / 2, 1 / 2, 1 / 2]), List.mem_of_getElem? (i := 1) rfl, by simp, _, s0, ![1, 0, 0],
      by half_check⟩

theorem trims_sc_tI_7 {conv r : Cell ℝ} {a c : ℝ} (h : HasParams conv a a c 90 90 90)
   (hr : getReciprocal ((!![-1 / 2, 1 / 2, 1 / 2; 1 / 2, -1 / 2, 1 / 2; 1 / 2, 1 / 2, -1 / 2] : Cell ℝ).transpose *
      conv) = .ok r) (x0 x1 : ℝ) : TrimTable r ["GAMMA", "X", "N", "Z"] (scTable7 x0 x1) := by
  have hG := metric_box h
  have s0 : LatSym r !![1, 0, 0; 0, 1, 0; 0, 0, 1] := latSym_one r
  have s1 : LatSym r !![1, 0, -1; 1, 0, 0; 1, -1, 0] :=
    latSym_of hr !![0, 1, 0; -1, 0, 0; 0, 0, 1] !![0, 0, -1; 1, 1, 1; 0, -1, 0]
      !![1, 0, -1; 1, 0, 0; 1, -1, 0] (by rw [hG]; sym_check) (by sym_check) (by decide)
  have s2 : LatSym r !![0, 1, 0; 1, 0, 0; 0, 0, 1] :=
    latSym_of hr !![0, 1, 0; 1, 0, 0; 0, 0, 1] !![0, 1, 0; 1, 0, 0; 0, 0, 1]
      !![0, 1, 0; 1, 0, 0; 0, 0, 1] (by rw [hG]; sym_check) (by sym_check) (by decide)
  have s3 : LatSym r !![1, 0, 0; 1, 0, -1; 1, -1, 0] :=
    latSym_of hr !![-1, 0, 0; 0, 1, 0; 0, 0, 1] !![1, 1, 1; 0, 0, -1; 0, -1, 0]
      !![1, 0, 0; 1, 0, -1; 1, -1, 0] (by rw [hG]; sym_check) (by sym_check) (by decide)
  refine trims_of (recip_unit hr) ?_
  simp only [parities, List.forall_mem_cons, List.not_mem_nil, false_implies, implies_true, and_true]
  refine ⟨?_, ?_, ?_, ?_, ?_, ?_, ?_, ?_⟩
  · exact ⟨("GAMMA", ![0, 0, 0]), List.mem_of_getElem? (i := 0) rfl, by simp, _, s0, ![0, 0, 0],
      by half_check⟩
  · exact ⟨("X", ![0, 0, 1 / 2]), List.mem_of_getElem? (i := 5) rfl, by simp, _, s0, ![0, 0, 0],
      by half_check⟩
  · exact ⟨("N", ![0, 1 / 2, 0]), List.mem_of_getElem? (i := 1) rfl, by simp, _, s0, ![0, 0, 0],
      by half_check⟩
  · exact ⟨("N", ![0, 1 / 2, 0]), List.mem_of_getElem? (i := 1) rfl, by simp, _, s1, ![1, -1, 0],
      by half_check⟩
  · exact ⟨("N", ![0, 1 / 2, 0]), List.mem_of_getElem? (i := 1) rfl, by simp, _, s2, ![0, 0, 0],
      by half_check⟩
  · exact ⟨("N", ![0, 1 / 2, 0]), List.mem_of_getElem? (i := 1) rfl, by simp, _, s3, ![1, -1, 0],
      by half_check⟩
  · exact ⟨("X", ![0, 0, 1 / 2]), List.mem_of_getElem? (i := 5) rfl, by simp, _, s3, ![1, 0, -1],
      by half_check⟩
  · exact ⟨("Z", ![1 / 2, 1 / 2, -1 / 2]), List.mem_of_getElem? (i := 8) rfl, by simp, _, s0, ![0, 0, 1],
      by half_check⟩

theorem trims_sc_oP_8 {conv r : Cell ℝ} {a b c : ℝ} (h : HasParams conv a b c 90 90 90)
   (hr : getReciprocal ((!![1, 0, 0; 0, 1, 0; 0, 0, 1] : Cell ℝ).transpose *
      conv) = .ok r) : TrimTable r ["GAMMA", "Z", "Y", "T", "X", "U", "S", "R"] scTable8 := by
  have hG := metric_box h
  have s0 : LatSym r !![1, 0, 0; 0, 1, 0; 0, 0, 1] := latSym_one r
  refine trims_of (recip_unit hr) ?_
  simp only [parities, List.forall_mem_cons, List.not_mem_nil, false_implies, implies_true, and_true]
  refine ⟨?_, ?_, ?_, ?_, ?_, ?_, ?_, ?_⟩
  · exact ⟨("GAMMA", ![0, 0, 0]), List.mem_of_getElem? (i := 0) rfl, by simp, _, s0, ![0, 0, 0],
      by half_check⟩
  · exact ⟨("Z", ![0, 0, 1 / 2]), List.mem_of_getElem? (i := 7) rfl, by simp, _, s0, ![0, 0, 0],
      by half_check⟩
  · exact ⟨("Y", ![0, 1 / 2, 0]), List.mem_of_getElem? (i := 6) rfl, by simp, _, s0, ![0, 0, 0],
      by half_check⟩
  · exact ⟨("T", ![0, 1 / 2, 1 / 2]), List.mem_of_getElem? (i := 3) rfl, by simp, _, s0, ![0, 0, 0],
      by half_check⟩
  · exact ⟨("X", ![1 / 2, 0, 0]), List.mem_of_getElem? (i := 5) rfl, by simp, _, s0, ![0, 0, 0],
      by half_check⟩
  · exact ⟨("U", ![1 / 2, 0, 1 / 2]), List.mem_of_getElem? (i := 4) rfl, by simp, _, s0, ![0, 0, 0],
      by half_check⟩
  · exact ⟨("S", ![1 / 2, 1 / 2, 0]), List.mem_of_getElem? (i := 2) rfl, by simp, _, s0, ![0, 0, 0],
      by half_check⟩
  · exact ⟨("R", ![1 / 2, 1 / 2, 1 / 2]), List.mem_of_getElem? (i := 1) rfl, by simp, _, s0, ![0, 0, 0],
      by half_check⟩

theorem trims_sc_oF_9 {conv r : Cell ℝ} {a b c : ℝ} (h : HasParams conv a b c 90 90 90)
   (hr : getReciprocal ((!![0, 1 / 2, 1 / 2; 1 / 2, 0, 1 / 2; 1 / 2, 1 / 2, 0] : Cell ℝ).transpose *
      conv) = .ok r) (x0 x1 x2 : ℝ) : TrimTable r ["GAMMA", "L", "T", "Y", "Z"] (scTable9 x0 x1 x2) := by
  have hG := metric_box h
  have s0 : LatSym r !![1, 0, 0; 0, 1, 0; 0, 0, 1] := latSym_one r
  have s1 : LatSym r !![0, -1, 0; -1, 0, 0; 1, 1, 1] :=
    latSym_of hr !![1, 0, 0; 0, 1, 0; 0, 0, -1] !![0, -1, 1; -1, 0, 1; 0, 0, 1]
      !![0, -1, 0; -1, 0, 0; 1, 1, 1] (by rw [hG]; sym_check) (by sym_check) (by decide)
  have s2 : LatSym r !![0, 0, -1; 1, 1, 1; -1, 0, 0] :=
    latSym_of hr !![1, 0, 0; 0, -1, 0; 0, 0, 1] !![0, 1, -1; 0, 1, 0; -1, 1, 0]
      !![0, 0, -1; 1, 1, 1; -1, 0, 0] (by rw [hG]; sym_check) (by sym_check) (by decide)
  have s3 : LatSym r !![1, 1, 1; 0, 0, -1; 0, -1, 0] :=
    latSym_of hr !![-1, 0, 0; 0, 1, 0; 0, 0, 1] !![1, 0, 0; 1, 0, -1; 1, -1, 0]
      !![1, 1, 1; 0, 0, -1; 0, -1, 0] (by rw [hG]; sym_check) (by sym_check) (by decide)
  refine trims_of (recip_unit hr) ?_
  simp only [parities, List.forall_mem_cons, List.not_mem_nil, false_implies, implies_true, and_true]
  refine ⟨?_, ?_, ?_, ?_, ?_, ?_, ?_, ?_⟩
  · exact ⟨("GAMMA", ![0, 0, 0]), List.mem_of_getElem? (i := 0) rfl, by simp, _, s0, ![0, 0, 0],
      by half_check⟩
  · exact ⟨("L", ![1 / 2, 1 / 2, 1 / 2]), List.mem_of_getElem? (i := 3) rfl, by simp, _, s1, ![0, 0, 0],
      by half_check⟩
  · exact ⟨("L", ![1 / 2, 1 / 2, 1 / 2]), List.mem_of_getElem? (i := 3) rfl, by simp, _, s2, ![0, 0, 0],
      by half_check⟩
  · exact ⟨("T", ![1, 1 / 2, 1 / 2]), List.mem_of_getElem? (i := 4) rfl, by simp, _, s0, ![-1, 0, 0],
      by half_check⟩
  · exact ⟨("L", ![1 / 2, 1 / 2, 1 / 2]), List.mem_of_getElem? (i := 3) rfl, by simp, _, s3, ![0, 0, 0],
      by half_check⟩
  · exact ⟨("Y", ![1 / 2, 0, 1 / 2]), List.mem_of_getElem? (i := 7) rfl, by simp, _, s0, ![0, 0, 0],
      by half_check⟩
  · exact ⟨("Z", ![1 / 2, 1 / 2, 0]), List.mem_of_getElem? (i := 8) rfl, by simp, _, s0, ![0, 0, 0],
      by half_check⟩
  · exact ⟨("L", ![1 / 2, 1 / 2, 1 / 2]), List.mem_of_getElem? (i := 3) rfl, by simp, _, s0, ![0, 0, 0],
      by half_check⟩

theorem trims_sc_oF_10 {conv r : Cell ℝ} {a b c : ℝ} (h : HasParams conv a b c 90 90 90)
   (hr : getReciprocal ((!![0, 1 / 2, 1 / 2; 1 / 2, 0, 1 / 2; 1 / 2, 1 / 2, 0] : Cell ℝ).transpose *
      conv) = .ok r) (x0 x1 x2 : ℝ) : TrimTable r ["GAMMA", "L", "X", "Y", "Z"] (scTable10 x0 x1 x2) := by
  have hG := metric_box h
  have s0 : LatSym r !![1, 0, 0; 0, 1, 0; 0, 0, 1] := latSym_one r
  have s1 : LatSym r !![0, -1, 0; -1, 0, 0; 1, 1, 1] :=
    latSym_of hr !![1, 0, 0; 0, 1, 0; 0, 0, -1] !![0, -1, 1; -1, 0, 1; 0, 0, 1]
      !![0, -1, 0; -1, 0, 0; 1, 1, 1] (by rw [hG]; sym_check) (by sym_check) (by decide)
  have s2 : LatSym r !![0, 0, -1; 1, 1, 1; -1, 0, 0] :=
    latSym_of hr !![1, 0, 0; 0, -1, 0; 0, 0, 1] !![0, 1, -1; 0, 1, 0; -1, 1, 0]
      !![0, 0, -1; 1, 1, 1; -1, 0, 0] (by rw [hG]; sym_check) (by sym_check) (by decide)
  have s3 : LatSym r !![1, 1, 1; 0, 0, -1; 0, -1, 0] :=
    latSym_of hr !![-1, 0, 0; 0, 1, 0; 0, 0, 1] !![1, 0, 0; 1, 0, -1; 1, -1, 0]
      !![1, 1, 1; 0, 0, -1; 0, -1, 0] (by rw [hG]; sym_check) (by sym_check) (by decide)
  refine trims_of (recip_unit hr) ?_
  simp only [parities, List.forall_mem_cons, List.not_mem_nil, false_implies, implies_true, and_true]
  refine ⟨?_, ?_, ?_, ?_, ?_, ?_, ?_, ?_⟩
  · exact ⟨("GAMMA", ![0, 0, 0]), List.mem_of_getElem? (i := 0) rfl, by simp, _, s0, ![0, 0, 0],
      by half_check⟩
  · exact ⟨("L", ![1 / 2, 1 / 2, 1 / 2]), List.mem_of_getElem? (i := 5) rfl, by simp, _, s1, ![0, 0, 0],
      by half_check⟩
  · exact ⟨("L", ![1 / 2, 1 / 2, 1 / 2]), List.mem_of_getElem? (i := 5) rfl, by simp, _, s2, ![0, 0, 0],
      by half_check⟩
  · exact ⟨("X", ![0, 1 / 2, 1 / 2]), List.mem_of_getElem? (i := 8) rfl, by simp, _, s0, ![0, 0, 0],
      by half_check⟩
  · exact ⟨("L", ![1 / 2, 1 / 2, 1 / 2]), List.mem_of_getElem? (i := 5) rfl, by simp, _, s3, ![0, 0, 0],
      by half_check⟩
  · exact ⟨("Y", ![1 / 2, 0, 1 / 2]), List.mem_of_getElem? (i := 9) rfl, by simp, _, s0, ![0, 0, 0],
      by half_check⟩
  · exact ⟨("Z", ![1 / 2, 1 / 2, 0]), List.mem_of_getElem? (i := 10) rfl, by simp, _, s0, ![0, 0, 0],
      by half_check⟩
  · exact ⟨("L", ![1 / 2, 1 / 2, 1 / 2]), List.mem_of_getElem? (i := 5) rfl, by simp, _, s0, ![0, 0, 0],
      by half_check⟩

theorem trims_sc_oI_11 {conv r : Cell ℝ} {a b c : ℝ} (h : HasParams conv a b c 90 90 90)
   (hr : getReciprocal ((!![-1 / 2, 1 / 2, 1 / 2; 1 / 2, -1 / 2, 1 / 2; 1 / 2, 1 / 2, -1 / 2] : Cell ℝ).transpose *
      conv) = .ok r) (x0 x1 x2 : ℝ) : TrimTable r ["GAMMA", "T", "R", "S", "Z"] (scTable11 x0 x1 x2) := by
  have hG := metric_box h
  have s0 : LatSym r !![1, 0, 0; 0, 1, 0; 0, 0, 1] := latSym_one r
  have s1 : LatSym r !![0, 1, -1; 0, 1, 0; -1, 1, 0] :=
    latSym_of hr !![1, 0, 0; 0, -1, 0; 0, 0, 1] !![0, 0, -1; 1, 1, 1; -1, 0, 0]
      !![0, 1, -1; 0, 1, 0; -1, 1, 0] (by rw [hG]; sym_check) (by sym_check) (by decide)
  have s2 : LatSym r !![1, 0, 0; 1, 0, -1; 1, -1, 0] :=
    latSym_of hr !![-1, 0, 0; 0, 1, 0; 0, 0, 1] !![1, 1, 1; 0, 0, -1; 0, -1, 0]
      !![1, 0, 0; 1, 0, -1; 1, -1, 0] (by rw [hG]; sym_check) (by sym_check) (by decide)
  refine trims_of (recip_unit hr) ?_
  simp only [parities, List.forall_mem_cons, List.not_mem_nil, false_implies, implies_true, and_true]
  refine ⟨?_, ?_, ?_, ?_, ?_, ?_, ?_, ?_⟩
  · exact ⟨("GAMMA", ![0, 0, 0]), List.mem_of_getElem? (i := 0) rfl, by simp, _, s0, ![0, 0, 0],
      by half_check⟩
  · exact ⟨("T", ![0, 0, 1 / 2]), List.mem_of_getElem? (i := 6) rfl, by simp, _, s0, ![0, 0, 0],
      by half_check⟩
  · exact ⟨("R", ![0, 1 / 2, 0]), List.mem_of_getElem? (i := 4) rfl, by simp, _, s0, ![0, 0, 0],
      by half_check⟩
  · exact ⟨("S", ![1 / 2, 0, 0]), List.mem_of_getElem? (i := 5) rfl, by simp, _, s1, ![-1, 1, 0],
      by half_check⟩
  · exact ⟨("S", ![1 / 2, 0, 0]), List.mem_of_getElem? (i := 5) rfl, by simp, _, s0, ![0, 0, 0],
      by half_check⟩
  · exact ⟨("R", ![0, 1 / 2, 0]), List.mem_of_getElem? (i := 4) rfl, by simp, _, s2, ![1, -1, 0],
      by half_check⟩
  · exact ⟨("T", ![0, 0, 1 / 2]), List.mem_of_getElem? (i := 6) rfl, by simp, _, s2, ![1, 0, -1],
      by half_check⟩
  · exact ⟨("Z", ![1 / 2, 1 / 2, -1 / 2]), List.mem_of_getElem? (i := 12) rfl, by simp, _, s0, ![0, 0, 1],
      by half_check⟩

theorem trims_sc_oC_12 {conv r : Cell ℝ} {a b c : ℝ} (h : HasParams conv a b c 90 90 90)
   (hr : getReciprocal ((!![1 / 2, 1 / 2, 0; -1 / 2, 1 / 2, 0; 0, 0, 1] : Cell ℝ).transpose *
      conv) = .ok r) (x0 x1 : ℝ) : TrimTable r ["GAMMA", "Z", "S", "R", "Y", "T"] (scTable12 x0 x1) := by
  have hG := metric_box h
  have s0 : LatSym r !![1, 0, 0; 0, 1, 0; 0, 0, 1] := latSym_one r
  have s1 : LatSym r !![0, -1, 0; -1, 0, 0; 0, 0, 1] :=
    latSym_of hr !![-1, 0, 0; 0, 1, 0; 0, 0, 1] !![0, -1, 0; -1, 0, 0; 0, 0, 1]
      !![0, -1, 0; -1, 0, 0; 0, 0, 1] (by rw [hG]; sym_check) (by sym_check) (by decide)
  refine trims_of (recip_unit hr) ?_
  simp only [parities, List.forall_mem_cons, List.not_mem_nil, false_implies, implies_true, and_true]
  refine ⟨?_, ?_, ?_, ?_, ?_, ?_, ?_, ?_⟩
  · exact ⟨("GAMMA", ![0, 0, 0]), List.mem_of_getElem? (i := 0) rfl, by simp, _, s0, ![0, 0, 0],
      by half_check⟩
  · exact ⟨("Z", ![0, 0, 1 / 2]), List.mem_of_getElem? (i := 9) rfl, by simp, _, s0, ![0, 0, 0],
      by half_check⟩
  · exact ⟨("S", ![0, 1 / 2, 0]), List.mem_of_getElem? (i := 4) rfl, by simp, _, s0, ![0, 0, 0],
      by half_check⟩
  · exact ⟨("R", ![0, 1 / 2, 1 / 2]), List.mem_of_getElem? (i := 3) rfl, by simp, _, s0, ![0, 0, 0],
      by half_check⟩
  · exact ⟨("S", ![0, 1 / 2, 0]), List.mem_of_getElem? (i := 4) rfl, by simp, _, s1, ![0, -1, 0],
      by half_check⟩
  · exact ⟨("R", ![0, 1 / 2, 1 / 2]), List.mem_of_getElem? (i := 3) rfl, by simp, _, s1, ![0, -1, 0],
      by half_check⟩
  · exact ⟨("Y", ![-1 / 2, 1 / 2, 0]), List.mem_of_getElem? (i := 8) rfl, by simp, _, s0, ![1, 0, 0],
      by half_check⟩
  · exact ⟨("T", ![-1 / 2, 1 / 2, 1 / 2]), List.mem_of_getElem? (i := 5) rfl, by simp, _, s0, ![1, 0, 0],
      by half_check⟩

theorem trims_sc_oA_12 {conv r : Cell ℝ} {a b c : ℝ} (h : HasParams conv a b c 90 90 90)
   (hr : getReciprocal ((!![1 / 2, 1 / 2, 0; -1 / 2, 1 / 2, 0; 0, 0, 1] : Cell ℝ).transpose *
      conv) = .ok r) (x0 x1 : ℝ) : TrimTable r ["GAMMA", "Z", "S", "R", "Y", "T"] (scTable12 x0 x1) := by
  have hG := metric_box h
  have s0 : LatSym r !![1, 0, 0; 0, 1, 0; 0, 0, 1] := latSym_one r
  have s1 : LatSym r !![0, -1, 0; -1, 0, 0; 0, 0, 1] :=
    latSym_of hr !![-1, 0, 0; 0, 1, 0; 0, 0, 1] !![0, -1, 0; -1, 0, 0; 0, 0, 1]
      !![0, -1, 0; -1, 0, 0; 0, 0, 1] (by rw [hG]; sym_check) (by sym_check) (by decide)
  refine trims_of (recip_unit hr) ?_
  simp only [parities, List.forall_mem_cons, List.not_mem_nil, false_implies, implies_true, and_true]
  refine ⟨?_, ?_, ?_, ?_, ?_, ?_, ?_, ?_⟩
  · exact ⟨("GAMMA", ![0, 0, 0]), List.mem_of_getElem? (i := 0) rfl, by simp, _, s0, ![0, 0, 0],
      by half_check⟩
  · exact ⟨("Z", ![0, 0, 1 / 2]), List.mem_of_getElem? (i := 9) rfl, by simp, _, s0, ![0, 0, 0],
      by half_check⟩
  · exact ⟨("S", ![0, 1 / 2, 0]), List.mem_of_getElem? (i := 4) rfl, by simp, _, s0, ![0, 0, 0],
      by half_check⟩
  · exact ⟨("R", ![0, 1 / 2, 1 / 2]), List.mem_of_getElem? (i := 3) rfl, by simp, _, s0, ![0, 0, 0],
      by half_check⟩
  · exact ⟨("S", ![0, 1 / 2, 0]), List.mem_of_getElem? (i := 4) rfl, by simp, _, s1, ![0, -1, 0],
      by half_check⟩
  · exact ⟨("R", ![0, 1 / 2, 1 / 2]), List.mem_of_getElem? (i := 3) rfl, by simp, _, s1, ![0, -1, 0],
      by half_check⟩
  · exact ⟨("Y", ![-1 / 2, 1 / 2, 0]), List.mem_of_getElem? (i := 8) rfl, by simp, _, s0, ![1, 0, 0],
      by half_check⟩
  · exact ⟨("T", ![-1 / 2, 1 / 2, 1 / 2]), List.mem_of_getElem? (i := 5) rfl, by simp, _, s0, ![1, 0, 0],
      by half_check⟩

theorem trims_sc_hP_13 {conv r : Cell ℝ} {a c : ℝ} (h : HasParams conv a a c 90 90 120)
   (hr : getReciprocal ((!![1, 0, 0; 0, 1, 0; 0, 0, 1] : Cell ℝ).transpose *
      conv) = .ok r) : TrimTable r ["GAMMA", "A", "M", "L"] scTable13 := by
  have hG := metric_hex h
  have s0 : LatSym r !![1, 0, 0; 0, 1, 0; 0, 0, 1] := latSym_one r
  have s1 : LatSym r !![0, 1, 0; 1, 0, 0; 0, 0, 1] :=
    latSym_of hr !![0, 1, 0; 1, 0, 0; 0, 0, 1] !![0, 1, 0; 1, 0, 0; 0, 0, 1]
      !![0, 1, 0; 1, 0, 0; 0, 0, 1] (by rw [hG]; sym_check) (by sym_check) (by decide)
  have s2 : LatSym r !![0, 1, 0; -1, 1, 0; 0, 0, 1] :=
    latSym_of hr !![1, 1, 0; -1, 0, 0; 0, 0, 1] !![1, 1, 0; -1, 0, 0; 0, 0, 1]
      !![0, 1, 0; -1, 1, 0; 0, 0, 1] (by rw [hG]; sym_check) (by sym_check) (by decide)
  refine trims_of (recip_unit hr) ?_
  simp only [parities, List.forall_mem_cons, List.not_mem_nil, false_implies, implies_true, and_true]
  refine ⟨?_, ?_, ?_, ?_, ?_, ?_, ?_, ?_⟩
  · exact ⟨("GAMMA", ![0, 0, 0]), List.mem_of_getElem? (i := 0) rfl, by simp, _, s0, ![0, 0, 0],
      by half_check⟩
  · exact ⟨("A", ![0, 0, 1 / 2]), List.mem_of_getElem? (i := 1) rfl, by simp, _, s0, ![0, 0, 0],
      by half_check⟩
  · exact ⟨("M", ![1 / 2, 0, 0]), List.mem_of_getElem? (i := 5) rfl, by simp, _, s1, ![0, 0, 0],
      by half_check⟩
  · exact ⟨("L", ![1 / 2, 0, 1 / 2]), List.mem_of_getElem? (i := 4) rfl, by simp, _, s1, ![0, 0, 0],
      by half_check⟩
  · exact ⟨("M", ![1 / 2, 0, 0]), List.mem_of_getElem? (i := 5) rfl, by simp, _, s0, ![0, 0, 0],
      by half_check⟩
  · exact ⟨("L", ![1 / 2, 0, 1 / 2]), List.mem_of_getElem? (i := 4) rfl, by simp, _, s0, ![0, 0, 0],
      by half_check⟩
  · exact ⟨("M", ![1 / 2, 0, 0]), List.mem_of_getElem? (i := 5) rfl, by simp, _, s2, ![-1, 1, 0],
      by half_check⟩
  · exact ⟨("L", ![1 / 2, 0, 1 / 2]), List.mem_of_getElem? (i := 4) rfl, by simp, _, s2, ![-1, 1, 0],
      by half_check⟩

theorem trims_sc_hR_14 {conv r : Cell ℝ} {a al : ℝ} (h : HasParams conv a a a al al al)
   (hr : getReciprocal ((!![1, 0, 0; 0, 1, 0; 0, 0, 1] : Cell ℝ).transpose *
      conv) = .ok r) (x0 : ℝ) : TrimTable r ["GAMMA", "L", "F", "Z"] (scTable14 x0) := by
  obtain ⟨w, hG⟩ := metric_rhl h
  have s0 : LatSym r !![1, 0, 0; 0, 1, 0; 0, 0, 1] := latSym_one r
  have s1 : LatSym r !![0, 1, 0; 0, 0, 1; 1, 0, 0] :=
    latSym_of hr !![0, 1, 0; 0, 0, 1; 1, 0, 0] !![0, 1, 0; 0, 0, 1; 1, 0, 0]
      !![0, 1, 0; 0, 0, 1; 1, 0, 0] (by rw [hG]; sym_check) (by sym_check) (by decide)
  have s2 : LatSym r !![0, 1, 0; 1, 0, 0; 0, 0, 1] :=
    latSym_of hr !![0, 1, 0; 1, 0, 0; 0, 0, 1] !![0, 1, 0; 1, 0, 0; 0, 0, 1]
      !![0, 1, 0; 1, 0, 0; 0, 0, 1] (by rw [hG]; sym_check) (by sym_check) (by decide)
  have s3 : LatSym r !![0, 0, 1; 1, 0, 0; 0, 1, 0] :=
    latSym_of hr !![0, 0, 1; 1, 0, 0; 0, 1, 0] !![0, 0, 1; 1, 0, 0; 0, 1, 0]
      !![0, 0, 1; 1, 0, 0; 0, 1, 0] (by rw [hG]; sym_check) (by sym_check) (by decide)
  refine trims_of (recip_unit hr) ?_
  simp only [parities, List.forall_mem_cons, List.not_mem_nil, false_implies, implies_true, and_true]
  refine ⟨?_, ?_, ?_, ?_, ?_, ?_, ?_, ?_⟩
  · exact ⟨("GAMMA", ![0, 0, 0]), List.mem_of_getElem? (i := 0) rfl, by simp, _, s0, ![0, 0, 0],
      by half_check⟩
  · exact ⟨("L", ![1 / 2, 0, 0]), List.mem_of_getElem? (i := 4) rfl, by simp, _, s1, ![0, 0, 0],
      by half_check⟩
  · exact ⟨("L", ![1 / 2, 0, 0]), List.mem_of_getElem? (i := 4) rfl, by simp, _, s2, ![0, 0, 0],
      by half_check⟩
  · exact ⟨("F", ![1 / 2, 1 / 2, 0]), List.mem_of_getElem? (i := 3) rfl, by simp, _, s3, ![0, 0, 0],
      by half_check⟩
  · exact ⟨("L", ![1 / 2, 0, 0]), List.mem_of_getElem? (i := 4) rfl, by simp, _, s0, ![0, 0, 0],
      by half_check⟩
  · exact ⟨("F", ![1 / 2, 1 / 2, 0]), List.mem_of_getElem? (i := 3) rfl, by simp, _, s1, ![0, 0, 0],
      by half_check⟩
  · exact ⟨("F", ![1 / 2, 1 / 2, 0]), List.mem_of_getElem? (i := 3) rfl, by simp, _, s0, ![0, 0, 0],
      by half_check⟩
  · exact ⟨("Z", ![1 / 2, 1 / 2, 1 / 2]), List.mem_of_getElem? (i := 11) rfl, by simp, _, s0, ![0, 0, 0],
      by half_check⟩

theorem trims_sc_hR_15 {conv r : Cell ℝ} {a al : ℝ} (h : HasParams conv a a a al al al)
   (hr : getReciprocal ((!![1, 0, 0; 0, 1, 0; 0, 0, 1] : Cell ℝ).transpose *
      conv) = .ok r) (x0 : ℝ) : TrimTable r ["GAMMA", "L", "F", "Z"] (scTable15 x0) := by
  obtain ⟨w, hG⟩ := metric_rhl h
  have s0 : LatSym r !![1, 0, 0; 0, 1, 0; 0, 0, 1] := latSym_one r
  have s1 : LatSym r !![0, 1, 0; 0, 0, 1; 1, 0, 0] :=
    latSym_of hr !![0, 1, 0; 0, 0, 1; 1, 0, 0] !![0, 1, 0; 0, 0, 1; 1, 0, 0]
      !![0, 1, 0; 0, 0, 1; 1, 0, 0] (by rw [hG]; sym_check) (by sym_check) (by decide)
  have s2 : LatSym r !![0, 1, 0; 1, 0, 0; 0, 0, 1] :=
    latSym_of hr !![0, 1, 0; 1, 0, 0; 0, 0, 1] !![0, 1, 0; 1, 0, 0; 0, 0, 1]
      !![0, 1, 0; 1, 0, 0; 0, 0, 1] (by rw [hG]; sym_check) (by sym_check) (by decide)
  have s3 : LatSym r !![0, 0, 1; 1, 0, 0; 0, 1, 0] :=
    latSym_of hr !![0, 0, 1; 1, 0, 0; 0, 1, 0] !![0, 0, 1; 1, 0, 0; 0, 1, 0]
      !![0, 0, 1; 1, 0, 0; 0, 1, 0] (by rw [hG]; sym_check) (by sym_check) (by decide)
  refine trims_of (recip_unit hr) ?_
  simp only [parities, List.forall_mem_cons, List.not_mem_nil, false_implies, implies_true, and_true]
  refine ⟨?_, ?_, ?_, ?_, ?_, ?_, ?_, ?_⟩
  · exact ⟨("GAMMA", ![0, 0, 0]), List.mem_of_getElem? (i := 0) rfl, by simp, _, s0, ![0, 0, 0],
      by half_check⟩
  · exact ⟨("L", ![1 / 2, 0, 0]), List.mem_of_getElem? (i := 2) rfl, by simp, _, s1, ![0, 0, 0],
      by half_check⟩
  · exact ⟨("L", ![1 / 2, 0, 0]), List.mem_of_getElem? (i := 2) rfl, by simp, _, s2, ![0, 0, 0],
      by half_check⟩
  · exact ⟨("F", ![1 / 2, -1 / 2, 0]), List.mem_of_getElem? (i := 1) rfl, by simp, _, s3, ![0, 1, 0],
      by half_check⟩
  · exact ⟨("L", ![1 / 2, 0, 0]), List.mem_of_getElem? (i := 2) rfl, by simp, _, s0, ![0, 0, 0],
      by half_check⟩
  · exact ⟨("F", ![1 / 2, -1 / 2, 0]), List.mem_of_getElem? (i := 1) rfl, by simp, _, s1, ![0, 1, 0],
      by half_check⟩
  · exact ⟨("F", ![1 / 2, -1 / 2, 0]), List.mem_of_getElem? (i := 1) rfl, by simp, _, s0, ![0, 1, 0],
      by half_check⟩
  · exact ⟨("Z", ![1 / 2, -1 / 2, 1 / 2]), List.mem_of_getElem? (i := 7) rfl, by simp, _, s0, ![0, 1, 0],
      by half_check⟩

theorem trims_sc_mP_16 {conv r : Cell ℝ} {a b c al : ℝ} (h : HasParams conv a b c al 90 90)
   (hr : getReciprocal ((!![1, 0, 0; 0, 1, 0; 0, 0, 1] : Cell ℝ).transpose *
      conv) = .ok r) (x0 x1 x2 : ℝ) : TrimTable r ["GAMMA", "Y", "X", "C", "Z", "D", "A", "E"] (scTable16 x0 x1 x2) := by
  obtain ⟨w, hG⟩ := metric_ma h
  have s0 : LatSym r !![1, 0, 0; 0, 1, 0; 0, 0, 1] := latSym_one r
  refine trims_of (recip_unit hr) ?_
  simp only [parities, List.forall_mem_cons, List.not_mem_nil, false_implies, implies_true, and_true]
  refine ⟨?_, ?_, ?_, ?_, ?_, ?_, ?_, ?_⟩
  · exact ⟨("GAMMA", ![0, 0, 0]), List.mem_of_getElem? (i := 0) rfl, by simp, _, s0, ![0, 0, 0],
      by half_check⟩
  · exact ⟨("Y", ![0, 0, 1 / 2]), List.mem_of_getElem? (i := 13) rfl, by simp, _, s0, ![0, 0, 0],
      by half_check⟩
  · exact ⟨("X", ![0, 1 / 2, 0]), List.mem_of_getElem? (i := 12) rfl, by simp, _, s0, ![0, 0, 0],
      by half_check⟩
  · exact ⟨("C", ![0, 1 / 2, 1 / 2]), List.mem_of_getElem? (i := 2) rfl, by simp, _, s0, ![0, 0, 0],
      by half_check⟩
  · exact ⟨("Z", ![1 / 2, 0, 0]), List.mem_of_getElem? (i := 15) rfl, by simp, _, s0, ![0, 0, 0],
      by half_check⟩
  · exact ⟨("D", ![1 / 2, 0, 1 / 2]), List.mem_of_getElem? (i := 3) rfl, by simp, _, s0, ![0, 0, 0],
      by half_check⟩
  · exact ⟨("A", ![1 / 2, 1 / 2, 0]), List.mem_of_getElem? (i := 1) rfl, by simp, _, s0, ![0, 0, 0],
      by half_check⟩
  · exact ⟨("E", ![1 / 2, 1 / 2, 1 / 2]), List.mem_of_getElem? (i := 5) rfl, by simp, _, s0, ![0, 0, 0],
      by half_check⟩

theorem trims_sc_mC_17 {conv r : Cell ℝ} {a b c al : ℝ} (h : HasParams conv a b c al 90 90)
   (hr : getReciprocal ((!![1 / 2, -1 / 2, 0; 1 / 2, 1 / 2, 0; 0, 0, 1] : Cell ℝ).transpose *
      conv) = .ok r) (x0 x1 x2 x3 : ℝ) : TrimTable r ["GAMMA", "Z", "N", "M", "Y", "L"] (scTable17 x0 x1 x2 x3) := by
  obtain ⟨w, hG⟩ := metric_ma h
  have s0 : LatSym r !![1, 0, 0; 0, 1, 0; 0, 0, 1] := latSym_one r
  have s1 : LatSym r !![0, 1, 0; 1, 0, 0; 0, 0, 1] :=
    latSym_of hr !![-1, 0, 0; 0, 1, 0; 0, 0, 1] !![0, 1, 0; 1, 0, 0; 0, 0, 1]
      !![0, 1, 0; 1, 0, 0; 0, 0, 1] (by rw [hG]; sym_check) (by sym_check) (by decide)
  refine trims_of (recip_unit hr) ?_
  simp only [parities, List.forall_mem_cons, List.not_mem_nil, false_implies, implies_true, and_true]
  refine ⟨?_, ?_, ?_, ?_, ?_, ?_, ?_, ?_⟩
  · exact ⟨("GAMMA", ![0, 0, 0]), List.mem_of_getElem? (i := 0) rfl, by simp, _, s0, ![0, 0, 0],
      by half_check⟩
  · exact ⟨("Z", ![0, 0, 1 / 2]), List.mem_of_getElem? (i := 16) rfl, by simp, _, s0, ![0, 0, 0],
      by half_check⟩
  · exact ⟨("N", ![1 / 2, 0, 0]), List.mem_of_getElem? (i := 1) rfl, by simp, _, s1, ![0, 0, 0],
      by half_check⟩
  · exact ⟨("M", ![1 / 2, 0, 1 / 2]), List.mem_of_getElem? (i := 10) rfl, by simp, _, s1, ![0, 0, 0],
      by half_check⟩
  · exact ⟨("N", ![1 / 2, 0, 0]), List.mem_of_getElem? (i := 1) rfl, by simp, _, s0, ![0, 0, 0],
      by half_check⟩
  · exact ⟨("M", ![1 / 2, 0, 1 / 2]), List.mem_of_getElem? (i := 10) rfl, by simp, _, s0, ![0, 0, 0],
      by half_check⟩
  · exact ⟨("Y", ![1 / 2, 1 / 2, 0]), List.mem_of_getElem? (i := 14) rfl, by simp, _, s0, ![0, 0, 0],
      by half_check⟩
  · exact ⟨("L", ![1 / 2, 1 / 2, 1 / 2]), List.mem_of_getElem? (i := 9) rfl, by simp, _, s0, ![0, 0, 0],
      by half_check⟩

theorem trims_sc_mC_18 {conv r : Cell ℝ} {a b c al : ℝ} (h : HasParams conv a b c al 90 90)
   (hr : getReciprocal ((!![1 / 2, -1 / 2, 0; 1 / 2, 1 / 2, 0; 0, 0, 1] : Cell ℝ).transpose *
      conv) = .ok r) (x0 x1 x2 x3 : ℝ) : TrimTable r ["GAMMA", "Z", "N", "M", "X", "I"] (scTable18 x0 x1 x2 x3) := by
  obtain ⟨w, hG⟩ := metric_ma h
  have s0 : LatSym r !![1, 0, 0; 0, 1, 0; 0, 0, 1] := latSym_one r
  have s1 : LatSym r !![0, 1, 0; 1, 0, 0; 0, 0, 1] :=
    latSym_of hr !![-1, 0, 0; 0, 1, 0; 0, 0, 1] !![0, 1, 0; 1, 0, 0; 0, 0, 1]
      !![0, 1, 0; 1, 0, 0; 0, 0, 1] (by rw [hG]; sym_check) (by sym_check) (by decide)
  refine trims_of (recip_unit hr) ?_
  simp only [parities, List.forall_mem_cons, List.not_mem_nil, false_implies, implies_true, and_true]
  refine ⟨?_, ?_, ?_, ?_, ?_, ?_, ?_, ?_⟩
  · exact ⟨("GAMMA", ![0, 0, 0]), List.mem_of_getElem? (i := 0) rfl, by simp, _, s0, ![0, 0, 0],
      by half_check⟩
  · exact ⟨("Z", ![0, 0, 1 / 2]), List.mem_of_getElem? (i := 16) rfl, by simp, _, s0, ![0, 0, 0],
      by half_check⟩
  · exact ⟨("N", ![1 / 2, 0, 0]), List.mem_of_getElem? (i := 9) rfl, by simp, _, s1, ![0, 0, 0],
      by half_check⟩
  · exact ⟨("M", ![1 / 2, 0, 1 / 2]), List.mem_of_getElem? (i := 8) rfl, by simp, _, s1, ![0, 0, 0],
      by half_check⟩
  · exact ⟨("N", ![1 / 2, 0, 0]), List.mem_of_getElem? (i := 9) rfl, by simp, _, s0, ![0, 0, 0],
      by half_check⟩
  · exact ⟨("M", ![1 / 2, 0, 1 / 2]), List.mem_of_getElem? (i := 8) rfl, by simp, _, s0, ![0, 0, 0],
      by half_check⟩
  · exact ⟨("X", ![1 / 2, -1 / 2, 0]), List.mem_of_getElem? (i := 11) rfl, by simp, _, s0, ![0, 1, 0],
      by half_check⟩
  · exact ⟨("I", ![1 / 2, -1 / 2, 1 / 2]), List.mem_of_getElem? (i := 7) rfl, by simp, _, s0, ![0, 1, 0],
      by half_check⟩

theorem trims_sc_mC_19 {conv r : Cell ℝ} {a b c al : ℝ} (h : HasParams conv a b c al 90 90)
   (hr : getReciprocal ((!![1 / 2, -1 / 2, 0; 1 / 2, 1 / 2, 0; 0, 0, 1] : Cell ℝ).transpose *
      conv) = .ok r) (x0 x1 x2 x3 : ℝ) : TrimTable r ["GAMMA", "Z", "N", "M", "X", "L"] (scTable19 x0 x1 x2 x3) := by
  obtain ⟨w, hG⟩ := metric_ma h
  have s0 : LatSym r !![1, 0, 0; 0, 1, 0; 0, 0, 1] := latSym_one r
  have s1 : LatSym r !![0, 1, 0; 1, 0, 0; 0, 0, 1] :=
    latSym_of hr !![-1, 0, 0; 0, 1, 0; 0, 0, 1] !![0, 1, 0; 1, 0, 0; 0, 0, 1]
      !![0, 1, 0; 1, 0, 0; 0, 0, 1] (by rw [hG]; sym_check) (by sym_check) (by decide)
  refine trims_of (recip_unit hr) ?_
  simp only [parities, List.forall_mem_cons, List.not_mem_nil, false_implies, implies_true, and_true]
  refine ⟨?_, ?_, ?_, ?_, ?_, ?_, ?_, ?_⟩
  · exact ⟨("GAMMA", ![0, 0, 0]), List.mem_of_getElem? (i := 0) rfl, by simp, _, s0, ![0, 0, 0],
      by half_check⟩
  · exact ⟨("Z", ![0, 0, 1 / 2]), List.mem_of_getElem? (i := 18) rfl, by simp, _, s0, ![0, 0, 0],
      by half_check⟩
  · exact ⟨("N", ![1 / 2, 0, 0]), List.mem_of_getElem? (i := 11) rfl, by simp, _, s1, ![0, 0, 0],
      by half_check⟩
  · exact ⟨("M", ![1 / 2, 0, 1 / 2]), List.mem_of_getElem? (i := 10) rfl, by simp, _, s1, ![0, 0, 0],
      by half_check⟩
  · exact ⟨("N", ![1 / 2, 0, 0]), List.mem_of_getElem? (i := 11) rfl, by simp, _, s0, ![0, 0, 0],
      by half_check⟩
  · exact ⟨("M", ![1 / 2, 0, 1 / 2]), List.mem_of_getElem? (i := 10) rfl, by simp, _, s0, ![0, 0, 0],
      by half_check⟩
  · exact ⟨("X", ![1 / 2, -1 / 2, 0]), List.mem_of_getElem? (i := 13) rfl, by simp, _, s0, ![0, 1, 0],
      by half_check⟩
  · exact ⟨("L", ![1 / 2, 1 / 2, 1 / 2]), List.mem_of_getElem? (i := 9) rfl, by simp, _, s0, ![0, 0, 0],
      by half_check⟩

theorem trims_sc_aP_20 {conv r : Cell ℝ}  
   (hr : getReciprocal ((!![1, 0, 0; 0, 1, 0; 0, 0, 1] : Cell ℝ).transpose *
      conv) = .ok r) : TrimTable r ["GAMMA", "Z", "Y", "M", "X", "N", "L", "R"] scTable20 := by
  have s0 : LatSym r !![1, 0, 0; 0, 1, 0; 0, 0, 1] := latSym_one r
  refine trims_of (recip_unit hr) ?_
  simp only [parities, List.forall_mem_cons, List.not_mem_nil, false_implies, implies_true, and_true]
  refine ⟨?_, ?_, ?_, ?_, ?_, ?_, ?_, ?_⟩
  · exact ⟨("GAMMA", ![0, 0, 0]), List.mem_of_getElem? (i := 0) rfl, by simp, _, s0, ![0, 0, 0],
      by half_check⟩
  · exact ⟨("Z", ![0, 0, 1 / 2]), List.mem_of_getElem? (i := 7) rfl, by simp, _, s0, ![0, 0, 0],
      by half_check⟩
  · exact ⟨("Y", ![0, 1 / 2, 0]), List.mem_of_getElem? (i := 6) rfl, by simp, _, s0, ![0, 0, 0],
      by half_check⟩
  · exact ⟨("M", ![0, 1 / 2, 1 / 2]), List.mem_of_getElem? (i := 2) rfl, by simp, _, s0, ![0, 0, 0],
      by half_check⟩
  · exact ⟨("X", ![1 / 2, 0, 0]), List.mem_of_getElem? (i := 5) rfl, by simp, _, s0, ![0, 0, 0],
      by half_check⟩
  · exact ⟨("N", ![1 / 2, 0, 1 / 2]), List.mem_of_getElem? (i := 3) rfl, by simp, _, s0, ![0, 0, 0],
      by half_check⟩
  · exact ⟨("L", ![1 / 2, 1 / 2, 0]), List.mem_of_getElem? (i := 1) rfl, by simp, _, s0, ![0, 0, 0],
      by half_check⟩
  · exact ⟨("R", ![1 / 2, 1 / 2, 1 / 2]), List.mem_of_getElem? (i := 4) rfl, by simp, _, s0, ![0, 0, 0],
      by half_check⟩

theorem trims_sc_aP_21 {conv r : Cell ℝ}  
   (hr : getReciprocal ((!![1, 0, 0; 0, 1, 0; 0, 0, 1] : Cell ℝ).transpose *
      conv) = .ok r) : TrimTable r ["GAMMA", "M", "X", "R", "Y", "Z", "L", "N"] scTable21 := by
  have s0 : LatSym r !![1, 0, 0; 0, 1, 0; 0, 0, 1] := latSym_one r
  refine trims_of (recip_unit hr) ?_
  simp only [parities, List.forall_mem_cons, List.not_mem_nil, false_implies, implies_true, and_true]
  refine ⟨?_, ?_, ?_, ?_, ?_, ?_, ?_, ?_⟩
  · exact ⟨("GAMMA", ![0, 0, 0]), List.mem_of_getElem? (i := 0) rfl, by simp, _, s0, ![0, 0, 0],
      by half_check⟩
  · exact ⟨("M", ![0, 0, 1 / 2]), List.mem_of_getElem? (i := 2) rfl, by simp, _, s0, ![0, 0, 0],
      by half_check⟩
  · exact ⟨("X", ![0, -1 / 2, 0]), List.mem_of_getElem? (i := 5) rfl, by simp, _, s0, ![0, 1, 0],
      by half_check⟩
  · exact ⟨("R", ![0, -1 / 2, 1 / 2]), List.mem_of_getElem? (i := 4) rfl, by simp, _, s0, ![0, 1, 0],
      by half_check⟩
  · exact ⟨("Y", ![1 / 2, 0, 0]), List.mem_of_getElem? (i := 6) rfl, by simp, _, s0, ![0, 0, 0],
      by half_check⟩
  · exact ⟨("Z", ![-1 / 2, 0, 1 / 2]), List.mem_of_getElem? (i := 7) rfl, by simp, _, s0, ![1, 0, 0],
      by half_check⟩
  · exact ⟨("L", ![1 / 2, -1 / 2, 0]), List.mem_of_getElem? (i := 1) rfl, by simp, _, s0, ![0, 1, 0],
      by half_check⟩
  · exact ⟨("N", ![-1 / 2, -1 / 2, 1 / 2]), List.mem_of_getElem? (i := 3) rfl, by simp, _, s0, ![1, 1, 0],
      by half_check⟩

end Wulfric
