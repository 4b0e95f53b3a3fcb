import Verif.Lemmas.Letters

/-! # The letters of the points in the tables of SC -/

namespace Wulfric

open Matrix _root_.Spec Wulfric.Spec

theorem letters_sc_cP_2_free (r : Cell ℝ) : LetterTable r
     [("GAMMA", ![0, 0, 0]),
      ("M", ![1 / 2, 1 / 2, 0]),
      ("R", ![1 / 2, 1 / 2, 1 / 2]),
      ("X", ![0, 1 / 2, 0])] := by
  refine letters_of [0, 1, 2, 3] [![0, 0, 0], ![1 / 2, 1 / 2, 0], ![1 / 2, 1 / 2, 1 / 2], ![0, 1 / 2, 0]]
    (by simp only [PyDict.keys, List.map_cons, List.map_nil]; decide +kernel) ?_
  exact .cons (near_refl r _) <|
    .cons (near_refl r _) <|
    .cons (near_refl r _) <|
    .cons (near_refl r _) <| .nil

theorem letters_sc_cP_2 (r : Cell ℝ) : LetterTable r scTable2 :=
  letters_sc_cP_2_free r

theorem letters_sc_cF_3_free (r : Cell ℝ) : LetterTable r
     [("GAMMA", ![0, 0, 0]),
      ("K", ![3 / 8, 3 / 8, 3 / 4]),
      ("L", ![1 / 2, 1 / 2, 1 / 2]),
      ("U", ![5 / 8, 1 / 4, 5 / 8]),
      ("W", ![1 / 2, 1 / 4, 3 / 4]),
      ("X", ![1 / 2, 0, 1 / 2])] := by
  refine letters_of [0, 1, 2, 3, 4, 5] [![0, 0, 0], ![3 / 8, 3 / 8, 3 / 4], ![1 / 2, 1 / 2, 1 / 2], ![5 / 8, 1 / 4, 5 / 8], ![1 / 2, 1 / 4, 3 / 4], ![1 / 2, 0, 1 / 2]]
    (by simp only [PyDict.keys, List.map_cons, List.map_nil]; decide +kernel) ?_
  exact .cons (near_refl r _) <|
    .cons (near_refl r _) <|
    .cons (near_refl r _) <|
    .cons (near_refl r _) <|
    .cons (near_refl r _) <|
    .cons (near_refl r _) <| .nil

theorem letters_sc_cF_3 (r : Cell ℝ) : LetterTable r scTable3 :=
  letters_sc_cF_3_free r

theorem letters_sc_cI_4_free (r : Cell ℝ) : LetterTable r
     [("GAMMA", ![0, 0, 0]),
      ("H", ![1 / 2, -1 / 2, 1 / 2]),
      ("P", ![1 / 4, 1 / 4, 1 / 4]),
      ("N", ![0, 0, 1 / 2])] := by
  refine letters_of [0, 1, 2, 3] [![0, 0, 0], ![1 / 2, -1 / 2, 1 / 2], ![1 / 4, 1 / 4, 1 / 4], ![0, 0, 1 / 2]]
    (by simp only [PyDict.keys, List.map_cons, List.map_nil]; decide +kernel) ?_
  exact .cons (near_refl r _) <|
    .cons (near_refl r _) <|
    .cons (near_refl r _) <|
    .cons (near_refl r _) <| .nil

theorem letters_sc_cI_4 (r : Cell ℝ) : LetterTable r scTable4 :=
  letters_sc_cI_4_free r

theorem letters_sc_tP_5_free (r : Cell ℝ) : LetterTable r
     [("GAMMA", ![0, 0, 0]),
      ("A", ![1 / 2, 1 / 2, 1 / 2]),
      ("M", ![1 / 2, 1 / 2, 0]),
      ("R", ![0, 1 / 2, 1 / 2]),
      ("X", ![0, 1 / 2, 0]),
      ("Z", ![0, 0, 1 / 2])] := by
  refine letters_of [0, 1, 2, 3, 4, 5] [![0, 0, 0], ![1 / 2, 1 / 2, 1 / 2], ![1 / 2, 1 / 2, 0], ![0, 1 / 2, 1 / 2], ![0, 1 / 2, 0], ![0, 0, 1 / 2]]
    (by simp only [PyDict.keys, List.map_cons, List.map_nil]; decide +kernel) ?_
  exact .cons (near_refl r _) <|
    .cons (near_refl r _) <|
    .cons (near_refl r _) <|
    .cons (near_refl r _) <|
    .cons (near_refl r _) <|
    .cons (near_refl r _) <| .nil

theorem letters_sc_tP_5 (r : Cell ℝ) : LetterTable r scTable5 :=
  letters_sc_tP_5_free r

theorem letters_sc_tI_6_free (r : Cell ℝ)
    (eta : ℝ) : LetterTable r
     [("GAMMA", ![0, 0, 0]),
      ("M", ![-1 / 2, 1 / 2, 1 / 2]),
      ("N", ![0, 1 / 2, 0]),
      ("P", ![1 / 4, 1 / 4, 1 / 4]),
      ("X", ![0, 0, 1 / 2]),
      ("Z", ![eta, eta, -eta]),
      ("Z1", ![-eta, 1 - eta, eta])] := by
  refine letters_of [0, 1, 2, 3, 4, 5, 5] [![0, 0, 0], ![-1 / 2, 1 / 2, 1 / 2], ![0, 1 / 2, 0], ![1 / 4, 1 / 4, 1 / 4], ![0, 0, 1 / 2], ![eta, eta, -eta]]
    (by simp only [PyDict.keys, List.map_cons, List.map_nil]; decide +kernel) ?_
  exact .cons (near_refl r _) <|
    .cons (near_refl r _) <|
    .cons (near_refl r _) <|
    .cons (near_refl r _) <|
    .cons (near_refl r _) <|
    .cons (near_refl r _) <|
    .cons ⟨_, latSym_neg_one r, ![0, -1, 0], by near_check⟩ <| .nil

theorem letters_sc_tI_6 (r : Cell ℝ)
    (x0 x1 : ℝ) : LetterTable r (scTable6 x0 x1) :=
  letters_sc_tI_6_free r _

theorem letters_sc_tI_7_free {conv r : Cell ℝ} {a c : ℝ} (h : HasParams conv a a c 90 90 90)
    (hr : getReciprocal ((!![-1 / 2, 1 / 2, 1 / 2; 1 / 2, -1 / 2, 1 / 2; 1 / 2, 1 / 2, -1 / 2] : Cell ℝ).transpose *
      conv) = .ok r)
    (eta zeta : ℝ) : LetterTable r
     [("GAMMA", ![0, 0, 0]),
      ("N", ![0, 1 / 2, 0]),
      ("P", ![1 / 4, 1 / 4, 1 / 4]),
      ("SIGMA", ![-eta, eta, eta]),
      ("SIGMA1", ![eta, 1 - eta, -eta]),
      ("X", ![0, 0, 1 / 2]),
      ("Y", ![-zeta, zeta, 1 / 2]),
      ("Y1", ![1 / 2, 1 / 2, -zeta]),
      ("Z", ![1 / 2, 1 / 2, -1 / 2])] := by
  have hG := metric_box h
  have s0 : LatSym r !![1, 0, 0; 1, 0, -1; 1, -1, 0] :=
    latSym_of hr !![-1, 0, 0; 0, 1, 0; 0, 0, 1] !![1, 1, 1; 0, 0, -1; 0, -1, 0]
      !![1, 0, 0; 1, 0, -1; 1, -1, 0] (by rw [hG]; sym_check) (by sym_check) (by decide)
  refine letters_of [0, 1, 2, 3, 3, 4, 5, 5, 6] [![0, 0, 0], ![0, 1 / 2, 0], ![1 / 4, 1 / 4, 1 / 4], ![-eta, eta, eta], ![0, 0, 1 / 2], ![-zeta, zeta, 1 / 2], ![1 / 2, 1 / 2, -1 / 2]]
    (by simp only [PyDict.keys, List.map_cons, List.map_nil]; decide +kernel) ?_
  exact .cons (near_refl r _) <|
    .cons (near_refl r _) <|
    .cons (near_refl r _) <|
    .cons (near_refl r _) <|
    .cons ⟨_, latSym_neg_one r, ![0, -1, 0], by near_check⟩ <|
    .cons (near_refl r _) <|
    .cons (near_refl r _) <|
    .cons ⟨_, s0, ![1, 0, -1], by near_check⟩ <|
    .cons (near_refl r _) <| .nil

theorem letters_sc_tI_7 {conv r : Cell ℝ} {a c : ℝ} (h : HasParams conv a a c 90 90 90)
    (hr : getReciprocal ((!![-1 / 2, 1 / 2, 1 / 2; 1 / 2, -1 / 2, 1 / 2; 1 / 2, 1 / 2, -1 / 2] : Cell ℝ).transpose *
      conv) = .ok r)
    (x0 x1 : ℝ) : LetterTable r (scTable7 x0 x1) :=
  letters_sc_tI_7_free h hr _ _

theorem letters_sc_oP_8_free (r : Cell ℝ) : LetterTable r
     [("GAMMA", ![0, 0, 0]),
      ("R", ![1 / 2, 1 / 2, 1 / 2]),
      ("S", ![1 / 2, 1 / 2, 0]),
      ("T", ![0, 1 / 2, 1 / 2]),
      ("U", ![1 / 2, 0, 1 / 2]),
      ("X", ![1 / 2, 0, 0]),
      ("Y", ![0, 1 / 2, 0]),
      ("Z", ![0, 0, 1 / 2])] := by
  refine letters_of [0, 1, 2, 3, 4, 5, 6, 7] [![0, 0, 0], ![1 / 2, 1 / 2, 1 / 2], ![1 / 2, 1 / 2, 0], ![0, 1 / 2, 1 / 2], ![1 / 2, 0, 1 / 2], ![1 / 2, 0, 0], ![0, 1 / 2, 0], ![0, 0, 1 / 2]]
    (by simp only [PyDict.keys, List.map_cons, List.map_nil]; decide +kernel) ?_
  exact .cons (near_refl r _) <|
    .cons (near_refl r _) <|
    .cons (near_refl r _) <|
    .cons (near_refl r _) <|
    .cons (near_refl r _) <|
    .cons (near_refl r _) <|
    .cons (near_refl r _) <|
    .cons (near_refl r _) <| .nil

theorem letters_sc_oP_8 (r : Cell ℝ) : LetterTable r scTable8 :=
  letters_sc_oP_8_free r

theorem letters_sc_oF_9_free (r : Cell ℝ)
    (eta zeta : ℝ) : LetterTable r
     [("GAMMA", ![0, 0, 0]),
      ("A", ![1 / 2, 1 / 2 + zeta, zeta]),
      ("A1", ![1 / 2, 1 / 2 - zeta, 1 - zeta]),
      ("L", ![1 / 2, 1 / 2, 1 / 2]),
      ("T", ![1, 1 / 2, 1 / 2]),
      ("X", ![0, eta, eta]),
      ("X1", ![1, 1 - eta, 1 - eta]),
      ("Y", ![1 / 2, 0, 1 / 2]),
      ("Z", ![1 / 2, 1 / 2, 0])] := by
  refine letters_of [0, 1, 1, 2, 3, 4, 4, 5, 6] [![0, 0, 0], ![1 / 2, 1 / 2 + zeta, zeta], ![1 / 2, 1 / 2, 1 / 2], ![1, 1 / 2, 1 / 2], ![0, eta, eta], ![1 / 2, 0, 1 / 2], ![1 / 2, 1 / 2, 0]]
    (by simp only [PyDict.keys, List.map_cons, List.map_nil]; decide +kernel) ?_
  exact .cons (near_refl r _) <|
    .cons (near_refl r _) <|
    .cons ⟨_, latSym_neg_one r, ![-1, -1, -1], by near_check⟩ <|
    .cons (near_refl r _) <|
    .cons (near_refl r _) <|
    .cons (near_refl r _) <|
    .cons ⟨_, latSym_neg_one r, ![-1, -1, -1], by near_check⟩ <|
    .cons (near_refl r _) <|
    .cons (near_refl r _) <| .nil

theorem letters_sc_oF_9 (r : Cell ℝ)
    (x0 x1 x2 : ℝ) : LetterTable r (scTable9 x0 x1 x2) :=
  letters_sc_oF_9_free r _ _

theorem letters_sc_oF_10_free (r : Cell ℝ)
    (delta eta phi : ℝ) : LetterTable r
     [("GAMMA", ![0, 0, 0]),
      ("C", ![1 / 2, 1 / 2 - eta, 1 - eta]),
      ("C1", ![1 / 2, 1 / 2 + eta, eta]),
      ("D", ![1 / 2 - delta, 1 / 2, 1 - delta]),
      ("D1", ![1 / 2 + delta, 1 / 2, delta]),
      ("L", ![1 / 2, 1 / 2, 1 / 2]),
      ("H", ![1 - phi, 1 / 2 - phi, 1 / 2]),
      ("H1", ![phi, 1 / 2 + phi, 1 / 2]),
      ("X", ![0, 1 / 2, 1 / 2]),
      ("Y", ![1 / 2, 0, 1 / 2]),
      ("Z", ![1 / 2, 1 / 2, 0])] := by
  refine letters_of [0, 1, 1, 2, 2, 3, 4, 4, 5, 6, 7] [![0, 0, 0], ![1 / 2, 1 / 2 - eta, 1 - eta], ![1 / 2 - delta, 1 / 2, 1 - delta], ![1 / 2, 1 / 2, 1 / 2], ![1 - phi, 1 / 2 - phi, 1 / 2], ![0, 1 / 2, 1 / 2], ![1 / 2, 0, 1 / 2], ![1 / 2, 1 / 2, 0]]
    (by simp only [PyDict.keys, List.map_cons, List.map_nil]; decide +kernel) ?_
  exact .cons (near_refl r _) <|
    .cons (near_refl r _) <|
    .cons ⟨_, latSym_neg_one r, ![-1, -1, -1], by near_check⟩ <|
    .cons (near_refl r _) <|
    .cons ⟨_, latSym_neg_one r, ![-1, -1, -1], by near_check⟩ <|
    .cons (near_refl r _) <|
    .cons (near_refl r _) <|
    .cons ⟨_, latSym_neg_one r, ![-1, -1, -1], by near_check⟩ <|
    .cons (near_refl r _) <|
    .cons (near_refl r _) <|
    .cons (near_refl r _) <| .nil

theorem letters_sc_oF_10 (r : Cell ℝ)
    (x0 x1 x2 : ℝ) : LetterTable r (scTable10 x0 x1 x2) :=
  letters_sc_oF_10_free r _ _ _

theorem letters_sc_oI_11_free {conv r : Cell ℝ} {a b c : ℝ} (h : HasParams conv a b c 90 90 90)
    (hr : getReciprocal ((!![-1 / 2, 1 / 2, 1 / 2; 1 / 2, -1 / 2, 1 / 2; 1 / 2, 1 / 2, -1 / 2] : Cell ℝ).transpose *
      conv) = .ok r)
    (delta eta mu zeta : ℝ) : LetterTable r
     [("GAMMA", ![0, 0, 0]),
      ("L", ![-mu, mu, 1 / 2 - delta]),
      ("L1", ![mu, -mu, 1 / 2 + delta]),
      ("L2", ![1 / 2 - delta, 1 / 2 + delta, -mu]),
      ("R", ![0, 1 / 2, 0]),
      ("S", ![1 / 2, 0, 0]),
      ("T", ![0, 0, 1 / 2]),
      ("W", ![1 / 4, 1 / 4, 1 / 4]),
      ("X", ![-zeta, zeta, zeta]),
      ("X1", ![zeta, 1 - zeta, -zeta]),
      ("Y", ![eta, -eta, eta]),
      ("Y1", ![1 - eta, eta, -eta]),
      ("Z", ![1 / 2, 1 / 2, -1 / 2])] := by
  have hG := metric_box h
  have s0 : LatSym r !![1, 0, 0; 1, 0, -1; 1, -1, 0] :=
    latSym_of hr !![-1, 0, 0; 0, 1, 0; 0, 0, 1] !![1, 1, 1; 0, 0, -1; 0, -1, 0]
      !![1, 0, 0; 1, 0, -1; 1, -1, 0] (by rw [hG]; sym_check) (by sym_check) (by decide)
  refine letters_of [0, 1, 1, 1, 2, 3, 4, 5, 6, 6, 7, 7, 8] [![0, 0, 0], ![-mu, mu, 1 / 2 - delta], ![0, 1 / 2, 0], ![1 / 2, 0, 0], ![0, 0, 1 / 2], ![1 / 4, 1 / 4, 1 / 4], ![-zeta, zeta, zeta], ![eta, -eta, eta], ![1 / 2, 1 / 2, -1 / 2]]
    (by simp only [PyDict.keys, List.map_cons, List.map_nil]; decide +kernel) ?_
  exact .cons (near_refl r _) <|
    .cons (near_refl r _) <|
    .cons ⟨_, latSym_neg_one r, ![0, 0, -1], by near_check⟩ <|
    .cons ⟨_, s0, ![1, 0, -1], by near_check⟩ <|
    .cons (near_refl r _) <|
    .cons (near_refl r _) <|
    .cons (near_refl r _) <|
    .cons (near_refl r _) <|
    .cons (near_refl r _) <|
    .cons ⟨_, latSym_neg_one r, ![0, -1, 0], by near_check⟩ <|
    .cons (near_refl r _) <|
    .cons ⟨_, latSym_neg_one r, ![-1, 0, 0], by near_check⟩ <|
    .cons (near_refl r _) <| .nil

theorem letters_sc_oI_11 {conv r : Cell ℝ} {a b c : ℝ} (h : HasParams conv a b c 90 90 90)
    (hr : getReciprocal ((!![-1 / 2, 1 / 2, 1 / 2; 1 / 2, -1 / 2, 1 / 2; 1 / 2, 1 / 2, -1 / 2] : Cell ℝ).transpose *
      conv) = .ok r)
    (x0 x1 x2 : ℝ) : LetterTable r (scTable11 x0 x1 x2) :=
  letters_sc_oI_11_free h hr _ _ _ _

theorem letters_sc_oC_12_free (r : Cell ℝ)
    (zeta : ℝ) : LetterTable r
     [("GAMMA", ![0, 0, 0]),
      ("A", ![zeta, zeta, 1 / 2]),
      ("A1", ![-zeta, 1 - zeta, 1 / 2]),
      ("R", ![0, 1 / 2, 1 / 2]),
      ("S", ![0, 1 / 2, 0]),
      ("T", ![-1 / 2, 1 / 2, 1 / 2]),
      ("X", ![zeta, zeta, 0]),
      ("X1", ![-zeta, 1 - zeta, 0]),
      ("Y", ![-1 / 2, 1 / 2, 0]),
      ("Z", ![0, 0, 1 / 2])] := by
  refine letters_of [0, 1, 1, 2, 3, 4, 5, 5, 6, 7] [![0, 0, 0], ![zeta, zeta, 1 / 2], ![0, 1 / 2, 1 / 2], ![0, 1 / 2, 0], ![-1 / 2, 1 / 2, 1 / 2], ![zeta, zeta, 0], ![-1 / 2, 1 / 2, 0], ![0, 0, 1 / 2]]
    (by simp only [PyDict.keys, List.map_cons, List.map_nil]; decide +kernel) ?_
  exact .cons (near_refl r _) <|
    .cons (near_refl r _) <|
    .cons ⟨_, latSym_neg_one r, ![0, -1, -1], by near_check⟩ <|
    .cons (near_refl r _) <|
    .cons (near_refl r _) <|
    .cons (near_refl r _) <|
    .cons (near_refl r _) <|
    .cons ⟨_, latSym_neg_one r, ![0, -1, 0], by near_check⟩ <|
    .cons (near_refl r _) <|
    .cons (near_refl r _) <| .nil

theorem letters_sc_oC_12 (r : Cell ℝ)
    (x0 x1 : ℝ) : LetterTable r (scTable12 x0 x1) :=
  letters_sc_oC_12_free r _

theorem letters_sc_oA_12_free (r : Cell ℝ)
    (zeta : ℝ) : LetterTable r
     [("GAMMA", ![0, 0, 0]),
      ("A", ![zeta, zeta, 1 / 2]),
      ("A1", ![-zeta, 1 - zeta, 1 / 2]),
      ("R", ![0, 1 / 2, 1 / 2]),
      ("S", ![0, 1 / 2, 0]),
      ("T", ![-1 / 2, 1 / 2, 1 / 2]),
      ("X", ![zeta, zeta, 0]),
      ("X1", ![-zeta, 1 - zeta, 0]),
      ("Y", ![-1 / 2, 1 / 2, 0]),
      ("Z", ![0, 0, 1 / 2])] := by
  refine letters_of [0, 1, 1, 2, 3, 4, 5, 5, 6, 7] [![0, 0, 0], ![zeta, zeta, 1 / 2], ![0, 1 / 2, 1 / 2], ![0, 1 / 2, 0], ![-1 / 2, 1 / 2, 1 / 2], ![zeta, zeta, 0], ![-1 / 2, 1 / 2, 0], ![0, 0, 1 / 2]]
    (by simp only [PyDict.keys, List.map_cons, List.map_nil]; decide +kernel) ?_
  exact .cons (near_refl r _) <|
    .cons (near_refl r _) <|
    .cons ⟨_, latSym_neg_one r, ![0, -1, -1], by near_check⟩ <|
    .cons (near_refl r _) <|
    .cons (near_refl r _) <|
    .cons (near_refl r _) <|
    .cons (near_refl r _) <|
    .cons ⟨_, latSym_neg_one r, ![0, -1, 0], by near_check⟩ <|
    .cons (near_refl r _) <|
    .cons (near_refl r _) <| .nil

theorem letters_sc_oA_12 (r : Cell ℝ)
    (x0 x1 : ℝ) : LetterTable r (scTable12 x0 x1) :=
  letters_sc_oA_12_free r _

theorem letters_sc_hP_13_free (r : Cell ℝ) : LetterTable r
     [("GAMMA", ![0, 0, 0]),
      ("A", ![0, 0, 1 / 2]),
      ("H", ![1 / 3, 1 / 3, 1 / 2]),
      ("K", ![1 / 3, 1 / 3, 0]),
      ("L", ![1 / 2, 0, 1 / 2]),
      ("M", ![1 / 2, 0, 0])] := by
  refine letters_of [0, 1, 2, 3, 4, 5] [![0, 0, 0], ![0, 0, 1 / 2], ![1 / 3, 1 / 3, 1 / 2], ![1 / 3, 1 / 3, 0], ![1 / 2, 0, 1 / 2], ![1 / 2, 0, 0]]
    (by simp only [PyDict.keys, List.map_cons, List.map_nil]; decide +kernel) ?_
  exact .cons (near_refl r _) <|
    .cons (near_refl r _) <|
    .cons (near_refl r _) <|
    .cons (near_refl r _) <|
    .cons (near_refl r _) <|
    .cons (near_refl r _) <| .nil

theorem letters_sc_hP_13 (r : Cell ℝ) : LetterTable r scTable13 :=
  letters_sc_hP_13_free r

theorem letters_sc_hR_14_free {conv r : Cell ℝ} {a al : ℝ} (h : HasParams conv a a a al al al)
    (hr : getReciprocal ((!![1, 0, 0; 0, 1, 0; 0, 0, 1] : Cell ℝ).transpose *
      conv) = .ok r)
    (eta nu : ℝ) : LetterTable r
     [("GAMMA", ![0, 0, 0]),
      ("B", ![eta, 1 / 2, 1 - eta]),
      ("B1", ![1 / 2, 1 - eta, eta - 1]),
      ("F", ![1 / 2, 1 / 2, 0]),
      ("L", ![1 / 2, 0, 0]),
      ("L1", ![0, 0, -1 / 2]),
      ("P", ![eta, nu, nu]),
      ("P1", ![1 - nu, 1 - nu, 1 - eta]),
      ("P2", ![nu, nu, eta - 1]),
      ("Q", ![1 - nu, nu, 0]),
      ("X", ![nu, 0, -nu]),
      ("Z", ![1 / 2, 1 / 2, 1 / 2])] := by
  obtain ⟨w, hG⟩ := metric_rhl h
  have s0 : LatSym r !![0, 1, 0; 0, 0, 1; 1, 0, 0] :=
    latSym_of hr !![0, 1, 0; 0, 0, 1; 1, 0, 0] !![0, 1, 0; 0, 0, 1; 1, 0, 0]
      !![0, 1, 0; 0, 0, 1; 1, 0, 0] (by rw [hG]; sym_check) (by sym_check) (by decide)
  have s1 : LatSym r !![0, -1, 0; 0, 0, -1; -1, 0, 0] :=
    latSym_of hr !![0, -1, 0; 0, 0, -1; -1, 0, 0] !![0, -1, 0; 0, 0, -1; -1, 0, 0]
      !![0, -1, 0; 0, 0, -1; -1, 0, 0] (by rw [hG]; sym_check) (by sym_check) (by decide)
  refine letters_of [0, 1, 1, 2, 3, 3, 4, 4, 4, 5, 6, 7] [![0, 0, 0], ![eta, 1 / 2, 1 - eta], ![1 / 2, 1 / 2, 0], ![1 / 2, 0, 0], ![eta, nu, nu], ![1 - nu, nu, 0], ![nu, 0, -nu], ![1 / 2, 1 / 2, 1 / 2]]
    (by simp only [PyDict.keys, List.map_cons, List.map_nil]; decide +kernel) ?_
  exact .cons (near_refl r _) <|
    .cons (near_refl r _) <|
    .cons ⟨_, s0, ![-1, 0, 0], by near_check⟩ <|
    .cons (near_refl r _) <|
    .cons (near_refl r _) <|
    .cons ⟨_, s0, ![-1, 0, 0], by near_check⟩ <|
    .cons (near_refl r _) <|
    .cons ⟨_, s1, ![-1, -1, -1], by near_check⟩ <|
    .cons ⟨_, s0, ![-1, 0, 0], by near_check⟩ <|
    .cons (near_refl r _) <|
    .cons (near_refl r _) <|
    .cons (near_refl r _) <| .nil

theorem letters_sc_hR_14 {conv r : Cell ℝ} {a al : ℝ} (h : HasParams conv a a a al al al)
    (hr : getReciprocal ((!![1, 0, 0; 0, 1, 0; 0, 0, 1] : Cell ℝ).transpose *
      conv) = .ok r)
    (x0 : ℝ) : LetterTable r (scTable14 x0) :=
  letters_sc_hR_14_free h hr _ _

theorem letters_sc_hR_15_free (r : Cell ℝ)
    (eta nu : ℝ) : LetterTable r
     [("GAMMA", ![0, 0, 0]),
      ("F", ![1 / 2, -1 / 2, 0]),
      ("L", ![1 / 2, 0, 0]),
      ("P", ![1 - nu, -nu, 1 - nu]),
      ("P1", ![nu, nu - 1, nu - 1]),
      ("Q", ![eta, eta, eta]),
      ("Q1", ![1 - eta, -eta, -eta]),
      ("Z", ![1 / 2, -1 / 2, 1 / 2])] := by
  refine letters_of [0, 1, 2, 3, 3, 4, 4, 5] [![0, 0, 0], ![1 / 2, -1 / 2, 0], ![1 / 2, 0, 0], ![1 - nu, -nu, 1 - nu], ![eta, eta, eta], ![1 / 2, -1 / 2, 1 / 2]]
    (by simp only [PyDict.keys, List.map_cons, List.map_nil]; decide +kernel) ?_
  exact .cons (near_refl r _) <|
    .cons (near_refl r _) <|
    .cons (near_refl r _) <|
    .cons (near_refl r _) <|
    .cons ⟨_, latSym_neg_one r, ![-1, 1, 0], by near_check⟩ <|
    .cons (near_refl r _) <|
    .cons ⟨_, latSym_neg_one r, ![-1, 0, 0], by near_check⟩ <|
    .cons (near_refl r _) <| .nil

theorem letters_sc_hR_15 (r : Cell ℝ)
    (x0 : ℝ) : LetterTable r (scTable15 x0) :=
  letters_sc_hR_15_free r _ _

theorem letters_sc_mP_16_free (r : Cell ℝ)
    (eta nu : ℝ) : LetterTable r
     [("GAMMA", ![0, 0, 0]),
      ("A", ![1 / 2, 1 / 2, 0]),
      ("C", ![0, 1 / 2, 1 / 2]),
      ("D", ![1 / 2, 0, 1 / 2]),
      ("D1", ![1 / 2, 0, -1 / 2]),
      ("E", ![1 / 2, 1 / 2, 1 / 2]),
      ("H", ![0, eta, 1 - nu]),
      ("H1", ![0, 1 - eta, nu]),
      ("H2", ![0, eta, -nu]),
      ("M", ![1 / 2, eta, 1 - nu]),
      ("M1", ![1 / 2, 1 - eta, nu]),
      ("M2", ![1 / 2, eta, -nu]),
      ("X", ![0, 1 / 2, 0]),
      ("Y", ![0, 0, 1 / 2]),
      ("Y1", ![0, 0, -1 / 2]),
      ("Z", ![1 / 2, 0, 0])] := by
  refine letters_of [0, 1, 2, 3, 3, 4, 5, 5, 5, 6, 6, 6, 7, 8, 8, 9] [![0, 0, 0], ![1 / 2, 1 / 2, 0], ![0, 1 / 2, 1 / 2], ![1 / 2, 0, 1 / 2], ![1 / 2, 1 / 2, 1 / 2], ![0, eta, 1 - nu], ![1 / 2, eta, 1 - nu], ![0, 1 / 2, 0], ![0, 0, 1 / 2], ![1 / 2, 0, 0]]
    (by simp only [PyDict.keys, List.map_cons, List.map_nil]; decide +kernel) ?_
  exact .cons (near_refl r _) <|
    .cons (near_refl r _) <|
    .cons (near_refl r _) <|
    .cons (near_refl r _) <|
    .cons ⟨_, latSym_one r, ![0, 0, -1], by near_check⟩ <|
    .cons (near_refl r _) <|
    .cons (near_refl r _) <|
    .cons ⟨_, latSym_neg_one r, ![0, -1, -1], by near_check⟩ <|
    .cons ⟨_, latSym_one r, ![0, 0, -1], by near_check⟩ <|
    .cons (near_refl r _) <|
    .cons ⟨_, latSym_neg_one r, ![-1, -1, -1], by near_check⟩ <|
    .cons ⟨_, latSym_one r, ![0, 0, -1], by near_check⟩ <|
    .cons (near_refl r _) <|
    .cons (near_refl r _) <|
    .cons ⟨_, latSym_one r, ![0, 0, -1], by near_check⟩ <|
    .cons (near_refl r _) <| .nil

theorem letters_sc_mP_16 (r : Cell ℝ)
    (x0 x1 x2 : ℝ) : LetterTable r (scTable16 x0 x1 x2) :=
  letters_sc_mP_16_free r _ _

theorem letters_sc_mC_17_free {conv r : Cell ℝ} {a b c al : ℝ} (h : HasParams conv a b c al 90 90)
    (hr : getReciprocal ((!![1 / 2, -1 / 2, 0; 1 / 2, 1 / 2, 0; 0, 0, 1] : Cell ℝ).transpose *
      conv) = .ok r)
    (eta phi psi zeta : ℝ) : LetterTable r
     [("GAMMA", ![0, 0, 0]),
      ("N", ![1 / 2, 0, 0]),
      ("N1", ![0, -1 / 2, 0]),
      ("F", ![1 - zeta, 1 - zeta, 1 - eta]),
      ("F1", ![zeta, zeta, eta]),
      ("F2", ![-zeta, -zeta, 1 - eta]),
      ("F3", ![1 - zeta, -zeta, 1 - eta]),
      ("I", ![phi, 1 - phi, 1 / 2]),
      ("I1", ![1 - phi, phi - 1, 1 / 2]),
      ("L", ![1 / 2, 1 / 2, 1 / 2]),
      ("M", ![1 / 2, 0, 1 / 2]),
      ("X", ![1 - psi, psi - 1, 0]),
      ("X1", ![psi, 1 - psi, 0]),
      ("X2", ![psi - 1, -psi, 0]),
      ("Y", ![1 / 2, 1 / 2, 0]),
      ("Y1", ![-1 / 2, -1 / 2, 0]),
      ("Z", ![0, 0, 1 / 2])] := by
  obtain ⟨w, hG⟩ := metric_ma h
  have s0 : LatSym r !![0, 1, 0; 1, 0, 0; 0, 0, 1] :=
    latSym_of hr !![-1, 0, 0; 0, 1, 0; 0, 0, 1] !![0, 1, 0; 1, 0, 0; 0, 0, 1]
      !![0, 1, 0; 1, 0, 0; 0, 0, 1] (by rw [hG]; sym_check) (by sym_check) (by decide)
  refine letters_of [0, 1, 1, 2, 2, 2, 2, 3, 3, 4, 5, 6, 6, 6, 7, 7, 8] [![0, 0, 0], ![1 / 2, 0, 0], ![1 - zeta, 1 - zeta, 1 - eta], ![phi, 1 - phi, 1 / 2], ![1 / 2, 1 / 2, 1 / 2], ![1 / 2, 0, 1 / 2], ![1 - psi, psi - 1, 0], ![1 / 2, 1 / 2, 0], ![0, 0, 1 / 2]]
    (by simp only [PyDict.keys, List.map_cons, List.map_nil]; decide +kernel) ?_
  exact .cons (near_refl r _) <|
    .cons (near_refl r _) <|
    .cons ⟨_, s0, ![-1, 0, 0], by near_check⟩ <|
    .cons (near_refl r _) <|
    .cons ⟨_, latSym_neg_one r, ![-1, -1, -1], by near_check⟩ <|
    .cons ⟨_, latSym_one r, ![-1, -1, 0], by near_check⟩ <|
    .cons ⟨_, latSym_one r, ![0, -1, 0], by near_check⟩ <|
    .cons (near_refl r _) <|
    .cons ⟨_, latSym_neg_one r, ![-1, 0, -1], by near_check⟩ <|
    .cons (near_refl r _) <|
    .cons (near_refl r _) <|
    .cons (near_refl r _) <|
    .cons ⟨_, latSym_neg_one r, ![-1, 0, 0], by near_check⟩ <|
    .cons ⟨_, latSym_neg_one r, ![0, 1, 0], by near_check⟩ <|
    .cons (near_refl r _) <|
    .cons ⟨_, latSym_one r, ![-1, -1, 0], by near_check⟩ <|
    .cons (near_refl r _) <| .nil

theorem letters_sc_mC_17 {conv r : Cell ℝ} {a b c al : ℝ} (h : HasParams conv a b c al 90 90)
    (hr : getReciprocal ((!![1 / 2, -1 / 2, 0; 1 / 2, 1 / 2, 0; 0, 0, 1] : Cell ℝ).transpose *
      conv) = .ok r)
    (x0 x1 x2 x3 : ℝ) : LetterTable r (scTable17 x0 x1 x2 x3) :=
  letters_sc_mC_17_free h hr _ _ _ _

theorem letters_sc_mC_18_free {conv r : Cell ℝ} {a b c al : ℝ} (h : HasParams conv a b c al 90 90)
    (hr : getReciprocal ((!![1 / 2, -1 / 2, 0; 1 / 2, 1 / 2, 0; 0, 0, 1] : Cell ℝ).transpose *
      conv) = .ok r)
    (delta eta mu phi psi zeta : ℝ) : LetterTable r
     [("GAMMA", ![0, 0, 0]),
      ("F", ![1 - phi, 1 - phi, 1 - psi]),
      ("F1", ![phi, phi - 1, psi]),
      ("F2", ![1 - phi, -phi, 1 - psi]),
      ("H", ![zeta, zeta, eta]),
      ("H1", ![1 - zeta, -zeta, 1 - eta]),
      ("H2", ![-zeta, -zeta, 1 - eta]),
      ("I", ![1 / 2, -1 / 2, 1 / 2]),
      ("M", ![1 / 2, 0, 1 / 2]),
      ("N", ![1 / 2, 0, 0]),
      ("N1", ![0, -1 / 2, 0]),
      ("X", ![1 / 2, -1 / 2, 0]),
      ("Y", ![mu, mu, delta]),
      ("Y1", ![1 - mu, -mu, -delta]),
      ("Y2", ![-mu, -mu, -delta]),
      ("Y3", ![mu, mu - 1, delta]),
      ("Z", ![0, 0, 1 / 2])] := by
  obtain ⟨w, hG⟩ := metric_ma h
  have s0 : LatSym r !![0, 1, 0; 1, 0, 0; 0, 0, 1] :=
    latSym_of hr !![-1, 0, 0; 0, 1, 0; 0, 0, 1] !![0, 1, 0; 1, 0, 0; 0, 0, 1]
      !![0, 1, 0; 1, 0, 0; 0, 0, 1] (by rw [hG]; sym_check) (by sym_check) (by decide)
  refine letters_of [0, 1, 1, 1, 2, 2, 2, 3, 4, 5, 5, 6, 7, 7, 7, 7, 8] [![0, 0, 0], ![1 - phi, 1 - phi, 1 - psi], ![zeta, zeta, eta], ![1 / 2, -1 / 2, 1 / 2], ![1 / 2, 0, 1 / 2], ![1 / 2, 0, 0], ![1 / 2, -1 / 2, 0], ![mu, mu, delta], ![0, 0, 1 / 2]]
    (by simp only [PyDict.keys, List.map_cons, List.map_nil]; decide +kernel) ?_
  exact .cons (near_refl r _) <|
    .cons (near_refl r _) <|
    .cons ⟨_, latSym_neg_one r, ![-1, 0, -1], by near_check⟩ <|
    .cons ⟨_, latSym_one r, ![0, -1, 0], by near_check⟩ <|
    .cons (near_refl r _) <|
    .cons ⟨_, latSym_neg_one r, ![-1, 0, -1], by near_check⟩ <|
    .cons ⟨_, latSym_neg_one r, ![0, 0, -1], by near_check⟩ <|
    .cons (near_refl r _) <|
    .cons (near_refl r _) <|
    .cons (near_refl r _) <|
    .cons ⟨_, s0, ![-1, 0, 0], by near_check⟩ <|
    .cons (near_refl r _) <|
    .cons (near_refl r _) <|
    .cons ⟨_, latSym_neg_one r, ![-1, 0, 0], by near_check⟩ <|
    .cons ⟨_, latSym_neg_one r, ![0, 0, 0], by near_check⟩ <|
    .cons ⟨_, latSym_one r, ![0, -1, 0], by near_check⟩ <|
    .cons (near_refl r _) <| .nil

theorem letters_sc_mC_18 {conv r : Cell ℝ} {a b c al : ℝ} (h : HasParams conv a b c al 90 90)
    (hr : getReciprocal ((!![1 / 2, -1 / 2, 0; 1 / 2, 1 / 2, 0; 0, 0, 1] : Cell ℝ).transpose *
      conv) = .ok r)
    (x0 x1 x2 x3 : ℝ) : LetterTable r (scTable18 x0 x1 x2 x3) :=
  letters_sc_mC_18_free h hr _ _ _ _ _ _

theorem letters_sc_mC_19_free {conv r : Cell ℝ} {a b c al : ℝ} (h : HasParams conv a b c al 90 90)
    (hr : getReciprocal ((!![1 / 2, -1 / 2, 0; 1 / 2, 1 / 2, 0; 0, 0, 1] : Cell ℝ).transpose *
      conv) = .ok r)
    (delta eta mu nu omega rho zeta : ℝ) : LetterTable r
     [("GAMMA", ![0, 0, 0]),
      ("F", ![nu, nu, omega]),
      ("F1", ![1 - nu, 1 - nu, 1 - omega]),
      ("F2", ![nu, nu - 1, omega]),
      ("H", ![zeta, zeta, eta]),
      ("H1", ![1 - zeta, -zeta, 1 - eta]),
      ("H2", ![-zeta, -zeta, 1 - eta]),
      ("I", ![rho, 1 - rho, 1 / 2]),
      ("I1", ![1 - rho, rho - 1, 1 / 2]),
      ("L", ![1 / 2, 1 / 2, 1 / 2]),
      ("M", ![1 / 2, 0, 1 / 2]),
      ("N", ![1 / 2, 0, 0]),
      ("N1", ![0, -1 / 2, 0]),
      ("X", ![1 / 2, -1 / 2, 0]),
      ("Y", ![mu, mu, delta]),
      ("Y1", ![1 - mu, -mu, -delta]),
      ("Y2", ![-mu, -mu, -delta]),
      ("Y3", ![mu, mu - 1, delta]),
      ("Z", ![0, 0, 1 / 2])] := by
  obtain ⟨w, hG⟩ := metric_ma h
  have s0 : LatSym r !![0, 1, 0; 1, 0, 0; 0, 0, 1] :=
    latSym_of hr !![-1, 0, 0; 0, 1, 0; 0, 0, 1] !![0, 1, 0; 1, 0, 0; 0, 0, 1]
      !![0, 1, 0; 1, 0, 0; 0, 0, 1] (by rw [hG]; sym_check) (by sym_check) (by decide)
  refine letters_of [0, 1, 1, 1, 2, 2, 2, 3, 3, 4, 5, 6, 6, 7, 8, 8, 8, 8, 9] [![0, 0, 0], ![nu, nu, omega], ![zeta, zeta, eta], ![rho, 1 - rho, 1 / 2], ![1 / 2, 1 / 2, 1 / 2], ![1 / 2, 0, 1 / 2], ![1 / 2, 0, 0], ![1 / 2, -1 / 2, 0], ![mu, mu, delta], ![0, 0, 1 / 2]]
    (by simp only [PyDict.keys, List.map_cons, List.map_nil]; decide +kernel) ?_
  exact .cons (near_refl r _) <|
    .cons (near_refl r _) <|
    .cons ⟨_, latSym_neg_one r, ![-1, -1, -1], by near_check⟩ <|
    .cons ⟨_, latSym_one r, ![0, -1, 0], by near_check⟩ <|
    .cons (near_refl r _) <|
    .cons ⟨_, latSym_neg_one r, ![-1, 0, -1], by near_check⟩ <|
    .cons ⟨_, latSym_neg_one r, ![0, 0, -1], by near_check⟩ <|
    .cons (near_refl r _) <|
    .cons ⟨_, latSym_neg_one r, ![-1, 0, -1], by near_check⟩ <|
    .cons (near_refl r _) <|
    .cons (near_refl r _) <|
    .cons (near_refl r _) <|
    .cons ⟨_, s0, ![-1, 0, 0], by near_check⟩ <|
    .cons (near_refl r _) <|
    .cons (near_refl r _) <|
    .cons ⟨_, latSym_neg_one r, ![-1, 0, 0], by near_check⟩ <|
    .cons ⟨_, latSym_neg_one r, ![0, 0, 0], by near_check⟩ <|
    .cons ⟨_, latSym_one r, ![0, -1, 0], by near_check⟩ <|
    .cons (near_refl r _) <| .nil

theorem letters_sc_mC_19 {conv r : Cell ℝ} {a b c al : ℝ} (h : HasParams conv a b c al 90 90)
    (hr : getReciprocal ((!![1 / 2, -1 / 2, 0; 1 / 2, 1 / 2, 0; 0, 0, 1] : Cell ℝ).transpose *
      conv) = .ok r)
    (x0 x1 x2 x3 : ℝ) : LetterTable r (scTable19 x0 x1 x2 x3) :=
  letters_sc_mC_19_free h hr _ _ _ _ _ _ _

theorem letters_sc_aP_20_free (r : Cell ℝ) : LetterTable r
     [("GAMMA", ![0, 0, 0]),
      ("L", ![1 / 2, 1 / 2, 0]),
      ("M", ![0, 1 / 2, 1 / 2]),
      ("N", ![1 / 2, 0, 1 / 2]),
      ("R", ![1 / 2, 1 / 2, 1 / 2]),
      ("X", ![1 / 2, 0, 0]),
      ("Y", ![0, 1 / 2, 0]),
      ("Z", ![0, 0, 1 / 2])] := by
  refine letters_of [0, 1, 2, 3, 4, 5, 6, 7] [![0, 0, 0], ![1 / 2, 1 / 2, 0], ![0, 1 / 2, 1 / 2], ![1 / 2, 0, 1 / 2], ![1 / 2, 1 / 2, 1 / 2], ![1 / 2, 0, 0], ![0, 1 / 2, 0], ![0, 0, 1 / 2]]
    (by simp only [PyDict.keys, List.map_cons, List.map_nil]; decide +kernel) ?_
  exact .cons (near_refl r _) <|
    .cons (near_refl r _) <|
    .cons (near_refl r _) <|
    .cons (near_refl r _) <|
    .cons (near_refl r _) <|
    .cons (near_refl r _) <|
    .cons (near_refl r _) <|
    .cons (near_refl r _) <| .nil

theorem letters_sc_aP_20 (r : Cell ℝ) : LetterTable r scTable20 :=
  letters_sc_aP_20_free r

theorem letters_sc_aP_21_free (r : Cell ℝ) : LetterTable r
     [("GAMMA", ![0, 0, 0]),
      ("L", ![1 / 2, -1 / 2, 0]),
      ("M", ![0, 0, 1 / 2]),
      ("N", ![-1 / 2, -1 / 2, 1 / 2]),
      ("R", ![0, -1 / 2, 1 / 2]),
      ("X", ![0, -1 / 2, 0]),
      ("Y", ![1 / 2, 0, 0]),
      ("Z", ![-1 / 2, 0, 1 / 2])] := by
  refine letters_of [0, 1, 2, 3, 4, 5, 6, 7] [![0, 0, 0], ![1 / 2, -1 / 2, 0], ![0, 0, 1 / 2], ![-1 / 2, -1 / 2, 1 / 2], ![0, -1 / 2, 1 / 2], ![0, -1 / 2, 0], ![1 / 2, 0, 0], ![-1 / 2, 0, 1 / 2]]
    (by simp only [PyDict.keys, List.map_cons, List.map_nil]; decide +kernel) ?_
  exact .cons (near_refl r _) <|
    .cons (near_refl r _) <|
    .cons (near_refl r _) <|
    .cons (near_refl r _) <|
    .cons (near_refl r _) <|
    .cons (near_refl r _) <|
    .cons (near_refl r _) <|
    .cons (near_refl r _) <| .nil

theorem letters_sc_aP_21 (r : Cell ℝ) : LetterTable r scTable21 :=
  letters_sc_aP_21_free r

end Wulfric
