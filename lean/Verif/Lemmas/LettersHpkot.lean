import Verif.Lemmas.Letters

/-! # The letters of the points in the tables of HPKOT -/

namespace Wulfric

open Matrix _root_.Spec Wulfric.Spec

theorem letters_hpkot_cP_69_free {conv r : Cell ℝ} {a : ℝ} (h : HasParams conv a a a 90 90 90)
    (hr : getReciprocal ((!![1, 0, 0; 0, 1, 0; 0, 0, 1] : Cell ℝ).transpose *
      conv) = .ok r) : LetterTable r
     [("GAMMA", ![0, 0, 0]),
      ("R", ![1 / 2, 1 / 2, 1 / 2]),
      ("M", ![1 / 2, 1 / 2, 0]),
      ("X", ![0, 1 / 2, 0]),
      ("X1", ![1 / 2, 0, 0])] := by
  have hG := metric_box h
  have s0 : LatSym r !![0, 1, 0; 0, 0, 1; 1, 0, 0] :=
    latSym_of hr !![0, 1, 0; 0, 0, 1; 1, 0, 0] !![0, 1, 0; 0, 0, 1; 1, 0, 0]
      !![0, 1, 0; 0, 0, 1; 1, 0, 0] (by rw [hG]; sym_check) (by sym_check) (by decide)
  refine letters_of [0, 1, 2, 3, 3] [![0, 0, 0], ![1 / 2, 1 / 2, 1 / 2], ![1 / 2, 1 / 2, 0], ![0, 1 / 2, 0]]
    (by simp only [PyDict.keys, List.map_cons, List.map_nil]; decide +kernel) ?_
  exact .cons (near_refl r _) <|
    .cons (near_refl r _) <|
    .cons (near_refl r _) <|
    .cons (near_refl r _) <|
    .cons ⟨_, s0, ![0, 0, 0], by near_check⟩ <| .nil

theorem letters_hpkot_cP_69 {conv r : Cell ℝ} {a : ℝ} (h : HasParams conv a a a 90 90 90)
    (hr : getReciprocal ((!![1, 0, 0; 0, 1, 0; 0, 0, 1] : Cell ℝ).transpose *
      conv) = .ok r) : LetterTable r hpkotTable69 :=
  letters_hpkot_cP_69_free h hr

theorem letters_hpkot_cF_70_free {conv r : Cell ℝ} {a : ℝ} (h : HasParams conv a a a 90 90 90)
    (hr : getReciprocal ((!![0, 1 / 2, 1 / 2; 1 / 2, 0, 1 / 2; 1 / 2, 1 / 2, 0] : Cell ℝ).transpose *
      conv) = .ok r) : LetterTable r
     [("GAMMA", ![0, 0, 0]),
      ("X", ![1 / 2, 0, 1 / 2]),
      ("L", ![1 / 2, 1 / 2, 1 / 2]),
      ("W", ![1 / 2, 1 / 4, 3 / 4]),
      ("W2", ![3 / 4, 1 / 4, 1 / 2]),
      ("K", ![3 / 8, 3 / 8, 3 / 4]),
      ("U", ![5 / 8, 1 / 4, 5 / 8])] := by
  have hG := metric_box h
  have s0 : LatSym r !![0, 0, -1; 0, -1, 0; 1, 1, 1] :=
    latSym_of hr !![0, 1, 0; 0, 0, 1; -1, 0, 0] !![1, 0, -1; 1, -1, 0; 1, 0, 0]
      !![0, 0, -1; 0, -1, 0; 1, 1, 1] (by rw [hG]; sym_check) (by sym_check) (by decide)
  refine letters_of [0, 1, 2, 3, 3, 4, 5] [![0, 0, 0], ![1 / 2, 0, 1 / 2], ![1 / 2, 1 / 2, 1 / 2], ![1 / 2, 1 / 4, 3 / 4], ![3 / 8, 3 / 8, 3 / 4], ![5 / 8, 1 / 4, 5 / 8]]
    (by simp only [PyDict.keys, List.map_cons, List.map_nil]; decide +kernel) ?_
  exact .cons (near_refl r _) <|
    .cons (near_refl r _) <|
    .cons (near_refl r _) <|
    .cons (near_refl r _) <|
    .cons ⟨_, s0, ![0, 0, -1], by near_check⟩ <|
    .cons (near_refl r _) <|
    .cons (near_refl r _) <| .nil

theorem letters_hpkot_cF_70 {conv r : Cell ℝ} {a : ℝ} (h : HasParams conv a a a 90 90 90)
    (hr : getReciprocal ((!![0, 1 / 2, 1 / 2; 1 / 2, 0, 1 / 2; 1 / 2, 1 / 2, 0] : Cell ℝ).transpose *
      conv) = .ok r) : LetterTable r hpkotTable70 :=
  letters_hpkot_cF_70_free h hr

theorem letters_hpkot_cI_71_free (r : Cell ℝ) : LetterTable r
     [("GAMMA", ![0, 0, 0]),
      ("H", ![1 / 2, -1 / 2, 1 / 2]),
      ("P", ![1 / 4, 1 / 4, 1 / 4]),
      ("N", ![0, 0, 1 / 2])] := by
  refine letters_of [0, 1, 2, 3] [![0, 0, 0], ![1 / 2, -1 / 2, 1 / 2], ![1 / 4, 1 / 4, 1 / 4], ![0, 0, 1 / 2]]
    (by simp only [PyDict.keys, List.map_cons, List.map_nil]; decide +kernel) ?_
  exact .cons (near_refl r _) <|
    .cons (near_refl r _) <|
    .cons (near_refl r _) <|
    .cons (near_refl r _) <| .nil

theorem letters_hpkot_cI_71 (r : Cell ℝ) : LetterTable r hpkotTable71 :=
  letters_hpkot_cI_71_free r

theorem letters_hpkot_tP_72_free (r : Cell ℝ) : LetterTable r
     [("GAMMA", ![0, 0, 0]),
      ("Z", ![0, 0, 1 / 2]),
      ("M", ![1 / 2, 1 / 2, 0]),
      ("A", ![1 / 2, 1 / 2, 1 / 2]),
      ("R", ![0, 1 / 2, 1 / 2]),
      ("X", ![0, 1 / 2, 0])] := by
  refine letters_of [0, 1, 2, 3, 4, 5] [![0, 0, 0], ![0, 0, 1 / 2], ![1 / 2, 1 / 2, 0], ![1 / 2, 1 / 2, 1 / 2], ![0, 1 / 2, 1 / 2], ![0, 1 / 2, 0]]
    (by simp only [PyDict.keys, List.map_cons, List.map_nil]; decide +kernel) ?_
  exact .cons (near_refl r _) <|
    .cons (near_refl r _) <|
    .cons (near_refl r _) <|
    .cons (near_refl r _) <|
    .cons (near_refl r _) <|
    .cons (near_refl r _) <| .nil

theorem letters_hpkot_tP_72 (r : Cell ℝ) : LetterTable r hpkotTable72 :=
  letters_hpkot_tP_72_free r

theorem letters_hpkot_tI_73_free (r : Cell ℝ)
    (eta : ℝ) : LetterTable r
     [("GAMMA", ![0, 0, 0]),
      ("M", ![-1 / 2, 1 / 2, 1 / 2]),
      ("X", ![0, 0, 1 / 2]),
      ("P", ![1 / 4, 1 / 4, 1 / 4]),
      ("Z", ![eta, eta, -eta]),
      ("Z0", ![-eta, 1 - eta, eta]),
      ("N", ![0, 1 / 2, 0])] := by
  refine letters_of [0, 1, 2, 3, 4, 4, 5] [![0, 0, 0], ![-1 / 2, 1 / 2, 1 / 2], ![0, 0, 1 / 2], ![1 / 4, 1 / 4, 1 / 4], ![eta, eta, -eta], ![0, 1 / 2, 0]]
    (by simp only [PyDict.keys, List.map_cons, List.map_nil]; decide +kernel) ?_
  exact .cons (near_refl r _) <|
    .cons (near_refl r _) <|
    .cons (near_refl r _) <|
    .cons (near_refl r _) <|
    .cons (near_refl r _) <|
    .cons ⟨_, latSym_neg_one r, ![0, -1, 0], by near_check⟩ <|
    .cons (near_refl r _) <| .nil

theorem letters_hpkot_tI_73 (r : Cell ℝ)
    (x0 x1 : ℝ) : LetterTable r (hpkotTable73 x0 x1) :=
  letters_hpkot_tI_73_free r _

theorem letters_hpkot_tI_74_free (r : Cell ℝ)
    (eta zeta : ℝ) : LetterTable r
     [("GAMMA", ![0, 0, 0]),
      ("M", ![1 / 2, 1 / 2, -1 / 2]),
      ("X", ![0, 0, 1 / 2]),
      ("P", ![1 / 4, 1 / 4, 1 / 4]),
      ("N", ![0, 1 / 2, 0]),
      ("S0", ![-eta, eta, eta]),
      ("S", ![eta, 1 - eta, -eta]),
      ("R", ![-zeta, zeta, 1 / 2]),
      ("G", ![1 / 2, 1 / 2, -zeta])] := by
  refine letters_of [0, 1, 2, 3, 4, 5, 5, 6, 7] [![0, 0, 0], ![1 / 2, 1 / 2, -1 / 2], ![0, 0, 1 / 2], ![1 / 4, 1 / 4, 1 / 4], ![0, 1 / 2, 0], ![-eta, eta, eta], ![-zeta, zeta, 1 / 2], ![1 / 2, 1 / 2, -zeta]]
    (by simp only [PyDict.keys, List.map_cons, List.map_nil]; decide +kernel) ?_
  exact .cons (near_refl r _) <|
    .cons (near_refl r _) <|
    .cons (near_refl r _) <|
    .cons (near_refl r _) <|
    .cons (near_refl r _) <|
    .cons (near_refl r _) <|
    .cons ⟨_, latSym_neg_one r, ![0, -1, 0], by near_check⟩ <|
    .cons (near_refl r _) <|
    .cons (near_refl r _) <| .nil

theorem letters_hpkot_tI_74 (r : Cell ℝ)
    (x0 x1 : ℝ) : LetterTable r (hpkotTable74 x0 x1) :=
  letters_hpkot_tI_74_free r _ _

theorem letters_hpkot_oP_75_free (r : Cell ℝ) : LetterTable r
     [("GAMMA", ![0, 0, 0]),
      ("X", ![1 / 2, 0, 0]),
      ("Z", ![0, 0, 1 / 2]),
      ("U", ![1 / 2, 0, 1 / 2]),
      ("Y", ![0, 1 / 2, 0]),
      ("S", ![1 / 2, 1 / 2, 0]),
      ("T", ![0, 1 / 2, 1 / 2]),
      ("R", ![1 / 2, 1 / 2, 1 / 2])] := by
  refine letters_of [0, 1, 2, 3, 4, 5, 6, 7] [![0, 0, 0], ![1 / 2, 0, 0], ![0, 0, 1 / 2], ![1 / 2, 0, 1 / 2], ![0, 1 / 2, 0], ![1 / 2, 1 / 2, 0], ![0, 1 / 2, 1 / 2], ![1 / 2, 1 / 2, 1 / 2]]
    (by simp only [PyDict.keys, List.map_cons, List.map_nil]; decide +kernel) ?_
  exact .cons (near_refl r _) <|
    .cons (near_refl r _) <|
    .cons (near_refl r _) <|
    .cons (near_refl r _) <|
    .cons (near_refl r _) <|
    .cons (near_refl r _) <|
    .cons (near_refl r _) <|
    .cons (near_refl r _) <| .nil

theorem letters_hpkot_oP_75 (r : Cell ℝ) : LetterTable r hpkotTable75 :=
  letters_hpkot_oP_75_free r

theorem letters_hpkot_oF_76_free (r : Cell ℝ)
    (eta zeta : ℝ) : LetterTable r
     [("GAMMA", ![0, 0, 0]),
      ("T", ![1, 1 / 2, 1 / 2]),
      ("Z", ![1 / 2, 1 / 2, 0]),
      ("Y", ![1 / 2, 0, 1 / 2]),
      ("SIGMA0", ![0, eta, eta]),
      ("U0", ![1, 1 - eta, 1 - eta]),
      ("A0", ![1 / 2, 1 / 2 + zeta, zeta]),
      ("C0", ![1 / 2, 1 / 2 - zeta, 1 - zeta]),
      ("L", ![1 / 2, 1 / 2, 1 / 2])] := by
  refine letters_of [0, 1, 2, 3, 4, 5, 6, 7, 8] [![0, 0, 0], ![1, 1 / 2, 1 / 2], ![1 / 2, 1 / 2, 0], ![1 / 2, 0, 1 / 2], ![0, eta, eta], ![1, 1 - eta, 1 - eta], ![1 / 2, 1 / 2 + zeta, zeta], ![1 / 2, 1 / 2 - zeta, 1 - zeta], ![1 / 2, 1 / 2, 1 / 2]]
    (by simp only [PyDict.keys, List.map_cons, List.map_nil]; decide +kernel) ?_
  exact .cons (near_refl r _) <|
    .cons (near_refl r _) <|
    .cons (near_refl r _) <|
    .cons (near_refl r _) <|
    .cons (near_refl r _) <|
    .cons (near_refl r _) <|
    .cons (near_refl r _) <|
    .cons (near_refl r _) <|
    .cons (near_refl r _) <| .nil

theorem letters_hpkot_oF_76 (r : Cell ℝ)
    (x0 x1 x2 : ℝ) : LetterTable r (hpkotTable76 x0 x1 x2) :=
  letters_hpkot_oF_76_free r _ _

theorem letters_hpkot_oF_77_free (r : Cell ℝ)
    (eta zeta : ℝ) : LetterTable r
     [("GAMMA", ![0, 0, 0]),
      ("T", ![0, 1 / 2, 1 / 2]),
      ("Z", ![1 / 2, 1 / 2, 1]),
      ("Y", ![1 / 2, 0, 1 / 2]),
      ("LAMBDA0", ![eta, eta, 0]),
      ("Q0", ![1 - eta, 1 - eta, 1]),
      ("G0", ![1 / 2 - zeta, 1 - zeta, 1 / 2]),
      ("H0", ![1 / 2 + zeta, zeta, 1 / 2]),
      ("L", ![1 / 2, 1 / 2, 1 / 2])] := by
  refine letters_of [0, 1, 2, 3, 4, 5, 6, 7, 8] [![0, 0, 0], ![0, 1 / 2, 1 / 2], ![1 / 2, 1 / 2, 1], ![1 / 2, 0, 1 / 2], ![eta, eta, 0], ![1 - eta, 1 - eta, 1], ![1 / 2 - zeta, 1 - zeta, 1 / 2], ![1 / 2 + zeta, zeta, 1 / 2], ![1 / 2, 1 / 2, 1 / 2]]
    (by simp only [PyDict.keys, List.map_cons, List.map_nil]; decide +kernel) ?_
  exact .cons (near_refl r _) <|
    .cons (near_refl r _) <|
    .cons (near_refl r _) <|
    .cons (near_refl r _) <|
    .cons (near_refl r _) <|
    .cons (near_refl r _) <|
    .cons (near_refl r _) <|
    .cons (near_refl r _) <|
    .cons (near_refl r _) <| .nil

theorem letters_hpkot_oF_77 (r : Cell ℝ)
    (x0 x1 x2 : ℝ) : LetterTable r (hpkotTable77 x0 x1 x2) :=
  letters_hpkot_oF_77_free r _ _

theorem letters_hpkot_oF_78_free (r : Cell ℝ)
    (delta eta phi : ℝ) : LetterTable r
     [("GAMMA", ![0, 0, 0]),
      ("T", ![0, 1 / 2, 1 / 2]),
      ("Z", ![1 / 2, 1 / 2, 0]),
      ("Y", ![1 / 2, 0, 1 / 2]),
      ("A0", ![1 / 2, 1 / 2 + eta, eta]),
      ("C0", ![1 / 2, 1 / 2 - eta, 1 - eta]),
      ("B0", ![1 / 2 + delta, 1 / 2, delta]),
      ("D0", ![1 / 2 - delta, 1 / 2, 1 - delta]),
      ("G0", ![phi, 1 / 2 + phi, 1 / 2]),
      ("H0", ![1 - phi, 1 / 2 - phi, 1 / 2]),
      ("L", ![1 / 2, 1 / 2, 1 / 2])] := by
  refine letters_of [0, 1, 2, 3, 4, 5, 6, 7, 8, 9, 10] [![0, 0, 0], ![0, 1 / 2, 1 / 2], ![1 / 2, 1 / 2, 0], ![1 / 2, 0, 1 / 2], ![1 / 2, 1 / 2 + eta, eta], ![1 / 2, 1 / 2 - eta, 1 - eta], ![1 / 2 + delta, 1 / 2, delta], ![1 / 2 - delta, 1 / 2, 1 - delta], ![phi, 1 / 2 + phi, 1 / 2], ![1 - phi, 1 / 2 - phi, 1 / 2], ![1 / 2, 1 / 2, 1 / 2]]
    (by simp only [PyDict.keys, List.map_cons, List.map_nil]; decide +kernel) ?_
  exact .cons (near_refl r _) <|
    .cons (near_refl r _) <|
    .cons (near_refl r _) <|
    .cons (near_refl r _) <|
    .cons (near_refl r _) <|
    .cons (near_refl r _) <|
    .cons (near_refl r _) <|
    .cons (near_refl r _) <|
    .cons (near_refl r _) <|
    .cons (near_refl r _) <|
    .cons (near_refl r _) <| .nil

theorem letters_hpkot_oF_78 (r : Cell ℝ)
    (x0 x1 x2 : ℝ) : LetterTable r (hpkotTable78 x0 x1 x2) :=
  letters_hpkot_oF_78_free r _ _ _

theorem letters_hpkot_oI_79_free (r : Cell ℝ)
    (delta eta mu zeta : ℝ) : LetterTable r
     [("GAMMA", ![0, 0, 0]),
      ("X", ![1 / 2, 1 / 2, -1 / 2]),
      ("S", ![1 / 2, 0, 0]),
      ("R", ![0, 1 / 2, 0]),
      ("T", ![0, 0, 1 / 2]),
      ("W", ![1 / 4, 1 / 4, 1 / 4]),
      ("SIGMA0", ![-zeta, zeta, zeta]),
      ("F2", ![zeta, 1 - zeta, -zeta]),
      ("Y0", ![eta, -eta, eta]),
      ("U0", ![1 - eta, eta, -eta]),
      ("L0", ![-mu, mu, 1 / 2 - delta]),
      ("M0", ![mu, -mu, 1 / 2 + delta]),
      ("J0", ![1 / 2 - delta, 1 / 2 + delta, -mu])] := by
  refine letters_of [0, 1, 2, 3, 4, 5, 6, 7, 8, 9, 10, 11, 12] [![0, 0, 0], ![1 / 2, 1 / 2, -1 / 2], ![1 / 2, 0, 0], ![0, 1 / 2, 0], ![0, 0, 1 / 2], ![1 / 4, 1 / 4, 1 / 4], ![-zeta, zeta, zeta], ![zeta, 1 - zeta, -zeta], ![eta, -eta, eta], ![1 - eta, eta, -eta], ![-mu, mu, 1 / 2 - delta], ![mu, -mu, 1 / 2 + delta], ![1 / 2 - delta, 1 / 2 + delta, -mu]]
    (by simp only [PyDict.keys, List.map_cons, List.map_nil]; decide +kernel) ?_
  exact .cons (near_refl r _) <|
    .cons (near_refl r _) <|
    .cons (near_refl r _) <|
    .cons (near_refl r _) <|
    .cons (near_refl r _) <|
    .cons (near_refl r _) <|
    .cons (near_refl r _) <|
    .cons (near_refl r _) <|
    .cons (near_refl r _) <|
    .cons (near_refl r _) <|
    .cons (near_refl r _) <|
    .cons (near_refl r _) <|
    .cons (near_refl r _) <| .nil

theorem letters_hpkot_oI_79 (r : Cell ℝ)
    (x0 x1 x2 : ℝ) : LetterTable r (hpkotTable79 x0 x1 x2) :=
  letters_hpkot_oI_79_free r _ _ _ _

theorem letters_hpkot_oI_80_free {conv r : Cell ℝ} {a b c : ℝ} (h : HasParams conv a b c 90 90 90)
    (hr : getReciprocal ((!![-1 / 2, 1 / 2, 1 / 2; 1 / 2, -1 / 2, 1 / 2; 1 / 2, 1 / 2, -1 / 2] : Cell ℝ).transpose *
      conv) = .ok r)
    (delta eta mu zeta : ℝ) : LetterTable r
     [("GAMMA", ![0, 0, 0]),
      ("X", ![-1 / 2, 1 / 2, 1 / 2]),
      ("S", ![1 / 2, 0, 0]),
      ("R", ![0, 1 / 2, 0]),
      ("T", ![0, 0, 1 / 2]),
      ("W", ![1 / 4, 1 / 4, 1 / 4]),
      ("Y0", ![zeta, -zeta, zeta]),
      ("U2", ![-zeta, zeta, 1 - zeta]),
      ("LAMBDA0", ![eta, eta, -eta]),
      ("G2", ![-eta, 1 - eta, eta]),
      ("K", ![1 / 2 - delta, -mu, mu]),
      ("K2", ![1 / 2 + delta, mu, -mu]),
      ("K4", ![-mu, 1 / 2 - delta, 1 / 2 + delta])] := by
  have hG := metric_box h
  have s0 : LatSym r !![0, 1, -1; 0, 1, 0; -1, 1, 0] :=
    latSym_of hr !![1, 0, 0; 0, -1, 0; 0, 0, 1] !![0, 0, -1; 1, 1, 1; -1, 0, 0]
      !![0, 1, -1; 0, 1, 0; -1, 1, 0] (by rw [hG]; sym_check) (by sym_check) (by decide)
  refine letters_of [0, 1, 2, 3, 4, 5, 6, 7, 8, 9, 10, 10, 10] [![0, 0, 0], ![-1 / 2, 1 / 2, 1 / 2], ![1 / 2, 0, 0], ![0, 1 / 2, 0], ![0, 0, 1 / 2], ![1 / 4, 1 / 4, 1 / 4], ![zeta, -zeta, zeta], ![-zeta, zeta, 1 - zeta], ![eta, eta, -eta], ![-eta, 1 - eta, eta], ![1 / 2 - delta, -mu, mu]]
    (by simp only [PyDict.keys, List.map_cons, List.map_nil]; decide +kernel) ?_
  exact .cons (near_refl r _) <|
    .cons (near_refl r _) <|
    .cons (near_refl r _) <|
    .cons (near_refl r _) <|
    .cons (near_refl r _) <|
    .cons (near_refl r _) <|
    .cons (near_refl r _) <|
    .cons (near_refl r _) <|
    .cons (near_refl r _) <|
    .cons (near_refl r _) <|
    .cons (near_refl r _) <|
    .cons ⟨_, latSym_neg_one r, ![-1, 0, 0], by near_check⟩ <|
    .cons ⟨_, s0, ![-1, 1, 0], by near_check⟩ <| .nil

theorem letters_hpkot_oI_80 {conv r : Cell ℝ} {a b c : ℝ} (h : HasParams conv a b c 90 90 90)
    (hr : getReciprocal ((!![-1 / 2, 1 / 2, 1 / 2; 1 / 2, -1 / 2, 1 / 2; 1 / 2, 1 / 2, -1 / 2] : Cell ℝ).transpose *
      conv) = .ok r)
    (x0 x1 x2 : ℝ) : LetterTable r (hpkotTable80 x0 x1 x2) :=
  letters_hpkot_oI_80_free h hr _ _ _ _

theorem letters_hpkot_oI_81_free {conv r : Cell ℝ} {a b c : ℝ} (h : HasParams conv a b c 90 90 90)
    (hr : getReciprocal ((!![-1 / 2, 1 / 2, 1 / 2; 1 / 2, -1 / 2, 1 / 2; 1 / 2, 1 / 2, -1 / 2] : Cell ℝ).transpose *
      conv) = .ok r)
    (delta eta mu zeta : ℝ) : LetterTable r
     [("GAMMA", ![0, 0, 0]),
      ("X", ![1 / 2, -1 / 2, 1 / 2]),
      ("S", ![1 / 2, 0, 0]),
      ("R", ![0, 1 / 2, 0]),
      ("T", ![0, 0, 1 / 2]),
      ("W", ![1 / 4, 1 / 4, 1 / 4]),
      ("SIGMA0", ![-eta, eta, eta]),
      ("F0", ![eta, -eta, 1 - eta]),
      ("LAMBDA0", ![zeta, zeta, -zeta]),
      ("G0", ![1 - zeta, -zeta, zeta]),
      ("V0", ![mu, 1 / 2 - delta, -mu]),
      ("H0", ![-mu, 1 / 2 + delta, mu]),
      ("H2", ![1 / 2 + delta, -mu, 1 / 2 - delta])] := by
  have hG := metric_box h
  have s0 : LatSym r !![1, 0, 0; 1, 0, -1; 1, -1, 0] :=
    latSym_of hr !![-1, 0, 0; 0, 1, 0; 0, 0, 1] !![1, 1, 1; 0, 0, -1; 0, -1, 0]
      !![1, 0, 0; 1, 0, -1; 1, -1, 0] (by rw [hG]; sym_check) (by sym_check) (by decide)
  refine letters_of [0, 1, 2, 3, 4, 5, 6, 7, 8, 9, 10, 11, 11] [![0, 0, 0], ![1 / 2, -1 / 2, 1 / 2], ![1 / 2, 0, 0], ![0, 1 / 2, 0], ![0, 0, 1 / 2], ![1 / 4, 1 / 4, 1 / 4], ![-eta, eta, eta], ![eta, -eta, 1 - eta], ![zeta, zeta, -zeta], ![1 - zeta, -zeta, zeta], ![mu, 1 / 2 - delta, -mu], ![-mu, 1 / 2 + delta, mu]]
    (by simp only [PyDict.keys, List.map_cons, List.map_nil]; decide +kernel) ?_
  exact .cons (near_refl r _) <|
    .cons (near_refl r _) <|
    .cons (near_refl r _) <|
    .cons (near_refl r _) <|
    .cons (near_refl r _) <|
    .cons (near_refl r _) <|
    .cons (near_refl r _) <|
    .cons (near_refl r _) <|
    .cons (near_refl r _) <|
    .cons (near_refl r _) <|
    .cons (near_refl r _) <|
    .cons (near_refl r _) <|
    .cons ⟨_, s0, ![1, -1, 0], by near_check⟩ <| .nil

theorem letters_hpkot_oI_81 {conv r : Cell ℝ} {a b c : ℝ} (h : HasParams conv a b c 90 90 90)
    (hr : getReciprocal ((!![-1 / 2, 1 / 2, 1 / 2; 1 / 2, -1 / 2, 1 / 2; 1 / 2, 1 / 2, -1 / 2] : Cell ℝ).transpose *
      conv) = .ok r)
    (x0 x1 x2 : ℝ) : LetterTable r (hpkotTable81 x0 x1 x2) :=
  letters_hpkot_oI_81_free h hr _ _ _ _

theorem letters_hpkot_oC_82_free (r : Cell ℝ)
    (zeta : ℝ) : LetterTable r
     [("GAMMA", ![0, 0, 0]),
      ("Y", ![-1 / 2, 1 / 2, 0]),
      ("T", ![-1 / 2, 1 / 2, 1 / 2]),
      ("Z", ![0, 0, 1 / 2]),
      ("S", ![0, 1 / 2, 0]),
      ("R", ![0, 1 / 2, 1 / 2]),
      ("SIGMA0", ![zeta, zeta, 0]),
      ("C0", ![-zeta, 1 - zeta, 0]),
      ("A0", ![zeta, zeta, 1 / 2]),
      ("E0", ![-zeta, 1 - zeta, 1 / 2])] := by
  refine letters_of [0, 1, 2, 3, 4, 5, 6, 7, 8, 9] [![0, 0, 0], ![-1 / 2, 1 / 2, 0], ![-1 / 2, 1 / 2, 1 / 2], ![0, 0, 1 / 2], ![0, 1 / 2, 0], ![0, 1 / 2, 1 / 2], ![zeta, zeta, 0], ![-zeta, 1 - zeta, 0], ![zeta, zeta, 1 / 2], ![-zeta, 1 - zeta, 1 / 2]]
    (by simp only [PyDict.keys, List.map_cons, List.map_nil]; decide +kernel) ?_
  exact .cons (near_refl r _) <|
    .cons (near_refl r _) <|
    .cons (near_refl r _) <|
    .cons (near_refl r _) <|
    .cons (near_refl r _) <|
    .cons (near_refl r _) <|
    .cons (near_refl r _) <|
    .cons (near_refl r _) <|
    .cons (near_refl r _) <|
    .cons (near_refl r _) <| .nil

theorem letters_hpkot_oC_82 (r : Cell ℝ)
    (x0 : ℝ) : LetterTable r (hpkotTable82 x0) :=
  letters_hpkot_oC_82_free r _

theorem letters_hpkot_oC_83_free (r : Cell ℝ)
    (zeta : ℝ) : LetterTable r
     [("GAMMA", ![0, 0, 0]),
      ("Y", ![1 / 2, 1 / 2, 0]),
      ("T", ![1 / 2, 1 / 2, 1 / 2]),
      ("T2", ![1 / 2, 1 / 2, -1 / 2]),
      ("Z", ![0, 0, 1 / 2]),
      ("Z2", ![0, 0, -1 / 2]),
      ("S", ![0, 1 / 2, 0]),
      ("R", ![0, 1 / 2, 1 / 2]),
      ("R2", ![0, 1 / 2, -1 / 2]),
      ("DELTA0", ![-zeta, zeta, 0]),
      ("F0", ![zeta, 1 - zeta, 0]),
      ("B0", ![-zeta, zeta, 1 / 2]),
      ("B2", ![-zeta, zeta, -1 / 2]),
      ("G0", ![zeta, 1 - zeta, 1 / 2]),
      ("G2", ![zeta, 1 - zeta, -1 / 2])] := by
  refine letters_of [0, 1, 2, 2, 3, 3, 4, 5, 5, 6, 7, 8, 8, 9, 9] [![0, 0, 0], ![1 / 2, 1 / 2, 0], ![1 / 2, 1 / 2, 1 / 2], ![0, 0, 1 / 2], ![0, 1 / 2, 0], ![0, 1 / 2, 1 / 2], ![-zeta, zeta, 0], ![zeta, 1 - zeta, 0], ![-zeta, zeta, 1 / 2], ![zeta, 1 - zeta, 1 / 2]]
    (by simp only [PyDict.keys, List.map_cons, List.map_nil]; decide +kernel) ?_
  exact .cons (near_refl r _) <|
    .cons (near_refl r _) <|
    .cons (near_refl r _) <|
    .cons ⟨_, latSym_one r, ![0, 0, -1], by near_check⟩ <|
    .cons (near_refl r _) <|
    .cons ⟨_, latSym_one r, ![0, 0, -1], by near_check⟩ <|
    .cons (near_refl r _) <|
    .cons (near_refl r _) <|
    .cons ⟨_, latSym_one r, ![0, 0, -1], by near_check⟩ <|
    .cons (near_refl r _) <|
    .cons (near_refl r _) <|
    .cons (near_refl r _) <|
    .cons ⟨_, latSym_one r, ![0, 0, -1], by near_check⟩ <|
    .cons (near_refl r _) <|
    .cons ⟨_, latSym_one r, ![0, 0, -1], by near_check⟩ <| .nil

theorem letters_hpkot_oC_83 (r : Cell ℝ)
    (x0 : ℝ) : LetterTable r (hpkotTable83 x0) :=
  letters_hpkot_oC_83_free r _

theorem letters_hpkot_oA_82_free (r : Cell ℝ)
    (zeta : ℝ) : LetterTable r
     [("GAMMA", ![0, 0, 0]),
      ("Y", ![-1 / 2, 1 / 2, 0]),
      ("T", ![-1 / 2, 1 / 2, 1 / 2]),
      ("Z", ![0, 0, 1 / 2]),
      ("S", ![0, 1 / 2, 0]),
      ("R", ![0, 1 / 2, 1 / 2]),
      ("SIGMA0", ![zeta, zeta, 0]),
      ("C0", ![-zeta, 1 - zeta, 0]),
      ("A0", ![zeta, zeta, 1 / 2]),
      ("E0", ![-zeta, 1 - zeta, 1 / 2])] := by
  refine letters_of [0, 1, 2, 3, 4, 5, 6, 7, 8, 9] [![0, 0, 0], ![-1 / 2, 1 / 2, 0], ![-1 / 2, 1 / 2, 1 / 2], ![0, 0, 1 / 2], ![0, 1 / 2, 0], ![0, 1 / 2, 1 / 2], ![zeta, zeta, 0], ![-zeta, 1 - zeta, 0], ![zeta, zeta, 1 / 2], ![-zeta, 1 - zeta, 1 / 2]]
    (by simp only [PyDict.keys, List.map_cons, List.map_nil]; decide +kernel) ?_
  exact .cons (near_refl r _) <|
    .cons (near_refl r _) <|
    .cons (near_refl r _) <|
    .cons (near_refl r _) <|
    .cons (near_refl r _) <|
    .cons (near_refl r _) <|
    .cons (near_refl r _) <|
    .cons (near_refl r _) <|
    .cons (near_refl r _) <|
    .cons (near_refl r _) <| .nil

theorem letters_hpkot_oA_82 (r : Cell ℝ)
    (x0 : ℝ) : LetterTable r (hpkotTable82 x0) :=
  letters_hpkot_oA_82_free r _

theorem letters_hpkot_oA_83_free (r : Cell ℝ)
    (zeta : ℝ) : LetterTable r
     [("GAMMA", ![0, 0, 0]),
      ("Y", ![1 / 2, 1 / 2, 0]),
      ("T", ![1 / 2, 1 / 2, 1 / 2]),
      ("T2", ![1 / 2, 1 / 2, -1 / 2]),
      ("Z", ![0, 0, 1 / 2]),
      ("Z2", ![0, 0, -1 / 2]),
      ("S", ![0, 1 / 2, 0]),
      ("R", ![0, 1 / 2, 1 / 2]),
      ("R2", ![0, 1 / 2, -1 / 2]),
      ("DELTA0", ![-zeta, zeta, 0]),
      ("F0", ![zeta, 1 - zeta, 0]),
      ("B0", ![-zeta, zeta, 1 / 2]),
      ("B2", ![-zeta, zeta, -1 / 2]),
      ("G0", ![zeta, 1 - zeta, 1 / 2]),
      ("G2", ![zeta, 1 - zeta, -1 / 2])] := by
  refine letters_of [0, 1, 2, 2, 3, 3, 4, 5, 5, 6, 7, 8, 8, 9, 9] [![0, 0, 0], ![1 / 2, 1 / 2, 0], ![1 / 2, 1 / 2, 1 / 2], ![0, 0, 1 / 2], ![0, 1 / 2, 0], ![0, 1 / 2, 1 / 2], ![-zeta, zeta, 0], ![zeta, 1 - zeta, 0], ![-zeta, zeta, 1 / 2], ![zeta, 1 - zeta, 1 / 2]]
    (by simp only [PyDict.keys, List.map_cons, List.map_nil]; decide +kernel) ?_
  exact .cons (near_refl r _) <|
    .cons (near_refl r _) <|
    .cons (near_refl r _) <|
    .cons ⟨_, latSym_one r, ![0, 0, -1], by near_check⟩ <|
    .cons (near_refl r _) <|
    .cons ⟨_, latSym_one r, ![0, 0, -1], by near_check⟩ <|
    .cons (near_refl r _) <|
    .cons (near_refl r _) <|
    .cons ⟨_, latSym_one r, ![0, 0, -1], by near_check⟩ <|
    .cons (near_refl r _) <|
    .cons (near_refl r _) <|
    .cons (near_refl r _) <|
    .cons ⟨_, latSym_one r, ![0, 0, -1], by near_check⟩ <|
    .cons (near_refl r _) <|
    .cons ⟨_, latSym_one r, ![0, 0, -1], by near_check⟩ <| .nil

theorem letters_hpkot_oA_83 (r : Cell ℝ)
    (x0 : ℝ) : LetterTable r (hpkotTable83 x0) :=
  letters_hpkot_oA_83_free r _

theorem letters_hpkot_hP_84_free (r : Cell ℝ) : LetterTable r
     [("GAMMA", ![0, 0, 0]),
      ("A", ![0, 0, 1 / 2]),
      ("K", ![1 / 3, 1 / 3, 0]),
      ("H", ![1 / 3, 1 / 3, 1 / 2]),
      ("H2", ![1 / 3, 1 / 3, -1 / 2]),
      ("M", ![1 / 2, 0, 0]),
      ("L", ![1 / 2, 0, 1 / 2])] := by
  refine letters_of [0, 1, 2, 3, 3, 4, 5] [![0, 0, 0], ![0, 0, 1 / 2], ![1 / 3, 1 / 3, 0], ![1 / 3, 1 / 3, 1 / 2], ![1 / 2, 0, 0], ![1 / 2, 0, 1 / 2]]
    (by simp only [PyDict.keys, List.map_cons, List.map_nil]; decide +kernel) ?_
  exact .cons (near_refl r _) <|
    .cons (near_refl r _) <|
    .cons (near_refl r _) <|
    .cons (near_refl r _) <|
    .cons ⟨_, latSym_one r, ![0, 0, -1], by near_check⟩ <|
    .cons (near_refl r _) <|
    .cons (near_refl r _) <| .nil

theorem letters_hpkot_hP_84 (r : Cell ℝ) : LetterTable r hpkotTable84 :=
  letters_hpkot_hP_84_free r

theorem letters_hpkot_hR_85_free {conv r : Cell ℝ} {a c : ℝ} (h : HasParams conv a a c 90 90 120)
    (hr : getReciprocal ((!![1, -1 / 2, -1 / 2; 1 / 2, 1 / 2, -1; 1 / 2, 1 / 2, 1 / 2] : Cell ℝ).transpose *
      conv) = .ok r)
    (eta nu : ℝ) : LetterTable r
     [("GAMMA", ![0, 0, 0]),
      ("T", ![1 / 2, 1 / 2, 1 / 2]),
      ("L", ![1 / 2, 0, 0]),
      ("L2", ![0, -1 / 2, 0]),
      ("L4", ![0, 0, -1 / 2]),
      ("F", ![1 / 2, 0, 1 / 2]),
      ("F2", ![1 / 2, 1 / 2, 0]),
      ("S0", ![nu, -nu, 0]),
      ("S2", ![1 - nu, 0, nu]),
      ("S4", ![nu, 0, -nu]),
      ("S6", ![1 - nu, nu, 0]),
      ("H0", ![1 / 2, -1 + eta, 1 - eta]),
      ("H2", ![eta, 1 - eta, 1 / 2]),
      ("H4", ![eta, 1 / 2, 1 - eta]),
      ("H6", ![1 / 2, 1 - eta, -1 + eta]),
      ("M0", ![nu, -1 + eta, nu]),
      ("M2", ![1 - nu, 1 - eta, 1 - nu]),
      ("M4", ![eta, nu, nu]),
      ("M6", ![1 - nu, 1 - nu, 1 - eta]),
      ("M8", ![nu, nu, -1 + eta])] := by
  have hG := metric_hex h
  have s0 : LatSym r !![0, 0, 1; 1, 0, 0; 0, 1, 0] :=
    latSym_of hr !![-1, -1, 0; 1, 0, 0; 0, 0, 1] !![0, 0, 1; 1, 0, 0; 0, 1, 0]
      !![0, 0, 1; 1, 0, 0; 0, 1, 0] (by rw [hG]; sym_check) (by sym_check) (by decide)
  have s1 : LatSym r !![0, 1, 0; 0, 0, 1; 1, 0, 0] :=
    latSym_of hr !![0, 1, 0; -1, -1, 0; 0, 0, 1] !![0, 1, 0; 0, 0, 1; 1, 0, 0]
      !![0, 1, 0; 0, 0, 1; 1, 0, 0] (by rw [hG]; sym_check) (by sym_check) (by decide)
  have s2 : LatSym r !![0, -1, 0; 0, 0, -1; -1, 0, 0] :=
    latSym_of hr !![0, -1, 0; 1, 1, 0; 0, 0, -1] !![0, -1, 0; 0, 0, -1; -1, 0, 0]
      !![0, -1, 0; 0, 0, -1; -1, 0, 0] (by rw [hG]; sym_check) (by sym_check) (by decide)
  have s3 : LatSym r !![0, 1, 0; 1, 0, 0; 0, 0, 1] :=
    latSym_of hr !![-1, 0, 0; 1, 1, 0; 0, 0, 1] !![0, 1, 0; 1, 0, 0; 0, 0, 1]
      !![0, 1, 0; 1, 0, 0; 0, 0, 1] (by rw [hG]; sym_check) (by sym_check) (by decide)
  have s4 : LatSym r !![0, 0, -1; -1, 0, 0; 0, -1, 0] :=
    latSym_of hr !![1, 1, 0; -1, 0, 0; 0, 0, -1] !![0, 0, -1; -1, 0, 0; 0, -1, 0]
      !![0, 0, -1; -1, 0, 0; 0, -1, 0] (by rw [hG]; sym_check) (by sym_check) (by decide)
  refine letters_of [0, 1, 2, 2, 2, 3, 3, 4, 4, 4, 4, 5, 5, 5, 5, 6, 6, 6, 6, 6] [![0, 0, 0], ![1 / 2, 1 / 2, 1 / 2], ![1 / 2, 0, 0], ![1 / 2, 0, 1 / 2], ![nu, -nu, 0], ![1 / 2, -1 + eta, 1 - eta], ![nu, -1 + eta, nu]]
    (by simp only [PyDict.keys, List.map_cons, List.map_nil]; decide +kernel) ?_
  exact .cons (near_refl r _) <|
    .cons (near_refl r _) <|
    .cons (near_refl r _) <|
    .cons ⟨_, s0, ![-1, 0, 0], by near_check⟩ <|
    .cons ⟨_, s1, ![-1, 0, 0], by near_check⟩ <|
    .cons (near_refl r _) <|
    .cons ⟨_, s0, ![0, 0, 0], by near_check⟩ <|
    .cons (near_refl r _) <|
    .cons ⟨_, s1, ![0, 1, 0], by near_check⟩ <|
    .cons ⟨_, s2, ![0, 0, 0], by near_check⟩ <|
    .cons ⟨_, latSym_neg_one r, ![-1, 0, 0], by near_check⟩ <|
    .cons (near_refl r _) <|
    .cons ⟨_, s1, ![0, 1, 0], by near_check⟩ <|
    .cons ⟨_, s3, ![0, 1, 0], by near_check⟩ <|
    .cons ⟨_, latSym_neg_one r, ![-1, 0, 0], by near_check⟩ <|
    .cons (near_refl r _) <|
    .cons ⟨_, latSym_neg_one r, ![-1, 0, -1], by near_check⟩ <|
    .cons ⟨_, s1, ![0, 1, 0], by near_check⟩ <|
    .cons ⟨_, s4, ![-1, 0, -1], by near_check⟩ <|
    .cons ⟨_, s0, ![0, 0, 0], by near_check⟩ <| .nil

theorem letters_hpkot_hR_85 {conv r : Cell ℝ} {a c : ℝ} (h : HasParams conv a a c 90 90 120)
    (hr : getReciprocal ((!![1, -1 / 2, -1 / 2; 1 / 2, 1 / 2, -1; 1 / 2, 1 / 2, 1 / 2] : Cell ℝ).transpose *
      conv) = .ok r)
    (x0 x1 : ℝ) : LetterTable r (hpkotTable85 x0 x1) :=
  letters_hpkot_hR_85_free h hr _ _

theorem letters_hpkot_hR_86_free (r : Cell ℝ)
    (eta nu : ℝ) : LetterTable r
     [("GAMMA", ![0, 0, 0]),
      ("T", ![1 / 2, -1 / 2, 1 / 2]),
      ("P0", ![eta, -1 + eta, eta]),
      ("P2", ![eta, eta, eta]),
      ("R0", ![1 - eta, -eta, -eta]),
      ("M", ![1 - nu, -nu, 1 - nu]),
      ("M2", ![nu, -1 + nu, -1 + nu]),
      ("L", ![1 / 2, 0, 0]),
      ("F", ![1 / 2, -1 / 2, 0])] := by
  refine letters_of [0, 1, 2, 2, 3, 4, 4, 5, 6] [![0, 0, 0], ![1 / 2, -1 / 2, 1 / 2], ![eta, -1 + eta, eta], ![1 - eta, -eta, -eta], ![1 - nu, -nu, 1 - nu], ![1 / 2, 0, 0], ![1 / 2, -1 / 2, 0]]
    (by simp only [PyDict.keys, List.map_cons, List.map_nil]; decide +kernel) ?_
  exact .cons (near_refl r _) <|
    .cons (near_refl r _) <|
    .cons (near_refl r _) <|
    .cons ⟨_, latSym_one r, ![0, 1, 0], by near_check⟩ <|
    .cons (near_refl r _) <|
    .cons (near_refl r _) <|
    .cons ⟨_, latSym_neg_one r, ![-1, 1, 0], by near_check⟩ <|
    .cons (near_refl r _) <|
    .cons (near_refl r _) <| .nil

theorem letters_hpkot_hR_86 (r : Cell ℝ)
    (x0 x1 : ℝ) : LetterTable r (hpkotTable86 x0 x1) :=
  letters_hpkot_hR_86_free r _ _

theorem letters_hpkot_mP_87_free (r : Cell ℝ)
    (eta nu : ℝ) : LetterTable r
     [("GAMMA", ![0, 0, 0]),
      ("Z", ![0, 1 / 2, 0]),
      ("B", ![0, 0, 1 / 2]),
      ("B2", ![0, 0, -1 / 2]),
      ("Y", ![1 / 2, 0, 0]),
      ("Y2", ![-1 / 2, 0, 0]),
      ("C", ![1 / 2, 1 / 2, 0]),
      ("C2", ![-1 / 2, 1 / 2, 0]),
      ("D", ![0, 1 / 2, 1 / 2]),
      ("D2", ![0, 1 / 2, -1 / 2]),
      ("A", ![-1 / 2, 0, 1 / 2]),
      ("E", ![-1 / 2, 1 / 2, 1 / 2]),
      ("H", ![-eta, 0, 1 - nu]),
      ("H2", ![-1 + eta, 0, nu]),
      ("H4", ![-eta, 0, -nu]),
      ("M", ![-eta, 1 / 2, 1 - nu]),
      ("M2", ![-1 + eta, 1 / 2, nu]),
      ("M4", ![-eta, 1 / 2, -nu])] := by
  refine letters_of [0, 1, 2, 2, 3, 3, 4, 4, 5, 5, 6, 7, 8, 8, 8, 9, 9, 9] [![0, 0, 0], ![0, 1 / 2, 0], ![0, 0, 1 / 2], ![1 / 2, 0, 0], ![1 / 2, 1 / 2, 0], ![0, 1 / 2, 1 / 2], ![-1 / 2, 0, 1 / 2], ![-1 / 2, 1 / 2, 1 / 2], ![-eta, 0, 1 - nu], ![-eta, 1 / 2, 1 - nu]]
    (by simp only [PyDict.keys, List.map_cons, List.map_nil]; decide +kernel) ?_
  exact .cons (near_refl r _) <|
    .cons (near_refl r _) <|
    .cons (near_refl r _) <|
    .cons ⟨_, latSym_one r, ![0, 0, -1], by near_check⟩ <|
    .cons (near_refl r _) <|
    .cons ⟨_, latSym_one r, ![-1, 0, 0], by near_check⟩ <|
    .cons (near_refl r _) <|
    .cons ⟨_, latSym_one r, ![-1, 0, 0], by near_check⟩ <|
    .cons (near_refl r _) <|
    .cons ⟨_, latSym_one r, ![0, 0, -1], by near_check⟩ <|
    .cons (near_refl r _) <|
    .cons (near_refl r _) <|
    .cons (near_refl r _) <|
    .cons ⟨_, latSym_neg_one r, ![1, 0, -1], by near_check⟩ <|
    .cons ⟨_, latSym_one r, ![0, 0, -1], by near_check⟩ <|
    .cons (near_refl r _) <|
    .cons ⟨_, latSym_neg_one r, ![1, -1, -1], by near_check⟩ <|
    .cons ⟨_, latSym_one r, ![0, 0, -1], by near_check⟩ <| .nil

theorem letters_hpkot_mP_87 (r : Cell ℝ)
    (x0 x1 x2 : ℝ) : LetterTable r (hpkotTable87 x0 x1 x2) :=
  letters_hpkot_mP_87_free r _ _

theorem letters_hpkot_mC_88_free {conv r : Cell ℝ} {a b c be : ℝ} (h : HasParams conv a b c 90 be 90)
    (hr : getReciprocal ((!![1 / 2, -1 / 2, 0; 1 / 2, 1 / 2, 0; 0, 0, 1] : Cell ℝ).transpose *
      conv) = .ok r)
    (eta phi psi zeta : ℝ) : LetterTable r
     [("GAMMA", ![0, 0, 0]),
      ("Y2", ![-1 / 2, 1 / 2, 0]),
      ("Y4", ![1 / 2, -1 / 2, 0]),
      ("A", ![0, 0, 1 / 2]),
      ("M2", ![-1 / 2, 1 / 2, 1 / 2]),
      ("V", ![1 / 2, 0, 0]),
      ("V2", ![0, 1 / 2, 0]),
      ("L2", ![0, 1 / 2, 1 / 2]),
      ("C", ![1 - psi, 1 - psi, 0]),
      ("C2", ![-1 + psi, psi, 0]),
      ("C4", ![psi, -1 + psi, 0]),
      ("D", ![-1 + phi, phi, 1 / 2]),
      ("D2", ![1 - phi, 1 - phi, 1 / 2]),
      ("E", ![-1 + zeta, 1 - zeta, 1 - eta]),
      ("E2", ![-zeta, zeta, eta]),
      ("E4", ![zeta, -zeta, 1 - eta])] := by
  obtain ⟨w, hG⟩ := metric_mb h
  have s0 : LatSym r !![0, -1, 0; -1, 0, 0; 0, 0, 1] :=
    latSym_of hr !![1, 0, 0; 0, -1, 0; 0, 0, 1] !![0, -1, 0; -1, 0, 0; 0, 0, 1]
      !![0, -1, 0; -1, 0, 0; 0, 0, 1] (by rw [hG]; sym_check) (by sym_check) (by decide)
  refine letters_of [0, 1, 1, 2, 3, 4, 4, 5, 6, 6, 6, 7, 7, 8, 8, 8] [![0, 0, 0], ![-1 / 2, 1 / 2, 0], ![0, 0, 1 / 2], ![-1 / 2, 1 / 2, 1 / 2], ![1 / 2, 0, 0], ![0, 1 / 2, 1 / 2], ![1 - psi, 1 - psi, 0], ![-1 + phi, phi, 1 / 2], ![-1 + zeta, 1 - zeta, 1 - eta]]
    (by simp only [PyDict.keys, List.map_cons, List.map_nil]; decide +kernel) ?_
  exact .cons (near_refl r _) <|
    .cons (near_refl r _) <|
    .cons ⟨_, latSym_one r, ![1, -1, 0], by near_check⟩ <|
    .cons (near_refl r _) <|
    .cons (near_refl r _) <|
    .cons (near_refl r _) <|
    .cons ⟨_, s0, ![-1, 0, 0], by near_check⟩ <|
    .cons (near_refl r _) <|
    .cons (near_refl r _) <|
    .cons ⟨_, latSym_neg_one r, ![0, -1, 0], by near_check⟩ <|
    .cons ⟨_, latSym_neg_one r, ![-1, 0, 0], by near_check⟩ <|
    .cons (near_refl r _) <|
    .cons ⟨_, latSym_neg_one r, ![0, -1, -1], by near_check⟩ <|
    .cons (near_refl r _) <|
    .cons ⟨_, latSym_neg_one r, ![1, -1, -1], by near_check⟩ <|
    .cons ⟨_, latSym_one r, ![1, -1, 0], by near_check⟩ <| .nil

theorem letters_hpkot_mC_88 {conv r : Cell ℝ} {a b c be : ℝ} (h : HasParams conv a b c 90 be 90)
    (hr : getReciprocal ((!![1 / 2, -1 / 2, 0; 1 / 2, 1 / 2, 0; 0, 0, 1] : Cell ℝ).transpose *
      conv) = .ok r)
    (x0 x1 x2 x3 : ℝ) : LetterTable r (hpkotTable88 x0 x1 x2 x3) :=
  letters_hpkot_mC_88_free h hr _ _ _ _

theorem letters_hpkot_mC_89_free (r : Cell ℝ)
    (delta eta mu phi psi zeta : ℝ) : LetterTable r
     [("GAMMA", ![0, 0, 0]),
      ("Y", ![1 / 2, 1 / 2, 0]),
      ("A", ![0, 0, 1 / 2]),
      ("M", ![1 / 2, 1 / 2, 1 / 2]),
      ("V2", ![0, 1 / 2, 0]),
      ("L2", ![0, 1 / 2, 1 / 2]),
      ("F", ![-1 + phi, 1 - phi, 1 - psi]),
      ("F2", ![1 - phi, phi, psi]),
      ("F4", ![phi, 1 - phi, 1 - psi]),
      ("H", ![-zeta, zeta, eta]),
      ("H2", ![zeta, 1 - zeta, 1 - eta]),
      ("H4", ![zeta, -zeta, 1 - eta]),
      ("G", ![-mu, mu, delta]),
      ("G2", ![mu, 1 - mu, -delta]),
      ("G4", ![mu, -mu, -delta]),
      ("G6", ![1 - mu, mu, delta])] := by
  refine letters_of [0, 1, 2, 3, 4, 5, 6, 6, 6, 7, 7, 7, 8, 8, 8, 8] [![0, 0, 0], ![1 / 2, 1 / 2, 0], ![0, 0, 1 / 2], ![1 / 2, 1 / 2, 1 / 2], ![0, 1 / 2, 0], ![0, 1 / 2, 1 / 2], ![-1 + phi, 1 - phi, 1 - psi], ![-zeta, zeta, eta], ![-mu, mu, delta]]
    (by simp only [PyDict.keys, List.map_cons, List.map_nil]; decide +kernel) ?_
  exact .cons (near_refl r _) <|
    .cons (near_refl r _) <|
    .cons (near_refl r _) <|
    .cons (near_refl r _) <|
    .cons (near_refl r _) <|
    .cons (near_refl r _) <|
    .cons (near_refl r _) <|
    .cons ⟨_, latSym_neg_one r, ![0, -1, -1], by near_check⟩ <|
    .cons ⟨_, latSym_one r, ![1, 0, 0], by near_check⟩ <|
    .cons (near_refl r _) <|
    .cons ⟨_, latSym_neg_one r, ![0, -1, -1], by near_check⟩ <|
    .cons ⟨_, latSym_neg_one r, ![0, 0, -1], by near_check⟩ <|
    .cons (near_refl r _) <|
    .cons ⟨_, latSym_neg_one r, ![0, -1, 0], by near_check⟩ <|
    .cons ⟨_, latSym_neg_one r, ![0, 0, 0], by near_check⟩ <|
    .cons ⟨_, latSym_one r, ![1, 0, 0], by near_check⟩ <| .nil

theorem letters_hpkot_mC_89 (r : Cell ℝ)
    (x0 x1 x2 x3 : ℝ) : LetterTable r (hpkotTable89 x0 x1 x2 x3) :=
  letters_hpkot_mC_89_free r _ _ _ _ _ _

theorem letters_hpkot_mC_90_free {conv r : Cell ℝ} {a b c be : ℝ} (h : HasParams conv a b c 90 be 90)
    (hr : getReciprocal ((!![1 / 2, -1 / 2, 0; 1 / 2, 1 / 2, 0; 0, 0, 1] : Cell ℝ).transpose *
      conv) = .ok r)
    (delta eta mu nu omega rho zeta : ℝ) : LetterTable r
     [("GAMMA", ![0, 0, 0]),
      ("Y", ![1 / 2, 1 / 2, 0]),
      ("A", ![0, 0, 1 / 2]),
      ("M2", ![-1 / 2, 1 / 2, 1 / 2]),
      ("V", ![1 / 2, 0, 0]),
      ("V2", ![0, 1 / 2, 0]),
      ("L2", ![0, 1 / 2, 1 / 2]),
      ("I", ![-1 + rho, rho, 1 / 2]),
      ("I2", ![1 - rho, 1 - rho, 1 / 2]),
      ("K", ![-nu, nu, omega]),
      ("K2", ![-1 + nu, 1 - nu, 1 - omega]),
      ("K4", ![1 - nu, nu, omega]),
      ("H", ![-zeta, zeta, eta]),
      ("H2", ![zeta, 1 - zeta, 1 - eta]),
      ("H4", ![zeta, -zeta, 1 - eta]),
      ("N", ![-mu, mu, delta]),
      ("N2", ![mu, 1 - mu, -delta]),
      ("N4", ![mu, -mu, -delta]),
      ("N6", ![1 - mu, mu, delta])] := by
  obtain ⟨w, hG⟩ := metric_mb h
  have s0 : LatSym r !![0, -1, 0; -1, 0, 0; 0, 0, 1] :=
    latSym_of hr !![1, 0, 0; 0, -1, 0; 0, 0, 1] !![0, -1, 0; -1, 0, 0; 0, 0, 1]
      !![0, -1, 0; -1, 0, 0; 0, 0, 1] (by rw [hG]; sym_check) (by sym_check) (by decide)
  refine letters_of [0, 1, 2, 3, 4, 4, 5, 6, 6, 7, 7, 7, 8, 8, 8, 9, 9, 9, 9] [![0, 0, 0], ![1 / 2, 1 / 2, 0], ![0, 0, 1 / 2], ![-1 / 2, 1 / 2, 1 / 2], ![1 / 2, 0, 0], ![0, 1 / 2, 1 / 2], ![-1 + rho, rho, 1 / 2], ![-nu, nu, omega], ![-zeta, zeta, eta], ![-mu, mu, delta]]
    (by simp only [PyDict.keys, List.map_cons, List.map_nil]; decide +kernel) ?_
  exact .cons (near_refl r _) <|
    .cons (near_refl r _) <|
    .cons (near_refl r _) <|
    .cons (near_refl r _) <|
    .cons (near_refl r _) <|
    .cons ⟨_, s0, ![-1, 0, 0], by near_check⟩ <|
    .cons (near_refl r _) <|
    .cons (near_refl r _) <|
    .cons ⟨_, latSym_neg_one r, ![0, -1, -1], by near_check⟩ <|
    .cons (near_refl r _) <|
    .cons ⟨_, latSym_neg_one r, ![1, -1, -1], by near_check⟩ <|
    .cons ⟨_, latSym_one r, ![1, 0, 0], by near_check⟩ <|
    .cons (near_refl r _) <|
    .cons ⟨_, latSym_neg_one r, ![0, -1, -1], by near_check⟩ <|
    .cons ⟨_, latSym_neg_one r, ![0, 0, -1], by near_check⟩ <|
    .cons (near_refl r _) <|
    .cons ⟨_, latSym_neg_one r, ![0, -1, 0], by near_check⟩ <|
    .cons ⟨_, latSym_neg_one r, ![0, 0, 0], by near_check⟩ <|
    .cons ⟨_, latSym_one r, ![1, 0, 0], by near_check⟩ <| .nil

theorem letters_hpkot_mC_90 {conv r : Cell ℝ} {a b c be : ℝ} (h : HasParams conv a b c 90 be 90)
    (hr : getReciprocal ((!![1 / 2, -1 / 2, 0; 1 / 2, 1 / 2, 0; 0, 0, 1] : Cell ℝ).transpose *
      conv) = .ok r)
    (x0 x1 x2 x3 : ℝ) : LetterTable r (hpkotTable90 x0 x1 x2 x3) :=
  letters_hpkot_mC_90_free h hr _ _ _ _ _ _ _

theorem letters_hpkot_aP_91_free (r : Cell ℝ) : LetterTable r
     [("GAMMA", ![0, 0, 0]),
      ("Z", ![0, 0, 0]),
      ("Y", ![0, 1 / 2, 0]),
      ("X", ![1 / 2, 0, 0]),
      ("V", ![1 / 2, 1 / 2, 0]),
      ("U", ![1 / 2, 0, 1 / 2]),
      ("T", ![0, 1 / 2, 1 / 2]),
      ("R", ![1 / 2, 1 / 2, 1 / 2])] := by
  refine letters_of [0, 1, 2, 3, 4, 5, 6, 7] [![0, 0, 0], ![0, 0, 0], ![0, 1 / 2, 0], ![1 / 2, 0, 0], ![1 / 2, 1 / 2, 0], ![1 / 2, 0, 1 / 2], ![0, 1 / 2, 1 / 2], ![1 / 2, 1 / 2, 1 / 2]]
    (by simp only [PyDict.keys, List.map_cons, List.map_nil]; decide +kernel) ?_
  exact .cons (near_refl r _) <|
    .cons (near_refl r _) <|
    .cons (near_refl r _) <|
    .cons (near_refl r _) <|
    .cons (near_refl r _) <|
    .cons (near_refl r _) <|
    .cons (near_refl r _) <|
    .cons (near_refl r _) <| .nil

theorem letters_hpkot_aP_91 (r : Cell ℝ) : LetterTable r hpkotTable91 :=
  letters_hpkot_aP_91_free r

theorem letters_hpkot_aP_92_free (r : Cell ℝ) : LetterTable r
     [("GAMMA", ![0, 0, 0]),
      ("Z", ![0, 0, 1 / 2]),
      ("Y", ![0, 1 / 2, 0]),
      ("Y2", ![0, -1 / 2, 0]),
      ("X", ![1 / 2, 0, 0]),
      ("V2", ![1 / 2, -1 / 2, 0]),
      ("U2", ![-1 / 2, 0, 1 / 2]),
      ("T2", ![0, -1 / 2, 1 / 2]),
      ("R2", ![-1 / 2, -1 / 2, 1 / 2])] := by
  refine letters_of [0, 1, 2, 2, 3, 4, 5, 6, 7] [![0, 0, 0], ![0, 0, 1 / 2], ![0, 1 / 2, 0], ![1 / 2, 0, 0], ![1 / 2, -1 / 2, 0], ![-1 / 2, 0, 1 / 2], ![0, -1 / 2, 1 / 2], ![-1 / 2, -1 / 2, 1 / 2]]
    (by simp only [PyDict.keys, List.map_cons, List.map_nil]; decide +kernel) ?_
  exact .cons (near_refl r _) <|
    .cons (near_refl r _) <|
    .cons (near_refl r _) <|
    .cons ⟨_, latSym_one r, ![0, -1, 0], by near_check⟩ <|
    .cons (near_refl r _) <|
    .cons (near_refl r _) <|
    .cons (near_refl r _) <|
    .cons (near_refl r _) <|
    .cons (near_refl r _) <| .nil

theorem letters_hpkot_aP_92 (r : Cell ℝ) : LetterTable r hpkotTable92 :=
  letters_hpkot_aP_92_free r

end Wulfric
