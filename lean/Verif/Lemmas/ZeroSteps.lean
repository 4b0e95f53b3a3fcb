import Verif.Lemmas.ZeroStep

/-! # The steps of the default paths -/

namespace Wulfric
open Matrix _root_.Spec Wulfric.Spec

theorem steps_cP1 : stepsOf "GAMMA-X-M-GAMMA-R-X|R-M-X1" =
    [("GAMMA", "X"), ("X", "M"), ("M", "GAMMA"), ("GAMMA", "R"), ("R", "X"), ("R", "M"),
     ("M", "X1")] := by
  decide +kernel

theorem steps_cP2 : stepsOf "GAMMA-X-M-GAMMA-R-X|R-M" =
    [("GAMMA", "X"), ("X", "M"), ("M", "GAMMA"), ("GAMMA", "R"), ("R", "X"), ("R", "M")] := by
  decide +kernel

theorem steps_cF1 : stepsOf "GAMMA-X-U|K-GAMMA-L-W-X-W2" =
    [("GAMMA", "X"), ("X", "U"), ("K", "GAMMA"), ("GAMMA", "L"), ("L", "W"), ("W", "X"),
     ("X", "W2")] := by
  decide +kernel

theorem steps_cF2 : stepsOf "GAMMA-X-U|K-GAMMA-L-W-X" =
    [("GAMMA", "X"), ("X", "U"), ("K", "GAMMA"), ("GAMMA", "L"), ("L", "W"), ("W", "X")] := by
  decide +kernel

theorem steps_cI1 : stepsOf "GAMMA-H-N-GAMMA-P-H|P-N" =
    [("GAMMA", "H"), ("H", "N"), ("N", "GAMMA"), ("GAMMA", "P"), ("P", "H"), ("P", "N")] := by
  decide +kernel

theorem steps_tP1 : stepsOf "GAMMA-X-M-GAMMA-Z-R-A-Z|X-R|M-A" =
    [("GAMMA", "X"), ("X", "M"), ("M", "GAMMA"), ("GAMMA", "Z"), ("Z", "R"), ("R", "A"),
     ("A", "Z"), ("X", "R"), ("M", "A")] := by
  decide +kernel

theorem steps_tI1 : stepsOf "GAMMA-X-M-GAMMA-Z|Z0-M|X-P-N-GAMMA" =
    [("GAMMA", "X"), ("X", "M"), ("M", "GAMMA"), ("GAMMA", "Z"), ("Z0", "M"), ("X", "P"),
     ("P", "N"), ("N", "GAMMA")] := by
  decide +kernel

theorem steps_tI2 : stepsOf "GAMMA-X-P-N-GAMMA-M-S|S0-GAMMA|X-R|G-M" =
    [("GAMMA", "X"), ("X", "P"), ("P", "N"), ("N", "GAMMA"), ("GAMMA", "M"), ("M", "S"),
     ("S0", "GAMMA"), ("X", "R"), ("G", "M")] := by
  decide +kernel

theorem steps_oP1 : stepsOf "GAMMA-X-S-Y-GAMMA-Z-U-R-T-Z|X-U|Y-T|S-R" =
    [("GAMMA", "X"), ("X", "S"), ("S", "Y"), ("Y", "GAMMA"), ("GAMMA", "Z"), ("Z", "U"),
     ("U", "R"), ("R", "T"), ("T", "Z"), ("X", "U"), ("Y", "T"), ("S", "R")] := by
  decide +kernel

theorem steps_oF1 : stepsOf "GAMMA-Y-T-Z-GAMMA-SIGMA0|U0-T|Y-C0|A0-Z|GAMMA-L" =
    [("GAMMA", "Y"), ("Y", "T"), ("T", "Z"), ("Z", "GAMMA"), ("GAMMA", "SIGMA0"), ("U0", "T"),
     ("Y", "C0"), ("A0", "Z"), ("GAMMA", "L")] := by
  decide +kernel

theorem steps_oF2 : stepsOf "GAMMA-T-Z-Y-GAMMA-LAMBDA0|Q0-Z|T-G0|H0-Y|GAMMA-L" =
    [("GAMMA", "T"), ("T", "Z"), ("Z", "Y"), ("Y", "GAMMA"), ("GAMMA", "LAMBDA0"), ("Q0", "Z"),
     ("T", "G0"), ("H0", "Y"), ("GAMMA", "L")] := by
  decide +kernel

theorem steps_oF3 : stepsOf "GAMMA-Y-C0|A0-Z-B0|D0-T-G0|H0-Y|T-GAMMA-Z|GAMMA-L" =
    [("GAMMA", "Y"), ("Y", "C0"), ("A0", "Z"), ("Z", "B0"), ("D0", "T"), ("T", "G0"),
     ("H0", "Y"), ("T", "GAMMA"), ("GAMMA", "Z"), ("GAMMA", "L")] := by
  decide +kernel

theorem steps_oI1 : stepsOf "GAMMA-X-F2|SIGMA0-GAMMA-Y0|U0-X|GAMMA-R-W-S-GAMMA-T-W" =
    [("GAMMA", "X"), ("X", "F2"), ("SIGMA0", "GAMMA"), ("GAMMA", "Y0"), ("U0", "X"),
     ("GAMMA", "R"), ("R", "W"), ("W", "S"), ("S", "GAMMA"), ("GAMMA", "T"), ("T", "W")] := by
  decide +kernel

theorem steps_oI2 : stepsOf "GAMMA-X-U2|Y0-GAMMA-LAMBDA0|G2-X|GAMMA-R-W-S-GAMMA-T-W" =
    [("GAMMA", "X"), ("X", "U2"), ("Y0", "GAMMA"), ("GAMMA", "LAMBDA0"), ("G2", "X"),
     ("GAMMA", "R"), ("R", "W"), ("W", "S"), ("S", "GAMMA"), ("GAMMA", "T"), ("T", "W")] := by
  decide +kernel

theorem steps_oI3 : stepsOf "GAMMA-X-F0|SIGMA0-GAMMA-LAMBDA0|G0-X|GAMMA-R-W-S-GAMMA-T-W" =
    [("GAMMA", "X"), ("X", "F0"), ("SIGMA0", "GAMMA"), ("GAMMA", "LAMBDA0"), ("G0", "X"),
     ("GAMMA", "R"), ("R", "W"), ("W", "S"), ("S", "GAMMA"), ("GAMMA", "T"), ("T", "W")] := by
  decide +kernel

theorem steps_oC1 : stepsOf "GAMMA-Y-C0|SIGMA0-GAMMA-Z-A0|E0-T-Y|GAMMA-S-R-Z-T" =
    [("GAMMA", "Y"), ("Y", "C0"), ("SIGMA0", "GAMMA"), ("GAMMA", "Z"), ("Z", "A0"), ("E0", "T"),
     ("T", "Y"), ("GAMMA", "S"), ("S", "R"), ("R", "Z"), ("Z", "T")] := by
  decide +kernel

theorem steps_oC2 : stepsOf "GAMMA-Y-F0|DELTA0-GAMMA-Z-B0|G0-T-Y|GAMMA-S-R-Z-T" =
    [("GAMMA", "Y"), ("Y", "F0"), ("DELTA0", "GAMMA"), ("GAMMA", "Z"), ("Z", "B0"), ("G0", "T"),
     ("T", "Y"), ("GAMMA", "S"), ("S", "R"), ("R", "Z"), ("Z", "T")] := by
  decide +kernel

theorem steps_oA1 : stepsOf "GAMMA-Y-C0|SIGMA0-GAMMA-Z-A0|E0-T-Y|GAMMA-S-R-Z-T" =
    [("GAMMA", "Y"), ("Y", "C0"), ("SIGMA0", "GAMMA"), ("GAMMA", "Z"), ("Z", "A0"), ("E0", "T"),
     ("T", "Y"), ("GAMMA", "S"), ("S", "R"), ("R", "Z"), ("Z", "T")] := by
  decide +kernel

theorem steps_oA2 : stepsOf "GAMMA-Y-F0|DELTA0-GAMMA-Z-B0|G0-T-Y|GAMMA-S-R-Z-T" =
    [("GAMMA", "Y"), ("Y", "F0"), ("DELTA0", "GAMMA"), ("GAMMA", "Z"), ("Z", "B0"), ("G0", "T"),
     ("T", "Y"), ("GAMMA", "S"), ("S", "R"), ("R", "Z"), ("Z", "T")] := by
  decide +kernel

theorem steps_hP1 : stepsOf "GAMMA-M-K-GAMMA-A-L-H-A|L-M|H-K-H2" =
    [("GAMMA", "M"), ("M", "K"), ("K", "GAMMA"), ("GAMMA", "A"), ("A", "L"), ("L", "H"),
     ("H", "A"), ("L", "M"), ("H", "K"), ("K", "H2")] := by
  decide +kernel

theorem steps_hP2 : stepsOf "GAMMA-M-K-GAMMA-A-L-H-A|L-M|H-K" =
    [("GAMMA", "M"), ("M", "K"), ("K", "GAMMA"), ("GAMMA", "A"), ("A", "L"), ("L", "H"),
     ("H", "A"), ("L", "M"), ("H", "K")] := by
  decide +kernel

theorem steps_hR1 : stepsOf "GAMMA-T-H2|H0-L-GAMMA-S0|S2-F-GAMMA" =
    [("GAMMA", "T"), ("T", "H2"), ("H0", "L"), ("L", "GAMMA"), ("GAMMA", "S0"), ("S2", "F"),
     ("F", "GAMMA")] := by
  decide +kernel

theorem steps_hR2 : stepsOf "GAMMA-L-T-P0|P2-GAMMA-F" =
    [("GAMMA", "L"), ("L", "T"), ("T", "P0"), ("P2", "GAMMA"), ("GAMMA", "F")] := by
  decide +kernel

theorem steps_mP1 : stepsOf "GAMMA-Z-D-B-GAMMA-A-E-Z-C2-Y2-GAMMA" =
    [("GAMMA", "Z"), ("Z", "D"), ("D", "B"), ("B", "GAMMA"), ("GAMMA", "A"), ("A", "E"),
     ("E", "Z"), ("Z", "C2"), ("C2", "Y2"), ("Y2", "GAMMA")] := by
  decide +kernel

theorem steps_mC1 : stepsOf "GAMMA-C|C2-Y2-GAMMA-M2-D|D2-A-GAMMA|L2-GAMMA-V2" =
    [("GAMMA", "C"), ("C2", "Y2"), ("Y2", "GAMMA"), ("GAMMA", "M2"), ("M2", "D"), ("D2", "A"),
     ("A", "GAMMA"), ("L2", "GAMMA"), ("GAMMA", "V2")] := by
  decide +kernel

theorem steps_mC2 : stepsOf "GAMMA-Y-M-A-GAMMA|L2-GAMMA-V2" =
    [("GAMMA", "Y"), ("Y", "M"), ("M", "A"), ("A", "GAMMA"), ("L2", "GAMMA"), ("GAMMA", "V2")] := by
  decide +kernel

theorem steps_mC3 : stepsOf "GAMMA-A-I2|I-M2-GAMMA-Y|L2-GAMMA-V2" =
    [("GAMMA", "A"), ("A", "I2"), ("I", "M2"), ("M2", "GAMMA"), ("GAMMA", "Y"), ("L2", "GAMMA"),
     ("GAMMA", "V2")] := by
  decide +kernel

theorem steps_aP2 : stepsOf "GAMMA-X|Y-GAMMA-Z|R-GAMMA-T|U-GAMMA-V" =
    [("GAMMA", "X"), ("Y", "GAMMA"), ("GAMMA", "Z"), ("R", "GAMMA"), ("GAMMA", "T"),
     ("U", "GAMMA"), ("GAMMA", "V")] := by
  decide +kernel

theorem steps_aP3 : stepsOf "GAMMA-X|Y-GAMMA-Z|R2-GAMMA-T2|U2-GAMMA-V2" =
    [("GAMMA", "X"), ("Y", "GAMMA"), ("GAMMA", "Z"), ("R2", "GAMMA"), ("GAMMA", "T2"),
     ("U2", "GAMMA"), ("GAMMA", "V2")] := by
  decide +kernel

theorem steps_CUB : stepsOf "GAMMA-X-M-GAMMA-R-X|M-R" =
    [("GAMMA", "X"), ("X", "M"), ("M", "GAMMA"), ("GAMMA", "R"), ("R", "X"), ("M", "R")] := by
  decide +kernel

theorem steps_FCC : stepsOf "GAMMA-X-W-K-GAMMA-L-U-W-L-K|U-X" =
    [("GAMMA", "X"), ("X", "W"), ("W", "K"), ("K", "GAMMA"), ("GAMMA", "L"), ("L", "U"),
     ("U", "W"), ("W", "L"), ("L", "K"), ("U", "X")] := by
  decide +kernel

theorem steps_BCC : stepsOf "GAMMA-H-N-GAMMA-P-H|P-N" =
    [("GAMMA", "H"), ("H", "N"), ("N", "GAMMA"), ("GAMMA", "P"), ("P", "H"), ("P", "N")] := by
  decide +kernel

theorem steps_TET : stepsOf "GAMMA-X-M-GAMMA-Z-R-A-Z|X-R|M-A" =
    [("GAMMA", "X"), ("X", "M"), ("M", "GAMMA"), ("GAMMA", "Z"), ("Z", "R"), ("R", "A"),
     ("A", "Z"), ("X", "R"), ("M", "A")] := by
  decide +kernel

theorem steps_BCT1 : stepsOf "GAMMA-X-M-GAMMA-Z-P-N-Z1-M|X-P" =
    [("GAMMA", "X"), ("X", "M"), ("M", "GAMMA"), ("GAMMA", "Z"), ("Z", "P"), ("P", "N"),
     ("N", "Z1"), ("Z1", "M"), ("X", "P")] := by
  decide +kernel

theorem steps_BCT2 : stepsOf "GAMMA-X-Y-SIGMA-GAMMA-Z-SIGMA1-N-P-Y1-Z|X-P" =
    [("GAMMA", "X"), ("X", "Y"), ("Y", "SIGMA"), ("SIGMA", "GAMMA"), ("GAMMA", "Z"),
     ("Z", "SIGMA1"), ("SIGMA1", "N"), ("N", "P"), ("P", "Y1"), ("Y1", "Z"), ("X", "P")] := by
  decide +kernel

theorem steps_ORC : stepsOf "GAMMA-X-S-Y-GAMMA-Z-U-R-T-Z|Y-T|U-X|S-R" =
    [("GAMMA", "X"), ("X", "S"), ("S", "Y"), ("Y", "GAMMA"), ("GAMMA", "Z"), ("Z", "U"),
     ("U", "R"), ("R", "T"), ("T", "Z"), ("Y", "T"), ("U", "X"), ("S", "R")] := by
  decide +kernel

theorem steps_ORCF1 : stepsOf "GAMMA-Y-T-Z-GAMMA-X-A1-Y|T-X1|X-A-Z|L-GAMMA" =
    [("GAMMA", "Y"), ("Y", "T"), ("T", "Z"), ("Z", "GAMMA"), ("GAMMA", "X"), ("X", "A1"),
     ("A1", "Y"), ("T", "X1"), ("X", "A"), ("A", "Z"), ("L", "GAMMA")] := by
  decide +kernel

theorem steps_ORCF2 : stepsOf "GAMMA-Y-C-D-X-GAMMA-Z-D1-H-C|C1-Z|X-H1|H-Y|L-GAMMA" =
    [("GAMMA", "Y"), ("Y", "C"), ("C", "D"), ("D", "X"), ("X", "GAMMA"), ("GAMMA", "Z"),
     ("Z", "D1"), ("D1", "H"), ("H", "C"), ("C1", "Z"), ("X", "H1"), ("H", "Y"), ("L", "GAMMA")] := by
  decide +kernel

theorem steps_ORCF3 : stepsOf "GAMMA-Y-T-Z-GAMMA-X-A1-Y|X-A-Z|L-GAMMA" =
    [("GAMMA", "Y"), ("Y", "T"), ("T", "Z"), ("Z", "GAMMA"), ("GAMMA", "X"), ("X", "A1"),
     ("A1", "Y"), ("X", "A"), ("A", "Z"), ("L", "GAMMA")] := by
  decide +kernel

theorem steps_ORCI : stepsOf "GAMMA-X-L-T-W-R-X1-Z-GAMMA-Y-S-W|L1-Y|Y1-Z" =
    [("GAMMA", "X"), ("X", "L"), ("L", "T"), ("T", "W"), ("W", "R"), ("R", "X1"), ("X1", "Z"),
     ("Z", "GAMMA"), ("GAMMA", "Y"), ("Y", "S"), ("S", "W"), ("L1", "Y"), ("Y1", "Z")] := by
  decide +kernel

theorem steps_ORCC : stepsOf "GAMMA-X-S-R-A-Z-GAMMA-Y-X1-A1-T-Y|Z-T" =
    [("GAMMA", "X"), ("X", "S"), ("S", "R"), ("R", "A"), ("A", "Z"), ("Z", "GAMMA"),
     ("GAMMA", "Y"), ("Y", "X1"), ("X1", "A1"), ("A1", "T"), ("T", "Y"), ("Z", "T")] := by
  decide +kernel

theorem steps_HEX : stepsOf "GAMMA-M-K-GAMMA-A-L-H-A|L-M|K-H" =
    [("GAMMA", "M"), ("M", "K"), ("K", "GAMMA"), ("GAMMA", "A"), ("A", "L"), ("L", "H"),
     ("H", "A"), ("L", "M"), ("K", "H")] := by
  decide +kernel

theorem steps_RHL1 : stepsOf "GAMMA-L-B1|B-Z-GAMMA-X|Q-F-P1-Z|L-P" =
    [("GAMMA", "L"), ("L", "B1"), ("B", "Z"), ("Z", "GAMMA"), ("GAMMA", "X"), ("Q", "F"),
     ("F", "P1"), ("P1", "Z"), ("L", "P")] := by
  decide +kernel

theorem steps_RHL2 : stepsOf "GAMMA-P-Z-Q-GAMMA-F-P1-Q1-L-Z" =
    [("GAMMA", "P"), ("P", "Z"), ("Z", "Q"), ("Q", "GAMMA"), ("GAMMA", "F"), ("F", "P1"),
     ("P1", "Q1"), ("Q1", "L"), ("L", "Z")] := by
  decide +kernel

theorem steps_MCL : stepsOf "GAMMA-Y-H-C-E-M1-A-X-H1|M-D-Z|Y-D" =
    [("GAMMA", "Y"), ("Y", "H"), ("H", "C"), ("C", "E"), ("E", "M1"), ("M1", "A"), ("A", "X"),
     ("X", "H1"), ("M", "D"), ("D", "Z"), ("Y", "D")] := by
  decide +kernel

theorem steps_MCLC1 : stepsOf "GAMMA-Y-F-L-I|I1-Z-F1|Y-X1|X-GAMMA-N|M-GAMMA" =
    [("GAMMA", "Y"), ("Y", "F"), ("F", "L"), ("L", "I"), ("I1", "Z"), ("Z", "F1"), ("Y", "X1"),
     ("X", "GAMMA"), ("GAMMA", "N"), ("M", "GAMMA")] := by
  decide +kernel

theorem steps_MCLC2 : stepsOf "GAMMA-Y-F-L-I|I1-Z-F1|N-GAMMA-M" =
    [("GAMMA", "Y"), ("Y", "F"), ("F", "L"), ("L", "I"), ("I1", "Z"), ("Z", "F1"),
     ("N", "GAMMA"), ("GAMMA", "M")] := by
  decide +kernel

theorem steps_MCLC3 : stepsOf "GAMMA-Y-F-H-Z-I-F1|H1-Y1-X-GAMMA-N|M-GAMMA" =
    [("GAMMA", "Y"), ("Y", "F"), ("F", "H"), ("H", "Z"), ("Z", "I"), ("I", "F1"), ("H1", "Y1"),
     ("Y1", "X"), ("X", "GAMMA"), ("GAMMA", "N"), ("M", "GAMMA")] := by
  decide +kernel

theorem steps_MCLC4 : stepsOf "GAMMA-Y-F-H-Z-I|H1-Y1-X-GAMMA-N|M-GAMMA" =
    [("GAMMA", "Y"), ("Y", "F"), ("F", "H"), ("H", "Z"), ("Z", "I"), ("H1", "Y1"), ("Y1", "X"),
     ("X", "GAMMA"), ("GAMMA", "N"), ("M", "GAMMA")] := by
  decide +kernel

theorem steps_MCLC5 : stepsOf "GAMMA-Y-F-L-I|I1-Z-H-F1|H1-Y1-X-GAMMA-N|M-GAMMA" =
    [("GAMMA", "Y"), ("Y", "F"), ("F", "L"), ("L", "I"), ("I1", "Z"), ("Z", "H"), ("H", "F1"),
     ("H1", "Y1"), ("Y1", "X"), ("X", "GAMMA"), ("GAMMA", "N"), ("M", "GAMMA")] := by
  decide +kernel

theorem steps_TRI1a : stepsOf "X-GAMMA-Y|L-GAMMA-Z|N-GAMMA-M|R-GAMMA" =
    [("X", "GAMMA"), ("GAMMA", "Y"), ("L", "GAMMA"), ("GAMMA", "Z"), ("N", "GAMMA"),
     ("GAMMA", "M"), ("R", "GAMMA")] := by
  decide +kernel

theorem steps_TRI2a : stepsOf "X-GAMMA-Y|L-GAMMA-Z|N-GAMMA-M|R-GAMMA" =
    [("X", "GAMMA"), ("GAMMA", "Y"), ("L", "GAMMA"), ("GAMMA", "Z"), ("N", "GAMMA"),
     ("GAMMA", "M"), ("R", "GAMMA")] := by
  decide +kernel

theorem steps_TRI1b : stepsOf "X-GAMMA-Y|L-GAMMA-Z|N-GAMMA-M|R-GAMMA" =
    [("X", "GAMMA"), ("GAMMA", "Y"), ("L", "GAMMA"), ("GAMMA", "Z"), ("N", "GAMMA"),
     ("GAMMA", "M"), ("R", "GAMMA")] := by
  decide +kernel

theorem steps_TRI2b : stepsOf "X-GAMMA-Y|L-GAMMA-Z|N-GAMMA-M|R-GAMMA" =
    [("X", "GAMMA"), ("GAMMA", "Y"), ("L", "GAMMA"), ("GAMMA", "Z"), ("N", "GAMMA"),
     ("GAMMA", "M"), ("R", "GAMMA")] := by
  decide +kernel

end Wulfric
