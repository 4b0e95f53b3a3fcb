import Verif.Lemmas.LepageOrtho

/-! # Tables for the Le Page algorithm on orthogonal lattices -/

namespace Wulfric

open Matrix _root_.Spec

def tsP : List (ℕ × ℕ × ℕ × ℕ × ℕ × ℕ) :=
  [(0, 0, 0, 0, 0, 0), (2, 2, 0, 0, 0, 0), (0, 0, 2, 2, 0, 0), (0, 0, 0, 0, 2, 2)]
def tsF : List (ℕ × ℕ × ℕ × ℕ × ℕ × ℕ) :=
  [(0, 0, 0, 0, 0, 0), (2, 2, 0, 0, 0, 0), (0, 0, 2, 2, 0, 0), (0, 0, 0, 0, 2, 2),
    (1, 1, 1, 2, 1, 2), (1, 2, 1, 1, 2, 1), (2, 1, 2, 1, 1, 1)]
def tsI : List (ℕ × ℕ × ℕ × ℕ × ℕ × ℕ) :=
  [(0, 0, 0, 0, 0, 0), (2, 2, 0, 0, 0, 0), (0, 0, 2, 2, 0, 0), (0, 0, 0, 0, 2, 2),
    (1, 1, 2, 1, 2, 1), (2, 1, 1, 1, 1, 2), (1, 2, 1, 2, 1, 1)]
def tsC : List (ℕ × ℕ × ℕ × ℕ × ℕ × ℕ) :=
  [(0, 0, 0, 0, 0, 0), (2, 2, 0, 0, 0, 0), (3, 1, 0, 0, 0, 0), (1, 3, 0, 0, 0, 0),
    (1, 1, 1, 2, 1, 2)]

theorem allowed_P : allowedAll matP invP tsP = true := by decide +kernel
theorem allowed_F : allowedAll matF invF tsF = true := by decide +kernel
theorem allowed_I : allowedAll matI invI tsI = true := by decide +kernel
theorem allowed_C : allowedAll matC invC tsC = true := by decide +kernel

def axesCUB : List (Fin 3 → ℤ) :=
  [![0, 0, 2], ![0, 1, -1], ![0, 1, 1], ![0, 2, 0], ![1, -1, 0], ![1, 0, -1], ![1, 0, 1], ![1, 1, 0],
    ![2, 0, 0]]
def axesTET : List (Fin 3 → ℤ) := [![0, 0, 2], ![0, 2, 0], ![1, -1, 0], ![1, 1, 0], ![2, 0, 0]]
def axesORC : List (Fin 3 → ℤ) := [![0, 0, 2], ![0, 2, 0], ![2, 0, 0]]
def axesFCC : List (Fin 3 → ℤ) :=
  [![0, 0, 1], ![0, 1, -1], ![0, 1, 0], ![1, -1, -1], ![1, -1, 0], ![1, -1, 1], ![1, 0, -1],
    ![1, 0, 0], ![1, 1, -1]]
def axesORCF : List (Fin 3 → ℤ) := [![1, -1, -1], ![1, -1, 1], ![1, 1, -1]]
def axesBCC : List (Fin 3 → ℤ) :=
  [![0, 1, -1], ![0, 1, 1], ![1, -1, 0], ![1, 0, -1], ![1, 0, 1], ![1, 1, 0], ![1, 1, 2],
    ![1, 2, 1], ![2, 1, 1]]
def axesBCT : List (Fin 3 → ℤ) := [![0, 1, 1], ![1, -1, 0], ![1, 0, 1], ![1, 1, 0], ![1, 1, 2]]
def axesORCI : List (Fin 3 → ℤ) := [![0, 1, 1], ![1, 0, 1], ![1, 1, 0]]
def axesORCC : List (Fin 3 → ℤ) := [![0, 0, 2], ![1, -1, 0], ![1, 1, 0]]

theorem drop_CUB : dropU (exactPairs fun u h =>
    exactEdges true true true (pairU matP u) (pairW invP h)) = axesCUB := by decide +kernel
theorem drop_TET : dropU (exactPairs fun u h =>
    exactEdges true false false (pairU matP u) (pairW invP h)) = axesTET := by decide +kernel
theorem drop_ORC : dropU (exactPairs fun u h =>
    exactEdges false false false (pairU matP u) (pairW invP h)) = axesORC := by decide +kernel
theorem drop_FCC : dropU (exactPairs fun u h =>
    exactEdges true true true (pairU matF u) (pairW invF h)) = axesFCC := by decide +kernel
theorem drop_ORCF : dropU (exactPairs fun u h =>
    exactEdges false false false (pairU matF u) (pairW invF h)) = axesORCF := by decide +kernel
theorem drop_BCC : dropU (exactPairs fun u h =>
    exactEdges true true true (pairU matI u) (pairW invI h)) = axesBCC := by decide +kernel
theorem drop_BCT : dropU (exactPairs fun u h =>
    exactEdges true false false (pairU matI u) (pairW invI h)) = axesBCT := by decide +kernel
theorem drop_ORCI : dropU (exactPairs fun u h =>
    exactEdges false false false (pairU matI u) (pairW invI h)) = axesORCI := by decide +kernel
theorem drop_ORCC : dropU (exactPairs fun u h =>
    exactEdges false false false (pairU matC u) (pairW invC h)) = axesORCC := by decide +kernel

end Wulfric
