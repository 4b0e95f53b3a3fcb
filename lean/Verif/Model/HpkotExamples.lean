import Verif.Model.Poscar
import Verif.Model.Conventions

/-!
# `hpkot_get_example`

Model of `src/wulfric/crystal/_hpkot_examples/__init__.py`. The files `POSCAR_inversion` and
`POSCAR_noinversion` of the package, `src/wulfric/crystal/_hpkot_examples/POSCAR-files`, are part of
the model, character by character (a "\r" before a line break is written as an escape). The files
with names ending in "alternate" are never read.
-/

namespace Wulfric

/-- `src/wulfric/crystal/_hpkot_examples/POSCAR-files/cP1/POSCAR_inversion`. -/
def examplecP1Y : List Char := "cP1Y BPOSCAR-0022597
   1.0
     6.0025823999999988    0.0000000000000000    0.0000000000000000
     0.0000000000000000    6.0025823999999988    0.0000000000000000
     0.0000000000000000    0.0000000000000000    6.0025823999999988
 N O Rb Cd
   3   6   1   1
Direct
   0.5000000000000000  0.5000000000000000  0.0000000000000000
   0.5000000000000000  0.0000000000000000  0.5000000000000000
   0.0000000000000000  0.5000000000000000  0.5000000000000000
   0.5000000000000000  0.0000000000000000  0.7075126700000000
   0.0000000000000000  0.7075126700000000  0.5000000000000000
   0.0000000000000000  0.2924873300000000  0.5000000000000000
   0.5000000000000000  0.0000000000000000  0.2924873300000000
   0.2924873300000000  0.5000000000000000  0.0000000000000000
   0.7075126700000000  0.5000000000000000  0.0000000000000000
   0.0000000000000000  0.0000000000000000  0.0000000000000000
   0.5000000000000000  0.5000000000000000  0.5000000000000000
".toList

/-- `src/wulfric/crystal/_hpkot_examples/POSCAR-files/cP1/POSCAR_noinversion`. -/
def examplecP1N : List Char := "cP1N BPOSCAR-0008675
   1.0
     5.3233224500000000    0.0000000000000000    0.0000000000000000
     0.0000000000000000    5.3233224500000000    0.0000000000000000
     0.0000000000000000    0.0000000000000000    5.3233224500000000
 Pd Hg
   4   4
Direct
   0.1525474800000000  0.3474525200000000  0.6525474800000000
   0.3474525200000000  0.6525474800000000  0.1525474800000000
   0.6525474800000000  0.1525474800000000  0.3474525200000000
   0.8474525200000000  0.8474525200000000  0.8474525200000000
   0.8435654299999999  0.6564345700000001  0.3435654300000000
   0.6564345700000001  0.3435654300000000  0.8435654299999999
   0.3435654300000000  0.8435654299999999  0.6564345700000001
   0.1564345700000000  0.1564345700000000  0.1564345700000000
".toList

/-- `src/wulfric/crystal/_hpkot_examples/POSCAR-files/cP2/POSCAR_inversion`. -/
def examplecP2Y : List Char := "cP2Y BPOSCAR-0000284
   1.0
     2.8531242500000000    0.0000000000000000    0.0000000000000000
     0.0000000000000000    2.8531242500000000    0.0000000000000000
     0.0000000000000000    0.0000000000000000    2.8531242500000000
 Al Co
   1   1
Direct
   0.0000000000000000  0.0000000000000000  0.0000000000000000
   0.5000000000000000  0.5000000000000000  0.5000000000000000
".toList

/-- `src/wulfric/crystal/_hpkot_examples/POSCAR-files/cP2/POSCAR_noinversion`. -/
def examplecP2N : List Char := "cP2N BPOSCAR-0571436
   1.0
     6.6864277300000010    0.0000000000000000    0.0000000000000000
     0.0000000000000000    6.6864277300000010    0.0000000000000000
     0.0000000000000000    0.0000000000000000    6.6864277300000010
 Sn I
   1   4
Direct
   0.0000000000000000  0.0000000000000000  0.0000000000000000
   0.2339031900000000  0.7660968100000000  0.7660968100000000
   0.7660968100000000  0.2339031900000000  0.7660968100000000
   0.7660968100000000  0.7660968100000000  0.2339031900000000
   0.2339031900000000  0.2339031900000000  0.2339031900000000
".toList

/-- `src/wulfric/crystal/_hpkot_examples/POSCAR-files/cF1/POSCAR_inversion`. -/
def examplecF1Y : List Char := "cF1Y BPOSCAR-0019863
   1.0
    10.8589940276984667    0.0000000000000000    0.0000000000000000
     0.0000000000000000   10.8589940276984667    0.0000000000000000
     0.0000000000000000    0.0000000000000000   10.8589940276984667
 N O K Cu Pb
  24  48   8   4   4
Direct
   0.8008872400000000  0.0000000000000000  0.0000000000000000
   0.0000000000000000  0.1991127600000000  0.0000000000000000
   0.0000000000000000  0.0000000000000000  0.8008872400000000
   0.0000000000000000  0.0000000000000000  0.1991127600000000
   0.0000000000000000  0.8008872400000000  0.0000000000000000
   0.1991127600000000  0.0000000000000000  0.0000000000000000
   0.8008872400000000  0.5000000000000000  0.5000000000000000
   0.0000000000000000  0.6991127600000000  0.5000000000000000
   0.0000000000000000  0.5000000000000000  0.3008872400000000
   0.0000000000000000  0.5000000000000000  0.6991127600000000
   0.0000000000000000  0.3008872400000000  0.5000000000000000
   0.1991127600000000  0.5000000000000000  0.5000000000000000
   0.3008872400000000  0.0000000000000000  0.5000000000000000
   0.5000000000000000  0.1991127600000000  0.5000000000000000
   0.5000000000000000  0.0000000000000000  0.3008872400000000
   0.5000000000000000  0.0000000000000000  0.6991127600000000
   0.5000000000000000  0.8008872400000000  0.5000000000000000
   0.6991127600000000  0.0000000000000000  0.5000000000000000
   0.3008872400000000  0.5000000000000000  0.0000000000000000
   0.5000000000000000  0.6991127600000000  0.0000000000000000
   0.5000000000000000  0.5000000000000000  0.8008872400000000
   0.5000000000000000  0.5000000000000000  0.1991127600000000
   0.5000000000000000  0.3008872400000000  0.0000000000000000
   0.6991127600000000  0.5000000000000000  0.0000000000000000
   0.0992918700000000  0.2589942300000000  0.0000000000000000
   0.2589942300000000  0.0000000000000000  0.9007081299999999
   0.7410057700000000  0.0000000000000000  0.0992918700000000
   0.7410057700000000  0.0000000000000000  0.9007081299999999
   0.2589942300000000  0.0000000000000000  0.0992918700000000
   0.0000000000000000  0.9007081299999999  0.2589942300000000
   0.0992918700000000  0.7410057700000000  0.0000000000000000
   0.9007081299999999  0.7410057700000000  0.0000000000000000
   0.0000000000000000  0.0992918700000000  0.7410057700000000
   0.0000000000000000  0.9007081299999999  0.7410057700000000
   0.9007081299999999  0.2589942300000000  0.0000000000000000
   0.0000000000000000  0.0992918700000000  0.2589942300000000
   0.0992918700000000  0.7589942300000000  0.5000000000000000
   0.2589942300000000  0.5000000000000000  0.4007081300000000
   0.7410057700000000  0.5000000000000000  0.5992918700000001
   0.7410057700000000  0.5000000000000000  0.4007081300000000
   0.2589942300000000  0.5000000000000000  0.5992918700000001
   0.0000000000000000  0.4007081300000000  0.7589942300000000
   0.0992918700000000  0.2410057700000000  0.5000000000000000
   0.9007081299999999  0.2410057700000000  0.5000000000000000
   0.0000000000000000  0.5992918700000001  0.2410057700000000
   0.0000000000000000  0.4007081300000000  0.2410057700000000
   0.9007081299999999  0.7589942300000000  0.5000000000000000
   0.0000000000000000  0.5992918700000001  0.7589942300000000
   0.5992918700000001  0.2589942300000000  0.5000000000000000
   0.7589942300000000  0.0000000000000000  0.4007081300000000
   0.2410057700000000  0.0000000000000000  0.5992918700000001
   0.2410057700000000  0.0000000000000000  0.4007081300000000
   0.7589942300000000  0.0000000000000000  0.5992918700000001
   0.5000000000000000  0.9007081299999999  0.7589942300000000
   0.5992918700000001  0.7410057700000000  0.5000000000000000
   0.4007081300000000  0.7410057700000000  0.5000000000000000
   0.5000000000000000  0.0992918700000000  0.2410057700000000
   0.5000000000000000  0.9007081299999999  0.2410057700000000
   0.4007081300000000  0.2589942300000000  0.5000000000000000
   0.5000000000000000  0.0992918700000000  0.7589942300000000
   0.5992918700000001  0.7589942300000000  0.0000000000000000
   0.7589942300000000  0.5000000000000000  0.9007081299999999
   0.2410057700000000  0.5000000000000000  0.0992918700000000
   0.2410057700000000  0.5000000000000000  0.9007081299999999
   0.7589942300000000  0.5000000000000000  0.0992918700000000
   0.5000000000000000  0.4007081300000000  0.2589942300000000
   0.5992918700000001  0.2410057700000000  0.0000000000000000
   0.4007081300000000  0.2410057700000000  0.0000000000000000
   0.5000000000000000  0.5992918700000001  0.7410057700000000
   0.5000000000000000  0.4007081300000000  0.7410057700000000
   0.4007081300000000  0.7589942300000000  0.0000000000000000
   0.5000000000000000  0.5992918700000001  0.2589942300000000
   0.7500000000000000  0.2500000000000000  0.2500000000000000
   0.2500000000000000  0.7500000000000000  0.7500000000000000
   0.7500000000000000  0.7500000000000000  0.7500000000000000
   0.2500000000000000  0.2500000000000000  0.2500000000000000
   0.2500000000000000  0.2500000000000000  0.7500000000000000
   0.7500000000000000  0.7500000000000000  0.2500000000000000
   0.2500000000000000  0.7500000000000000  0.2500000000000000
   0.7500000000000000  0.2500000000000000  0.7500000000000000
   0.0000000000000000  0.0000000000000000  0.0000000000000000
   0.0000000000000000  0.5000000000000000  0.5000000000000000
   0.5000000000000000  0.0000000000000000  0.5000000000000000
   0.5000000000000000  0.5000000000000000  0.0000000000000000
   0.0000000000000000  0.0000000000000000  0.5000000000000000
   0.0000000000000000  0.5000000000000000  0.0000000000000000
   0.5000000000000000  0.0000000000000000  0.0000000000000000
   0.5000000000000000  0.5000000000000000  0.5000000000000000
".toList

/-- `src/wulfric/crystal/_hpkot_examples/POSCAR-files/cF1/POSCAR_noinversion`. -/
def examplecF1N : List Char := "cF1N BPOSCAR-0608162
   1.0
    10.5257053675443810    0.0000000000000000    0.0000000000000000
     0.0000000000000000   10.5257053675443810    0.0000000000000000
     0.0000000000000000    0.0000000000000000   10.5257053675443810
 K Cu Pb N O
   8   4   4  24  48
Direct
   0.7500000000000000  0.2500000000000000  0.2500000000000000
   0.2500000000000000  0.7500000000000000  0.7500000000000000
   0.7500000000000000  0.7500000000000000  0.7500000000000000
   0.2500000000000000  0.2500000000000000  0.2500000000000000
   0.2500000000000000  0.2500000000000000  0.7500000000000000
   0.7500000000000000  0.7500000000000000  0.2500000000000000
   0.2500000000000000  0.7500000000000000  0.2500000000000000
   0.7500000000000000  0.2500000000000000  0.7500000000000000
   0.0000000000000000  0.0000000000000000  0.0000000000000000
   0.0000000000000000  0.5000000000000000  0.5000000000000000
   0.5000000000000000  0.0000000000000000  0.5000000000000000
   0.5000000000000000  0.5000000000000000  0.0000000000000000
   0.5000000000000000  0.0000000000000000  0.0000000000000000
   0.5000000000000000  0.5000000000000000  0.5000000000000000
   0.0000000000000000  0.0000000000000000  0.5000000000000000
   0.0000000000000000  0.5000000000000000  0.0000000000000000
   0.0000000000000000  0.0000000000000000  0.7997519249999998
   0.0000000000000000  0.2002480750000002  0.0000000000000000
   0.2002480750000002  0.0000000000000000  0.0000000000000000
   0.0000000000000000  0.7997519249999998  0.0000000000000000
   0.7997519249999998  0.0000000000000000  0.0000000000000000
   0.0000000000000000  0.0000000000000000  0.2002480750000002
   0.0000000000000000  0.5000000000000000  0.2997519249999998
   0.0000000000000000  0.7002480750000002  0.5000000000000000
   0.2002480750000002  0.5000000000000000  0.5000000000000000
   0.0000000000000000  0.2997519249999998  0.5000000000000000
   0.7997519249999998  0.5000000000000000  0.5000000000000000
   0.0000000000000000  0.5000000000000000  0.7002480750000002
   0.5000000000000000  0.0000000000000000  0.2997519249999998
   0.5000000000000000  0.2002480750000002  0.5000000000000000
   0.7002480750000002  0.0000000000000000  0.5000000000000000
   0.5000000000000000  0.7997519249999998  0.5000000000000000
   0.2997519249999998  0.0000000000000000  0.5000000000000000
   0.5000000000000000  0.0000000000000000  0.7002480750000002
   0.5000000000000000  0.5000000000000000  0.7997519249999998
   0.5000000000000000  0.7002480750000002  0.0000000000000000
   0.7002480750000002  0.5000000000000000  0.0000000000000000
   0.5000000000000000  0.2997519249999998  0.0000000000000000
   0.2997519249999998  0.5000000000000000  0.0000000000000000
   0.5000000000000000  0.5000000000000000  0.2002480750000002
   0.1009603100000000  0.7627072449999998  0.4840792550000000
   0.9840792550000000  0.8990396900000001  0.7372927550000002
   0.7372927550000002  0.0159207450000000  0.1009603100000000
   0.9840792550000000  0.1009603100000000  0.2627072449999998
   0.0159207450000000  0.8990396900000001  0.2627072449999998
   0.2627072449999998  0.0159207450000000  0.8990396900000001
   0.8990396900000001  0.2372927550000002  0.4840792550000000
   0.1009603100000000  0.2372927550000002  0.5159207450000000
   0.7372927550000002  0.9840792550000000  0.8990396900000001
   0.2627072449999998  0.9840792550000000  0.1009603100000000
   0.8990396900000001  0.7627072449999998  0.5159207450000000
   0.0159207450000000  0.1009603100000000  0.7372927550000002
   0.1009603100000000  0.2627072449999998  0.9840792550000000
   0.9840792550000000  0.3990396900000000  0.2372927550000002
   0.7372927550000002  0.5159207450000000  0.6009603099999999
   0.9840792550000000  0.6009603099999999  0.7627072449999998
   0.0159207450000000  0.3990396900000000  0.7627072449999998
   0.2627072449999998  0.5159207450000000  0.3990396900000000
   0.8990396900000001  0.7372927550000002  0.9840792550000000
   0.1009603100000000  0.7372927550000002  0.0159207450000000
   0.7372927550000002  0.4840792550000000  0.3990396900000000
   0.2627072449999998  0.4840792550000000  0.6009603099999999
   0.8990396900000001  0.2627072449999998  0.0159207450000000
   0.0159207450000000  0.6009603099999999  0.2372927550000002
   0.6009603099999999  0.7627072449999998  0.9840792550000000
   0.4840792550000000  0.8990396900000001  0.2372927550000002
   0.2372927550000002  0.0159207450000000  0.6009603099999999
   0.4840792550000000  0.1009603100000000  0.7627072449999998
   0.5159207450000000  0.8990396900000001  0.7627072449999998
   0.7627072449999998  0.0159207450000000  0.3990396900000000
   0.3990396900000000  0.2372927550000002  0.9840792550000000
   0.6009603099999999  0.2372927550000002  0.0159207450000000
   0.2372927550000002  0.9840792550000000  0.3990396900000000
   0.7627072449999998  0.9840792550000000  0.6009603099999999
   0.3990396900000000  0.7627072449999998  0.0159207450000000
   0.5159207450000000  0.1009603100000000  0.2372927550000002
   0.6009603099999999  0.2627072449999998  0.4840792550000000
   0.4840792550000000  0.3990396900000000  0.7372927550000002
   0.2372927550000002  0.5159207450000000  0.1009603100000000
   0.4840792550000000  0.6009603099999999  0.2627072449999998
   0.5159207450000000  0.3990396900000000  0.2627072449999998
   0.7627072449999998  0.5159207450000000  0.8990396900000001
   0.3990396900000000  0.7372927550000002  0.4840792550000000
   0.6009603099999999  0.7372927550000002  0.5159207450000000
   0.2372927550000002  0.4840792550000000  0.8990396900000001
   0.7627072449999998  0.4840792550000000  0.1009603100000000
   0.3990396900000000  0.2627072449999998  0.5159207450000000
   0.5159207450000000  0.6009603099999999  0.7372927550000002
".toList

/-- `src/wulfric/crystal/_hpkot_examples/POSCAR-files/cF2/POSCAR_inversion`. -/
def examplecF2Y : List Char := "cF2Y BPOSCAR-0000451
   1.0
     4.9126411092111697    0.0000000000000000    0.0000000000000000
     0.0000000000000000    4.9126411092111697    0.0000000000000000
     0.0000000000000000    0.0000000000000000    4.9126411092111697
 B Zr
   4   4
Direct
   0.0000000000000000  0.0000000000000000  0.0000000000000000
   0.0000000000000000  0.5000000000000000  0.5000000000000000
   0.5000000000000000  0.0000000000000000  0.5000000000000000
   0.5000000000000000  0.5000000000000000  0.0000000000000000
   0.0000000000000000  0.0000000000000000  0.5000000000000000
   0.0000000000000000  0.5000000000000000  0.0000000000000000
   0.5000000000000000  0.0000000000000000  0.0000000000000000
   0.5000000000000000  0.5000000000000000  0.5000000000000000
".toList

/-- `src/wulfric/crystal/_hpkot_examples/POSCAR-files/cF2/POSCAR_noinversion`. -/
def examplecF2N : List Char := "cF2N BPOSCAR-0008222
   1.0
     5.0670397789115720    0.0000000000000000    0.0000000000000000
     0.0000000000000000    5.0670397789115720    0.0000000000000000
     0.0000000000000000    0.0000000000000000    5.0670397789115720
 O Ag
   4   4
Direct
   0.7500000000000000  0.7500000000000000  0.2500000000000000
   0.7500000000000000  0.2500000000000000  0.7500000000000000
   0.2500000000000000  0.7500000000000000  0.7500000000000000
   0.2500000000000000  0.2500000000000000  0.2500000000000000
   0.0000000000000000  0.0000000000000000  0.0000000000000000
   0.0000000000000000  0.5000000000000000  0.5000000000000000
   0.5000000000000000  0.0000000000000000  0.5000000000000000
   0.5000000000000000  0.5000000000000000  0.0000000000000000
".toList

/-- `src/wulfric/crystal/_hpkot_examples/POSCAR-files/cI1/POSCAR_inversion`. -/
def examplecI1Y : List Char := "cI1Y BPOSCAR-0570334
   1.0
     5.2123498899999996    0.0000000000000000    0.0000000000000000
     0.0000000000000000    5.2123498899999996    0.0000000000000000
     0.0000000000000000    0.0000000000000000    5.2123498899999996
 Si W
   2   6
Direct
   0.0000000000000000  0.0000000000000000  0.0000000000000000
   0.5000000000000000  0.5000000000000000  0.5000000000000000
   0.0000000000000000  0.5000000000000000  0.5000000000000000
   0.0000000000000000  0.5000000000000000  0.0000000000000000
   0.0000000000000000  0.0000000000000000  0.5000000000000000
   0.5000000000000000  0.0000000000000000  0.0000000000000000
   0.5000000000000000  0.0000000000000000  0.5000000000000000
   0.5000000000000000  0.5000000000000000  0.0000000000000000
".toList

/-- `src/wulfric/crystal/_hpkot_examples/POSCAR-files/cI1/POSCAR_noinversion`. -/
def examplecI1N : List Char := "cI1N BPOSCAR-0001818
   1.0
     5.5951250842907712    0.0000000000000000    0.0000000000000000
     0.0000000000000000    5.5951250842907712    0.0000000000000000
     0.0000000000000000    0.0000000000000000    5.5951250842907712
 F Si
   8   2
Direct
   0.1632964950000000  0.8367035050000000  0.1632964950000000
   0.8367035050000000  0.1632964950000000  0.1632964950000000
   0.1632964950000000  0.1632964950000000  0.8367035050000000
   0.8367035050000000  0.8367035050000000  0.8367035050000000
   0.6632964950000000  0.3367035050000000  0.6632964950000000
   0.3367035050000000  0.6632964950000000  0.6632964950000000
   0.6632964950000000  0.6632964950000000  0.3367035050000000
   0.3367035050000000  0.3367035050000000  0.3367035050000000
   0.0000000000000000  0.0000000000000000  0.0000000000000000
   0.5000000000000000  0.5000000000000000  0.5000000000000000
".toList

/-- `src/wulfric/crystal/_hpkot_examples/POSCAR-files/tP1/POSCAR_inversion`. -/
def exampletP1Y : List Char := "tP1Y BPOSCAR-0000949
   1.0
     2.6983934120929063    0.0000000000000000    0.0000000000000000
     0.0000000000000000    2.6983934120929063    0.0000000000000000
     0.0000000000000000    0.0000000000000000    3.7266309199999998
 Co Pt
   1   1
Direct
   0.0000000000000000  0.0000000000000000  0.0000000000000000
   0.5000000000000000  0.5000000000000000  0.5000000000000000
".toList

/-- `src/wulfric/crystal/_hpkot_examples/POSCAR-files/tP1/POSCAR_noinversion`. -/
def exampletP1N : List Char := "tP1N BPOSCAR-0033154
   1.0
     4.2857283318865660    0.0000000000000000    0.0000000000000000
     0.0000000000000000    4.2857283318865660    0.0000000000000000
     0.0000000000000000    0.0000000000000000    6.3547812573430607
 Ag I
   1   2
Direct
   0.5000000000000000  0.5000000000000000  0.5000000000000000
   0.0000000000000000  0.5000000000000000  0.7777616999999999
   0.5000000000000000  0.0000000000000000  0.2222383000000001
".toList

/-- `src/wulfric/crystal/_hpkot_examples/POSCAR-files/tI1/POSCAR_inversion`. -/
def exampletI1Y : List Char := "tI1Y BPOSCAR-0012635
   1.0
     6.6011835174224816    0.0000000000000000    0.0000000000000000
     0.0000000000000000    6.6011835174224816    0.0000000000000000
     0.0000000000000000    0.0000000000000000    4.0143642377425790
 Ti Au
   2   8
Direct
   0.0000000000000000  0.0000000000000000  0.0000000000000000
   0.5000000000000000  0.5000000000000000  0.5000000000000000
   0.1049425700000000  0.7069229100000002  0.5000000000000000
   0.8950574300000000  0.2930770899999998  0.5000000000000000
   0.2930770899999998  0.1049425700000000  0.5000000000000000
   0.7069229100000002  0.8950574300000000  0.5000000000000000
   0.6049425700000000  0.2069229100000002  0.0000000000000000
   0.3950574300000000  0.7930770899999998  0.0000000000000000
   0.7930770899999998  0.6049425700000000  0.0000000000000000
   0.2069229100000002  0.3950574300000000  0.0000000000000000
".toList

/-- `src/wulfric/crystal/_hpkot_examples/POSCAR-files/tI1/POSCAR_noinversion`. -/
def exampletI1N : List Char := "tI1N BPOSCAR-0540284
   1.0
     5.4794836100000683    0.0000000000000000    0.0000000000000000
     0.0000000000000000    5.4794836100000683    0.0000000000000000
     0.0000000000000000    0.0000000000000000    5.1848378200001886
 Cu O P
   2   8   2
Direct
   0.0000000000000000  0.0000000000000000  0.0000000000000000
   0.5000000000000000  0.5000000000000000  0.5000000000000000
   0.1343956450000000  0.6953349850000001  0.9145759350000002
   0.6953349850000001  0.8656043550000001  0.0854240649999999
   0.8656043550000001  0.3046650149999998  0.9145759350000002
   0.3046650149999998  0.1343956450000000  0.0854240649999999
   0.6343956449999999  0.1953349850000001  0.4145759350000001
   0.1953349850000001  0.3656043550000000  0.5854240649999999
   0.3656043550000000  0.8046650149999999  0.4145759350000001
   0.8046650149999999  0.6343956449999999  0.5854240649999999
   0.5000000000000000  0.0000000000000000  0.2500000000000000
   0.0000000000000000  0.5000000000000000  0.7500000000000000
".toList

/-- `src/wulfric/crystal/_hpkot_examples/POSCAR-files/tI2/POSCAR_inversion`. -/
def exampletI2Y : List Char := "tI2Y BPOSCAR-0019275
   1.0
     3.0845227912262532    0.0000000000000000    0.0000000000000000
     0.0000000000000000    3.0845227912262532    0.0000000000000000
     0.0000000000000000    0.0000000000000000    4.0861539485071861
 O Co
   2   2
Direct
   0.0000000000000000  0.0000000000000000  0.5000000000000000
   0.5000000000000000  0.5000000000000000  0.0000000000000000
   0.0000000000000000  0.0000000000000000  0.0000000000000000
   0.5000000000000000  0.5000000000000000  0.5000000000000000
".toList

/-- `src/wulfric/crystal/_hpkot_examples/POSCAR-files/tI2/POSCAR_noinversion`. -/
def exampletI2N : List Char := "tI2N BPOSCAR-0007590
   1.0
     3.5651955268357800    0.0000000000000000    0.0000000000000000
     0.0000000000000000    3.5651955268357800    0.0000000000000000
     0.0000000000000000    0.0000000000000000    5.7414401540403173
 P Ge
   2   2
Direct
   0.5000000000000000  0.5000000000000000  0.9233913399999996
   0.0000000000000000  0.0000000000000000  0.4233913399999996
   0.0000000000000000  0.0000000000000000  0.0036086699999997
   0.5000000000000000  0.5000000000000000  0.5036086699999996
".toList

/-- `src/wulfric/crystal/_hpkot_examples/POSCAR-files/oP1/POSCAR_inversion`. -/
def exampleoP1Y : List Char := "oP1Y BPOSCAR-0705439
   1.0
     2.2658624671048813    0.0000000000000000    0.0000000000000000
     0.0000000000000000    5.9598350933265563    0.0000000000000000
     0.0000000000000000    0.0000000000000000    6.5642248417443598
 Cu O
   1   2
Direct
   0.5000000000000000  0.0000000000000000  0.5000000000000000
   0.5000000000000000  0.0000000000000000  0.9050977550000002
   0.5000000000000000  0.0000000000000000  0.0949022449999998
".toList

/-- `src/wulfric/crystal/_hpkot_examples/POSCAR-files/oP1/POSCAR_noinversion`. -/
def exampleoP1N : List Char := "oP1N BPOSCAR-0019744
   1.0
     3.0414632300000002    0.0000000000000000    0.0000000000000000
     0.0000000000000000    6.1468502899999997    0.0000000000000000
     0.0000000000000000    0.0000000000000000    3.1394173099999998
 In Sb
   1   1
Direct
   0.0000000000000000  0.0000000000000000  0.0024766500000000
   0.0000000000000000  0.5000000000000000  0.7475233500000000
".toList

/-- `src/wulfric/crystal/_hpkot_examples/POSCAR-files/oF1/POSCAR_inversion`. -/
def exampleoF1Y : List Char := "oF1Y BPOSCAR-0614565
   1.0
     2.7462061222599123    0.0000000000000000    0.0000000000000000
     0.0000000000000000    7.2623585400000694    0.0000000000000000
     0.0000000000000000    0.0000000000000000   11.4917672794962744
 Cu O
   4   8
Direct
   0.5000000000000000  0.5000000000000000  0.5000000000000000
   0.5000000000000000  0.0000000000000000  0.0000000000000000
   0.0000000000000000  0.5000000000000000  0.0000000000000000
   0.0000000000000000  0.0000000000000000  0.5000000000000000
   0.0000000000000000  0.5000000000000000  0.6021200900000001
   0.5000000000000000  0.5000000000000000  0.8978799099999999
   0.0000000000000000  0.0000000000000000  0.1021200900000001
   0.5000000000000000  0.0000000000000000  0.3978799099999999
   0.5000000000000000  0.5000000000000000  0.1021200900000001
   0.0000000000000000  0.5000000000000000  0.3978799099999999
   0.5000000000000000  0.0000000000000000  0.6021200900000001
   0.0000000000000000  0.0000000000000000  0.8978799099999999
".toList

/-- `src/wulfric/crystal/_hpkot_examples/POSCAR-files/oF1/POSCAR_noinversion`. -/
def exampleoF1N : List Char := "oF1N BPOSCAR-0685145
   1.0
     2.5153398345521460    0.0000000000000000    0.0000000000000000
     0.0000000000000000    6.0450801374370702    0.0000000000000000
     0.0000000000000000    0.0000000000000000    4.3398312607247256
 B N
   4   4
Direct
   0.0000000000000000  0.0000000000000000  0.0004411600000001
   0.0000000000000000  0.5000000000000000  0.5004411600000001
   0.5000000000000000  0.0000000000000000  0.5004411600000001
   0.5000000000000000  0.5000000000000000  0.0004411600000001
   0.0000000000000000  0.0000000000000000  0.6665199100000001
   0.0000000000000000  0.5000000000000000  0.1665199100000000
   0.5000000000000000  0.0000000000000000  0.1665199100000000
   0.5000000000000000  0.5000000000000000  0.6665199100000001
".toList

/-- `src/wulfric/crystal/_hpkot_examples/POSCAR-files/oF2/POSCAR_noinversion`. -/
def exampleoF2N : List Char := "oF2N BPOSCAR-0569272
   1.0
    10.4292567500000608    0.0000000000000000    0.0000000000000000
     0.0000000000000000   21.2694236321398442    0.0000000000000000
     0.0000000000000000    0.0000000000000000    5.5880580299681384
 Cs Se
  16   8
Direct
   0.1729328200000002  0.5632488700000001  0.9531259500000002
   0.8270671799999998  0.4367511299999999  0.9531259500000002
   0.0770671799999998  0.3132488700000001  0.7031259500000002
   0.9229328200000002  0.6867511299999999  0.7031259500000002
   0.1729328200000002  0.0632488700000001  0.4531259500000002
   0.8270671799999998  0.9367511299999998  0.4531259500000002
   0.0770671799999998  0.8132488700000001  0.2031259500000002
   0.9229328200000002  0.1867511299999999  0.2031259500000002
   0.6729328200000002  0.5632488700000001  0.4531259500000002
   0.3270671799999998  0.4367511299999999  0.4531259500000002
   0.5770671799999998  0.3132488700000001  0.2031259500000002
   0.4229328200000002  0.6867511299999999  0.2031259500000002
   0.6729328200000002  0.0632488700000001  0.9531259500000002
   0.3270671799999998  0.9367511299999998  0.9531259500000002
   0.5770671799999998  0.8132488700000001  0.7031259500000002
   0.4229328200000002  0.1867511299999999  0.7031259500000002
   0.0000000000000000  0.5000000000000000  0.4701481000000003
   0.7500000000000000  0.7500000000000000  0.2201481000000003
   0.0000000000000000  0.0000000000000000  0.9701481000000002
   0.7500000000000000  0.2500000000000000  0.7201481000000003
   0.5000000000000000  0.5000000000000000  0.9701481000000002
   0.2500000000000000  0.7500000000000000  0.7201481000000003
   0.5000000000000000  0.0000000000000000  0.4701481000000003
   0.2500000000000000  0.2500000000000000  0.2201481000000003
".toList

/-- `src/wulfric/crystal/_hpkot_examples/POSCAR-files/oF3/POSCAR_inversion`. -/
def exampleoF3Y : List Char := "oF3Y BPOSCAR-0029752
   1.0
     7.4214640959206575    0.0000000000000000    0.0000000000000000
     0.0000000000000000    7.7727154597461103    0.0000000000000000
     0.0000000000000000    0.0000000000000000    7.9121098820103706
 Ni Ge Pt
   8   8  16
Direct
   0.0000000000000000  0.2013824000000001  0.0000000000000000
   0.0000000000000000  0.7986175999999999  0.0000000000000000
   0.0000000000000000  0.7013824000000001  0.5000000000000000
   0.0000000000000000  0.2986176000000000  0.5000000000000000
   0.5000000000000000  0.2013824000000001  0.5000000000000000
   0.5000000000000000  0.7986175999999999  0.5000000000000000
   0.5000000000000000  0.7013824000000001  0.0000000000000000
   0.5000000000000000  0.2986176000000000  0.0000000000000000
   0.0000000000000000  0.0000000000000000  0.2326445950000000
   0.0000000000000000  0.0000000000000000  0.7673554050000000
   0.0000000000000000  0.5000000000000000  0.7326445950000000
   0.0000000000000000  0.5000000000000000  0.2673554050000000
   0.5000000000000000  0.0000000000000000  0.7326445950000000
   0.5000000000000000  0.0000000000000000  0.2673554050000000
   0.5000000000000000  0.5000000000000000  0.2326445950000000
   0.5000000000000000  0.5000000000000000  0.7673554050000000
   0.6979597600000003  0.0000000000000000  0.0000000000000000
   0.7500000000000000  0.2500000000000000  0.2500000000000000
   0.3020402399999998  0.0000000000000000  0.0000000000000000
   0.7500000000000000  0.7500000000000000  0.2500000000000000
   0.6979597600000003  0.5000000000000000  0.5000000000000000
   0.7500000000000000  0.7500000000000000  0.7500000000000000
   0.3020402399999998  0.5000000000000000  0.5000000000000000
   0.7500000000000000  0.2500000000000000  0.7500000000000000
   0.1979597600000002  0.0000000000000000  0.5000000000000000
   0.2500000000000000  0.2500000000000000  0.7500000000000000
   0.8020402399999997  0.0000000000000000  0.5000000000000000
   0.2500000000000000  0.7500000000000000  0.7500000000000000
   0.1979597600000002  0.5000000000000000  0.0000000000000000
   0.2500000000000000  0.7500000000000000  0.2500000000000000
   0.8020402399999997  0.5000000000000000  0.0000000000000000
   0.2500000000000000  0.2500000000000000  0.2500000000000000
".toList

/-- `src/wulfric/crystal/_hpkot_examples/POSCAR-files/oF3/POSCAR_noinversion`. -/
def exampleoF3N : List Char := "oF3N BPOSCAR-0022009
   1.0
     6.2363014538798494    0.0000000000000000    0.0000000000000000
     0.0000000000000000   24.0015979387369036    0.0000000000000000
     0.0000000000000000    0.0000000000000000    6.2508834982500243
 Se Pb
   8   8
Direct
   0.5000000000000000  0.1894212000000000  0.9850017800000000
   0.5000000000000000  0.8105788000000000  0.9850017800000000
   0.5000000000000000  0.6894212000000000  0.4850017799999999
   0.5000000000000000  0.3105788000000000  0.4850017799999999
   0.0000000000000000  0.1894212000000000  0.4850017799999999
   0.0000000000000000  0.8105788000000000  0.4850017799999999
   0.0000000000000000  0.6894212000000000  0.9850017800000000
   0.0000000000000000  0.3105788000000000  0.9850017800000000
   0.0000000000000000  0.1927314850000000  0.9979982250000000
   0.0000000000000000  0.8072685150000001  0.9979982250000000
   0.0000000000000000  0.6927314849999999  0.4979982249999999
   0.0000000000000000  0.3072685150000000  0.4979982249999999
   0.5000000000000000  0.1927314850000000  0.4979982249999999
   0.5000000000000000  0.8072685150000001  0.4979982249999999
   0.5000000000000000  0.6927314849999999  0.9979982250000000
   0.5000000000000000  0.3072685150000000  0.9979982250000000
".toList

/-- `src/wulfric/crystal/_hpkot_examples/POSCAR-files/oI1/POSCAR_inversion`. -/
def exampleoI1Y : List Char := "oI1Y BPOSCAR-0684664
   1.0
     3.1118027642203017    0.0000000000000000    0.0000000000000000
     0.0000000000000000    5.3500051348576578    0.0000000000000000
     0.0000000000000000    0.0000000000000000    5.7866263658364208
 Ga Sb
   2   2
Direct
   0.0000000000000000  0.0000000000000000  0.5000000000000000
   0.5000000000000000  0.5000000000000000  0.0000000000000000
   0.0000000000000000  0.0000000000000000  0.0000000000000000
   0.5000000000000000  0.5000000000000000  0.5000000000000000
".toList

/-- `src/wulfric/crystal/_hpkot_examples/POSCAR-files/oI1/POSCAR_noinversion`. -/
def exampleoI1N : List Char := "oI1N BPOSCAR-0025596
   1.0
     2.6917850833772863    0.0000000000000000    0.0000000000000000
     0.0000000000000000    3.3132275496844019    0.0000000000000000
     0.0000000000000000    0.0000000000000000   10.0701233878206633
 Li O Ni
   2   4   2
Direct
   0.5000000000000000  0.0000000000000000  0.7724267500000002
   0.0000000000000000  0.5000000000000000  0.2724267500000001
   0.5000000000000000  0.5000000000000000  0.8826666700000001
   0.5000000000000000  0.5000000000000000  0.1307543700000000
   0.0000000000000000  0.0000000000000000  0.3826666700000001
   0.0000000000000000  0.0000000000000000  0.6307543700000000
   0.0000000000000000  0.5000000000000000  0.0071568500000000
   0.5000000000000000  0.0000000000000000  0.5071568500000000
".toList

/-- `src/wulfric/crystal/_hpkot_examples/POSCAR-files/oI2/POSCAR_noinversion`. -/
def exampleoI2N : List Char := "oI2N BPOSCAR-0866845
   1.0
     9.8579857154919317    0.0000000000000000    0.0000000000000000
     0.0000000000000000    6.8879312335870866    0.0000000000000000
     0.0000000000000000    0.0000000000000000    7.0088148600000002
 Ca Sn S
   4   4  12
Direct
   0.7500000000000000  0.0305814600000002  0.0354614700000000
   0.2500000000000000  0.9694185399999998  0.0354614700000000
   0.2500000000000000  0.5305814600000002  0.5354614700000000
   0.7500000000000000  0.4694185399999998  0.5354614700000000
   0.0000000000000000  0.0000000000000000  0.5085183400000000
   0.0000000000000000  0.5000000000000000  0.0085183399999999
   0.5000000000000000  0.5000000000000000  0.0085183399999999
   0.5000000000000000  0.0000000000000000  0.5085183400000000
   0.2500000000000000  0.3739959450000001  0.9444468950000000
   0.7500000000000000  0.6260040549999999  0.9444468950000000
   0.0756857550000000  0.7605886250000001  0.7620421749999999
   0.9243142450000000  0.2394113749999999  0.7620421749999999
   0.9243142450000000  0.2605886250000002  0.2620421750000000
   0.0756857550000000  0.7394113749999999  0.2620421750000000
   0.7500000000000000  0.8739959450000001  0.4444468950000000
   0.2500000000000000  0.1260040549999999  0.4444468950000000
   0.5756857550000001  0.2605886250000002  0.2620421750000000
   0.4243142450000000  0.7394113749999999  0.2620421750000000
   0.4243142450000000  0.7605886250000001  0.7620421749999999
   0.5756857550000001  0.2394113749999998  0.7620421749999999
".toList

/-- `src/wulfric/crystal/_hpkot_examples/POSCAR-files/oI3/POSCAR_inversion`. -/
def exampleoI3Y : List Char := "oI3Y BPOSCAR-0030435
   1.0
     8.1511447228165714    0.0000000000000000    0.0000000000000000
     0.0000000000000000    5.0461430197341626    0.0000000000000000
     0.0000000000000000    0.0000000000000000    7.8659149207773531
 Zn Ba
   8   4
Direct
   0.6724366150000002  0.7500000000000000  0.4101287450000002
   0.8275633849999998  0.7500000000000000  0.0898712549999998
   0.6724366150000002  0.2500000000000000  0.5898712549999998
   0.8275633849999998  0.2500000000000000  0.9101287450000002
   0.1724366150000002  0.2500000000000000  0.9101287450000002
   0.3275633849999998  0.2500000000000000  0.5898712549999998
   0.1724366150000002  0.7500000000000000  0.0898712549999998
   0.3275633849999998  0.7500000000000000  0.4101287450000002
   0.5000000000000000  0.7500000000000000  0.8073779000000001
   0.0000000000000000  0.7500000000000000  0.6926220999999999
   0.0000000000000000  0.2500000000000000  0.3073779000000001
   0.5000000000000000  0.2500000000000000  0.1926220999999999
".toList

/-- `src/wulfric/crystal/_hpkot_examples/POSCAR-files/oI3/POSCAR_noinversion`. -/
def exampleoI3N : List Char := "Hg1 O1\r
1.0\r
        3.3110001087         0.0000000000         0.0000000000\r
        0.0000000000         5.5260000229         0.0000000000\r
        0.0000000000         0.0000000000         3.5260000229\r
   Hg    O\r
    2    2\r
Direct\r
     0.000000000         0.000000000         0.000000000\r
     0.500000000         0.500000000         0.500000000\r
     0.000000000         0.500000000         0.170000002\r
     0.500000000         0.000000000         0.670000017\r
".toList

/-- `src/wulfric/crystal/_hpkot_examples/POSCAR-files/oC1/POSCAR_inversion`. -/
def exampleoC1Y : List Char := "oC1Y BPOSCAR-0022558
   1.0
     3.6793989900000006    0.0000000000000000    0.0000000000000000
     0.0000000000000000    4.1535798599999998    0.0000000000000000
     0.0000000000000000    0.0000000000000000    3.8236792350000002
 Si Ti
   2   2
Direct
   0.0000000000000000  0.5000000000000000  0.5000000000000000
   0.5000000000000000  0.0000000000000000  0.5000000000000000
   0.0000000000000000  0.0000000000000000  0.0000000000000000
   0.5000000000000000  0.5000000000000000  0.0000000000000000
".toList

/-- `src/wulfric/crystal/_hpkot_examples/POSCAR-files/oC1/POSCAR_noinversion`. -/
def exampleoC1N : List Char := "oC1N BPOSCAR-0571636
   1.0
     4.4114352315552399    0.0000000000000000    0.0000000000000000
     0.0000000000000000   12.4398762544664478    0.0000000000000000
     0.0000000000000000    0.0000000000000000    4.5441456599999999
 In Cl
   4   4
Direct
   0.5000000000000000  0.1136209299999999  0.7500967299999999
   0.5000000000000000  0.8863790700000000  0.2500967299999999
   0.0000000000000000  0.6136209300000000  0.7500967299999999
   0.0000000000000000  0.3863790700000001  0.2500967299999999
   0.0000000000000000  0.8444605049999999  0.7659032699999999
   0.0000000000000000  0.1555394950000001  0.2659032699999999
   0.5000000000000000  0.3444605049999999  0.7659032699999999
   0.5000000000000000  0.6555394950000001  0.2659032699999999
".toList

/-- `src/wulfric/crystal/_hpkot_examples/POSCAR-files/oC2/POSCAR_inversion`. -/
def exampleoC2Y : List Char := "oC2Y BPOSCAR-0027639
   1.0
     8.4287740423760944    0.0000000000000000    0.0000000000000000
     0.0000000000000000    5.4132319855084452    0.0000000000000000
     0.0000000000000000    0.0000000000000000    8.8163600399999993
 Br I
   4   4
Direct
   0.0000000000000000  0.7990394399999999  0.2500000000000000
   0.0000000000000000  0.2009605600000000  0.7500000000000000
   0.5000000000000000  0.2990394400000000  0.2500000000000000
   0.5000000000000000  0.7009605600000001  0.7500000000000000
   0.0000000000000000  0.5000000000000000  0.5000000000000000
   0.0000000000000000  0.5000000000000000  0.0000000000000000
   0.5000000000000000  0.0000000000000000  0.5000000000000000
   0.5000000000000000  0.0000000000000000  0.0000000000000000
".toList

/-- `src/wulfric/crystal/_hpkot_examples/POSCAR-files/oC2/POSCAR_noinversion`. -/
def exampleoC2N : List Char := "oC2N BPOSCAR-0560008
   1.0
     9.0059756537376536    0.0000000000000000    0.0000000000000000
     0.0000000000000000    5.5869779485260906    0.0000000000000000
     0.0000000000000000    0.0000000000000000    4.9891349099999998
 P N F
   4   4   8
Direct
   0.0000000000000000  0.8668441500000000  0.5046977300000000
   0.0000000000000000  0.1331558500000000  0.0046977300000000
   0.5000000000000000  0.3668441500000000  0.5046977300000000
   0.5000000000000000  0.6331558500000000  0.0046977300000000
   0.0000000000000000  0.9118570800000000  0.1953748200000000
   0.0000000000000000  0.0881429200000000  0.6953748200000001
   0.5000000000000000  0.4118570800000000  0.1953748200000000
   0.5000000000000000  0.5881429200000000  0.6953748200000001
   0.1317217700000000  0.3063995400000000  0.0694637200000000
   0.8682782300000000  0.6936004600000001  0.5694637200000000
   0.8682782300000000  0.3063995400000000  0.0694637200000000
   0.1317217700000000  0.6936004600000001  0.5694637200000000
   0.6317217700000000  0.8063995399999999  0.0694637200000000
   0.3682782300000000  0.1936004600000000  0.5694637200000000
   0.3682782300000000  0.8063995399999999  0.0694637200000000
   0.6317217700000000  0.1936004600000000  0.5694637200000000
".toList

/-- `src/wulfric/crystal/_hpkot_examples/POSCAR-files/oA1/POSCAR_noinversion`. -/
def exampleoA1N : List Char := "oA1N BPOSCAR-0632475
   1.0
     3.5372412112199783    0.0000000000000000    0.0000000000000000
     0.0000000000000000    3.1790663357329523    0.0000000000000000
     0.0000000000000000    0.0000000000000000    9.9032878682703824
 Nb S
   2   4
Direct
   0.0000000000000000  0.0000000000000000  0.0309652399999998
   0.0000000000000000  0.5000000000000000  0.5309652399999998
   0.0000000000000000  0.5000000000000000  0.8489601849999999
   0.5000000000000000  0.5000000000000000  0.1263269549999999
   0.0000000000000000  0.0000000000000000  0.3489601849999999
   0.5000000000000000  0.0000000000000000  0.6263269549999999
".toList

/-- `src/wulfric/crystal/_hpkot_examples/POSCAR-files/oA2/POSCAR_noinversion`. -/
def exampleoA2N : List Char := "oA2N BPOSCAR-0776563
   1.0
     3.0969165300000001    0.0000000000000000    0.0000000000000000
     0.0000000000000000    8.3989907800000001    0.0000000000000000
     0.0000000000000000    0.0000000000000000    4.9027343099999996
 Cr O
   2   6
Direct
   0.0000000000000000  0.0000000000000000  0.8606000400000000
   0.0000000000000000  0.5000000000000000  0.3606000400000000
   0.5000000000000000  0.0000000000000000  0.0421212999999999
   0.0000000000000000  0.8482551199999999  0.6657793299999999
   0.0000000000000000  0.1517448800000001  0.6657793299999999
   0.5000000000000000  0.5000000000000000  0.5421212999999999
   0.0000000000000000  0.3482551199999998  0.1657793300000000
   0.0000000000000000  0.6517448800000001  0.1657793300000000
".toList

/-- `src/wulfric/crystal/_hpkot_examples/POSCAR-files/hP1/POSCAR_inversion`. -/
def examplehP1Y : List Char := "hP1Y BPOSCAR-0000882
   1.0
     5.1132522679799095    0.0000000000000000    0.0000000000000000
    -2.5566261339899548    4.4282063600289971    0.0000000000000000
     0.0000000000000000    0.0000000000000000    4.7497088850000004
 O Ti
   1   6
Direct
   0.0000000000000000  0.0000000000000000  0.0000000000000000
   0.6684051500000000  0.6684051500000000  0.7391580200000001
   0.6684051500000000  0.0000000000000000  0.2608419799999999
   0.0000000000000000  0.6684051500000000  0.2608419799999999
   0.3315948500000000  0.3315948500000000  0.2608419799999999
   0.3315948500000000  0.0000000000000000  0.7391580200000001
   0.0000000000000000  0.3315948500000000  0.7391580200000001
".toList

/-- `src/wulfric/crystal/_hpkot_examples/POSCAR-files/hP1/POSCAR_noinversion`. -/
def examplehP1N : List Char := "hP1N BPOSCAR-0574250
   1.0
     7.3838276686181779    0.0000000000000000    0.0000000000000000
    -3.6919138343090889    6.3945823381897675    0.0000000000000000
     0.0000000000000000    0.0000000000000000    5.2679669400000000
 In Si Te
   1   1   3
Direct
   0.6666666666666667  0.3333333333333333  0.4633006600000000
   0.0000000000000000  0.0000000000000000  0.2766757500000000
   0.0544849066666666  0.3550765733333332  0.2667378600000000
   0.6449234266666668  0.6994083333333334  0.2667378600000000
   0.3005916666666666  0.9455150933333334  0.2667378600000000
".toList

/-- `src/wulfric/crystal/_hpkot_examples/POSCAR-files/hP2/POSCAR_inversion`. -/
def examplehP2Y : List Char := "hP2Y BPOSCAR-0001103
   1.0
     4.0893356498319466    0.0000000000000000    0.0000000000000000
    -2.0446678249159733    3.5414685573558113    0.0000000000000000
     0.0000000000000000    0.0000000000000000    3.7962176799999998
 Si Lu
   2   1
Direct
   0.3333333333333333  0.6666666666666667  0.5000000000000000
   0.6666666666666667  0.3333333333333333  0.5000000000000000
   0.0000000000000000  0.0000000000000000  0.0000000000000000
".toList

/-- `src/wulfric/crystal/_hpkot_examples/POSCAR-files/hP2/POSCAR_noinversion`. -/
def examplehP2N : List Char := "hP2N BPOSCAR-0000219
   1.0
     3.2446419509649993    0.0000000000000000    0.0000000000000000
    -1.6223209754824996    2.8099423557203922    0.0000000000000000
     0.0000000000000000    0.0000000000000000    3.2005169000000002
 P Mo
   1   1
Direct
   0.3333333333333333  0.6666666666666667  0.5000000000000000
   0.0000000000000000  0.0000000000000000  0.0000000000000000
".toList

/-- `src/wulfric/crystal/_hpkot_examples/POSCAR-files/hR1/POSCAR_inversion`. -/
def examplehR1Y : List Char := "hR1Y BPOSCAR-0020132
   1.0
     3.7622432546763140    0.0000000000000000    0.0000000000000000
    -1.8811216273381570    3.2581982337663353    0.0000000000000000
     0.0000000000000000    0.0000000000000000   13.5138670706735571
 In Hg
   3   3
Direct
   0.6666666666666667  0.3333333333333333  0.8333333333333333
   0.3333333333333333  0.6666666666666666  0.1666666666666666
   0.0000000000000000  0.0000000000000000  0.4999999999999999
   0.0000000000000000  0.0000000000000000  0.0000000000000000
   0.6666666666666666  0.3333333333333333  0.3333333333333333
   0.3333333333333333  0.6666666666666666  0.6666666666666666
".toList

/-- `src/wulfric/crystal/_hpkot_examples/POSCAR-files/hR1/POSCAR_noinversion`. -/
def examplehR1N : List Char := "hR1N BPOSCAR-0022895
   1.0
     4.3089558515497082    0.0000000000000000    0.0000000000000000
    -2.1544779257748541    3.7316652312276553    0.0000000000000000
     0.0000000000000000    0.0000000000000000   10.2486516858249015
 Cu I
   3   3
Direct
   0.0000000000000000  0.0000000000000000  0.2797794000000000
   0.6666666666666666  0.3333333333333333  0.6131127333333333
   0.3333333333333333  0.6666666666666666  0.9464460666666666
   0.0000000000000000  0.0000000000000000  0.0252206000000002
   0.6666666666666666  0.3333333333333333  0.3585539333333334
   0.3333333333333333  0.6666666666666666  0.6918872666666668
".toList

/-- `src/wulfric/crystal/_hpkot_examples/POSCAR-files/hR2/POSCAR_inversion`. -/
def examplehR2Y : List Char := "Mn1 O3 S1\r
1.0\r
        7.9120001793         0.0000000000         0.0000000000\r
       -2.6073387350         7.4700422728         0.0000000000\r
       -2.6073387350        -3.6716632672         6.5054146993\r
   Mn    S    O\r
    6    6   18\r
Direct\r
     0.365300000         0.186100006         0.681429982\r
     0.634700000         0.813899994         0.318570018\r
     0.681429982         0.365300000         0.186100006\r
     0.318570018         0.634700000         0.813899994\r
     0.186100006         0.681429982         0.365300000\r
     0.813899994         0.318570018         0.634700000\r
     0.355500013         0.024850000         0.210030004\r
     0.644500017         0.975149989         0.789969981\r
     0.210030004         0.355500013         0.024850000\r
     0.789969981         0.644500017         0.975149989\r
     0.024850000         0.210030004         0.355500013\r
     0.975149989         0.789969981         0.644500017\r
     0.553499997         0.230100006         0.340499997\r
     0.446500003         0.769899964         0.659500003\r
     0.340499997         0.553499997         0.230100006\r
     0.659500003         0.446500003         0.769899964\r
     0.230100006         0.340499997         0.553499997\r
     0.769899964         0.659500003         0.446500003\r
     0.310099989         0.979699969         0.372500002\r
     0.689900041         0.020300001         0.627499998\r
     0.372500002         0.310099989         0.979699969\r
     0.627499998         0.689900041         0.020300001\r
     0.979699969         0.372500002         0.310099989\r
     0.020300001         0.627499998         0.689900041\r
     0.412699997         0.867799997         0.119000003\r
     0.587300003         0.132200003         0.880999982\r
     0.119000003         0.412699997         0.867799997\r
     0.880999982         0.587300003         0.132200003\r
     0.867799997         0.119000003         0.412699997\r
     0.132200003         0.880999982         0.587300003\r
".toList

/-- `src/wulfric/crystal/_hpkot_examples/POSCAR-files/hR2/POSCAR_noinversion`. -/
def examplehR2N : List Char := "hR2N BPOSCAR-0035308
   1.0
     6.1618161492568841    0.0000000000000000    0.0000000000000000
    -3.0809080746284421    5.3362893187056679    0.0000000000000000
     0.0000000000000000    0.0000000000000000    4.8124574132877891
 C Cu N
   3   3   3
Direct
   0.0000000000000000  0.0000000000000000  0.3778850299999999
   0.6666666666666666  0.3333333333333333  0.7112183633333332
   0.3333333333333333  0.6666666666666666  0.0445516966666666
   0.0000000000000000  0.0000000000000000  0.0002308800000000
   0.6666666666666666  0.3333333333333333  0.3335642133333334
   0.3333333333333333  0.6666666666666666  0.6668975466666667
   0.0000000000000000  0.0000000000000000  0.6218840800000001
   0.6666666666666666  0.3333333333333333  0.9552174133333334
   0.3333333333333333  0.6666666666666666  0.2885507466666666
".toList

/-- `src/wulfric/crystal/_hpkot_examples/POSCAR-files/mP1/POSCAR_inversion`. -/
def examplemP1Y : List Char := "mP1Y BPOSCAR-0001048
   1.0
     2.9385939922724953    0.0000000000000000    0.0000000000000000
     0.0000000000000000    4.0149254499999998    0.0000000000000000
    -0.9809144665664697    0.0000000000000000    4.6621998437406615
 Ti Ni
   2   2
Direct
   0.6102526299999999  0.7500000000000000  0.7841075399999999
   0.3897473700000002  0.2500000000000000  0.2158924600000000
   0.9374365400000000  0.7500000000000000  0.3284379699999999
   0.0625634599999999  0.2500000000000000  0.6715620300000000
".toList

/-- `src/wulfric/crystal/_hpkot_examples/POSCAR-files/mP1/POSCAR_noinversion`. -/
def examplemP1N : List Char := "Au1 Te2\r
1.0\r
        8.7600002289         0.0000000000         0.0000000000\r
        0.0000000000         4.4099998474         0.0000000000\r
       -5.8507873475         0.0000000000         8.2940207180\r
   Au   Te\r
    4    8\r
Direct\r
     0.748300016         0.493800014         0.124300003\r
     0.748300016         0.506199956         0.624300003\r
     0.246000007         0.994099975         0.873099983\r
     0.246000007         0.005900000         0.373099983\r
     0.935100019         0.986199975         0.572799981\r
     0.935100019         0.013800000         0.072799981\r
     0.558499992         0.052000001         0.674700022\r
     0.558499992         0.948000014         0.174700022\r
     0.057500001         0.446399987         0.420899987\r
     0.057500001         0.553600013         0.920899987\r
     0.436300009         0.558499992         0.323500007\r
     0.436300009         0.441500008         0.823500037\r
".toList

/-- `src/wulfric/crystal/_hpkot_examples/POSCAR-files/mC1/POSCAR_inversion`. -/
def examplemC1Y : List Char := "Cu1 O1\r
1.0\r
        4.6529998779         0.0000000000         0.0000000000\r
        0.0000000000         3.4100000858         0.0000000000\r
       -0.8413048067         0.0000000000         5.0382405853\r
   Cu    O\r
    4    4\r
Direct\r
     0.250000000         0.250000000         0.000000000\r
     0.750000000         0.750000000         0.000000000\r
     0.750000000         0.250000000         0.500000000\r
     0.250000000         0.750000000         0.500000000\r
     0.000000000         0.583999991         0.250000000\r
     0.000000000         0.416000009         0.750000000\r
     0.500000000         0.083999991         0.250000000\r
     0.500000000         0.916000009         0.750000000\r
".toList

/-- `src/wulfric/crystal/_hpkot_examples/POSCAR-files/mC1/POSCAR_noinversion`. -/
def examplemC1N : List Char := "Cu1 O1\r
1.0\r
        4.6890001297         0.0000000000         0.0000000000\r
        0.0000000000         3.4200000763         0.0000000000\r
       -0.8528750994         0.0000000000         5.0586070453\r
   Cu    O\r
    4    4\r
Direct\r
     0.250000000         0.231999993         0.000000000\r
     0.250000000         0.768000007         0.500000000\r
     0.750000000         0.731999993         0.000000000\r
     0.750000000         0.268000007         0.500000000\r
     0.972999990         0.412999988         0.233999997\r
     0.972999990         0.587000012         0.733999968\r
     0.472999990         0.912999988         0.233999997\r
     0.472999990         0.087000012         0.733999968\r
".toList

/-- `src/wulfric/crystal/_hpkot_examples/POSCAR-files/mC2/POSCAR_inversion`. -/
def examplemC2Y : List Char := "Cr1 S1\r
1.0\r
        3.8259999752         0.0000000000         0.0000000000\r
        0.0000000000         5.9130001068         0.0000000000\r
       -1.2243633483         0.0000000000         5.9646339479\r
   Cr    S\r
    4    4\r
Direct\r
     0.000000000         0.000000000         0.000000000\r
     0.000000000         0.000000000         0.500000000\r
     0.500000000         0.500000000         0.000000000\r
     0.500000000         0.500000000         0.500000000\r
     0.000000000         0.319999993         0.250000000\r
     0.000000000         0.680000007         0.750000000\r
     0.500000000         0.819999993         0.250000000\r
     0.500000000         0.180000007         0.750000000\r
".toList

/-- `src/wulfric/crystal/_hpkot_examples/POSCAR-files/mC2/POSCAR_noinversion`. -/
def examplemC2N : List Char := "mC2N BPOSCAR-0684604
   1.0
     4.4543676407916521    0.0000000000000000    0.0000000000000000
     0.0000000000000000    5.9441566239106152    0.0000000000000000
    -2.0649512746343106    0.0000000000000000    4.5288322975994166
 Cu S
   2   4
Direct
   0.0000000000000000  0.2823929850000000  0.0000000000000000
   0.5000000000000000  0.7823929850000000  0.0000000000000000
   0.0646265024999999  0.9926399325000000  0.7196481600000000
   0.9353734975000000  0.9926399325000000  0.2803518400000000
   0.5646265024999999  0.4926399324999999  0.7196481600000000
   0.4353734975000001  0.4926399324999999  0.2803518400000000
".toList

/-- `src/wulfric/crystal/_hpkot_examples/POSCAR-files/mC3/POSCAR_inversion`. -/
def examplemC3Y : List Char := "mC3Y BPOSCAR-0755333
   1.0
     4.9221728169717158    0.0000000000000000    0.0000000000000000
     0.0000000000000000    5.0500784999999997    0.0000000000000000
    -1.9363348593869576    0.0000000000000000    3.8443169378737232
 Hg O
   2   4
Direct
   0.0000000000000000  0.0000000000000000  0.0000000000000000
   0.5000000000000000  0.5000000000000000  0.0000000000000000
   0.5244409400000001  0.0000000000000000  0.6825487000000000
   0.4755590600000000  0.0000000000000000  0.3174513000000000
   0.0244409400000000  0.5000000000000000  0.6825487000000000
   0.9755590600000000  0.5000000000000000  0.3174513000000000
".toList

/-- `src/wulfric/crystal/_hpkot_examples/POSCAR-files/mC3/POSCAR_noinversion`. -/
def examplemC3N : List Char := "mC3N BPOSCAR-0546787
   1.0
     6.0503027690559161    0.0000000000000000    0.0000000000000000
     0.0000000000000000    5.8058162443484527    0.0000000000000000
    -1.3412847479118257    0.0000000000000000    3.9837269517466511
 O K N
   4   2   2
Direct
   0.9204877800000000  0.6856527500000000  0.4000303300000000
   0.9204877800000000  0.3143472500000000  0.4000303300000000
   0.4204877800000000  0.1856527500000000  0.4000303300000000
   0.4204877800000000  0.8143472500000000  0.4000303300000000
   0.9924952600000000  0.0000000000000000  0.9494725800000000
   0.4924952600000000  0.5000000000000000  0.9494725800000000
   0.4988838949999999  0.0000000000000000  0.5567151100000001
   0.9988838949999999  0.5000000000000000  0.5567151100000001
".toList

/-- `src/wulfric/crystal/_hpkot_examples/POSCAR-files/aP2/POSCAR_inversion`. -/
def exampleaP2Y : List Char := "aP2Y BPOSCAR-0675402
   1.0
    -1.2489688500000000    2.4101964100000002   -1.1084066800000001
    -3.8805945199999998   -0.4578071300000000    0.1425430700000000
    -1.4313846100000001    2.5585931100000003    3.3956427200000006
 Cu Ag O
   1   1   2
Direct
   0.5000000000000000  0.5000000000000000  0.5000000000000000
   0.0000000000000000  0.0000000000000000  0.0000000000000000
   0.1691864300000000  0.3370706700000000  0.2835515499999998
   0.8308135699999999  0.6629293300000000  0.7164484500000001
".toList

/-- `src/wulfric/crystal/_hpkot_examples/POSCAR-files/aP2/POSCAR_noinversion`. -/
def exampleaP2N : List Char := "aP2N BPOSCAR-0676400
   1.0
     0.2232003000000002    3.9509284600000001    0.1087184900000000
     0.3371022500000000    0.0885412800000000    4.1905891500000001
     4.5153270699999997    0.1789567900000000    0.3161373900000000
 Tl N O
   1   1   2
Direct
   0.9926416100000000  0.9866600400000000  0.0201893400000000
   0.4692735300000002  0.4346563700000002  0.5762333700000000
   0.3840447300000002  0.4084731400000002  0.3183778200000001
   0.6540401400000000  0.6702104500000001  0.5851994800000000
".toList

/-- `src/wulfric/crystal/_hpkot_examples/POSCAR-files/aP3/POSCAR_inversion`. -/
def exampleaP3Y : List Char := "aP3Y BPOSCAR-0642822
   1.0
     2.0626889899999998    2.6083333300000002   -2.0959087400000000
     1.9072983399999999    2.9395872999999999    1.8656656300000001
     6.5783827900000000   -3.2025691800000007    1.4025826200000000
 Ca C
   2   4
Direct
   0.2293290750000000  0.9643429050000000  0.7541443700000001
   0.7706709250000001  0.0356570950000000  0.2458556299999999
   0.1294345049999998  0.4304467199999998  0.0623625850000001
   0.8705654950000002  0.5695532800000003  0.9376374149999998
   0.4456382749999998  0.6359233099999999  0.4306348850000002
   0.5543617250000001  0.3640766900000001  0.5693651149999999
".toList

/-- `src/wulfric/crystal/_hpkot_examples/POSCAR-files/aP3/POSCAR_noinversion`. -/
def exampleaP3N : List Char := "aP3N BPOSCAR-0635393
   1.0
    -1.9233544500000015   -3.4958872399999996    1.3364586999999970
     1.9624998199999997   -2.5383092100000000    2.8008223899999996
    -2.9663797300000017    3.7162808800000002    6.3732958999999996
 Ca P I
   2   1   1
Direct
   0.6536658899999999  0.7085705400000003  0.3177989800000001
   0.3133405799999996  0.3342418600000008  0.6846297399999999
   0.9818335000000000  0.0236059500000002  0.5000213100000001
   0.0511600299999996  0.9335816500000002  0.9975499799999996
".toList

/-- The files of the package: `src/wulfric/crystal/_hpkot_examples/POSCAR-files`, as opened by
`src/wulfric/crystal/_hpkot_examples/__init__.py` L93-100. -/
def exampleFiles : List ((String × Bool) × List Char) := [
  (("cP1", true), examplecP1Y),
  (("cP1", false), examplecP1N),
  (("cP2", true), examplecP2Y),
  (("cP2", false), examplecP2N),
  (("cF1", true), examplecF1Y),
  (("cF1", false), examplecF1N),
  (("cF2", true), examplecF2Y),
  (("cF2", false), examplecF2N),
  (("cI1", true), examplecI1Y),
  (("cI1", false), examplecI1N),
  (("tP1", true), exampletP1Y),
  (("tP1", false), exampletP1N),
  (("tI1", true), exampletI1Y),
  (("tI1", false), exampletI1N),
  (("tI2", true), exampletI2Y),
  (("tI2", false), exampletI2N),
  (("oP1", true), exampleoP1Y),
  (("oP1", false), exampleoP1N),
  (("oF1", true), exampleoF1Y),
  (("oF1", false), exampleoF1N),
  (("oF2", false), exampleoF2N),
  (("oF3", true), exampleoF3Y),
  (("oF3", false), exampleoF3N),
  (("oI1", true), exampleoI1Y),
  (("oI1", false), exampleoI1N),
  (("oI2", false), exampleoI2N),
  (("oI3", true), exampleoI3Y),
  (("oI3", false), exampleoI3N),
  (("oC1", true), exampleoC1Y),
  (("oC1", false), exampleoC1N),
  (("oC2", true), exampleoC2Y),
  (("oC2", false), exampleoC2N),
  (("oA1", false), exampleoA1N),
  (("oA2", false), exampleoA2N),
  (("hP1", true), examplehP1Y),
  (("hP1", false), examplehP1N),
  (("hP2", true), examplehP2Y),
  (("hP2", false), examplehP2N),
  (("hR1", true), examplehR1Y),
  (("hR1", false), examplehR1N),
  (("hR2", true), examplehR2Y),
  (("hR2", false), examplehR2N),
  (("mP1", true), examplemP1Y),
  (("mP1", false), examplemP1N),
  (("mC1", true), examplemC1Y),
  (("mC1", false), examplemC1N),
  (("mC2", true), examplemC2Y),
  (("mC2", false), examplemC2N),
  (("mC3", true), examplemC3Y),
  (("mC3", false), examplemC3N),
  (("aP2", true), exampleaP2Y),
  (("aP2", false), exampleaP2N),
  (("aP3", true), exampleaP3Y),
  (("aP3", false), exampleaP3N)]

/-- The exceptions of `hpkot_get_example`; `FileNotFoundError` comes from opening the file.
`src/wulfric/crystal/_hpkot_examples/__init__.py` L73, L82, L93-100. -/
inductive ExampleErr
  | raised (e : Err)
  | fileNotFound
  deriving DecidableEq

/-- `supported_symbols`: `src/wulfric/crystal/_hpkot_examples/__init__.py` L77-79 (as a set). -/
def supportedSymbols : List String :=
  hpkotExtendedBlSymbols ++ hpkotExtendedBlSymbols.map fun s => String.ofList (s.toList.take 2)

/-- The name of the directory: `src/wulfric/crystal/_hpkot_examples/__init__.py` L87-91. -/
def exampleDirectory (symbol : String) : String :=
  if symbol.toList.length = 2 then
    if symbol = "aP" then "aP2" else symbol ++ "1"
  else symbol

/-- `hpkot_get_example`: `src/wulfric/crystal/_hpkot_examples/__init__.py` L28-104. -/
noncomputable def hpkotGetExample (symbol : String) (withInversion : Bool) :
    Except ExampleErr (Cell ℚ × Atoms ℚ) :=
  if symbol ∈ ["oF2", "oI2", "oA1", "oA2"] ∧ withInversion then .error (.raised .valueError)
  else if symbol ∉ supportedSymbols then .error (.raised .valueError)
  else
    match exampleFiles.lookup (exampleDirectory symbol, withInversion) with
    | none => .error .fileNotFound
    | some text =>
      match loadPoscar true text with
      | .error e => .error (.raised e)
      | .ok (cell, atoms, _) => .ok (cell, atoms)

end Wulfric
