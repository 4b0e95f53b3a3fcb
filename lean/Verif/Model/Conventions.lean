import Verif.Model.Python
import Mathlib.LinearAlgebra.Matrix.Notation

/-!
# Tables of the two conventions: `src/wulfric/constants/_hpkot_convention.py`,
`src/wulfric/constants/_sc_convention.py`

Generated from the source, entry by entry.
-/

namespace Wulfric

variable (K : Type*) [Field K]

/-- `HPKOT_CONVENTIONAL_TO_PRIMITIVE`: `src/wulfric/constants/_hpkot_convention.py` L34-140. -/
def hpkotConventionalToPrimitive : PyDict String (Cell K) := [
  ("cP", !![1, 0, 0; 0, 1, 0; 0, 0, 1]),
  ("cF", !![0, 1 / 2, 1 / 2; 1 / 2, 0, 1 / 2; 1 / 2, 1 / 2, 0]),
  ("cI", !![-1 / 2, 1 / 2, 1 / 2; 1 / 2, -1 / 2, 1 / 2; 1 / 2, 1 / 2, -1 / 2]),
  ("tP", !![1, 0, 0; 0, 1, 0; 0, 0, 1]),
  ("tI", !![-1 / 2, 1 / 2, 1 / 2; 1 / 2, -1 / 2, 1 / 2; 1 / 2, 1 / 2, -1 / 2]),
  ("oP", !![1, 0, 0; 0, 1, 0; 0, 0, 1]),
  ("oF", !![0, 1 / 2, 1 / 2; 1 / 2, 0, 1 / 2; 1 / 2, 1 / 2, 0]),
  ("oI", !![-1 / 2, 1 / 2, 1 / 2; 1 / 2, -1 / 2, 1 / 2; 1 / 2, 1 / 2, -1 / 2]),
  ("oA", !![0, 0, 1; 1 / 2, 1 / 2, 0; -1 / 2, 1 / 2, 0]),
  ("oC", !![1 / 2, 1 / 2, 0; -1 / 2, 1 / 2, 0; 0, 0, 1]),
  ("hP", !![1, 0, 0; 0, 1, 0; 0, 0, 1]),
  ("hR", !![1, -1 / 2, -1 / 2; 1 / 2, 1 / 2, -1; 1 / 2, 1 / 2, 1 / 2]),
  ("mP", !![1, 0, 0; 0, 1, 0; 0, 0, 1]),
  ("mC", !![1 / 2, -1 / 2, 0; 1 / 2, 1 / 2, 0; 0, 0, 1]),
  ("aP", !![1, 0, 0; 0, 1, 0; 0, 0, 1])]

/-- `SC_CONVENTIONAL_TO_PRIMITIVE`: `src/wulfric/constants/_sc_convention.py` L71-177. -/
def scConventionalToPrimitive : PyDict String (Cell K) := [
  ("cP", !![1, 0, 0; 0, 1, 0; 0, 0, 1]),
  ("cF", !![0, 1 / 2, 1 / 2; 1 / 2, 0, 1 / 2; 1 / 2, 1 / 2, 0]),
  ("cI", !![-1 / 2, 1 / 2, 1 / 2; 1 / 2, -1 / 2, 1 / 2; 1 / 2, 1 / 2, -1 / 2]),
  ("tP", !![1, 0, 0; 0, 1, 0; 0, 0, 1]),
  ("tI", !![-1 / 2, 1 / 2, 1 / 2; 1 / 2, -1 / 2, 1 / 2; 1 / 2, 1 / 2, -1 / 2]),
  ("oP", !![1, 0, 0; 0, 1, 0; 0, 0, 1]),
  ("oF", !![0, 1 / 2, 1 / 2; 1 / 2, 0, 1 / 2; 1 / 2, 1 / 2, 0]),
  ("oI", !![-1 / 2, 1 / 2, 1 / 2; 1 / 2, -1 / 2, 1 / 2; 1 / 2, 1 / 2, -1 / 2]),
  ("oA", !![1 / 2, 1 / 2, 0; -1 / 2, 1 / 2, 0; 0, 0, 1]),
  ("oC", !![1 / 2, 1 / 2, 0; -1 / 2, 1 / 2, 0; 0, 0, 1]),
  ("hP", !![1, 0, 0; 0, 1, 0; 0, 0, 1]),
  ("hR", !![1, 0, 0; 0, 1, 0; 0, 0, 1]),
  ("mP", !![1, 0, 0; 0, 1, 0; 0, 0, 1]),
  ("mC", !![1 / 2, -1 / 2, 0; 1 / 2, 1 / 2, 0; 0, 0, 1]),
  ("aP", !![1, 0, 0; 0, 1, 0; 0, 0, 1])]

/-- `HPKOT_DEFAULT_K_PATHS`: `src/wulfric/constants/_hpkot_convention.py` L142-172. -/
def hpkotDefaultKPaths : PyDict String String := [
  ("cP1", "GAMMA-X-M-GAMMA-R-X|R-M-X1"),
  ("cP2", "GAMMA-X-M-GAMMA-R-X|R-M"),
  ("cF1", "GAMMA-X-U|K-GAMMA-L-W-X-W2"),
  ("cF2", "GAMMA-X-U|K-GAMMA-L-W-X"),
  ("cI1", "GAMMA-H-N-GAMMA-P-H|P-N"),
  ("tP1", "GAMMA-X-M-GAMMA-Z-R-A-Z|X-R|M-A"),
  ("tI1", "GAMMA-X-M-GAMMA-Z|Z0-M|X-P-N-GAMMA"),
  ("tI2", "GAMMA-X-P-N-GAMMA-M-S|S0-GAMMA|X-R|G-M"),
  ("oP1", "GAMMA-X-S-Y-GAMMA-Z-U-R-T-Z|X-U|Y-T|S-R"),
  ("oF1", "GAMMA-Y-T-Z-GAMMA-SIGMA0|U0-T|Y-C0|A0-Z|GAMMA-L"),
  ("oF2", "GAMMA-T-Z-Y-GAMMA-LAMBDA0|Q0-Z|T-G0|H0-Y|GAMMA-L"),
  ("oF3", "GAMMA-Y-C0|A0-Z-B0|D0-T-G0|H0-Y|T-GAMMA-Z|GAMMA-L"),
  ("oI1", "GAMMA-X-F2|SIGMA0-GAMMA-Y0|U0-X|GAMMA-R-W-S-GAMMA-T-W"),
  ("oI2", "GAMMA-X-U2|Y0-GAMMA-LAMBDA0|G2-X|GAMMA-R-W-S-GAMMA-T-W"),
  ("oI3", "GAMMA-X-F0|SIGMA0-GAMMA-LAMBDA0|G0-X|GAMMA-R-W-S-GAMMA-T-W"),
  ("oC1", "GAMMA-Y-C0|SIGMA0-GAMMA-Z-A0|E0-T-Y|GAMMA-S-R-Z-T"),
  ("oC2", "GAMMA-Y-F0|DELTA0-GAMMA-Z-B0|G0-T-Y|GAMMA-S-R-Z-T"),
  ("oA1", "GAMMA-Y-C0|SIGMA0-GAMMA-Z-A0|E0-T-Y|GAMMA-S-R-Z-T"),
  ("oA2", "GAMMA-Y-F0|DELTA0-GAMMA-Z-B0|G0-T-Y|GAMMA-S-R-Z-T"),
  ("hP1", "GAMMA-M-K-GAMMA-A-L-H-A|L-M|H-K-H2"),
  ("hP2", "GAMMA-M-K-GAMMA-A-L-H-A|L-M|H-K"),
  ("hR1", "GAMMA-T-H2|H0-L-GAMMA-S0|S2-F-GAMMA"),
  ("hR2", "GAMMA-L-T-P0|P2-GAMMA-F"),
  ("mP1", "GAMMA-Z-D-B-GAMMA-A-E-Z-C2-Y2-GAMMA"),
  ("mC1", "GAMMA-C|C2-Y2-GAMMA-M2-D|D2-A-GAMMA|L2-GAMMA-V2"),
  ("mC2", "GAMMA-Y-M-A-GAMMA|L2-GAMMA-V2"),
  ("mC3", "GAMMA-A-I2|I-M2-GAMMA-Y|L2-GAMMA-V2"),
  ("aP2", "GAMMA-X|Y-GAMMA-Z|R-GAMMA-T|U-GAMMA-V"),
  ("aP3", "GAMMA-X|Y-GAMMA-Z|R2-GAMMA-T2|U2-GAMMA-V2")]

/-- `HPKOT_EXTENDED_BL_SYMBOLS`: `src/wulfric/constants/_hpkot_convention.py` L174-204. -/
def hpkotExtendedBlSymbols : List String := [
  "cP1", "cP2", "cF1", "cF2", "cI1", "tP1", "tI1", "tI2", "oP1", "oF1", "oF2", "oF3", "oI1",
  "oI2", "oI3", "oC1", "oC2", "oA1", "oA2", "hP1", "hP2", "hR1", "hR2", "mP1", "mC1", "mC2",
  "mC3", "aP2", "aP3"]

/-- `SC_BRAVAIS_LATTICE_SHORT_NAMES`: `src/wulfric/constants/_sc_convention.py` L35-51. -/
def scBravaisLatticeShortNames : PyDict String String := [
  ("cP", "CUB"), ("cF", "FCC"), ("cI", "BCC"), ("tP", "TET"), ("tI", "BCT"), ("oP", "ORC"),
  ("oF", "ORCF"), ("oI", "ORCI"), ("oA", "ORCC"), ("oC", "ORCC"), ("hP", "HEX"), ("hR", "RHL"),
  ("mP", "MCL"), ("mC", "MCLC"), ("aP", "TRI")]

/-- `SC_BRAVAIS_LATTICE_VARIATIONS`: `src/wulfric/constants/_sc_convention.py` L179-205. -/
def scBravaisLatticeVariations : List String := [
  "CUB", "FCC", "BCC", "TET", "BCT1", "BCT2", "ORC", "ORCF1", "ORCF2", "ORCF3", "ORCI", "ORCC",
  "HEX", "RHL1", "RHL2", "MCL", "MCLC1", "MCLC2", "MCLC3", "MCLC4", "MCLC5", "TRI1a", "TRI2a",
  "TRI1b", "TRI2b"]

/-- `SC_DEFAULT_K_PATHS`: `src/wulfric/constants/_sc_convention.py` L207-233. -/
def scDefaultKPaths : PyDict String String := [
  ("CUB", "GAMMA-X-M-GAMMA-R-X|M-R"),
  ("FCC", "GAMMA-X-W-K-GAMMA-L-U-W-L-K|U-X"),
  ("BCC", "GAMMA-H-N-GAMMA-P-H|P-N"),
  ("TET", "GAMMA-X-M-GAMMA-Z-R-A-Z|X-R|M-A"),
  ("BCT1", "GAMMA-X-M-GAMMA-Z-P-N-Z1-M|X-P"),
  ("BCT2", "GAMMA-X-Y-SIGMA-GAMMA-Z-SIGMA1-N-P-Y1-Z|X-P"),
  ("ORC", "GAMMA-X-S-Y-GAMMA-Z-U-R-T-Z|Y-T|U-X|S-R"),
  ("ORCF1", "GAMMA-Y-T-Z-GAMMA-X-A1-Y|T-X1|X-A-Z|L-GAMMA"),
  ("ORCF2", "GAMMA-Y-C-D-X-GAMMA-Z-D1-H-C|C1-Z|X-H1|H-Y|L-GAMMA"),
  ("ORCF3", "GAMMA-Y-T-Z-GAMMA-X-A1-Y|X-A-Z|L-GAMMA"),
  ("ORCI", "GAMMA-X-L-T-W-R-X1-Z-GAMMA-Y-S-W|L1-Y|Y1-Z"),
  ("ORCC", "GAMMA-X-S-R-A-Z-GAMMA-Y-X1-A1-T-Y|Z-T"),
  ("HEX", "GAMMA-M-K-GAMMA-A-L-H-A|L-M|K-H"),
  ("RHL1", "GAMMA-L-B1|B-Z-GAMMA-X|Q-F-P1-Z|L-P"),
  ("RHL2", "GAMMA-P-Z-Q-GAMMA-F-P1-Q1-L-Z"),
  ("MCL", "GAMMA-Y-H-C-E-M1-A-X-H1|M-D-Z|Y-D"),
  ("MCLC1", "GAMMA-Y-F-L-I|I1-Z-F1|Y-X1|X-GAMMA-N|M-GAMMA"),
  ("MCLC2", "GAMMA-Y-F-L-I|I1-Z-F1|N-GAMMA-M"),
  ("MCLC3", "GAMMA-Y-F-H-Z-I-F1|H1-Y1-X-GAMMA-N|M-GAMMA"),
  ("MCLC4", "GAMMA-Y-F-H-Z-I|H1-Y1-X-GAMMA-N|M-GAMMA"),
  ("MCLC5", "GAMMA-Y-F-L-I|I1-Z-H-F1|H1-Y1-X-GAMMA-N|M-GAMMA"),
  ("TRI1a", "X-GAMMA-Y|L-GAMMA-Z|N-GAMMA-M|R-GAMMA"),
  ("TRI2a", "X-GAMMA-Y|L-GAMMA-Z|N-GAMMA-M|R-GAMMA"),
  ("TRI1b", "X-GAMMA-Y|L-GAMMA-Z|N-GAMMA-M|R-GAMMA"),
  ("TRI2b", "X-GAMMA-Y|L-GAMMA-Z|N-GAMMA-M|R-GAMMA")]

end Wulfric
