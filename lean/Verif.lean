import Verif.Props.C01_Tolerance
import Verif.Props.C02_Reciprocal
import Verif.Props.C05_Params
import Verif.Props.C07_VolumeAngle
import Verif.Props.C10_Spherical
import Verif.Props.C10_Accuracy
import Verif.Props.C11_Niggli
import Verif.Props.C19_LatticePoints
import Verif.Props.C21_VoronoiEdges
import Verif.Props.C52_WignerSeitz
import Verif.Props.C22_Sugar
import Verif.Props.C24_Atoms
import Verif.Props.C28_Validation
import Verif.Props.C29_Species
import Verif.Props.C29_Elements
import Verif.Props.C30_UniqueNames
import Verif.Props.C31_SpglibTypes
import Verif.Props.C33_SpaceGroups
import Verif.Props.C34_Centring
import Verif.Props.C35_Unique
import Verif.Props.C35_Rounding
import Verif.Props.C36_Conventional
import Verif.Props.C37_Orthorhombic
import Verif.Props.C38_Triclinic
import Verif.Props.C53_Primitive
import Verif.Props.C40_Symbols
import Verif.Props.C41_Variations
import Verif.Props.C42_Paths
import Verif.Props.C43_Points
import Verif.Props.C45_Kpoints
import Verif.Props.C45_PathString
import Verif.Props.C46_Sampling
import Verif.Props.C48_Poscar
import Verif.Props.C50_Lepage
import Verif.Props.C51_Examples
import Verif.Props.C54_ScalarProducts
import Verif.Props.C55_BrillouinZone
import Verif.Props.C56_ReadPoscar
import Verif.Props.C56_Lines
import Verif.Props.C57_LepageTypes
import Verif.Props.C58_LepageMonoclinic
import Verif.Props.C59_ZeroLengthSegments
import Verif.Props.C60_ScShape
import Verif.Props.C61_NiggliUnique
import Verif.Props.C62_Rotation
import Verif.Props.C63_SameCrystal
import Verif.Props.C64_Figure
import Verif.Props.C65_Axes
import Verif.Props.C66_Colours
import Verif.Props.C52_Criterion
import Verif.Props.C67_ZoneEdges
import Verif.Props.C67_Example
import Verif.Props.C68_PathInZone
import Verif.Props.C69_Table
import Verif.Props.C70_Logo
import Verif.Props.C71_Examples
import Verif.Spec.Scale
import Verif.Lemmas.NiggliScale
import Verif.Lemmas.Scale
import Verif.Props.C72_Unit
import Verif.Spec.Describe
import Verif.Lemmas.Describe
import Verif.Props.C73_Describe
import Verif.Props.C74_Precomputed
import Verif.Props.C75_Again
import Verif.Spec.Trim
import Verif.Lemmas.Trim
import Verif.Lemmas.TrimHpkot
import Verif.Lemmas.TrimSc
import Verif.Lemmas.TrimCall
import Verif.Props.C76_Trim
import Verif.Spec.Total
import Verif.Lemmas.Total
import Verif.Props.C77_Total
import Verif.Props.C76_Witness
import Verif.Spec.Letters
import Verif.Lemmas.Letters
import Verif.Lemmas.LettersHpkot
import Verif.Lemmas.LettersSc
import Verif.Lemmas.LettersCall
import Verif.Props.C78_Letters
import Verif.Props.C79_PathTrim
import Verif.Props.C80_Once
import Verif.Props.C81_Rhombohedral
import Verif.Props.C81_Witness
import Verif.Props.C82_AnyBasis
import Verif.Props.C83_SamePrimitive
import Verif.Props.C84_Places
import Verif.Props.C85_Saving
import Verif.Props.C86_Stability
import Verif.Props.C87_Labels
import Verif.Props.C87_Witness
import Verif.Props.C88_Tiling
import Verif.Props.C88_Example
import Verif.Props.C89_PackageZone
import Verif.Props.C89_Example
import Verif.Props.C90_PackageCell
import Verif.Props.C90_Example
import Verif.Lemmas.NiggliFlat
import Verif.Lemmas.Packing
import Verif.Lemmas.NiggliCount
import Verif.Props.C91_NiggliLimit
import Verif.Props.C16_Margin
import Verif.Spec.LepageLattice
import Verif.Lemmas.LepageForms
import Verif.Lemmas.LepageNiggli
import Verif.Lemmas.LepageNiggliO
import Verif.Lemmas.LepageNiggliC
import Verif.Lemmas.LepageNiggliT
import Verif.Lemmas.LepageReduced
import Verif.Lemmas.LepageRatio
import Verif.Props.C92_LepageLattice
import Verif.Props.C92_Examples
import Verif.Lemmas.LepageRhl
import Verif.Lemmas.LepageRhlAxes
import Verif.Lemmas.LepageBound
import Verif.Props.C92_Rhombohedral
import Verif.Props.C92_Centred
import Verif.Props.C92_CentredExamples
