import Verif.Model.Conventional
import Verif.Model.SpaceGroups

/-!
# The interface to spglib

Model of `SpglibData.__init__` and `get_spglib_data` of `src/wulfric/_spglib_interface.py`. The two
functions of spglib are parameters.
-/

namespace Wulfric

/-- The fields of the result of `spglib.get_symmetry_dataset` that wulfric reads
(`src/wulfric/_spglib_interface.py` L110-127). -/
structure SymDataset where
  number : ℤ
  stdLattice : Cell ℝ
  stdRotation : Cell ℝ
  stdPositions : List (Vec ℝ)
  stdTypes : List ℤ

/-- spglib: `get_symmetry_dataset` and `find_primitive`, called with the cell, positions, types and
the two tolerances (`src/wulfric/_spglib_interface.py` L98-102 and L129-135). `none` is `None`. -/
structure SpglibLib where
  symDataset : Cell ℝ → List (Vec ℝ) → List ℤ → ℝ → ℝ → Option SymDataset
  findPrimitive : Cell ℝ → List (Vec ℝ) → List ℤ → ℝ → ℝ →
    Option (Cell ℝ × List (Vec ℝ) × List ℤ)

/-- `SpglibData.__init__` and `get_spglib_data`: `src/wulfric/_spglib_interface.py` L59-151 and
L448-453. The conversion of the cell to an array, the version and the text that
`_raise_with_message` adds are not modelled (the type of the error stays). Unpacking `None` is a
`TypeError`. -/
noncomputable def getSpglibData (lib : SpglibLib) (lower : String → String) (cell : Cell ℝ)
    (atoms : Atoms ℝ) (symprec angleTolerance : ℝ) : Except Err SpglibData := do
  let original ← originalData lower cell atoms
  match lib.symDataset cell original.positions original.types symprec angleTolerance with
  | none => .error .runtimeError
  | some d => do
    let family ← crystalFamily.getItem d.number
    let centring ← centringType.getItem d.number
    match lib.findPrimitive cell original.positions original.types symprec angleTolerance with
    | none => .error .typeError
    | some (pc, pp, pt) =>
      return { original := original, spaceGroupNumber := d.number, crystalFamily := family,
               centringType := centring, conventionalCell := d.stdLattice * d.stdRotation,
               conventionalPositions := d.stdPositions, conventionalTypes := d.stdTypes,
               primitiveCell := pc * d.stdRotation, primitivePositions := pp,
               primitiveTypes := pt, symprec := symprec, angleTolerance := angleTolerance }

end Wulfric
