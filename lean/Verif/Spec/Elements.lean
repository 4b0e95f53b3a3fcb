/-! # The chemical elements, by the groups of the periodic table -/

namespace Wulfric.Spec

/-- The groups 1 to 18 of the periodic table, then the lanthanides and the actinides (IUPAC, 118
elements). -/
def elementGroups : List (List String) :=
  [["H", "Li", "Na", "K", "Rb", "Cs", "Fr"], ["Be", "Mg", "Ca", "Sr", "Ba", "Ra"],
   ["Sc", "Y", "Lu", "Lr"], ["Ti", "Zr", "Hf", "Rf"], ["V", "Nb", "Ta", "Db"],
   ["Cr", "Mo", "W", "Sg"], ["Mn", "Tc", "Re", "Bh"], ["Fe", "Ru", "Os", "Hs"],
   ["Co", "Rh", "Ir", "Mt"], ["Ni", "Pd", "Pt", "Ds"], ["Cu", "Ag", "Au", "Rg"],
   ["Zn", "Cd", "Hg", "Cn"], ["B", "Al", "Ga", "In", "Tl", "Nh"],
   ["C", "Si", "Ge", "Sn", "Pb", "Fl"], ["N", "P", "As", "Sb", "Bi", "Mc"],
   ["O", "S", "Se", "Te", "Po", "Lv"], ["F", "Cl", "Br", "I", "At", "Ts"],
   ["He", "Ne", "Ar", "Kr", "Xe", "Rn", "Og"],
   ["La", "Ce", "Pr", "Nd", "Pm", "Sm", "Eu", "Gd", "Tb", "Dy", "Ho", "Er", "Tm", "Yb"],
   ["Ac", "Th", "Pa", "U", "Np", "Pu", "Am", "Cm", "Bk", "Cf", "Es", "Fm", "Md", "No"]]

/-- The symbol of a chemical element. -/
def IsElement (s : String) : Prop := ∃ g ∈ elementGroups, s ∈ g

end Wulfric.Spec
