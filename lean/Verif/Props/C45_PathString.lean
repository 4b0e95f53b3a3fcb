import Verif.Props.C42_Paths
import Verif.Props.C45_Kpoints

/-! # C42, C45 and C46: `path_string` and the setter of `n` -/

namespace Wulfric
open Matrix _root_.Spec Wulfric.Spec

/-- C42: `path_string` of an object is the text of its path, part by part, and reads back as it. -/
theorem C42_path_string (k : Kpoints) (h : GoodPath k.path) :
    Path k.path k.pathString.toList ∧ getPathAsList k.pathString = .ok k.path :=
  have e : getPathAsList k.pathString = .ok k.path := C42_list_string_list k.path h
  ⟨((C42_meaning _ _).1 e).2, e⟩

/-- C46: an integer given as `n` is kept, anything else raises ValueError and changes nothing; the
points, their names and the path stay in either case. -/
theorem C46_n (k : Kpoints) :
    k.setN none = (k, .error .valueError) ∧
    ∀ n : ℤ, ∃ k', k.setN (some n) = (k', .ok ()) ∧ k'.n = n ∧ k'.path = k.path ∧
      k'.hsNames = k.hsNames ∧ k'.hsCoordinates = k.hsCoordinates ∧ k'.hsLabels = k.hsLabels ∧
      k'.rcell = k.rcell :=
  ⟨rfl, fun _ => ⟨_, rfl, rfl, rfl, rfl, rfl, rfl, rfl⟩⟩

example (k : Kpoints) (h : k.path = [["GAMMA", "X"], ["R", "M"]]) :
    getPathAsList k.pathString = .ok [["GAMMA", "X"], ["R", "M"]] := by
  rw [← h]
  refine (C42_path_string k ?_).2
  rw [h]
  unfold GoodPath GoodName
  simp

end Wulfric
