import Verif.Lemmas.DefaultPaths

/-! # C80: no segment of the default path is followed twice -/

namespace Wulfric

open Matrix _root_.Spec Wulfric.Spec

instance (p : List (List String)) : Decidable (Once p) :=
  inferInstanceAs (Decidable (List.Pairwise _ _))

theorem lists_once : ∀ p ∈ hpkotPathLists ++ scPathLists,
    Once p ∧ Once (p ++ p.map fun sub => sub.map negative) := by decide +kernel

/-- C80: whatever crystal and convention, with or without time reversal, the path returned can be
read back and follows no segment twice, in either direction. -/
theorem C80_once (lower : String → String) (getData : Cell ℝ → Atoms ℝ → Except Err SpglibData)
    (niggli : Cell ℝ → Except Err (Cell ℝ)) (cell : Cell ℝ) (atoms : Atoms ℝ)
    (given : Option SpglibData) (convention : String) (t rel : Bool) (path : String)
    (pts : PyDict String (Vec ℝ))
    (h : getPathAndPoints lower getData niggli cell atoms given convention t rel =
      .ok (path, pts)) :
    ∃ p, getPathAsList path = .ok p ∧ Once p := by
  obtain ⟨p, hp, h1 | h1⟩ := default_path lower getData niggli cell atoms given convention t rel path
    pts h
  · exact ⟨p, h1, (lists_once p hp).1⟩
  · exact ⟨_, h1, (lists_once p hp).2⟩

/-- The hypothesis is met, with and without time reversal. -/
example (t rel : Bool) : ∃ path pts p, getPathAndPoints String.toLower
    (fun _ _ => .error .runtimeError) (fun c => .ok c) !![3, 0, 0; 0, 5, 0; 0, 0, 4] boxAtoms
    (some (boxData 3 5 4 16 "o" "P")) "HPKOT" t rel = .ok (path, pts) ∧
    getPathAsList path = .ok p ∧ Once p := by
  obtain ⟨⟨path, pts⟩, h⟩ := sample_path t rel
  obtain ⟨p, h1, h2⟩ := C80_once _ _ _ _ _ _ _ _ _ _ _ h
  exact ⟨path, pts, p, h, h1, h2⟩

/-- A path that is not followed once. -/
example : ¬ Once [["GAMMA", "X", "M"], ["M", "X"]] := by decide +kernel

end Wulfric
