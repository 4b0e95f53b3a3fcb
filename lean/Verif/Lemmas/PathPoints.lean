import Verif.Model.PathPoints
import Verif.Props.C41_Variations
import Verif.Props.C42_Paths

/-! # Lemmas about the tables of points and their paths -/

namespace Wulfric
open Matrix _root_.Spec Wulfric.Spec

/-- The names on either side of every hyphen differ. -/
def stepsDiffer : List String → Bool
  | a :: b :: l => a ≠ b && stepsDiffer (b :: l)
  | _ => true

/-- All names of the tables, the most frequent first. -/
def tableNames : List String := [
  "GAMMA", "X", "Z", "Y", "M", "L", "R", "T", "N", "H", "A", "S", "H2", "P", "F", "W", "K", "F2",
  "M2", "Y1", "X1", "U", "L2", "Y2", "SIGMA0", "G0", "H0", "H4", "C", "D", "V2", "I", "H1", "A0",
  "C0", "LAMBDA0", "G2", "E", "V", "N1", "F1", "S0", "G", "U0", "B0", "Y0", "M0", "U2", "K2",
  "K4", "F0", "T2", "R2", "B2", "M4", "P2", "B", "C2", "D2", "A1", "D1", "L1", "P1", "Q", "I1",
  "Y3", "W2", "Z0", "Q0", "D0", "L0", "J0", "V0", "E0", "Z2", "DELTA0", "L4", "S2", "S4", "S6",
  "H6", "M6", "M8", "P0", "R0", "Y4", "C4", "E2", "E4", "F4", "G4", "G6", "I2", "N2", "N4", "N6",
  "Z1", "SIGMA", "SIGMA1", "C1", "B1", "Q1", "M1", "F3", "X2"]

/-- Every name has a label, and so has the name of the negated point. -/
theorem names_labelled : ∀ k ∈ tableNames,
    (hsPlotNames.get? k).isSome ∧ (hsPlotNames.get? (k ++ "_P")).isSome := by
  decide +kernel

/-- Of all labels only those of "F3" and "F4" (and of their negatives) coincide. -/
theorem labels_differ : (((tableNames ++ (tableNames.erase "GAMMA").map (· ++ "_P")).filter
    (fun k => k ≠ "F3" && k ≠ "F3_P")).map hsPlotNames.get?).Nodup := by
  decide +kernel

theorem names_plain : ∀ k ∈ tableNames, '_' ∉ k.toList := by decide +kernel

/-- What is checked of a path and the names of a table. -/
def tableCheck (path : String) (keys : List String) : Bool :=
  match getPathAsList path with
  | .error _ => false
  | .ok p =>
    decide keys.Nodup && p.all (fun sub => sub.all fun n => decide (n ∈ keys)) &&
    keys.all (fun k => decide (k ∈ tableNames)) && !(decide ("F3" ∈ keys) && decide ("F4" ∈ keys)) &&
    p.all stepsDiffer

/-- A path and a table that fit together. -/
structure GoodTable (path : String) (d : PyDict String (Vec ℝ)) : Prop where
  check : tableCheck path d.keys = true
  gamma : d.get? "GAMMA" = some ![0, 0, 0]

/-- Shows `GoodTable` for a table of the library. -/
macro "good_table" t:ident : tactic =>
  `(tactic| exact ⟨by simp only [$t:ident, PyDict.keys, List.map_cons, List.map_nil]; decide +kernel,
    by simp only [$t:ident, PyDict.get?, if_true]⟩)

theorem hpkot_points_cP1 (a b c beta : ℝ) : ∃ d path,
    hpkotPointsOf a b c beta "cP" "cP1" = .ok d ∧
    hpkotDefaultKPaths.getItem "cP1" = .ok path ∧ GoodTable path d :=
  ⟨hpkotTable69, _, by simp [hpkotPointsOf], rfl,
    by good_table hpkotTable69⟩

theorem hpkot_points_cP2 (a b c beta : ℝ) : ∃ d path,
    hpkotPointsOf a b c beta "cP" "cP2" = .ok d ∧
    hpkotDefaultKPaths.getItem "cP2" = .ok path ∧ GoodTable path d :=
  ⟨hpkotTable69, _, by simp [hpkotPointsOf], rfl,
    by good_table hpkotTable69⟩

theorem hpkot_points_cF1 (a b c beta : ℝ) : ∃ d path,
    hpkotPointsOf a b c beta "cF" "cF1" = .ok d ∧
    hpkotDefaultKPaths.getItem "cF1" = .ok path ∧ GoodTable path d :=
  ⟨hpkotTable70, _, by simp [hpkotPointsOf], rfl,
    by good_table hpkotTable70⟩

theorem hpkot_points_cF2 (a b c beta : ℝ) : ∃ d path,
    hpkotPointsOf a b c beta "cF" "cF2" = .ok d ∧
    hpkotDefaultKPaths.getItem "cF2" = .ok path ∧ GoodTable path d :=
  ⟨hpkotTable70, _, by simp [hpkotPointsOf], rfl,
    by good_table hpkotTable70⟩

theorem hpkot_points_cI1 (a b c beta : ℝ) : ∃ d path,
    hpkotPointsOf a b c beta "cI" "cI1" = .ok d ∧
    hpkotDefaultKPaths.getItem "cI1" = .ok path ∧ GoodTable path d :=
  ⟨hpkotTable71, _, by simp [hpkotPointsOf], rfl,
    by good_table hpkotTable71⟩

theorem hpkot_points_tP1 (a b c beta : ℝ) : ∃ d path,
    hpkotPointsOf a b c beta "tP" "tP1" = .ok d ∧
    hpkotDefaultKPaths.getItem "tP1" = .ok path ∧ GoodTable path d :=
  ⟨hpkotTable72, _, by simp [hpkotPointsOf], rfl,
    by good_table hpkotTable72⟩

theorem hpkot_points_tI1 (a b c beta : ℝ) : ∃ d path,
    hpkotPointsOf a b c beta "tI" "tI1" = .ok d ∧
    hpkotDefaultKPaths.getItem "tI1" = .ok path ∧ GoodTable path d :=
  ⟨(hpkotTable73 a c), _, by simp [hpkotPointsOf], rfl,
    by good_table hpkotTable73⟩

theorem hpkot_points_tI2 (a b c beta : ℝ) : ∃ d path,
    hpkotPointsOf a b c beta "tI" "tI2" = .ok d ∧
    hpkotDefaultKPaths.getItem "tI2" = .ok path ∧ GoodTable path d :=
  ⟨(hpkotTable74 a c), _, by simp [hpkotPointsOf], rfl,
    by good_table hpkotTable74⟩

theorem hpkot_points_oP1 (a b c beta : ℝ) : ∃ d path,
    hpkotPointsOf a b c beta "oP" "oP1" = .ok d ∧
    hpkotDefaultKPaths.getItem "oP1" = .ok path ∧ GoodTable path d :=
  ⟨hpkotTable75, _, by simp [hpkotPointsOf], rfl,
    by good_table hpkotTable75⟩

theorem hpkot_points_oF1 (a b c beta : ℝ) : ∃ d path,
    hpkotPointsOf a b c beta "oF" "oF1" = .ok d ∧
    hpkotDefaultKPaths.getItem "oF1" = .ok path ∧ GoodTable path d :=
  ⟨(hpkotTable76 a b c), _, by simp [hpkotPointsOf], rfl,
    by good_table hpkotTable76⟩

theorem hpkot_points_oF2 (a b c beta : ℝ) : ∃ d path,
    hpkotPointsOf a b c beta "oF" "oF2" = .ok d ∧
    hpkotDefaultKPaths.getItem "oF2" = .ok path ∧ GoodTable path d :=
  ⟨(hpkotTable77 a b c), _, by simp [hpkotPointsOf], rfl,
    by good_table hpkotTable77⟩

theorem hpkot_points_oF3 (a b c beta : ℝ) : ∃ d path,
    hpkotPointsOf a b c beta "oF" "oF3" = .ok d ∧
    hpkotDefaultKPaths.getItem "oF3" = .ok path ∧ GoodTable path d :=
  ⟨(hpkotTable78 a b c), _, by simp [hpkotPointsOf], rfl,
    by good_table hpkotTable78⟩

theorem hpkot_points_oI1 (a b c beta : ℝ) : ∃ d path,
    hpkotPointsOf a b c beta "oI" "oI1" = .ok d ∧
    hpkotDefaultKPaths.getItem "oI1" = .ok path ∧ GoodTable path d :=
  ⟨(hpkotTable79 a b c), _, by simp [hpkotPointsOf], rfl,
    by good_table hpkotTable79⟩

theorem hpkot_points_oI2 (a b c beta : ℝ) : ∃ d path,
    hpkotPointsOf a b c beta "oI" "oI2" = .ok d ∧
    hpkotDefaultKPaths.getItem "oI2" = .ok path ∧ GoodTable path d :=
  ⟨(hpkotTable80 a b c), _, by simp [hpkotPointsOf], rfl,
    by good_table hpkotTable80⟩

theorem hpkot_points_oI3 (a b c beta : ℝ) : ∃ d path,
    hpkotPointsOf a b c beta "oI" "oI3" = .ok d ∧
    hpkotDefaultKPaths.getItem "oI3" = .ok path ∧ GoodTable path d :=
  ⟨(hpkotTable81 a b c), _, by simp [hpkotPointsOf], rfl,
    by good_table hpkotTable81⟩

theorem hpkot_points_oC1 (a b c beta : ℝ) : ∃ d path,
    hpkotPointsOf a b c beta "oC" "oC1" = .ok d ∧
    hpkotDefaultKPaths.getItem "oC1" = .ok path ∧ GoodTable path d :=
  ⟨(hpkotTable82 ((1 + (a / b) ^ 2) / 4)), _, by simp [hpkotPointsOf, hpkotZeta82, Except.map], rfl,
    by good_table hpkotTable82⟩

theorem hpkot_points_oC2 (a b c beta : ℝ) : ∃ d path,
    hpkotPointsOf a b c beta "oC" "oC2" = .ok d ∧
    hpkotDefaultKPaths.getItem "oC2" = .ok path ∧ GoodTable path d :=
  ⟨(hpkotTable83 ((1 + (b / a) ^ 2) / 4)), _, by simp [hpkotPointsOf, hpkotZeta83, Except.map], rfl,
    by good_table hpkotTable83⟩

theorem hpkot_points_oA1 (a b c beta : ℝ) : ∃ d path,
    hpkotPointsOf a b c beta "oA" "oA1" = .ok d ∧
    hpkotDefaultKPaths.getItem "oA1" = .ok path ∧ GoodTable path d :=
  ⟨(hpkotTable82 ((1 + (b / c) ^ 2) / 4)), _, by simp [hpkotPointsOf, hpkotZeta82, Except.map], rfl,
    by good_table hpkotTable82⟩

theorem hpkot_points_oA2 (a b c beta : ℝ) : ∃ d path,
    hpkotPointsOf a b c beta "oA" "oA2" = .ok d ∧
    hpkotDefaultKPaths.getItem "oA2" = .ok path ∧ GoodTable path d :=
  ⟨(hpkotTable83 ((1 + (c / b) ^ 2) / 4)), _, by simp [hpkotPointsOf, hpkotZeta83, Except.map], rfl,
    by good_table hpkotTable83⟩

theorem hpkot_points_hP1 (a b c beta : ℝ) : ∃ d path,
    hpkotPointsOf a b c beta "hP" "hP1" = .ok d ∧
    hpkotDefaultKPaths.getItem "hP1" = .ok path ∧ GoodTable path d :=
  ⟨hpkotTable84, _, by simp [hpkotPointsOf], rfl,
    by good_table hpkotTable84⟩

theorem hpkot_points_hP2 (a b c beta : ℝ) : ∃ d path,
    hpkotPointsOf a b c beta "hP" "hP2" = .ok d ∧
    hpkotDefaultKPaths.getItem "hP2" = .ok path ∧ GoodTable path d :=
  ⟨hpkotTable84, _, by simp [hpkotPointsOf], rfl,
    by good_table hpkotTable84⟩

theorem hpkot_points_hR1 (a b c beta : ℝ) : ∃ d path,
    hpkotPointsOf a b c beta "hR" "hR1" = .ok d ∧
    hpkotDefaultKPaths.getItem "hR1" = .ok path ∧ GoodTable path d :=
  ⟨(hpkotTable85 a c), _, by simp [hpkotPointsOf], rfl,
    by good_table hpkotTable85⟩

theorem hpkot_points_hR2 (a b c beta : ℝ) : ∃ d path,
    hpkotPointsOf a b c beta "hR" "hR2" = .ok d ∧
    hpkotDefaultKPaths.getItem "hR2" = .ok path ∧ GoodTable path d :=
  ⟨(hpkotTable86 a c), _, by simp [hpkotPointsOf], rfl,
    by good_table hpkotTable86⟩

theorem hpkot_points_mP1 (a b c beta : ℝ) : ∃ d path,
    hpkotPointsOf a b c beta "mP" "mP1" = .ok d ∧
    hpkotDefaultKPaths.getItem "mP1" = .ok path ∧ GoodTable path d :=
  ⟨(hpkotTable87 a c beta), _, by simp [hpkotPointsOf], rfl,
    by good_table hpkotTable87⟩

theorem hpkot_points_mC1 (a b c beta : ℝ) : ∃ d path,
    hpkotPointsOf a b c beta "mC" "mC1" = .ok d ∧
    hpkotDefaultKPaths.getItem "mC1" = .ok path ∧ GoodTable path d :=
  ⟨(hpkotTable88 a b c beta), _, by simp [hpkotPointsOf], rfl,
    by good_table hpkotTable88⟩

theorem hpkot_points_mC2 (a b c beta : ℝ) : ∃ d path,
    hpkotPointsOf a b c beta "mC" "mC2" = .ok d ∧
    hpkotDefaultKPaths.getItem "mC2" = .ok path ∧ GoodTable path d :=
  ⟨(hpkotTable89 a b c beta), _, by simp [hpkotPointsOf], rfl,
    by good_table hpkotTable89⟩

theorem hpkot_points_mC3 (a b c beta : ℝ) : ∃ d path,
    hpkotPointsOf a b c beta "mC" "mC3" = .ok d ∧
    hpkotDefaultKPaths.getItem "mC3" = .ok path ∧ GoodTable path d :=
  ⟨(hpkotTable90 a b c beta), _, by simp [hpkotPointsOf], rfl,
    by good_table hpkotTable90⟩

theorem hpkot_points_aP2 (a b c beta : ℝ) : ∃ d path,
    hpkotPointsOf a b c beta "aP" "aP2" = .ok d ∧
    hpkotDefaultKPaths.getItem "aP2" = .ok path ∧ GoodTable path d :=
  ⟨hpkotTable91, _, by simp [hpkotPointsOf], rfl,
    by good_table hpkotTable91⟩

theorem hpkot_points_aP3 (a b c beta : ℝ) : ∃ d path,
    hpkotPointsOf a b c beta "aP" "aP3" = .ok d ∧
    hpkotDefaultKPaths.getItem "aP3" = .ok path ∧ GoodTable path d :=
  ⟨hpkotTable92, _, by simp [hpkotPointsOf], rfl,
    by good_table hpkotTable92⟩

/-- Every symbol has a table and a path that fit together. -/
theorem hpkot_points {bl : String} {n : ℤ} {a' b' c' beta' ra rb rg : ℝ} {s : String}
    (h : HpkotSymbol bl n a' b' c' beta' ra rb rg s) (a b c beta : ℝ) :
    ∃ d path, hpkotPointsOf a b c beta bl s = .ok d ∧ hpkotDefaultKPaths.getItem s = .ok path ∧
      GoodTable path d := by
  cases h
  all_goals subst_vars
  case cP1 => exact hpkot_points_cP1 a b c beta
  case cP2 => exact hpkot_points_cP2 a b c beta
  case cF1 => exact hpkot_points_cF1 a b c beta
  case cF2 => exact hpkot_points_cF2 a b c beta
  case cI1 => exact hpkot_points_cI1 a b c beta
  case tP1 => exact hpkot_points_tP1 a b c beta
  case tI1 => exact hpkot_points_tI1 a b c beta
  case tI2 => exact hpkot_points_tI2 a b c beta
  case oP1 => exact hpkot_points_oP1 a b c beta
  case oF1 => exact hpkot_points_oF1 a b c beta
  case oF2 => exact hpkot_points_oF2 a b c beta
  case oF3 => exact hpkot_points_oF3 a b c beta
  case oI1 => exact hpkot_points_oI1 a b c beta
  case oI2 => exact hpkot_points_oI2 a b c beta
  case oI3 => exact hpkot_points_oI3 a b c beta
  case oC1 => exact hpkot_points_oC1 a b c beta
  case oC2 => exact hpkot_points_oC2 a b c beta
  case oA1 => exact hpkot_points_oA1 a b c beta
  case oA2 => exact hpkot_points_oA2 a b c beta
  case hP1 => exact hpkot_points_hP1 a b c beta
  case hP2 => exact hpkot_points_hP2 a b c beta
  case hR1 => exact hpkot_points_hR1 a b c beta
  case hR2 => exact hpkot_points_hR2 a b c beta
  case mP1 => exact hpkot_points_mP1 a b c beta
  case mC1 => exact hpkot_points_mC1 a b c beta
  case mC2 => exact hpkot_points_mC2 a b c beta
  case mC3 => exact hpkot_points_mC3 a b c beta
  case aP2 => exact hpkot_points_aP2 a b c beta
  case aP3 => exact hpkot_points_aP3 a b c beta

theorem sc_points_cub (a b c alpha : ℝ) : ∃ d path,
    scPointsOf a b c alpha "CUB" (some "CUB") = .ok d ∧
    scDefaultKPaths.getItem "CUB" = .ok path ∧ GoodTable path d :=
  ⟨scTable2, _, by simp [scPointsOf], rfl, by good_table scTable2⟩

theorem sc_points_fcc (a b c alpha : ℝ) : ∃ d path,
    scPointsOf a b c alpha "FCC" (some "FCC") = .ok d ∧
    scDefaultKPaths.getItem "FCC" = .ok path ∧ GoodTable path d :=
  ⟨scTable3, _, by simp [scPointsOf], rfl, by good_table scTable3⟩

theorem sc_points_bcc (a b c alpha : ℝ) : ∃ d path,
    scPointsOf a b c alpha "BCC" (some "BCC") = .ok d ∧
    scDefaultKPaths.getItem "BCC" = .ok path ∧ GoodTable path d :=
  ⟨scTable4, _, by simp [scPointsOf], rfl, by good_table scTable4⟩

theorem sc_points_tet (a b c alpha : ℝ) : ∃ d path,
    scPointsOf a b c alpha "TET" (some "TET") = .ok d ∧
    scDefaultKPaths.getItem "TET" = .ok path ∧ GoodTable path d :=
  ⟨scTable5, _, by simp [scPointsOf], rfl, by good_table scTable5⟩

theorem sc_points_bct1 (a b c alpha : ℝ) : ∃ d path,
    scPointsOf a b c alpha "BCT" (some "BCT1") = .ok d ∧
    scDefaultKPaths.getItem "BCT1" = .ok path ∧ GoodTable path d :=
  ⟨(scTable6 a c), _, by simp [scPointsOf], rfl, by good_table scTable6⟩

theorem sc_points_bct2 (a b c alpha : ℝ) : ∃ d path,
    scPointsOf a b c alpha "BCT" (some "BCT2") = .ok d ∧
    scDefaultKPaths.getItem "BCT2" = .ok path ∧ GoodTable path d :=
  ⟨(scTable7 a c), _, by simp [scPointsOf], rfl, by good_table scTable7⟩

theorem sc_points_orc (a b c alpha : ℝ) : ∃ d path,
    scPointsOf a b c alpha "ORC" (some "ORC") = .ok d ∧
    scDefaultKPaths.getItem "ORC" = .ok path ∧ GoodTable path d :=
  ⟨scTable8, _, by simp [scPointsOf], rfl, by good_table scTable8⟩

theorem sc_points_orcf1 (a b c alpha : ℝ) : ∃ d path,
    scPointsOf a b c alpha "ORCF" (some "ORCF1") = .ok d ∧
    scDefaultKPaths.getItem "ORCF1" = .ok path ∧ GoodTable path d :=
  ⟨(scTable9 a b c), _, by simp [scPointsOf], rfl, by good_table scTable9⟩

theorem sc_points_orcf2 (a b c alpha : ℝ) : ∃ d path,
    scPointsOf a b c alpha "ORCF" (some "ORCF2") = .ok d ∧
    scDefaultKPaths.getItem "ORCF2" = .ok path ∧ GoodTable path d :=
  ⟨(scTable10 a b c), _, by simp [scPointsOf], rfl, by good_table scTable10⟩

theorem sc_points_orcf3 (a b c alpha : ℝ) : ∃ d path,
    scPointsOf a b c alpha "ORCF" (some "ORCF3") = .ok d ∧
    scDefaultKPaths.getItem "ORCF3" = .ok path ∧ GoodTable path d :=
  ⟨(scTable9 a b c), _, by simp [scPointsOf], rfl, by good_table scTable9⟩

theorem sc_points_orci (a b c alpha : ℝ) : ∃ d path,
    scPointsOf a b c alpha "ORCI" (some "ORCI") = .ok d ∧
    scDefaultKPaths.getItem "ORCI" = .ok path ∧ GoodTable path d :=
  ⟨(scTable11 a b c), _, by simp [scPointsOf], rfl, by good_table scTable11⟩

theorem sc_points_orcc (a b c alpha : ℝ) : ∃ d path,
    scPointsOf a b c alpha "ORCC" (some "ORCC") = .ok d ∧
    scDefaultKPaths.getItem "ORCC" = .ok path ∧ GoodTable path d :=
  ⟨(scTable12 a b), _, by simp [scPointsOf], rfl, by good_table scTable12⟩

theorem sc_points_hex (a b c alpha : ℝ) : ∃ d path,
    scPointsOf a b c alpha "HEX" (some "HEX") = .ok d ∧
    scDefaultKPaths.getItem "HEX" = .ok path ∧ GoodTable path d :=
  ⟨scTable13, _, by simp [scPointsOf], rfl, by good_table scTable13⟩

theorem sc_points_rhl1 (a b c alpha : ℝ) : ∃ d path,
    scPointsOf a b c alpha "RHL" (some "RHL1") = .ok d ∧
    scDefaultKPaths.getItem "RHL1" = .ok path ∧ GoodTable path d :=
  ⟨(scTable14 alpha), _, by simp [scPointsOf], rfl, by good_table scTable14⟩

theorem sc_points_rhl2 (a b c alpha : ℝ) : ∃ d path,
    scPointsOf a b c alpha "RHL" (some "RHL2") = .ok d ∧
    scDefaultKPaths.getItem "RHL2" = .ok path ∧ GoodTable path d :=
  ⟨(scTable15 alpha), _, by simp [scPointsOf], rfl, by good_table scTable15⟩

theorem sc_points_mcl (a b c alpha : ℝ) : ∃ d path,
    scPointsOf a b c alpha "MCL" (some "MCL") = .ok d ∧
    scDefaultKPaths.getItem "MCL" = .ok path ∧ GoodTable path d :=
  ⟨(scTable16 b c alpha), _, by simp [scPointsOf], rfl, by good_table scTable16⟩

theorem sc_points_mclc1 (a b c alpha : ℝ) : ∃ d path,
    scPointsOf a b c alpha "MCLC" (some "MCLC1") = .ok d ∧
    scDefaultKPaths.getItem "MCLC1" = .ok path ∧ GoodTable path d :=
  ⟨(scTable17 a b c alpha), _, by simp [scPointsOf], rfl, by good_table scTable17⟩

theorem sc_points_mclc2 (a b c alpha : ℝ) : ∃ d path,
    scPointsOf a b c alpha "MCLC" (some "MCLC2") = .ok d ∧
    scDefaultKPaths.getItem "MCLC2" = .ok path ∧ GoodTable path d :=
  ⟨(scTable17 a b c alpha), _, by simp [scPointsOf], rfl, by good_table scTable17⟩

theorem sc_points_mclc3 (a b c alpha : ℝ) : ∃ d path,
    scPointsOf a b c alpha "MCLC" (some "MCLC3") = .ok d ∧
    scDefaultKPaths.getItem "MCLC3" = .ok path ∧ GoodTable path d :=
  ⟨(scTable18 a b c alpha), _, by simp [scPointsOf], rfl, by good_table scTable18⟩

theorem sc_points_mclc4 (a b c alpha : ℝ) : ∃ d path,
    scPointsOf a b c alpha "MCLC" (some "MCLC4") = .ok d ∧
    scDefaultKPaths.getItem "MCLC4" = .ok path ∧ GoodTable path d :=
  ⟨(scTable18 a b c alpha), _, by simp [scPointsOf], rfl, by good_table scTable18⟩

theorem sc_points_mclc5 (a b c alpha : ℝ) : ∃ d path,
    scPointsOf a b c alpha "MCLC" (some "MCLC5") = .ok d ∧
    scDefaultKPaths.getItem "MCLC5" = .ok path ∧ GoodTable path d :=
  ⟨(scTable19 a b c alpha), _, by simp [scPointsOf], rfl, by good_table scTable19⟩

theorem sc_points_tri1a (a b c alpha : ℝ) : ∃ d path,
    scPointsOf a b c alpha "TRI" (some "TRI1a") = .ok d ∧
    scDefaultKPaths.getItem "TRI1a" = .ok path ∧ GoodTable path d :=
  ⟨scTable20, _, by simp [scPointsOf], rfl, by good_table scTable20⟩

theorem sc_points_tri1b (a b c alpha : ℝ) : ∃ d path,
    scPointsOf a b c alpha "TRI" (some "TRI1b") = .ok d ∧
    scDefaultKPaths.getItem "TRI1b" = .ok path ∧ GoodTable path d :=
  ⟨scTable21, _, by simp [scPointsOf], rfl, by good_table scTable21⟩

theorem sc_points_tri2a (a b c alpha : ℝ) : ∃ d path,
    scPointsOf a b c alpha "TRI" (some "TRI2a") = .ok d ∧
    scDefaultKPaths.getItem "TRI2a" = .ok path ∧ GoodTable path d :=
  ⟨scTable20, _, by simp [scPointsOf], rfl, by good_table scTable20⟩

theorem sc_points_tri2b (a b c alpha : ℝ) : ∃ d path,
    scPointsOf a b c alpha "TRI" (some "TRI2b") = .ok d ∧
    scDefaultKPaths.getItem "TRI2b" = .ok path ∧ GoodTable path d :=
  ⟨scTable21, _, by simp [scPointsOf], rfl, by good_table scTable21⟩

/-- Every variation has a table and a path that fit together. -/
theorem sc_points {bl : String} {t r a' b' c' alpha' kp ka kb kg : ℝ} {v : String}
    (h : ScVariation bl t r a' b' c' alpha' kp ka kb kg v) (a b c alpha : ℝ) :
    ∃ short, scBravaisLatticeShortNames.get? bl = some short ∧ ∃ d path,
      scPointsOf a b c alpha short (some v) = .ok d ∧ scDefaultKPaths.getItem v = .ok path ∧
      GoodTable path d := by
  cases h
  all_goals subst_vars
  case cub => exact ⟨_, rfl, sc_points_cub a b c alpha⟩
  case fcc => exact ⟨_, rfl, sc_points_fcc a b c alpha⟩
  case bcc => exact ⟨_, rfl, sc_points_bcc a b c alpha⟩
  case tet => exact ⟨_, rfl, sc_points_tet a b c alpha⟩
  case bct1 => exact ⟨_, rfl, sc_points_bct1 a b c alpha⟩
  case bct2 => exact ⟨_, rfl, sc_points_bct2 a b c alpha⟩
  case orc => exact ⟨_, rfl, sc_points_orc a b c alpha⟩
  case orcf1 => exact ⟨_, rfl, sc_points_orcf1 a b c alpha⟩
  case orcf2 => exact ⟨_, rfl, sc_points_orcf2 a b c alpha⟩
  case orcf3 => exact ⟨_, rfl, sc_points_orcf3 a b c alpha⟩
  case orci => exact ⟨_, rfl, sc_points_orci a b c alpha⟩
  case orcc h => rcases h with rfl | rfl <;> exact ⟨_, rfl, sc_points_orcc a b c alpha⟩
  case hex => exact ⟨_, rfl, sc_points_hex a b c alpha⟩
  case rhl1 => exact ⟨_, rfl, sc_points_rhl1 a b c alpha⟩
  case rhl2 => exact ⟨_, rfl, sc_points_rhl2 a b c alpha⟩
  case mcl => exact ⟨_, rfl, sc_points_mcl a b c alpha⟩
  case mclc1 => exact ⟨_, rfl, sc_points_mclc1 a b c alpha⟩
  case mclc2 => exact ⟨_, rfl, sc_points_mclc2 a b c alpha⟩
  case mclc3 => exact ⟨_, rfl, sc_points_mclc3 a b c alpha⟩
  case mclc4 => exact ⟨_, rfl, sc_points_mclc4 a b c alpha⟩
  case mclc5 => exact ⟨_, rfl, sc_points_mclc5 a b c alpha⟩
  case tri1a => exact ⟨_, rfl, sc_points_tri1a a b c alpha⟩
  case tri1b => exact ⟨_, rfl, sc_points_tri1b a b c alpha⟩
  case tri2a => exact ⟨_, rfl, sc_points_tri2a a b c alpha⟩
  case tri2b => exact ⟨_, rfl, sc_points_tri2b a b c alpha⟩

end Wulfric
