import Verif.Model.HpkotExamples

/-!
# What is written in the files of `hpkot_get_example`

The numbers of the files in units of 1 / (3 * 10 ^ 16), as integers, and a proof for each of the files
that `loadPoscar` reads exactly these numbers. The units make the thirds of the rhombohedral centring
integer.
-/

namespace Wulfric
open Matrix

/-- The unit of the numbers below is `1 / exampleUnit`. -/
def exampleUnit : ℕ := 30000000000000000

/-- The cell and, for each species, the positions. -/
structure ExampleData where
  cell : List (List ℤ)
  groups : List (String × List (List ℤ))

def ExampleData.atoms (d : ExampleData) : List (String × List ℤ) :=
  d.groups.flatMap fun g => g.2.map fun p => (g.1, p)

/-- The same three numbers. -/
def sameVec (v : Vec ℚ) (l : List ℤ) : Bool :=
  match l with
  | [x, y, z] => decide (v 0 * exampleUnit = x) && decide (v 1 * exampleUnit = y) &&
      decide (v 2 * exampleUnit = z)
  | _ => false

def sameRows : List (Vec ℚ) → List (List ℤ) → Bool
  | [], [] => true
  | v :: vs, l :: ls => sameVec v l && sameRows vs ls
  | _, _ => false

/-- The file is read as the given numbers. -/
noncomputable def readsAs (text : List Char) (d : ExampleData) : Bool :=
  match loadPoscar true text with
  | .ok (c, a, _) =>
    sameRows [c 0, c 1, c 2] d.cell && decide (a.names = some (d.atoms.map Prod.fst)) &&
      a.species.isNone && a.spglibTypes.isNone &&
      match a.positions with
      | some p => sameRows p (d.atoms.map Prod.snd)
      | none => false
  | .error _ => false

def datacP1Y : ExampleData where
  cell := [[180077471999999964, 0, 0], [0, 180077471999999964, 0], [0, 0, 180077471999999964]]
  groups := [
    ("N", [
      [15000000000000000, 15000000000000000, 0],
      [15000000000000000, 0, 15000000000000000],
      [0, 15000000000000000, 15000000000000000]]),
    ("O", [
      [15000000000000000, 0, 21225380100000000],
      [0, 21225380100000000, 15000000000000000],
      [0, 8774619900000000, 15000000000000000],
      [15000000000000000, 0, 8774619900000000],
      [8774619900000000, 15000000000000000, 0],
      [21225380100000000, 15000000000000000, 0]]),
    ("Rb", [
      [0, 0, 0]]),
    ("Cd", [
      [15000000000000000, 15000000000000000, 15000000000000000]])]

theorem readscP1Y : readsAs examplecP1Y datacP1Y = true := by
  unfold examplecP1Y; rw [String.toList_ofList]; decide +kernel

def datacP1N : ExampleData where
  cell := [[159699673500000000, 0, 0], [0, 159699673500000000, 0], [0, 0, 159699673500000000]]
  groups := [
    ("Pd", [
      [4576424400000000, 10423575600000000, 19576424400000000],
      [10423575600000000, 19576424400000000, 4576424400000000],
      [19576424400000000, 4576424400000000, 10423575600000000],
      [25423575600000000, 25423575600000000, 25423575600000000]]),
    ("Hg", [
      [25306962899999997, 19693037100000003, 10306962900000000],
      [19693037100000003, 10306962900000000, 25306962899999997],
      [10306962900000000, 25306962899999997, 19693037100000003],
      [4693037100000000, 4693037100000000, 4693037100000000]])]

theorem readscP1N : readsAs examplecP1N datacP1N = true := by
  unfold examplecP1N; rw [String.toList_ofList]; decide +kernel

def datacP2Y : ExampleData where
  cell := [[85593727500000000, 0, 0], [0, 85593727500000000, 0], [0, 0, 85593727500000000]]
  groups := [
    ("Al", [
      [0, 0, 0]]),
    ("Co", [
      [15000000000000000, 15000000000000000, 15000000000000000]])]

theorem readscP2Y : readsAs examplecP2Y datacP2Y = true := by
  unfold examplecP2Y; rw [String.toList_ofList]; decide +kernel

def datacP2N : ExampleData where
  cell := [[200592831900000030, 0, 0], [0, 200592831900000030, 0], [0, 0, 200592831900000030]]
  groups := [
    ("Sn", [
      [0, 0, 0]]),
    ("I", [
      [7017095700000000, 22982904300000000, 22982904300000000],
      [22982904300000000, 7017095700000000, 22982904300000000],
      [22982904300000000, 22982904300000000, 7017095700000000],
      [7017095700000000, 7017095700000000, 7017095700000000]])]

theorem readscP2N : readsAs examplecP2N datacP2N = true := by
  unfold examplecP2N; rw [String.toList_ofList]; decide +kernel

def datacF1Y : ExampleData where
  cell := [[325769820830954001, 0, 0], [0, 325769820830954001, 0], [0, 0, 325769820830954001]]
  groups := [
    ("N", [
      [24026617200000000, 0, 0],
      [0, 5973382800000000, 0],
      [0, 0, 24026617200000000],
      [0, 0, 5973382800000000],
      [0, 24026617200000000, 0],
      [5973382800000000, 0, 0],
      [24026617200000000, 15000000000000000, 15000000000000000],
      [0, 20973382800000000, 15000000000000000],
      [0, 15000000000000000, 9026617200000000],
      [0, 15000000000000000, 20973382800000000],
      [0, 9026617200000000, 15000000000000000],
      [5973382800000000, 15000000000000000, 15000000000000000],
      [9026617200000000, 0, 15000000000000000],
      [15000000000000000, 5973382800000000, 15000000000000000],
      [15000000000000000, 0, 9026617200000000],
      [15000000000000000, 0, 20973382800000000],
      [15000000000000000, 24026617200000000, 15000000000000000],
      [20973382800000000, 0, 15000000000000000],
      [9026617200000000, 15000000000000000, 0],
      [15000000000000000, 20973382800000000, 0],
      [15000000000000000, 15000000000000000, 24026617200000000],
      [15000000000000000, 15000000000000000, 5973382800000000],
      [15000000000000000, 9026617200000000, 0],
      [20973382800000000, 15000000000000000, 0]]),
    ("O", [
      [2978756100000000, 7769826900000000, 0],
      [7769826900000000, 0, 27021243899999997],
      [22230173100000000, 0, 2978756100000000],
      [22230173100000000, 0, 27021243899999997],
      [7769826900000000, 0, 2978756100000000],
      [0, 27021243899999997, 7769826900000000],
      [2978756100000000, 22230173100000000, 0],
      [27021243899999997, 22230173100000000, 0],
      [0, 2978756100000000, 22230173100000000],
      [0, 27021243899999997, 22230173100000000],
      [27021243899999997, 7769826900000000, 0],
      [0, 2978756100000000, 7769826900000000],
      [2978756100000000, 22769826900000000, 15000000000000000],
      [7769826900000000, 15000000000000000, 12021243900000000],
      [22230173100000000, 15000000000000000, 17978756100000003],
      [22230173100000000, 15000000000000000, 12021243900000000],
      [7769826900000000, 15000000000000000, 17978756100000003],
      [0, 12021243900000000, 22769826900000000],
      [2978756100000000, 7230173100000000, 15000000000000000],
      [27021243899999997, 7230173100000000, 15000000000000000],
      [0, 17978756100000003, 7230173100000000],
      [0, 12021243900000000, 7230173100000000],
      [27021243899999997, 22769826900000000, 15000000000000000],
      [0, 17978756100000003, 22769826900000000],
      [17978756100000003, 7769826900000000, 15000000000000000],
      [22769826900000000, 0, 12021243900000000],
      [7230173100000000, 0, 17978756100000003],
      [7230173100000000, 0, 12021243900000000],
      [22769826900000000, 0, 17978756100000003],
      [15000000000000000, 27021243899999997, 22769826900000000],
      [17978756100000003, 22230173100000000, 15000000000000000],
      [12021243900000000, 22230173100000000, 15000000000000000],
      [15000000000000000, 2978756100000000, 7230173100000000],
      [15000000000000000, 27021243899999997, 7230173100000000],
      [12021243900000000, 7769826900000000, 15000000000000000],
      [15000000000000000, 2978756100000000, 22769826900000000],
      [17978756100000003, 22769826900000000, 0],
      [22769826900000000, 15000000000000000, 27021243899999997],
      [7230173100000000, 15000000000000000, 2978756100000000],
      [7230173100000000, 15000000000000000, 27021243899999997],
      [22769826900000000, 15000000000000000, 2978756100000000],
      [15000000000000000, 12021243900000000, 7769826900000000],
      [17978756100000003, 7230173100000000, 0],
      [12021243900000000, 7230173100000000, 0],
      [15000000000000000, 17978756100000003, 22230173100000000],
      [15000000000000000, 12021243900000000, 22230173100000000],
      [12021243900000000, 22769826900000000, 0],
      [15000000000000000, 17978756100000003, 7769826900000000]]),
    ("K", [
      [22500000000000000, 7500000000000000, 7500000000000000],
      [7500000000000000, 22500000000000000, 22500000000000000],
      [22500000000000000, 22500000000000000, 22500000000000000],
      [7500000000000000, 7500000000000000, 7500000000000000],
      [7500000000000000, 7500000000000000, 22500000000000000],
      [22500000000000000, 22500000000000000, 7500000000000000],
      [7500000000000000, 22500000000000000, 7500000000000000],
      [22500000000000000, 7500000000000000, 22500000000000000]]),
    ("Cu", [
      [0, 0, 0],
      [0, 15000000000000000, 15000000000000000],
      [15000000000000000, 0, 15000000000000000],
      [15000000000000000, 15000000000000000, 0]]),
    ("Pb", [
      [0, 0, 15000000000000000],
      [0, 15000000000000000, 0],
      [15000000000000000, 0, 0],
      [15000000000000000, 15000000000000000, 15000000000000000]])]

theorem readscF1Y : readsAs examplecF1Y datacF1Y = true := by
  unfold examplecF1Y; rw [String.toList_ofList]; decide +kernel

def datacF1N : ExampleData where
  cell := [[315771161026331430, 0, 0], [0, 315771161026331430, 0], [0, 0, 315771161026331430]]
  groups := [
    ("K", [
      [22500000000000000, 7500000000000000, 7500000000000000],
      [7500000000000000, 22500000000000000, 22500000000000000],
      [22500000000000000, 22500000000000000, 22500000000000000],
      [7500000000000000, 7500000000000000, 7500000000000000],
      [7500000000000000, 7500000000000000, 22500000000000000],
      [22500000000000000, 22500000000000000, 7500000000000000],
      [7500000000000000, 22500000000000000, 7500000000000000],
      [22500000000000000, 7500000000000000, 22500000000000000]]),
    ("Cu", [
      [0, 0, 0],
      [0, 15000000000000000, 15000000000000000],
      [15000000000000000, 0, 15000000000000000],
      [15000000000000000, 15000000000000000, 0]]),
    ("Pb", [
      [15000000000000000, 0, 0],
      [15000000000000000, 15000000000000000, 15000000000000000],
      [0, 0, 15000000000000000],
      [0, 15000000000000000, 0]]),
    ("N", [
      [0, 0, 23992557749999994],
      [0, 6007442250000006, 0],
      [6007442250000006, 0, 0],
      [0, 23992557749999994, 0],
      [23992557749999994, 0, 0],
      [0, 0, 6007442250000006],
      [0, 15000000000000000, 8992557749999994],
      [0, 21007442250000006, 15000000000000000],
      [6007442250000006, 15000000000000000, 15000000000000000],
      [0, 8992557749999994, 15000000000000000],
      [23992557749999994, 15000000000000000, 15000000000000000],
      [0, 15000000000000000, 21007442250000006],
      [15000000000000000, 0, 8992557749999994],
      [15000000000000000, 6007442250000006, 15000000000000000],
      [21007442250000006, 0, 15000000000000000],
      [15000000000000000, 23992557749999994, 15000000000000000],
      [8992557749999994, 0, 15000000000000000],
      [15000000000000000, 0, 21007442250000006],
      [15000000000000000, 15000000000000000, 23992557749999994],
      [15000000000000000, 21007442250000006, 0],
      [21007442250000006, 15000000000000000, 0],
      [15000000000000000, 8992557749999994, 0],
      [8992557749999994, 15000000000000000, 0],
      [15000000000000000, 15000000000000000, 6007442250000006]]),
    ("O", [
      [3028809300000000, 22881217349999994, 14522377650000000],
      [29522377650000000, 26971190700000003, 22118782650000006],
      [22118782650000006, 477622350000000, 3028809300000000],
      [29522377650000000, 3028809300000000, 7881217349999994],
      [477622350000000, 26971190700000003, 7881217349999994],
      [7881217349999994, 477622350000000, 26971190700000003],
      [26971190700000003, 7118782650000006, 14522377650000000],
      [3028809300000000, 7118782650000006, 15477622350000000],
      [22118782650000006, 29522377650000000, 26971190700000003],
      [7881217349999994, 29522377650000000, 3028809300000000],
      [26971190700000003, 22881217349999994, 15477622350000000],
      [477622350000000, 3028809300000000, 22118782650000006],
      [3028809300000000, 7881217349999994, 29522377650000000],
      [29522377650000000, 11971190700000000, 7118782650000006],
      [22118782650000006, 15477622350000000, 18028809299999997],
      [29522377650000000, 18028809299999997, 22881217349999994],
      [477622350000000, 11971190700000000, 22881217349999994],
      [7881217349999994, 15477622350000000, 11971190700000000],
      [26971190700000003, 22118782650000006, 29522377650000000],
      [3028809300000000, 22118782650000006, 477622350000000],
      [22118782650000006, 14522377650000000, 11971190700000000],
      [7881217349999994, 14522377650000000, 18028809299999997],
      [26971190700000003, 7881217349999994, 477622350000000],
      [477622350000000, 18028809299999997, 7118782650000006],
      [18028809299999997, 22881217349999994, 29522377650000000],
      [14522377650000000, 26971190700000003, 7118782650000006],
      [7118782650000006, 477622350000000, 18028809299999997],
      [14522377650000000, 3028809300000000, 22881217349999994],
      [15477622350000000, 26971190700000003, 22881217349999994],
      [22881217349999994, 477622350000000, 11971190700000000],
      [11971190700000000, 7118782650000006, 29522377650000000],
      [18028809299999997, 7118782650000006, 477622350000000],
      [7118782650000006, 29522377650000000, 11971190700000000],
      [22881217349999994, 29522377650000000, 18028809299999997],
      [11971190700000000, 22881217349999994, 477622350000000],
      [15477622350000000, 3028809300000000, 7118782650000006],
      [18028809299999997, 7881217349999994, 14522377650000000],
      [14522377650000000, 11971190700000000, 22118782650000006],
      [7118782650000006, 15477622350000000, 3028809300000000],
      [14522377650000000, 18028809299999997, 7881217349999994],
      [15477622350000000, 11971190700000000, 7881217349999994],
      [22881217349999994, 15477622350000000, 26971190700000003],
      [11971190700000000, 22118782650000006, 14522377650000000],
      [18028809299999997, 22118782650000006, 15477622350000000],
      [7118782650000006, 14522377650000000, 26971190700000003],
      [22881217349999994, 14522377650000000, 3028809300000000],
      [11971190700000000, 7881217349999994, 15477622350000000],
      [15477622350000000, 18028809299999997, 22118782650000006]])]

theorem readscF1N : readsAs examplecF1N datacF1N = true := by
  unfold examplecF1N; rw [String.toList_ofList]; decide +kernel

def datacF2Y : ExampleData where
  cell := [[147379233276335091, 0, 0], [0, 147379233276335091, 0], [0, 0, 147379233276335091]]
  groups := [
    ("B", [
      [0, 0, 0],
      [0, 15000000000000000, 15000000000000000],
      [15000000000000000, 0, 15000000000000000],
      [15000000000000000, 15000000000000000, 0]]),
    ("Zr", [
      [0, 0, 15000000000000000],
      [0, 15000000000000000, 0],
      [15000000000000000, 0, 0],
      [15000000000000000, 15000000000000000, 15000000000000000]])]

theorem readscF2Y : readsAs examplecF2Y datacF2Y = true := by
  unfold examplecF2Y; rw [String.toList_ofList]; decide +kernel

def datacF2N : ExampleData where
  cell := [[152011193367347160, 0, 0], [0, 152011193367347160, 0], [0, 0, 152011193367347160]]
  groups := [
    ("O", [
      [22500000000000000, 22500000000000000, 7500000000000000],
      [22500000000000000, 7500000000000000, 22500000000000000],
      [7500000000000000, 22500000000000000, 22500000000000000],
      [7500000000000000, 7500000000000000, 7500000000000000]]),
    ("Ag", [
      [0, 0, 0],
      [0, 15000000000000000, 15000000000000000],
      [15000000000000000, 0, 15000000000000000],
      [15000000000000000, 15000000000000000, 0]])]

theorem readscF2N : readsAs examplecF2N datacF2N = true := by
  unfold examplecF2N; rw [String.toList_ofList]; decide +kernel

def datacI1Y : ExampleData where
  cell := [[156370496699999988, 0, 0], [0, 156370496699999988, 0], [0, 0, 156370496699999988]]
  groups := [
    ("Si", [
      [0, 0, 0],
      [15000000000000000, 15000000000000000, 15000000000000000]]),
    ("W", [
      [0, 15000000000000000, 15000000000000000],
      [0, 15000000000000000, 0],
      [0, 0, 15000000000000000],
      [15000000000000000, 0, 0],
      [15000000000000000, 0, 15000000000000000],
      [15000000000000000, 15000000000000000, 0]])]

theorem readscI1Y : readsAs examplecI1Y datacI1Y = true := by
  unfold examplecI1Y; rw [String.toList_ofList]; decide +kernel

def datacI1N : ExampleData where
  cell := [[167853752528723136, 0, 0], [0, 167853752528723136, 0], [0, 0, 167853752528723136]]
  groups := [
    ("F", [
      [4898894850000000, 25101105150000000, 4898894850000000],
      [25101105150000000, 4898894850000000, 4898894850000000],
      [4898894850000000, 4898894850000000, 25101105150000000],
      [25101105150000000, 25101105150000000, 25101105150000000],
      [19898894850000000, 10101105150000000, 19898894850000000],
      [10101105150000000, 19898894850000000, 19898894850000000],
      [19898894850000000, 19898894850000000, 10101105150000000],
      [10101105150000000, 10101105150000000, 10101105150000000]]),
    ("Si", [
      [0, 0, 0],
      [15000000000000000, 15000000000000000, 15000000000000000]])]

theorem readscI1N : readsAs examplecI1N datacI1N = true := by
  unfold examplecI1N; rw [String.toList_ofList]; decide +kernel

def datatP1Y : ExampleData where
  cell := [[80951802362787189, 0, 0], [0, 80951802362787189, 0], [0, 0, 111798927599999994]]
  groups := [
    ("Co", [
      [0, 0, 0]]),
    ("Pt", [
      [15000000000000000, 15000000000000000, 15000000000000000]])]

theorem readstP1Y : readsAs exampletP1Y datatP1Y = true := by
  unfold exampletP1Y; rw [String.toList_ofList]; decide +kernel

def datatP1N : ExampleData where
  cell := [[128571849956596980, 0, 0], [0, 128571849956596980, 0], [0, 0, 190643437720291821]]
  groups := [
    ("Ag", [
      [15000000000000000, 15000000000000000, 15000000000000000]]),
    ("I", [
      [0, 15000000000000000, 23332850999999997],
      [15000000000000000, 0, 6667149000000003]])]

theorem readstP1N : readsAs exampletP1N datatP1N = true := by
  unfold exampletP1N; rw [String.toList_ofList]; decide +kernel

def datatI1Y : ExampleData where
  cell := [[198035505522674448, 0, 0], [0, 198035505522674448, 0], [0, 0, 120430927132277370]]
  groups := [
    ("Ti", [
      [0, 0, 0],
      [15000000000000000, 15000000000000000, 15000000000000000]]),
    ("Au", [
      [3148277100000000, 21207687300000006, 15000000000000000],
      [26851722900000000, 8792312699999994, 15000000000000000],
      [8792312699999994, 3148277100000000, 15000000000000000],
      [21207687300000006, 26851722900000000, 15000000000000000],
      [18148277100000000, 6207687300000006, 0],
      [11851722900000000, 23792312699999994, 0],
      [23792312699999994, 18148277100000000, 0],
      [6207687300000006, 11851722900000000, 0]])]

theorem readstI1Y : readsAs exampletI1Y datatI1Y = true := by
  unfold exampletI1Y; rw [String.toList_ofList]; decide +kernel

def datatI1N : ExampleData where
  cell := [[164384508300002049, 0, 0], [0, 164384508300002049, 0], [0, 0, 155545134600005658]]
  groups := [
    ("Cu", [
      [0, 0, 0],
      [15000000000000000, 15000000000000000, 15000000000000000]]),
    ("O", [
      [4031869350000000, 20860049550000003, 27437278050000006],
      [20860049550000003, 25968130650000003, 2562721949999997],
      [25968130650000003, 9139950449999994, 27437278050000006],
      [9139950449999994, 4031869350000000, 2562721949999997],
      [19031869349999997, 5860049550000003, 12437278050000003],
      [5860049550000003, 10968130650000000, 17562721949999997],
      [10968130650000000, 24139950449999997, 12437278050000003],
      [24139950449999997, 19031869349999997, 17562721949999997]]),
    ("P", [
      [15000000000000000, 0, 7500000000000000],
      [0, 15000000000000000, 22500000000000000]])]

theorem readstI1N : readsAs exampletI1N datatI1N = true := by
  unfold exampletI1N; rw [String.toList_ofList]; decide +kernel

def datatI2Y : ExampleData where
  cell := [[92535683736787596, 0, 0], [0, 92535683736787596, 0], [0, 0, 122584618455215583]]
  groups := [
    ("O", [
      [0, 0, 15000000000000000],
      [15000000000000000, 15000000000000000, 0]]),
    ("Co", [
      [0, 0, 0],
      [15000000000000000, 15000000000000000, 15000000000000000]])]

theorem readstI2Y : readsAs exampletI2Y datatI2Y = true := by
  unfold exampletI2Y; rw [String.toList_ofList]; decide +kernel

def datatI2N : ExampleData where
  cell := [[106955865805073400, 0, 0], [0, 106955865805073400, 0], [0, 0, 172243204621209519]]
  groups := [
    ("P", [
      [15000000000000000, 15000000000000000, 27701740199999988],
      [0, 0, 12701740199999988]]),
    ("Ge", [
      [0, 0, 108260099999991],
      [15000000000000000, 15000000000000000, 15108260099999988]])]

theorem readstI2N : readsAs exampletI2N datatI2N = true := by
  unfold exampletI2N; rw [String.toList_ofList]; decide +kernel

def dataoP1Y : ExampleData where
  cell := [[67975874013146439, 0, 0], [0, 178795052799796689, 0], [0, 0, 196926745252330794]]
  groups := [
    ("Cu", [
      [15000000000000000, 0, 15000000000000000]]),
    ("O", [
      [15000000000000000, 0, 27152932650000006],
      [15000000000000000, 0, 2847067349999994]])]

theorem readsoP1Y : readsAs exampleoP1Y dataoP1Y = true := by
  unfold exampleoP1Y; rw [String.toList_ofList]; decide +kernel

def dataoP1N : ExampleData where
  cell := [[91243896900000006, 0, 0], [0, 184405508699999991, 0], [0, 0, 94182519299999994]]
  groups := [
    ("In", [
      [0, 0, 74299500000000]]),
    ("Sb", [
      [0, 15000000000000000, 22425700500000000]])]

theorem readsoP1N : readsAs exampleoP1N dataoP1N = true := by
  unfold exampleoP1N; rw [String.toList_ofList]; decide +kernel

def dataoF1Y : ExampleData where
  cell := [[82386183667797369, 0, 0], [0, 217870756200002082, 0], [0, 0, 344753018384888232]]
  groups := [
    ("Cu", [
      [15000000000000000, 15000000000000000, 15000000000000000],
      [15000000000000000, 0, 0],
      [0, 15000000000000000, 0],
      [0, 0, 15000000000000000]]),
    ("O", [
      [0, 15000000000000000, 18063602700000003],
      [15000000000000000, 15000000000000000, 26936397299999997],
      [0, 0, 3063602700000003],
      [15000000000000000, 0, 11936397299999997],
      [15000000000000000, 15000000000000000, 3063602700000003],
      [0, 15000000000000000, 11936397299999997],
      [15000000000000000, 0, 18063602700000003],
      [0, 0, 26936397299999997]])]

theorem readsoF1Y : readsAs exampleoF1Y dataoF1Y = true := by
  unfold exampleoF1Y; rw [String.toList_ofList]; decide +kernel

def dataoF1N : ExampleData where
  cell := [[75460195036564380, 0, 0], [0, 181352404123112106, 0], [0, 0, 130194937821741768]]
  groups := [
    ("B", [
      [0, 0, 13234800000003],
      [0, 15000000000000000, 15013234800000003],
      [15000000000000000, 0, 15013234800000003],
      [15000000000000000, 15000000000000000, 13234800000003]]),
    ("N", [
      [0, 0, 19995597300000003],
      [0, 15000000000000000, 4995597300000000],
      [15000000000000000, 0, 4995597300000000],
      [15000000000000000, 15000000000000000, 19995597300000003]])]

theorem readsoF1N : readsAs exampleoF1N dataoF1N = true := by
  unfold exampleoF1N; rw [String.toList_ofList]; decide +kernel

def dataoF2N : ExampleData where
  cell := [[312877702500001824, 0, 0], [0, 638082708964195326, 0], [0, 0, 167641740899044152]]
  groups := [
    ("Cs", [
      [5187984600000006, 16897466100000003, 28593778500000006],
      [24812015399999994, 13102533899999997, 28593778500000006],
      [2312015399999994, 9397466100000003, 21093778500000006],
      [27687984600000006, 20602533899999997, 21093778500000006],
      [5187984600000006, 1897466100000003, 13593778500000006],
      [24812015399999994, 28102533899999994, 13593778500000006],
      [2312015399999994, 24397466100000003, 6093778500000006],
      [27687984600000006, 5602533899999997, 6093778500000006],
      [20187984600000006, 16897466100000003, 13593778500000006],
      [9812015399999994, 13102533899999997, 13593778500000006],
      [17312015399999994, 9397466100000003, 6093778500000006],
      [12687984600000006, 20602533899999997, 6093778500000006],
      [20187984600000006, 1897466100000003, 28593778500000006],
      [9812015399999994, 28102533899999994, 28593778500000006],
      [17312015399999994, 24397466100000003, 21093778500000006],
      [12687984600000006, 5602533899999997, 21093778500000006]]),
    ("Se", [
      [0, 15000000000000000, 14104443000000009],
      [22500000000000000, 22500000000000000, 6604443000000009],
      [0, 0, 29104443000000006],
      [22500000000000000, 7500000000000000, 21604443000000009],
      [15000000000000000, 15000000000000000, 29104443000000006],
      [7500000000000000, 22500000000000000, 21604443000000009],
      [15000000000000000, 0, 14104443000000009],
      [7500000000000000, 7500000000000000, 6604443000000009]])]

theorem readsoF2N : readsAs exampleoF2N dataoF2N = true := by
  unfold exampleoF2N; rw [String.toList_ofList]; decide +kernel

def dataoF3Y : ExampleData where
  cell := [[222643922877619725, 0, 0], [0, 233181463792383309, 0], [0, 0, 237363296460311118]]
  groups := [
    ("Ni", [
      [0, 6041472000000003, 0],
      [0, 23958527999999997, 0],
      [0, 21041472000000003, 15000000000000000],
      [0, 8958528000000000, 15000000000000000],
      [15000000000000000, 6041472000000003, 15000000000000000],
      [15000000000000000, 23958527999999997, 15000000000000000],
      [15000000000000000, 21041472000000003, 0],
      [15000000000000000, 8958528000000000, 0]]),
    ("Ge", [
      [0, 0, 6979337850000000],
      [0, 0, 23020662150000000],
      [0, 15000000000000000, 21979337850000000],
      [0, 15000000000000000, 8020662150000000],
      [15000000000000000, 0, 21979337850000000],
      [15000000000000000, 0, 8020662150000000],
      [15000000000000000, 15000000000000000, 6979337850000000],
      [15000000000000000, 15000000000000000, 23020662150000000]]),
    ("Pt", [
      [20938792800000009, 0, 0],
      [22500000000000000, 7500000000000000, 7500000000000000],
      [9061207199999994, 0, 0],
      [22500000000000000, 22500000000000000, 7500000000000000],
      [20938792800000009, 15000000000000000, 15000000000000000],
      [22500000000000000, 22500000000000000, 22500000000000000],
      [9061207199999994, 15000000000000000, 15000000000000000],
      [22500000000000000, 7500000000000000, 22500000000000000],
      [5938792800000006, 0, 15000000000000000],
      [7500000000000000, 7500000000000000, 22500000000000000],
      [24061207199999991, 0, 15000000000000000],
      [7500000000000000, 22500000000000000, 22500000000000000],
      [5938792800000006, 15000000000000000, 0],
      [7500000000000000, 22500000000000000, 7500000000000000],
      [24061207199999991, 15000000000000000, 0],
      [7500000000000000, 7500000000000000, 7500000000000000]])]

theorem readsoF3Y : readsAs exampleoF3Y dataoF3Y = true := by
  unfold exampleoF3Y; rw [String.toList_ofList]; decide +kernel

def dataoF3N : ExampleData where
  cell := [[187089043616395482, 0, 0], [0, 720047938162107108, 0], [0, 0, 187526504947500729]]
  groups := [
    ("Se", [
      [15000000000000000, 5682636000000000, 29550053400000000],
      [15000000000000000, 24317364000000000, 29550053400000000],
      [15000000000000000, 20682636000000000, 14550053399999997],
      [15000000000000000, 9317364000000000, 14550053399999997],
      [0, 5682636000000000, 14550053399999997],
      [0, 24317364000000000, 14550053399999997],
      [0, 20682636000000000, 29550053400000000],
      [0, 9317364000000000, 29550053400000000]]),
    ("Pb", [
      [0, 5781944550000000, 29939946750000000],
      [0, 24218055450000003, 29939946750000000],
      [0, 20781944549999997, 14939946749999997],
      [0, 9218055450000000, 14939946749999997],
      [15000000000000000, 5781944550000000, 14939946749999997],
      [15000000000000000, 24218055450000003, 14939946749999997],
      [15000000000000000, 20781944549999997, 29939946750000000],
      [15000000000000000, 9218055450000000, 29939946750000000]])]

theorem readsoF3N : readsAs exampleoF3N dataoF3N = true := by
  unfold exampleoF3N; rw [String.toList_ofList]; decide +kernel

def dataoI1Y : ExampleData where
  cell := [[93354082926609051, 0, 0], [0, 160500154045729734, 0], [0, 0, 173598790975092624]]
  groups := [
    ("Ga", [
      [0, 0, 15000000000000000],
      [15000000000000000, 15000000000000000, 0]]),
    ("Sb", [
      [0, 0, 0],
      [15000000000000000, 15000000000000000, 15000000000000000]])]

theorem readsoI1Y : readsAs exampleoI1Y dataoI1Y = true := by
  unfold exampleoI1Y; rw [String.toList_ofList]; decide +kernel

def dataoI1N : ExampleData where
  cell := [[80753552501318589, 0, 0], [0, 99396826490532057, 0], [0, 0, 302103701634619899]]
  groups := [
    ("Li", [
      [15000000000000000, 0, 23172802500000006],
      [0, 15000000000000000, 8172802500000003]]),
    ("O", [
      [15000000000000000, 15000000000000000, 26480000100000003],
      [15000000000000000, 15000000000000000, 3922631100000000],
      [0, 0, 11480000100000003],
      [0, 0, 18922631100000000]]),
    ("Ni", [
      [0, 15000000000000000, 214705500000000],
      [15000000000000000, 0, 15214705500000000]])]

theorem readsoI1N : readsAs exampleoI1N dataoI1N = true := by
  unfold exampleoI1N; rw [String.toList_ofList]; decide +kernel

def dataoI2N : ExampleData where
  cell := [[295739571464757951, 0, 0], [0, 206637937007612598, 0], [0, 0, 210264445800000006]]
  groups := [
    ("Ca", [
      [22500000000000000, 917443800000006, 1063844100000000],
      [7500000000000000, 29082556199999994, 1063844100000000],
      [7500000000000000, 15917443800000006, 16063844100000000],
      [22500000000000000, 14082556199999994, 16063844100000000]]),
    ("Sn", [
      [0, 0, 15255550200000000],
      [0, 15000000000000000, 255550199999997],
      [15000000000000000, 15000000000000000, 255550199999997],
      [15000000000000000, 0, 15255550200000000]]),
    ("S", [
      [7500000000000000, 11219878350000003, 28333406850000000],
      [22500000000000000, 18780121649999997, 28333406850000000],
      [2270572650000000, 22817658750000003, 22861265249999997],
      [27729427350000000, 7182341249999997, 22861265249999997],
      [27729427350000000, 7817658750000006, 7861265250000000],
      [2270572650000000, 22182341249999997, 7861265250000000],
      [22500000000000000, 26219878350000003, 13333406850000000],
      [7500000000000000, 3780121649999997, 13333406850000000],
      [17270572650000003, 7817658750000006, 7861265250000000],
      [12729427350000000, 22182341249999997, 7861265250000000],
      [12729427350000000, 22817658750000003, 22861265249999997],
      [17270572650000003, 7182341249999994, 22861265249999997]])]

theorem readsoI2N : readsAs exampleoI2N dataoI2N = true := by
  unfold exampleoI2N; rw [String.toList_ofList]; decide +kernel

def dataoI3Y : ExampleData where
  cell := [[244534341684497142, 0, 0], [0, 151384290592024878, 0], [0, 0, 235977447623320593]]
  groups := [
    ("Zn", [
      [20173098450000006, 22500000000000000, 12303862350000006],
      [24826901549999994, 22500000000000000, 2696137649999994],
      [20173098450000006, 7500000000000000, 17696137649999994],
      [24826901549999994, 7500000000000000, 27303862350000006],
      [5173098450000006, 7500000000000000, 27303862350000006],
      [9826901549999994, 7500000000000000, 17696137649999994],
      [5173098450000006, 22500000000000000, 2696137649999994],
      [9826901549999994, 22500000000000000, 12303862350000006]]),
    ("Ba", [
      [15000000000000000, 22500000000000000, 24221337000000003],
      [0, 22500000000000000, 20778662999999997],
      [0, 7500000000000000, 9221337000000003],
      [15000000000000000, 7500000000000000, 5778662999999997]])]

theorem readsoI3Y : readsAs exampleoI3Y dataoI3Y = true := by
  unfold exampleoI3Y; rw [String.toList_ofList]; decide +kernel

def dataoI3N : ExampleData where
  cell := [[99330003261000000, 0, 0], [0, 165780000687000000, 0], [0, 0, 105780000687000000]]
  groups := [
    ("Hg", [
      [0, 0, 0],
      [15000000000000000, 15000000000000000, 15000000000000000]]),
    ("O", [
      [0, 15000000000000000, 5100000060000000],
      [15000000000000000, 0, 20100000510000000]])]

theorem readsoI3N : readsAs exampleoI3N dataoI3N = true := by
  unfold exampleoI3N; rw [String.toList_ofList]; decide +kernel

def dataoC1Y : ExampleData where
  cell := [[110381969700000018, 0, 0], [0, 124607395799999994, 0], [0, 0, 114710377050000006]]
  groups := [
    ("Si", [
      [0, 15000000000000000, 15000000000000000],
      [15000000000000000, 0, 15000000000000000]]),
    ("Ti", [
      [0, 0, 0],
      [15000000000000000, 15000000000000000, 0]])]

theorem readsoC1Y : readsAs exampleoC1Y dataoC1Y = true := by
  unfold exampleoC1Y; rw [String.toList_ofList]; decide +kernel

def dataoC1N : ExampleData where
  cell := [[132343056946657197, 0, 0], [0, 373196287633993434, 0], [0, 0, 136324369799999997]]
  groups := [
    ("In", [
      [15000000000000000, 3408627899999997, 22502901899999997],
      [15000000000000000, 26591372100000000, 7502901899999997],
      [0, 18408627900000000, 22502901899999997],
      [0, 11591372100000003, 7502901899999997]]),
    ("Cl", [
      [0, 25333815149999997, 22977098099999997],
      [0, 4666184850000003, 7977098099999997],
      [15000000000000000, 10333815149999997, 22977098099999997],
      [15000000000000000, 19666184850000003, 7977098099999997]])]

theorem readsoC1N : readsAs exampleoC1N dataoC1N = true := by
  unfold exampleoC1N; rw [String.toList_ofList]; decide +kernel

def dataoC2Y : ExampleData where
  cell := [[252863221271282832, 0, 0], [0, 162396959565253356, 0], [0, 0, 264490801199999979]]
  groups := [
    ("Br", [
      [0, 23971183199999997, 7500000000000000],
      [0, 6028816800000000, 22500000000000000],
      [15000000000000000, 8971183200000000, 7500000000000000],
      [15000000000000000, 21028816800000003, 22500000000000000]]),
    ("I", [
      [0, 15000000000000000, 15000000000000000],
      [0, 15000000000000000, 0],
      [15000000000000000, 0, 15000000000000000],
      [15000000000000000, 0, 0]])]

theorem readsoC2Y : readsAs exampleoC2Y dataoC2Y = true := by
  unfold exampleoC2Y; rw [String.toList_ofList]; decide +kernel

def dataoC2N : ExampleData where
  cell := [[270179269612129608, 0, 0], [0, 167609338455782718, 0], [0, 0, 149674047299999994]]
  groups := [
    ("P", [
      [0, 26005324500000000, 15140931900000000],
      [0, 3994675500000000, 140931900000000],
      [15000000000000000, 11005324500000000, 15140931900000000],
      [15000000000000000, 18994675500000000, 140931900000000]]),
    ("N", [
      [0, 27355712400000000, 5861244600000000],
      [0, 2644287600000000, 20861244600000003],
      [15000000000000000, 12355712400000000, 5861244600000000],
      [15000000000000000, 17644287600000000, 20861244600000003]]),
    ("F", [
      [3951653100000000, 9191986200000000, 2083911600000000],
      [26048346900000000, 20808013800000003, 17083911600000000],
      [26048346900000000, 9191986200000000, 2083911600000000],
      [3951653100000000, 20808013800000003, 17083911600000000],
      [18951653100000000, 24191986199999997, 2083911600000000],
      [11048346900000000, 5808013800000000, 17083911600000000],
      [11048346900000000, 24191986199999997, 2083911600000000],
      [18951653100000000, 5808013800000000, 17083911600000000]])]

theorem readsoC2N : readsAs exampleoC2N dataoC2N = true := by
  unfold exampleoC2N; rw [String.toList_ofList]; decide +kernel

def dataoA1N : ExampleData where
  cell := [[106117236336599349, 0, 0], [0, 95371990071988569, 0], [0, 0, 297098636048111472]]
  groups := [
    ("Nb", [
      [0, 0, 928957199999994],
      [0, 15000000000000000, 15928957199999994]]),
    ("S", [
      [0, 15000000000000000, 25468805549999997],
      [15000000000000000, 15000000000000000, 3789808649999997],
      [0, 0, 10468805549999997],
      [15000000000000000, 0, 18789808649999997]])]

theorem readsoA1N : readsAs exampleoA1N dataoA1N = true := by
  unfold exampleoA1N; rw [String.toList_ofList]; decide +kernel

def dataoA2N : ExampleData where
  cell := [[92907495900000003, 0, 0], [0, 251969723400000003, 0], [0, 0, 147082029299999988]]
  groups := [
    ("Cr", [
      [0, 0, 25818001200000000],
      [0, 15000000000000000, 10818001200000000]]),
    ("O", [
      [15000000000000000, 0, 1263638999999997],
      [0, 25447653599999997, 19973379899999997],
      [0, 4552346400000003, 19973379899999997],
      [15000000000000000, 15000000000000000, 16263638999999997],
      [0, 10447653599999994, 4973379900000000],
      [0, 19552346400000003, 4973379900000000]])]

theorem readsoA2N : readsAs exampleoA2N dataoA2N = true := by
  unfold exampleoA2N; rw [String.toList_ofList]; decide +kernel

def datahP1Y : ExampleData where
  cell := [[153397568039397285, 0, 0], [-76698784019698644, 132846190800869913, 0], [0, 0, 142491266550000012]]
  groups := [
    ("O", [
      [0, 0, 0]]),
    ("Ti", [
      [20052154500000000, 20052154500000000, 22174740600000003],
      [20052154500000000, 0, 7825259399999997],
      [0, 20052154500000000, 7825259399999997],
      [9947845500000000, 9947845500000000, 7825259399999997],
      [9947845500000000, 0, 22174740600000003],
      [0, 9947845500000000, 22174740600000003]])]

theorem readshP1Y : readsAs examplehP1Y datahP1Y = true := by
  unfold examplehP1Y; rw [String.toList_ofList]; decide +kernel

def datahP1N : ExampleData where
  cell := [[221514830058545337, 0, 0], [-110757415029272667, 191837470145693025, 0], [0, 0, 158039008200000000]]
  groups := [
    ("In", [
      [20000000000000001, 9999999999999999, 13899019800000000]]),
    ("Si", [
      [0, 0, 8300272500000000]]),
    ("Te", [
      [1634547199999998, 10652297199999996, 8002135800000000],
      [19347702800000004, 20982250000000002, 8002135800000000],
      [9017749999999998, 28365452800000002, 8002135800000000]])]

theorem readshP1N : readsAs examplehP1N datahP1N = true := by
  unfold examplehP1N; rw [String.toList_ofList]; decide +kernel

def datahP2Y : ExampleData where
  cell := [[122680069494958398, 0, 0], [-61340034747479199, 106244056720674339, 0], [0, 0, 113886530399999994]]
  groups := [
    ("Si", [
      [9999999999999999, 20000000000000001, 15000000000000000],
      [20000000000000001, 9999999999999999, 15000000000000000]]),
    ("Lu", [
      [0, 0, 0]])]

theorem readshP2Y : readsAs examplehP2Y datahP2Y = true := by
  unfold examplehP2Y; rw [String.toList_ofList]; decide +kernel

def datahP2N : ExampleData where
  cell := [[97339258528949979, 0, 0], [-48669629264474988, 84298270671611766, 0], [0, 0, 96015507000000006]]
  groups := [
    ("P", [
      [9999999999999999, 20000000000000001, 15000000000000000]]),
    ("Mo", [
      [0, 0, 0]])]

theorem readshP2N : readsAs examplehP2N datahP2N = true := by
  unfold examplehP2N; rw [String.toList_ofList]; decide +kernel

def datahR1Y : ExampleData where
  cell := [[112867297640289420, 0, 0], [-56433648820144710, 97745947012990059, 0], [0, 0, 405416012120206713]]
  groups := [
    ("In", [
      [20000000000000001, 9999999999999999, 24999999999999999],
      [9999999999999999, 19999999999999998, 4999999999999998],
      [0, 0, 14999999999999997]]),
    ("Hg", [
      [0, 0, 0],
      [19999999999999998, 9999999999999999, 9999999999999999],
      [9999999999999999, 19999999999999998, 19999999999999998]])]

theorem readshR1Y : readsAs examplehR1Y datahR1Y = true := by
  unfold examplehR1Y; rw [String.toList_ofList]; decide +kernel

def datahR1N : ExampleData where
  cell := [[129268675546491246, 0, 0], [-64634337773245623, 111949956936829659, 0], [0, 0, 307459550574747045]]
  groups := [
    ("Cu", [
      [0, 0, 8393382000000000],
      [19999999999999998, 9999999999999999, 18393381999999999],
      [9999999999999999, 19999999999999998, 28393381999999998]]),
    ("I", [
      [0, 0, 756618000000006],
      [19999999999999998, 9999999999999999, 10756618000000002],
      [9999999999999999, 19999999999999998, 20756618000000004]])]

theorem readshR1N : readsAs examplehR1N datahR1N = true := by
  unfold examplehR1N; rw [String.toList_ofList]; decide +kernel

def datahR2Y : ExampleData where
  cell := [[237360005379000000, 0, 0], [-78220162050000000, 224101268184000000, 0], [-78220162050000000, -110149898016000000, 195162440979000000]]
  groups := [
    ("Mn", [
      [10959000000000000, 5583000180000000, 20442899460000000],
      [19041000000000000, 24416999820000000, 9557100540000000],
      [20442899460000000, 10959000000000000, 5583000180000000],
      [9557100540000000, 19041000000000000, 24416999820000000],
      [5583000180000000, 20442899460000000, 10959000000000000],
      [24416999820000000, 9557100540000000, 19041000000000000]]),
    ("S", [
      [10665000390000000, 745500000000000, 6300900120000000],
      [19335000510000000, 29254499670000000, 23699099430000000],
      [6300900120000000, 10665000390000000, 745500000000000],
      [23699099430000000, 19335000510000000, 29254499670000000],
      [745500000000000, 6300900120000000, 10665000390000000],
      [29254499670000000, 23699099430000000, 19335000510000000]]),
    ("O", [
      [16604999910000000, 6903000180000000, 10214999910000000],
      [13395000090000000, 23096998920000000, 19785000090000000],
      [10214999910000000, 16604999910000000, 6903000180000000],
      [19785000090000000, 13395000090000000, 23096998920000000],
      [6903000180000000, 10214999910000000, 16604999910000000],
      [23096998920000000, 19785000090000000, 13395000090000000],
      [9302999670000000, 29390999070000000, 11175000060000000],
      [20697001230000000, 609000030000000, 18824999940000000],
      [11175000060000000, 9302999670000000, 29390999070000000],
      [18824999940000000, 20697001230000000, 609000030000000],
      [29390999070000000, 11175000060000000, 9302999670000000],
      [609000030000000, 18824999940000000, 20697001230000000],
      [12380999910000000, 26033999910000000, 3570000090000000],
      [17619000090000000, 3966000090000000, 26429999460000000],
      [3570000090000000, 12380999910000000, 26033999910000000],
      [26429999460000000, 17619000090000000, 3966000090000000],
      [26033999910000000, 3570000090000000, 12380999910000000],
      [3966000090000000, 26429999460000000, 17619000090000000]])]

theorem readshR2Y : readsAs examplehR2Y datahR2Y = true := by
  unfold examplehR2Y; rw [String.toList_ofList]; decide +kernel

def datahR2N : ExampleData where
  cell := [[184854484477706523, 0, 0], [-92427242238853263, 160088679561170037, 0], [0, 0, 144373722398633673]]
  groups := [
    ("C", [
      [0, 0, 11336550899999997],
      [19999999999999998, 9999999999999999, 21336550899999996],
      [9999999999999999, 19999999999999998, 1336550899999998]]),
    ("Cu", [
      [0, 0, 6926400000000],
      [19999999999999998, 9999999999999999, 10006926400000002],
      [9999999999999999, 19999999999999998, 20006926400000001]]),
    ("N", [
      [0, 0, 18656522400000003],
      [19999999999999998, 9999999999999999, 28656522400000002],
      [9999999999999999, 19999999999999998, 8656522399999998]])]

theorem readshR2N : readsAs examplehR2N datahR2N = true := by
  unfold examplehR2N; rw [String.toList_ofList]; decide +kernel

def datamP1Y : ExampleData where
  cell := [[88157819768174859, 0, 0], [0, 120447763499999994, 0], [-29427433996994091, 0, 139865995312219845]]
  groups := [
    ("Ti", [
      [18307578899999997, 22500000000000000, 23523226199999997],
      [11692421100000006, 7500000000000000, 6476773800000000]]),
    ("Ni", [
      [28123096200000000, 22500000000000000, 9853139099999997],
      [1876903799999997, 7500000000000000, 20146860900000000]])]

theorem readsmP1Y : readsAs examplemP1Y datamP1Y = true := by
  unfold examplemP1Y; rw [String.toList_ofList]; decide +kernel

def datamP1N : ExampleData where
  cell := [[262800006867000000, 0, 0], [0, 132299995422000000, 0], [-175523620425000000, 0, 248820621540000000]]
  groups := [
    ("Au", [
      [22449000480000000, 14814000420000000, 3729000090000000],
      [22449000480000000, 15185998680000000, 18729000090000000],
      [7380000210000000, 29822999250000000, 26192999490000000],
      [7380000210000000, 177000000000000, 11192999490000000]]),
    ("Te", [
      [28053000570000000, 29585999250000000, 17183999430000000],
      [28053000570000000, 414000000000000, 2183999430000000],
      [16754999760000000, 1560000030000000, 20241000660000000],
      [16754999760000000, 28440000420000000, 5241000660000000],
      [1725000030000000, 13391999610000000, 12626999610000000],
      [1725000030000000, 16608000390000000, 27626999610000000],
      [13089000270000000, 16754999760000000, 9705000210000000],
      [13089000270000000, 13245000240000000, 24705001110000000]])]

theorem readsmP1N : readsAs examplemP1N datamP1N = true := by
  unfold examplemP1N; rw [String.toList_ofList]; decide +kernel

def datamC1Y : ExampleData where
  cell := [[139589996337000000, 0, 0], [0, 102300002574000000, 0], [-25239144201000000, 0, 151147217559000000]]
  groups := [
    ("Cu", [
      [7500000000000000, 7500000000000000, 0],
      [22500000000000000, 22500000000000000, 0],
      [22500000000000000, 7500000000000000, 15000000000000000],
      [7500000000000000, 22500000000000000, 15000000000000000]]),
    ("O", [
      [0, 17519999730000000, 7500000000000000],
      [0, 12480000270000000, 22500000000000000],
      [15000000000000000, 2519999730000000, 7500000000000000],
      [15000000000000000, 27480000270000000, 22500000000000000]])]

theorem readsmC1Y : readsAs examplemC1Y datamC1Y = true := by
  unfold examplemC1Y; rw [String.toList_ofList]; decide +kernel

def datamC1N : ExampleData where
  cell := [[140670003891000000, 0, 0], [0, 102600002289000000, 0], [-25586252982000000, 0, 151758211359000000]]
  groups := [
    ("Cu", [
      [7500000000000000, 6959999790000000, 0],
      [7500000000000000, 23040000210000000, 15000000000000000],
      [22500000000000000, 21959999790000000, 0],
      [22500000000000000, 8040000210000000, 15000000000000000]]),
    ("O", [
      [29189999700000000, 12389999640000000, 7019999910000000],
      [29189999700000000, 17610000360000000, 22019999040000000],
      [14189999700000000, 27389999640000000, 7019999910000000],
      [14189999700000000, 2610000360000000, 22019999040000000]])]

theorem readsmC1N : readsAs examplemC1N datamC1N = true := by
  unfold examplemC1N; rw [String.toList_ofList]; decide +kernel

def datamC2Y : ExampleData where
  cell := [[114779999256000000, 0, 0], [0, 177390003204000000, 0], [-36730900449000000, 0, 178939018437000000]]
  groups := [
    ("Cr", [
      [0, 0, 0],
      [0, 0, 15000000000000000],
      [15000000000000000, 15000000000000000, 0],
      [15000000000000000, 15000000000000000, 15000000000000000]]),
    ("S", [
      [0, 9599999790000000, 7500000000000000],
      [0, 20400000210000000, 22500000000000000],
      [15000000000000000, 24599999790000000, 7500000000000000],
      [15000000000000000, 5400000210000000, 22500000000000000]])]

theorem readsmC2Y : readsAs examplemC2Y datamC2Y = true := by
  unfold examplemC2Y; rw [String.toList_ofList]; decide +kernel

def datamC2N : ExampleData where
  cell := [[133631029223749563, 0, 0], [0, 178324698717318456, 0], [-61948538239029318, 0, 135864968927982498]]
  groups := [
    ("Cu", [
      [0, 8471789550000000, 0],
      [15000000000000000, 23471789550000000, 0]]),
    ("S", [
      [1938795074999997, 29779197975000000, 21589444800000000],
      [28061204925000000, 29779197975000000, 8410555200000000],
      [16938795074999997, 14779197974999997, 21589444800000000],
      [13061204925000003, 14779197974999997, 8410555200000000]])]

theorem readsmC2N : readsAs examplemC2N datamC2N = true := by
  unfold examplemC2N; rw [String.toList_ofList]; decide +kernel

def datamC3Y : ExampleData where
  cell := [[147665184509151474, 0, 0], [0, 151502354999999991, 0], [-58090045781608728, 0, 115329508136211696]]
  groups := [
    ("Hg", [
      [0, 0, 0],
      [15000000000000000, 15000000000000000, 0]]),
    ("O", [
      [15733228200000003, 0, 20476461000000000],
      [14266771800000000, 0, 9523539000000000],
      [733228200000000, 15000000000000000, 20476461000000000],
      [29266771800000000, 15000000000000000, 9523539000000000]])]

theorem readsmC3Y : readsAs examplemC3Y datamC3Y = true := by
  unfold examplemC3Y; rw [String.toList_ofList]; decide +kernel

def datamC3N : ExampleData where
  cell := [[181509083071677483, 0, 0], [0, 174174487330453581, 0], [-40238542437354771, 0, 119511808552399533]]
  groups := [
    ("O", [
      [27614633400000000, 20569582500000000, 12000909900000000],
      [27614633400000000, 9430417500000000, 12000909900000000],
      [12614633400000000, 5569582500000000, 12000909900000000],
      [12614633400000000, 24430417500000000, 12000909900000000]]),
    ("K", [
      [29774857800000000, 0, 28484177400000000],
      [14774857800000000, 15000000000000000, 28484177400000000]]),
    ("N", [
      [14966516849999997, 0, 16701453300000003],
      [29966516849999997, 15000000000000000, 16701453300000003]])]

theorem readsmC3N : readsAs examplemC3N datamC3N = true := by
  unfold examplemC3N; rw [String.toList_ofList]; decide +kernel

def dataaP2Y : ExampleData where
  cell := [[-37469065500000000, 72305892300000006, -33252200400000003], [-116417835599999994, -13734213900000000, 4276292100000000], [-42941538300000003, 76757793300000009, 101869281600000018]]
  groups := [
    ("Cu", [
      [15000000000000000, 15000000000000000, 15000000000000000]]),
    ("Ag", [
      [0, 0, 0]]),
    ("O", [
      [5075592900000000, 10112120100000000, 8506546499999994],
      [24924407099999997, 19887879900000000, 21493453500000003]])]

theorem readsaP2Y : readsAs exampleaP2Y dataaP2Y = true := by
  unfold exampleaP2Y; rw [String.toList_ofList]; decide +kernel

def dataaP2N : ExampleData where
  cell := [[6696009000000006, 118527853800000003, 3261554700000000], [10113067500000000, 2656238400000000, 125717674500000003], [135459812099999991, 5368703700000000, 9484121700000000]]
  groups := [
    ("Tl", [
      [29779248300000000, 29599801200000000, 605680200000000]]),
    ("N", [
      [14078205900000006, 13039691100000006, 17287001100000000]]),
    ("O", [
      [11521341900000006, 12254194200000006, 9551334600000003],
      [19621204200000000, 20106313500000003, 17555984400000000]])]

theorem readsaP2N : readsAs exampleaP2N dataaP2N = true := by
  unfold exampleaP2N; rw [String.toList_ofList]; decide +kernel

def dataaP3Y : ExampleData where
  cell := [[61880669699999994, 78249999900000006, -62877262200000000], [57218950199999997, 88187618999999997, 55969968900000003], [197351483700000000, -96077075400000021, 42077478600000000]]
  groups := [
    ("Ca", [
      [6879872250000000, 28930287150000000, 22624331100000003],
      [23120127750000003, 1069712850000000, 7375668899999997]]),
    ("C", [
      [3883035149999994, 12913401599999994, 1870877550000003],
      [26116964850000006, 17086598400000009, 28129122449999994],
      [13369148249999994, 19077699299999997, 12919046550000006],
      [16630851750000003, 10922300700000003, 17080953449999997]])]

theorem readsaP3Y : readsAs exampleaP3Y dataaP3Y = true := by
  unfold exampleaP3Y; rw [String.toList_ofList]; decide +kernel

def dataaP3N : ExampleData where
  cell := [[-57700633500000045, -104876617199999988, 40093760999999910], [58874994599999991, -76149276300000000, 84024671699999988], [-88991391900000051, 111488426400000006, 191198876999999988]]
  groups := [
    ("Ca", [
      [19609976699999997, 21257116200000009, 9533969400000003],
      [9400217399999988, 10027255800000024, 20538892199999997]]),
    ("P", [
      [29455005000000000, 708178500000006, 15000639300000003]]),
    ("I", [
      [1534800899999988, 28007449500000006, 29926499399999988]])]

theorem readsaP3N : readsAs exampleaP3N dataaP3N = true := by
  unfold exampleaP3N; rw [String.toList_ofList]; decide +kernel

/-- All the files with their numbers. -/
def exampleTable : List ((String × Bool) × List Char × ExampleData) := [
  (("cP1", true), examplecP1Y, datacP1Y),
  (("cP1", false), examplecP1N, datacP1N),
  (("cP2", true), examplecP2Y, datacP2Y),
  (("cP2", false), examplecP2N, datacP2N),
  (("cF1", true), examplecF1Y, datacF1Y),
  (("cF1", false), examplecF1N, datacF1N),
  (("cF2", true), examplecF2Y, datacF2Y),
  (("cF2", false), examplecF2N, datacF2N),
  (("cI1", true), examplecI1Y, datacI1Y),
  (("cI1", false), examplecI1N, datacI1N),
  (("tP1", true), exampletP1Y, datatP1Y),
  (("tP1", false), exampletP1N, datatP1N),
  (("tI1", true), exampletI1Y, datatI1Y),
  (("tI1", false), exampletI1N, datatI1N),
  (("tI2", true), exampletI2Y, datatI2Y),
  (("tI2", false), exampletI2N, datatI2N),
  (("oP1", true), exampleoP1Y, dataoP1Y),
  (("oP1", false), exampleoP1N, dataoP1N),
  (("oF1", true), exampleoF1Y, dataoF1Y),
  (("oF1", false), exampleoF1N, dataoF1N),
  (("oF2", false), exampleoF2N, dataoF2N),
  (("oF3", true), exampleoF3Y, dataoF3Y),
  (("oF3", false), exampleoF3N, dataoF3N),
  (("oI1", true), exampleoI1Y, dataoI1Y),
  (("oI1", false), exampleoI1N, dataoI1N),
  (("oI2", false), exampleoI2N, dataoI2N),
  (("oI3", true), exampleoI3Y, dataoI3Y),
  (("oI3", false), exampleoI3N, dataoI3N),
  (("oC1", true), exampleoC1Y, dataoC1Y),
  (("oC1", false), exampleoC1N, dataoC1N),
  (("oC2", true), exampleoC2Y, dataoC2Y),
  (("oC2", false), exampleoC2N, dataoC2N),
  (("oA1", false), exampleoA1N, dataoA1N),
  (("oA2", false), exampleoA2N, dataoA2N),
  (("hP1", true), examplehP1Y, datahP1Y),
  (("hP1", false), examplehP1N, datahP1N),
  (("hP2", true), examplehP2Y, datahP2Y),
  (("hP2", false), examplehP2N, datahP2N),
  (("hR1", true), examplehR1Y, datahR1Y),
  (("hR1", false), examplehR1N, datahR1N),
  (("hR2", true), examplehR2Y, datahR2Y),
  (("hR2", false), examplehR2N, datahR2N),
  (("mP1", true), examplemP1Y, datamP1Y),
  (("mP1", false), examplemP1N, datamP1N),
  (("mC1", true), examplemC1Y, datamC1Y),
  (("mC1", false), examplemC1N, datamC1N),
  (("mC2", true), examplemC2Y, datamC2Y),
  (("mC2", false), examplemC2N, datamC2N),
  (("mC3", true), examplemC3Y, datamC3Y),
  (("mC3", false), examplemC3N, datamC3N),
  (("aP2", true), exampleaP2Y, dataaP2Y),
  (("aP2", false), exampleaP2N, dataaP2N),
  (("aP3", true), exampleaP3Y, dataaP3Y),
  (("aP3", false), exampleaP3N, dataaP3N)]

theorem exampleTable_reads : ∀ r ∈ exampleTable, readsAs r.2.1 r.2.2 = true := by
  unfold exampleTable
  simp only [List.forall_mem_cons, List.not_mem_nil, false_implies, implies_true, and_true]
  exact ⟨readscP1Y, readscP1N, readscP2Y, readscP2N, readscF1Y, readscF1N, readscF2Y, readscF2N,
    readscI1Y, readscI1N, readstP1Y, readstP1N, readstI1Y, readstI1N, readstI2Y, readstI2N,
    readsoP1Y, readsoP1N, readsoF1Y, readsoF1N, readsoF2N, readsoF3Y, readsoF3N, readsoI1Y,
    readsoI1N, readsoI2N, readsoI3Y, readsoI3N, readsoC1Y, readsoC1N, readsoC2Y, readsoC2N,
    readsoA1N, readsoA2N, readshP1Y, readshP1N, readshP2Y, readshP2N, readshR1Y, readshR1N,
    readshR2Y, readshR2N, readsmP1Y, readsmP1N, readsmC1Y, readsmC1N, readsmC2Y, readsmC2N,
    readsmC3Y, readsmC3N, readsaP2Y, readsaP2N, readsaP3Y, readsaP3N⟩

theorem exampleTable_files : exampleFiles = exampleTable.map fun r => (r.1, r.2.1) := by
  simp only [exampleFiles, exampleTable, List.map_cons, List.map_nil]

end Wulfric
