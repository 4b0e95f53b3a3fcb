import Verif.Lemmas.NiggliCheck
import Verif.Lemmas.NiggliCand

/-! Certificates for the uniqueness of the reduced basis (generated): for each choice of three
short vectors, of the signs and of the types, either the choice contradicts the conditions or the
scalar products agree. A proof is a list of antecedents that must hold and a list of final
certificates; a number `64 i + k + 32` stands for the coefficient `k` of the fact `i`. -/

namespace Spec.Reduced

abbrev Vec3 := ℤ × ℤ × ℤ

/-- The squared length of `p a + q b + r c`. -/
def qf (v : Vec3) : Form :=
  ⟨v.1 * v.1, v.2.1 * v.2.1, v.2.2 * v.2.2, v.2.1 * v.2.2, v.1 * v.2.2, v.1 * v.2.1⟩

/-- Twice the scalar product. -/
def pf (u v : Vec3) : Form :=
  ⟨2 * (u.1 * v.1), 2 * (u.2.1 * v.2.1), 2 * (u.2.2 * v.2.2), u.2.1 * v.2.2 + u.2.2 * v.2.1,
    u.1 * v.2.2 + u.2.2 * v.1, u.1 * v.2.1 + u.2.1 * v.1⟩

def fA : Form := ⟨1, 0, 0, 0, 0, 0⟩
def fB : Form := ⟨0, 1, 0, 0, 0, 0⟩
def fC : Form := ⟨0, 0, 1, 0, 0, 0⟩
def fX : Form := ⟨0, 0, 0, 1, 0, 0⟩
def fE : Form := ⟨0, 0, 0, 0, 1, 0⟩
def fZ : Form := ⟨0, 0, 0, 0, 0, 1⟩

/-- The inequalities among the Niggli conditions, for the lengths of the variables. -/
def facts (t : Bool) (x e z : Form) : List Fact :=
  if t then [(.st, x), (.st, e), (.st, z), (.nn, fB.sub x), (.nn, fA.sub e), (.nn, fA.sub z)]
  else [(.nn, x.smul (-1)), (.nn, e.smul (-1)), (.nn, z.smul (-1)), (.nn, fB.add x),
    (.nn, fA.add e), (.nn, fA.add z), (.nn, (((fA.add fB).add x).add e).add z)]

/-- The special conditions. -/
def imps (t : Bool) (x e z : Form) : List Imp :=
  if t then [(fB.sub x, (e.smul 2).sub z), (fA.sub e, (x.smul 2).sub z),
    (fA.sub z, (x.smul 2).sub e), (fB.sub fA, e.sub x), (fC.sub fB, z.sub e)]
  else [(fB.add x, z), (fA.add e, z), (fA.add z, e),
    ((((fA.add fB).add x).add e).add z, (((fA.smul 2).add (e.smul 2)).add z).smul (-1)),
    (fB.sub fA, x.sub e), (fC.sub fB, e.sub z)]

/-- Two further vectors, products of signs, type of the second basis. -/
abbrev Case := Vec3 × Vec3 × Vec3 × Bool

def detV (u v w : Vec3) : ℤ :=
  u.1 * (v.2.1 * w.2.2 - v.2.2 * w.2.1) - u.2.1 * (v.1 * w.2.2 - v.2.2 * w.1) +
    u.2.2 * (v.1 * w.2.1 - v.2.1 * w.1)

def signs : List Vec3 := [(1, 1, 1), (1, -1, -1), (-1, 1, -1), (-1, -1, 1)]

def cases (t : Bool) (p1 : Vec3) : List Case :=
  (cand t).flatMap fun p2 => (cand t).flatMap fun p3 =>
    if detV p1 p2 p3 * detV p1 p2 p3 = 1 then
      signs.flatMap fun s => [(p2, p3, s, true), (p2, p3, s, false)]
    else []

abbrev RawProof := List (List ℕ) × List (List ℕ)

def decodeCert (l : List ℕ) : Cert := l.map fun n => (n / 64, ((n % 64 : ℕ) : ℤ) - 32)

def decodeUse : List ℕ → ℕ × ℤ × Cert
  | [] => (0, 0, [])
  | n :: l => (n / 64, ((n % 64 : ℕ) : ℤ) - 32, decodeCert l)

def decodeFin : List ℕ → ℤ × Cert
  | [] => (0, [])
  | n :: l => ((n : ℤ) - 32, decodeCert l)

def hyps (t : Bool) (p1 : Vec3) (c : Case) : List Fact :=
  [(.st, fA), (.nn, fB.sub fA), (.nn, fC.sub fB), (.eq, (qf p1).sub fA), (.eq, (qf c.1).sub fB),
    (.eq, (qf c.2.1).sub fC)] ++ facts t fX fE fZ ++
    facts c.2.2.2 ((pf c.1 c.2.1).smul c.2.2.1.1) ((pf p1 c.2.1).smul c.2.2.1.2.1)
      ((pf p1 c.1).smul c.2.2.1.2.2)

def checkCase (t : Bool) (p1 : Vec3) (c : Case) (p : RawProof) : Bool :=
  check (hyps t p1 c) (imps t fX fE fZ ++
    imps c.2.2.2 ((pf c.1 c.2.1).smul c.2.2.1.1) ((pf p1 c.2.1).smul c.2.2.1.2.1)
      ((pf p1 c.1).smul c.2.2.1.2.2))
    [((pf c.1 c.2.1).smul c.2.2.1.1).sub fX, ((pf p1 c.2.1).smul c.2.2.1.2.1).sub fE,
      ((pf p1 c.1).smul c.2.2.1.2.2).sub fZ]
    (p.1.map decodeUse) (p.2.map decodeFin)

def checkAll (t : Bool) (p1 : Vec3) : List Case → List RawProof → Bool
  | [], [] => true
  | c :: cs, p :: ps => checkCase t p1 c p && checkAll t p1 cs ps
  | _, _ => false

theorem checkAll_mem {t : Bool} {p1 : Vec3} {cs : List Case} {ps : List RawProof}
    (h : checkAll t p1 cs ps = true) {c : Case} (hc : c ∈ cs) :
    ∃ p, checkCase t p1 c p = true := by
  induction cs generalizing ps with
  | nil => cases hc
  | cons d cs ih =>
    match ps, h with
    | p :: ps, h =>
      simp only [checkAll, Bool.and_eq_true] at h
      rcases List.mem_cons.1 hc with rfl | hc
      · exact ⟨p, h.1⟩
      · exact ih h.2 hc
    | [], h => simp [checkAll] at h

def proofstrue0 : List RawProof := [
  ([], [[33], [33], [33], [33], [33], [33]]), ([], [[32, 417, 801]]), ([], [[32, 481, 865]]), ([],
  [[32, 417, 801]]), ([], [[32, 417, 801]]), ([], [[32, 481, 865]]), ([], [[32, 417, 801]]), ([],
  [[32, 545, 929]]), ([], [[32, 33, 673, 865]]), ([], [[32, 417, 801, 929]]), ([], [[32, 545,
  929]]), ([], [[32, 33, 673, 865]]), ([], [[32, 417, 673, 737, 801, 865]]), ([[417, 673]], [[32,
  545, 1313]]), ([[97, 1057], [417, 673]], [[33, 1377], [33, 1249], [33, 674], [33, 1058], [33],
  [33]]), ([], [[32, 33, 673, 865]]), ([], [[32, 417, 610, 801]]), ([], [[32, 481, 865, 929]]),
  ([], [[32, 417, 610, 801]]), ([[353, 609]], [[32, 545, 1313]]), ([], [[32, 545, 929]]), ([],
  [[32, 33, 97, 609, 801]]), ([[33, 993], [353, 609]], [[33, 610], [33, 994], [33, 1377], [33,
  1249], [33], [33]]), ([], [[32, 33, 97, 609, 801]]), ([[289, 287], [609, 287]], [[33], [33],
  [33, 1249], [33, 1377], [33, 1377], [33, 1249]]), ([], [[32, 417, 801]]), ([], [[32, 545,
  865]]), ([], [[32, 417, 801]]), ([], [[32, 417, 801]]), ([], [[32, 545, 865]]), ([], [[32, 417,
  801]]), ([], [[32, 481, 929]]), ([[290, 609, 993]], [[32, 865, 1249]]), ([], [[32, 33, 97, 162,
  609, 801]]), ([], [[32, 481, 929]]), ([], [[32, 33, 97, 162, 609, 801]]), ([], [[32, 162, 417,
  610, 801]]), ([[353, 162, 609]], [[32, 481, 1313]]), ([], [[32, 33, 97, 162, 609, 801]]), ([],
  [[32, 481, 929]]), ([], [[32, 33, 737, 865]]), ([], [[32, 417, 801, 929]]), ([], [[32, 481,
  929]]), ([], [[32, 33, 737, 865]]), ([], [[32, 417, 673, 737, 801, 865]]), ([[417, 737]], [[32,
  481, 1313]]), ([[161, 1057], [417, 737], [609, 287]], [[33, 1377], [33, 1249], [33, 673, 737],
  [33, 1505], [33, 738, 1505], [33, 673, 1057]]), ([], [[32, 33, 737, 865]]), ([], [[32, 33, 673,
  929]]), ([], [[32, 417, 801, 865]]), ([], [[32, 545, 865]]), ([], [[32, 33, 673, 929]]), ([[289,
  287, 673], [161, 1121, 1249], [417, 1121, 1249]], [[33, 673, 737, 1505], [33, 737, 1121, 1377],
  [33, 1249], [33, 737, 1121], [33, 673, 737], [33, 1122, 1249]]), ([], [[32, 33, 673, 929]]),
  ([], [[32, 417, 801, 865]]), ([[289, 287, 673], [417, 1121, 1313]], [[32, 33, 673, 1441]]), ([],
  [[32, 545, 674, 865, 929]]), ([], [[32, 33, 97, 162, 609, 801, 865]]), ([], [[32, 162, 609, 865,
  993]]), ([], [[32, 33, 673, 929]]), ([], [[32, 97, 162, 545, 609, 673, 801]]), ([], [[32, 33,
  673, 929]]), ([], [[32, 97, 162, 545, 609, 673, 801]]), ([[290, 609, 673, 1185], [353, 162, 609,
  1313]], [[32, 33, 673, 1441]]), ([], [[32, 33, 737, 865]]), ([], [[32, 417, 673, 737, 801]]),
  ([], [[33, 673, 737], [33, 1057, 1121], [33, 673, 737], [33, 1057, 1121], [33, 673, 737], [33,
  1057, 1121]]), ([], [[32, 33, 673, 929]]), ([], [[32, 417, 673, 737, 801]]), ([], [[32, 33, 673,
  929]]), ([], [[32, 417, 673, 737, 801]]), ([], [[32, 33, 737, 865]]), ([], [[32, 417, 610,
  801]]), ([], [[32, 481, 865, 929]]), ([], [[32, 417, 610, 801]]), ([[353, 609], [673, 287,
  609]], [[32, 481, 1314, 1441]]), ([[609, 287, 609]], [[32, 481, 1249]]), ([], [[32, 33, 97, 609,
  801]]), ([], [[32, 545, 865]]), ([], [[32, 33, 97, 609, 801]]), ([[290, 609, 993]], [[32, 929,
  1249]]), ([], [[32, 33, 97, 162, 609, 801]]), ([], [[32, 481, 865]]), ([], [[32, 33, 97, 162,
  609, 801]]), ([], [[32, 33, 97, 162, 609, 801]]), ([], [[32, 481, 865]]), ([], [[32, 162, 417,
  610, 801]]), ([[353, 162, 609], [674, 609, 993]], [[32, 481, 1313, 1441]]), ([], [[32, 481, 674,
  865]]), ([], [[32, 33, 97, 162, 609, 801, 929]]), ([], [[32, 162, 609, 929, 993]]), ([], [[32,
  33, 673, 865]]), ([], [[32, 97, 162, 545, 609, 673, 801]]), ([[290, 609, 673, 1185], [674, 609,
  673, 1185]], [[32, 33, 673, 1313, 1441]]), ([], [[32, 97, 162, 545, 609, 673, 801]]), ([], [[32,
  33, 673, 865]]), ([], [[32, 97, 481, 609, 737, 801]]), ([[417, 737], [673, 287, 609]], [[32, 33,
  673, 1314, 1441]]), ([], [[32, 97, 481, 609, 737, 801]]), ([], [[32, 33, 673, 865, 929]]), ([],
  [[32, 33, 737, 865]]), ([], [[32, 33, 97, 609, 801, 929]]), ([], [[32, 609, 929, 993]]), ([],
  [[32, 33, 737, 865]]), ([], [[32, 33, 737, 929]]), ([], [[32, 417, 801, 865]]), ([], [[32, 481,
  865]]), ([], [[32, 33, 737, 929]]), ([[161, 1121], [481, 737]], [[33, 1377], [33, 1249], [33],
  [33], [33, 738], [33, 1122]]), ([], [[32, 33, 737, 929]]), ([], [[32, 417, 801, 865]]), ([[481,
  737]], [[32, 481, 1313]]), ([], [[32, 33, 673, 865]]), ([], [[32, 417, 673, 737, 801]]), ([],
  [[33, 673, 737], [33, 1057, 1121], [33, 674], [33, 1058], [33, 738], [33, 1122]]), ([], [[32,
  33, 737, 929]]), ([], [[32, 417, 673, 737, 801]]), ([], [[32, 33, 737, 929]]), ([], [[32, 417,
  673, 737, 801]]), ([], [[32, 33, 673, 865]]), ([], [[32, 97, 481, 609, 737, 801]]), ([[481,
  737], [353, 609, 1313]], [[32, 33, 673, 1313, 1441]]), ([], [[32, 97, 481, 609, 737, 801]]),
  ([], [[32, 33, 737, 929]]), ([], [[32, 609, 865, 993]]), ([], [[32, 33, 737, 929]]), ([], [[32,
  481, 738, 865, 929]]), ([], [[32, 33, 97, 609, 801, 865]])]

theorem proofstrue0_ok : checkAll true (1, 0, 0) (cases true (1, 0, 0)) proofstrue0 = true := by
  decide +kernel

def proofstrue1 : List RawProof := [
  ([[225, 223], [545, 223]], [[33, 1249], [33, 1377], [33, 1377], [33, 1249], [33], [33]]), ([],
  [[32, 417, 865]]), ([], [[32, 417, 865]]), ([], [[32, 481, 801]]), ([], [[32, 481, 801]]), ([],
  [[32, 417, 865]]), ([], [[32, 481, 801]]), ([], [[32, 545, 929]]), ([], [[32, 481, 674, 801]]),
  ([], [[32, 417, 865, 929]]), ([], [[32, 481, 674, 801]]), ([[353, 223, 673]], [[32, 545,
  1313]]), ([], [[32, 545, 929]]), ([], [[32, 33, 673, 801]]), ([[545, 223]], [[32, 417, 673, 737,
  1249]]), ([], [[32, 33, 673, 801]]), ([], [[32, 97, 545, 609, 673, 801, 865]]), ([], [[32, 481,
  801, 929]]), ([], [[32, 545, 929]]), ([], [[32, 33, 97, 609, 865]]), ([], [[32, 97, 481, 609,
  737, 801, 865]]), ([[225, 609, 1057], [417, 97, 609]], [[32, 545, 1441]]), ([[225, 609, 1057]],
  [[32, 98, 737, 801, 1057, 1249]]), ([], [[32, 33, 97, 609, 865]]), ([[225, 223], [545, 223],
  [609, 287]], [[33, 1249], [33, 1377, 1505], [33, 1377], [33, 1249, 1505], [33, 1505], [33, 1249,
  1377]]), ([], [[32, 417, 929]]), ([], [[32, 545, 865]]), ([], [[32, 481, 801]]), ([], [[32, 481,
  801]]), ([], [[32, 545, 865]]), ([], [[32, 481, 801]]), ([], [[32, 417, 929]]), ([[290, 97, 673,
  993]], [[32, 162, 609, 865, 993, 1249]]), ([], [[32, 33, 98, 162, 673, 801]]), ([], [[32, 417,
  929]]), ([], [[32, 33, 98, 162, 673, 801]]), ([], [[32, 97, 162, 417, 609, 673, 801]]), ([[290,
  97, 673, 993], [353, 97, 162, 673]], [[32, 417, 1441]]), ([], [[32, 33, 98, 162, 673, 801]]),
  ([], [[32, 417, 929]]), ([[226, 737, 1057]], [[32, 801, 1249]]), ([], [[32, 33, 98, 737, 865]]),
  ([], [[32, 97, 481, 609, 737, 801, 865]]), ([[417, 98, 737]], [[32, 417, 1313]]), ([], [[32,
  417, 929]]), ([], [[32, 33, 98, 737, 865]]), ([], [[32, 98, 417, 673, 737, 801, 865]]), ([],
  [[32, 417, 929]]), ([], [[32, 481, 674, 801]]), ([], [[32, 417, 865, 929]]), ([], [[32, 481,
  674, 801]]), ([[289, 287, 673], [673, 287, 673]], [[32, 222, 481, 609, 993, 1314, 1441]]),
  ([[289, 287, 673], [609, 287, 673]], [[32, 417, 1377]]), ([], [[32, 33, 673, 801]]), ([], [[32,
  545, 865]]), ([], [[32, 33, 673, 801]]), ([[290, 97, 673, 993]], [[32, 162, 609, 929, 993,
  1249]]), ([], [[32, 33, 98, 162, 673, 801]]), ([], [[32, 417, 865]]), ([], [[32, 33, 98, 162,
  673, 801]]), ([], [[32, 33, 98, 162, 673, 801]]), ([], [[32, 417, 865]]), ([], [[32, 97, 162,
  417, 609, 673, 801]]), ([[290, 97, 673, 993], [353, 97, 162, 673], [674, 97, 673, 993]], [[32,
  33, 97, 162, 993, 1313, 1442, 1569]]), ([], [[32, 417, 610, 865]]), ([], [[32, 33, 98, 162, 673,
  801, 929]]), ([], [[32, 97, 162, 673, 929, 993]]), ([], [[32, 33, 97, 609, 865]]), ([], [[32,
  97, 162, 545, 609, 673, 801]]), ([[290, 98, 609, 673, 1185], [674, 98, 609, 673, 1185]], [[32,
  33, 98, 162, 611, 1185, 1313, 1441]]), ([], [[32, 97, 162, 545, 609, 673, 801]]), ([], [[32, 33,
  97, 609, 865]]), ([], [[32, 97, 609, 929, 1057]]), ([], [[32, 33, 98, 737, 865]]), ([], [[32,
  33, 98, 737, 865]]), ([], [[32, 33, 673, 801, 929]]), ([], [[32, 417, 673, 737, 801]]), ([],
  [[32, 33, 97, 609, 865, 929]]), ([], [[32, 417, 673, 737, 801]]), ([[417, 98, 737], [673, 287,
  673]], [[32, 33, 97, 609, 1314, 1441]]), ([], [[32, 97, 545, 609, 673, 801, 929]]), ([], [[32,
  481, 801, 865]]), ([], [[32, 545, 865]]), ([], [[32, 33, 97, 609, 929]]), ([[225, 609, 1121]],
  [[32, 98, 737, 801, 1121, 1249]]), ([], [[32, 33, 97, 609, 929]]), ([], [[32, 481, 801, 865]]),
  ([[225, 609, 1121], [289, 287, 609], [417, 98, 1121, 1313, 1441]], [[32, 33, 97, 609, 1569]]),
  ([], [[32, 97, 481, 609, 673, 929]]), ([], [[32, 33, 98, 162, 673, 801, 865]]), ([], [[32, 97,
  162, 673, 865, 993]]), ([], [[32, 33, 97, 609, 929]]), ([], [[32, 97, 162, 545, 609, 673,
  801]]), ([], [[32, 33, 97, 609, 929]]), ([], [[32, 97, 162, 545, 609, 673, 801]]), ([[290, 98,
  609, 673, 1185], [353, 162, 609, 1313]], [[32, 33, 97, 609, 1441]]), ([], [[32, 97, 481, 609,
  737, 801]]), ([], [[32, 33, 98, 737, 865]]), ([], [[32, 97, 481, 609, 737, 801]]), ([], [[32,
  33, 97, 609, 929]]), ([[226, 737, 1057]], [[33, 97, 609, 737, 1249], [33, 97, 993, 1121], [33,
  98, 673, 737], [33, 98, 1057, 1121, 1249], [33, 97, 609, 737], [33, 98, 1057, 1121]]), ([],
  [[32, 33, 97, 609, 929]]), ([], [[32, 33, 98, 737, 865]]), ([], [[32, 97, 481, 609, 737, 801]]),
  ([[226, 737, 1121]], [[32, 801, 1249]]), ([], [[32, 33, 98, 737, 929]]), ([], [[32, 481, 801,
  865]]), ([[481, 98, 737]], [[32, 417, 1313]]), ([], [[32, 98, 417, 673, 737, 801, 929]]), ([],
  [[32, 417, 865]]), ([], [[32, 417, 865]]), ([], [[32, 33, 98, 737, 929]]), ([], [[32, 97, 609,
  865, 1121]]), ([], [[32, 33, 98, 737, 929]]), ([], [[32, 98, 417, 738, 865, 929]]), ([], [[32,
  33, 673, 801, 865]]), ([], [[32, 417, 673, 737, 801]]), ([[481, 98, 737], [354, 674, 737, 1121,
  1314]], [[32, 33, 98, 737, 1441]]), ([], [[32, 417, 673, 737, 801]]), ([], [[32, 33, 97, 609,
  865, 929]]), ([], [[32, 97, 481, 609, 737, 801]]), ([], [[32, 33, 98, 737, 929]]), ([], [[32,
  97, 481, 609, 737, 801]]), ([], [[32, 33, 97, 609, 865]]), ([], [[32, 33, 97, 609, 865]]), ([],
  [[32, 97, 481, 609, 737, 801]]), ([[225, 609, 1057]], [[33, 97, 609, 737, 1249], [33, 97, 993,
  1057], [33, 97, 609, 673], [33, 98, 1058, 1249], [33, 98, 738], [33, 98, 1122]]), ([], [[32, 33,
  97, 609, 865]])]

theorem proofstrue1_ok : checkAll true (0, 1, 0) (cases true (0, 1, 0)) proofstrue1 = true := by
  decide +kernel

def proofstrue2 : List RawProof := [
  ([[225, 161, 223], [289, 97, 223], [545, 161, 223]], [[33, 1249, 1377], [33, 1505], [33, 1377,
  1505], [33, 1249], [33, 1249, 1505], [33, 1377]]), ([], [[32, 417, 865]]), ([], [[32, 417,
  865]]), ([], [[32, 545, 801]]), ([], [[32, 545, 801]]), ([], [[32, 417, 865]]), ([], [[32, 545,
  801]]), ([], [[32, 481, 929]]), ([[225, 162, 609, 1057], [290, 97, 609, 1057]], [[32, 801,
  1377]]), ([], [[32, 33, 97, 162, 609, 865]]), ([], [[32, 97, 162, 545, 609, 673, 801, 865]]),
  ([[225, 162, 609, 1057], [417, 97, 162, 609]], [[32, 33, 98, 162, 1057, 1313, 1441]]), ([],
  [[32, 481, 929]]), ([], [[32, 33, 97, 162, 609, 865]]), ([], [[32, 97, 162, 481, 609, 737, 801,
  865]]), ([], [[32, 481, 929]]), ([], [[32, 481, 673, 737, 801]]), ([], [[32, 417, 865, 929]]),
  ([], [[32, 481, 673, 737, 801]]), ([[353, 161, 223, 737]], [[32, 481, 1313]]), ([], [[32, 481,
  929]]), ([], [[32, 33, 737, 801]]), ([[545, 161, 223]], [[32, 417, 673, 737, 1249]]), ([], [[32,
  33, 737, 801]]), ([[225, 161, 223], [289, 97, 223], [545, 161, 223], [609, 97, 223]], [[33,
  1249, 1377], [33, 1505, 1633], [33], [33], [33, 1505, 1633], [33, 1249, 1377]]), ([], [[32, 417,
  929]]), ([], [[32, 481, 865]]), ([], [[32, 545, 801]]), ([], [[32, 545, 801]]), ([], [[32, 481,
  865]]), ([], [[32, 545, 801]]), ([], [[32, 417, 929]]), ([[290, 98, 673, 1057]], [[32, 97, 162,
  609, 801, 1057, 1249]]), ([], [[32, 33, 98, 162, 673, 865]]), ([], [[32, 97, 162, 545, 609, 673,
  801, 865]]), ([[290, 98, 673, 1057], [417, 98, 162, 673]], [[32, 417, 1441]]), ([], [[32, 417,
  929]]), ([], [[32, 33, 98, 162, 673, 865]]), ([], [[32, 98, 162, 417, 673, 737, 801, 865]]),
  ([], [[32, 417, 929]]), ([[225, 737, 993]], [[32, 865, 1249]]), ([], [[32, 33, 98, 737, 801]]),
  ([], [[32, 417, 929]]), ([], [[32, 33, 98, 737, 801]]), ([], [[32, 97, 417, 609, 737, 801]]),
  ([[353, 97, 737]], [[32, 417, 1313]]), ([], [[32, 33, 98, 737, 801]]), ([], [[32, 417, 929]]),
  ([[290, 98, 673, 1121]], [[32, 97, 162, 609, 801, 1121, 1249]]), ([], [[32, 33, 98, 162, 673,
  929]]), ([], [[32, 545, 801, 865]]), ([[290, 98, 673, 1121], [481, 98, 162, 673]], [[32, 417,
  1441]]), ([], [[32, 98, 162, 417, 673, 737, 801, 929]]), ([], [[32, 417, 865]]), ([], [[32, 417,
  865]]), ([], [[32, 33, 98, 162, 673, 929]]), ([[290, 97, 609, 1057]], [[33, 162, 610, 1249],
  [33, 97, 162, 993, 1057], [33, 97, 162, 609, 673], [33, 98, 162, 1057, 1121], [33, 98, 162, 673,
  737], [33, 98, 162, 1122, 1249]]), ([], [[32, 33, 98, 162, 673, 929]]), ([], [[32, 33, 97, 162,
  609, 865]]), ([], [[32, 97, 162, 545, 609, 673, 801]]), ([], [[32, 97, 162, 545, 609, 673,
  801]]), ([], [[32, 33, 97, 162, 609, 865]]), ([], [[32, 97, 162, 545, 609, 673, 801]]), ([],
  [[32, 33, 98, 162, 673, 929]]), ([], [[32, 97, 162, 609, 865, 1121]]), ([], [[32, 33, 98, 162,
  673, 929]]), ([], [[32, 98, 162, 417, 674, 865, 929]]), ([], [[32, 33, 737, 801, 865]]), ([],
  [[32, 417, 673, 737, 801]]), ([[481, 98, 162, 673], [354, 162, 673, 738, 1121, 1314]], [[32, 33,
  98, 162, 673, 1441]]), ([], [[32, 417, 673, 737, 801]]), ([], [[32, 33, 98, 162, 673, 929]]),
  ([[225, 162, 609, 1121], [290, 97, 609, 1121]], [[32, 801, 1377]]), ([], [[32, 33, 97, 162, 609,
  929]]), ([], [[32, 545, 801, 865]]), ([[225, 162, 609, 1121], [417, 98, 162, 1121, 1313]], [[32,
  33, 97, 162, 609, 1441]]), ([], [[32, 97, 162, 481, 609, 737, 801, 929]]), ([], [[32, 481,
  865]]), ([], [[32, 481, 865]]), ([], [[32, 33, 97, 162, 609, 929]]), ([[290, 98, 673, 1057]],
  [[33, 162, 610, 1249], [33, 97, 162, 993, 1121], [33, 98, 162, 674], [33, 98, 162, 1058], [33,
  97, 162, 609, 737], [33, 98, 162, 1057, 1121, 1249]]), ([], [[32, 33, 98, 162, 673, 865]]), ([],
  [[32, 33, 98, 162, 673, 865]]), ([], [[32, 97, 162, 545, 609, 673, 801]]), ([], [[32, 97, 162,
  545, 609, 673, 801]]), ([], [[32, 33, 98, 162, 673, 865]]), ([], [[32, 97, 162, 545, 609, 673,
  801]]), ([], [[32, 33, 97, 162, 609, 929]]), ([], [[32, 97, 481, 609, 737, 801]]), ([], [[32,
  33, 97, 162, 609, 929]]), ([], [[32, 97, 481, 609, 737, 801]]), ([[225, 162, 609, 1121], [353,
  97, 737, 1313]], [[32, 33, 97, 162, 609, 1441]]), ([], [[32, 162, 481, 610, 865, 929]]), ([],
  [[32, 33, 98, 737, 801, 865]]), ([], [[32, 97, 737, 865, 993]]), ([], [[32, 33, 97, 162, 609,
  929]]), ([], [[32, 481, 673, 737, 801]]), ([], [[32, 417, 865, 929]]), ([], [[32, 481, 673, 737,
  801]]), ([[609, 161, 223], [673, 97, 223]], [[32, 33, 161, 223, 609, 738, 1314, 1441]]), ([[545,
  161, 223], [609, 97, 223]], [[32, 417, 1377]]), ([], [[32, 33, 737, 801]]), ([], [[32, 481,
  865]]), ([], [[32, 33, 737, 801]]), ([[225, 737, 993]], [[32, 929, 1249]]), ([], [[32, 33, 98,
  737, 801]]), ([], [[32, 417, 865]]), ([], [[32, 33, 98, 737, 801]]), ([], [[32, 33, 98, 737,
  801]]), ([], [[32, 417, 865]]), ([], [[32, 97, 417, 609, 737, 801]]), ([[609, 737, 993], [673,
  97, 223]], [[32, 33, 100, 673, 738, 1314, 1441]]), ([], [[32, 97, 162, 609, 929, 1057]]), ([],
  [[32, 33, 98, 162, 673, 865]]), ([], [[32, 33, 98, 162, 673, 865]]), ([], [[32, 33, 737, 801,
  929]]), ([], [[32, 417, 673, 737, 801]]), ([], [[32, 33, 98, 162, 673, 865]]), ([], [[32, 417,
  673, 737, 801]]), ([[417, 98, 162, 673], [674, 98, 673, 1057]], [[32, 33, 98, 162, 673, 1313,
  1441]]), ([], [[32, 97, 481, 609, 737, 801]]), ([], [[32, 33, 97, 162, 609, 865]]), ([], [[32,
  97, 481, 609, 737, 801]]), ([[225, 162, 609, 1057], [674, 97, 609, 1057]], [[32, 33, 97, 162,
  609, 1313, 1441]]), ([], [[32, 97, 737, 929, 993]]), ([], [[32, 33, 97, 162, 609, 865]]), ([],
  [[32, 162, 417, 610, 865]]), ([], [[32, 33, 98, 737, 801, 929]])]

theorem proofstrue2_ok : checkAll true (0, 0, 1) (cases true (0, 0, 1)) proofstrue2 = true := by
  decide +kernel

def proofstrue3 : List RawProof := [
  ([], [[32, 481, 674, 929]]), ([], [[32, 417, 801, 865]]), ([[289, 97, 223, 673], [545, 161, 223,
  673]], [[32, 417, 1377]]), ([], [[32, 33, 673, 929]]), ([], [[32, 545, 801]]), ([], [[32, 33,
  673, 929]]), ([], [[32, 545, 801]]), ([[289, 97, 223, 673], [353, 161, 223, 1313]], [[32, 33,
  673, 1441]]), ([], [[32, 545, 674, 801, 929]]), ([], [[32, 33, 97, 162, 609, 801, 865]]), ([],
  [[32, 97, 162, 545, 609, 673, 865]]), ([], [[32, 33, 673, 929]]), ([], [[32, 97, 162, 609, 801,
  1057]]), ([], [[32, 33, 673, 929]]), ([], [[32, 97, 162, 481, 609, 737, 802, 865]]), ([[290,
  609, 673, 1185], [417, 97, 162, 609, 1313]], [[32, 33, 673, 1441]]), ([], [[32, 33, 737, 801]]),
  ([], [[32, 417, 673, 737, 865]]), ([], [[32, 33, 737, 801]]), ([], [[32, 33, 673, 929]]),
  ([[545, 161, 223, 673]], [[33, 673, 738, 1057], [33, 1057, 1121, 1250], [33, 673, 737, 1249],
  [33, 1057, 1121], [33, 673, 737], [33, 1057, 1121, 1249]]), ([], [[32, 33, 673, 929]]), ([],
  [[32, 417, 673, 737, 865]]), ([], [[32, 33, 737, 801]]), ([], [[32, 481, 674, 865]]), ([], [[32,
  417, 801, 929]]), ([[289, 97, 223, 673], [609, 97, 223, 673]], [[32, 417, 673, 737, 1377]]),
  ([], [[32, 33, 673, 865]]), ([], [[32, 545, 801]]), ([[289, 97, 223, 673], [673, 223, 609, 929,
  1313]], [[32, 33, 161, 223, 609, 673, 1313, 1441]]), ([], [[32, 545, 801]]), ([], [[32, 33, 673,
  865]]), ([[290, 98, 673, 1057]], [[32, 97, 162, 609, 929, 1057, 1249]]), ([], [[32, 33, 98, 162,
  673, 865]]), ([], [[32, 33, 98, 162, 673, 865]]), ([], [[32, 417, 801]]), ([], [[32, 417,
  801]]), ([], [[32, 33, 98, 162, 673, 865]]), ([], [[32, 417, 801]]), ([[290, 98, 673, 1057],
  [417, 98, 162, 673], [674, 98, 673, 1057]], [[32, 33, 97, 162, 609, 1313, 1442, 1569]]), ([],
  [[32, 417, 610, 801]]), ([], [[32, 33, 98, 162, 673, 865, 929]]), ([], [[32, 33, 97, 609,
  801]]), ([[290, 98, 609, 673, 1185], [674, 98, 609, 673, 1185]], [[32, 33, 98, 164, 611, 1185,
  1314, 1441]]), ([], [[32, 97, 737, 929, 993]]), ([], [[32, 33, 97, 609, 801]]), ([], [[32, 98,
  162, 673, 865, 1121]]), ([], [[32, 33, 97, 609, 801]]), ([], [[32, 609, 929, 993]]), ([], [[32,
  33, 98, 737, 801]]), ([], [[32, 417, 673, 737, 865]]), ([], [[32, 33, 97, 609, 801, 929]]), ([],
  [[32, 33, 98, 737, 801]]), ([], [[32, 33, 673, 865, 929]]), ([], [[32, 97, 417, 609, 737,
  801]]), ([[353, 97, 737], [673, 97, 223, 673]], [[32, 33, 673, 1314, 1441]]), ([[290, 98, 673,
  1121]], [[32, 97, 162, 609, 865, 1121, 1249]]), ([], [[32, 33, 98, 162, 673, 929]]), ([], [[32,
  98, 162, 417, 673, 737, 865, 929]]), ([], [[32, 417, 801]]), ([], [[32, 417, 801]]), ([[290, 98,
  673, 1121], [481, 98, 162, 673], [353, 97, 162, 1121, 1313, 1441]], [[32, 33, 98, 162, 673,
  1569]]), ([], [[32, 417, 801]]), ([], [[32, 33, 98, 162, 673, 929]]), ([[290, 609, 993]], [[33,
  162, 610], [33, 162, 994], [33, 97, 162, 609, 673, 1249], [33, 99, 164, 737, 993, 1122], [33,
  98, 162, 673, 737], [33, 98, 162, 1122, 1249]]), ([], [[32, 33, 98, 162, 673, 929]]), ([], [[32,
  97, 162, 545, 609, 673, 865]]), ([], [[32, 33, 97, 162, 609, 801]]), ([], [[32, 33, 97, 162,
  609, 801]]), ([], [[32, 97, 162, 545, 609, 673, 865]]), ([], [[32, 33, 97, 162, 609, 801]]),
  ([], [[32, 33, 98, 162, 673, 929]]), ([], [[32, 97, 162, 609, 801, 1121]]), ([], [[32, 33, 98,
  162, 673, 929]]), ([], [[32, 33, 737, 801, 865]]), ([[481, 98, 162, 673]], [[32, 417, 673, 737,
  1313]]), ([], [[32, 98, 162, 417, 674, 801, 929]]), ([], [[32, 33, 737, 801, 865]]), ([], [[32,
  417, 673, 737, 865]]), ([], [[32, 33, 98, 162, 673, 929]]), ([], [[32, 545, 674, 801, 865]]),
  ([], [[32, 33, 97, 162, 609, 801, 929]]), ([], [[32, 97, 162, 545, 609, 673, 929]]), ([], [[32,
  33, 673, 865]]), ([], [[32, 481, 738, 802, 865]]), ([[290, 609, 673, 1185], [417, 673]], [[32,
  33, 97, 162, 609, 1313, 1441]]), ([], [[32, 97, 162, 609, 801, 1121]]), ([], [[32, 33, 673,
  865]]), ([], [[32, 417, 610, 801]]), ([], [[32, 33, 98, 162, 673, 865, 929]]), ([], [[32, 33,
  97, 609, 801]]), ([[290, 98, 609, 673, 1185], [353, 609]], [[32, 33, 97, 162, 609, 1313,
  1441]]), ([], [[32, 98, 162, 673, 929, 1057]]), ([], [[32, 33, 97, 609, 801]]), ([], [[32, 97,
  737, 865, 993]]), ([], [[32, 33, 97, 609, 801]]), ([], [[33, 162, 610], [33, 162, 994], [33, 98,
  162, 674], [33, 98, 162, 1058], [33, 97, 162, 609, 673], [33, 97, 162, 993, 1057]]), ([], [[32,
  33, 98, 162, 673, 865]]), ([], [[32, 33, 98, 162, 673, 865]]), ([], [[32, 33, 97, 162, 609,
  801]]), ([], [[32, 33, 97, 162, 609, 801]]), ([], [[32, 33, 98, 162, 673, 865]]), ([], [[32, 33,
  97, 162, 609, 801]]), ([], [[32, 97, 162, 545, 609, 673, 929]]), ([], [[32, 33, 737, 801]]),
  ([], [[32, 417, 673, 737, 929]]), ([], [[32, 33, 737, 801]]), ([], [[32, 33, 673, 865]]), ([],
  [[32, 33, 673, 865]]), ([], [[32, 33, 737, 801]]), ([[609, 97, 223, 673]], [[33, 673, 738,
  1121], [33, 162, 222, 674, 994, 1249], [33, 674], [33, 1058], [33, 673, 737, 1249], [33, 161,
  223, 673, 993, 1121]]), ([], [[32, 33, 737, 801]]), ([], [[32, 609, 865, 993]]), ([], [[32, 33,
  98, 737, 801]]), ([], [[32, 417, 673, 737, 929]]), ([], [[32, 33, 97, 609, 801, 865]]), ([],
  [[32, 97, 417, 609, 737, 801]]), ([[353, 97, 737]], [[32, 417, 673, 737, 1313]]), ([], [[32, 33,
  98, 737, 801]]), ([], [[32, 33, 673, 865, 929]]), ([], [[32, 97, 162, 609, 801, 1057]]), ([],
  [[32, 33, 98, 162, 673, 865]]), ([], [[32, 162, 481, 610, 802, 865]]), ([[417, 98, 162, 673]],
  [[32, 417, 673, 737, 1313]]), ([], [[32, 417, 673, 737, 929]]), ([], [[32, 33, 98, 162, 673,
  865]]), ([], [[32, 98, 162, 417, 674, 801, 865]]), ([], [[32, 33, 737, 801, 929]])]

theorem proofstrue3_ok : checkAll true (-1, 0, 1) (cases true (-1, 0, 1)) proofstrue3 = true := by
  decide +kernel

def proofstrue4 : List RawProof := [
  ([], [[32, 417, 610, 865]]), ([], [[32, 481, 801, 929]]), ([[225, 609, 1057]], [[32, 98, 737,
  929, 1057, 1249]]), ([], [[32, 33, 97, 609, 865]]), ([], [[32, 545, 801]]), ([[225, 609, 1057],
  [289, 97, 223, 609], [673, 97, 223, 609]], [[32, 33, 97, 609, 1441, 1569]]), ([], [[32, 545,
  801]]), ([], [[32, 33, 97, 609, 865]]), ([[225, 162, 609, 1057], [290, 97, 609, 1057]], [[32,
  929, 1377]]), ([], [[32, 33, 97, 162, 609, 865]]), ([], [[32, 33, 97, 162, 609, 865]]), ([],
  [[32, 481, 801]]), ([], [[32, 481, 801]]), ([], [[32, 33, 97, 162, 609, 865]]), ([], [[32, 481,
  801]]), ([[225, 162, 609, 1057], [674, 97, 609, 1057]], [[32, 33, 98, 162, 737, 1313, 1441]]),
  ([], [[32, 162, 417, 545, 610, 675, 802, 1057]]), ([], [[32, 33, 97, 162, 609, 865, 929]]), ([],
  [[32, 33, 673, 801]]), ([[290, 609, 673, 1185], [674, 609, 673, 1185]], [[32, 33, 97, 162, 609,
  1314, 1441]]), ([], [[32, 97, 162, 609, 929, 1057]]), ([], [[32, 33, 673, 801]]), ([], [[32, 97,
  162, 545, 609, 673, 865]]), ([], [[32, 33, 673, 801]]), ([], [[32, 481, 673, 737, 801]]),
  ([[225, 161, 223, 609], [673, 97, 223, 609]], [[32, 33, 99, 739, 1185, 1314, 1441]]), ([], [[32,
  33, 737, 801]]), ([], [[32, 33, 97, 609, 865, 929]]), ([], [[32, 97, 481, 609, 737, 865]]), ([],
  [[32, 33, 673, 801, 929]]), ([], [[32, 97, 609, 929, 1057]]), ([], [[32, 33, 737, 801]]), ([],
  [[32, 97, 545, 609, 673, 865, 929]]), ([], [[32, 481, 801, 865]]), ([[225, 609, 1121]], [[32,
  98, 737, 865, 1121, 1249]]), ([], [[32, 33, 97, 609, 929]]), ([], [[32, 545, 801]]), ([], [[32,
  33, 97, 609, 929]]), ([], [[32, 545, 801]]), ([[225, 609, 1121], [289, 97, 223, 609], [353, 97,
  1121, 1313, 1441]], [[32, 33, 97, 609, 1569]]), ([], [[32, 545, 610, 801, 929]]), ([], [[32, 33,
  98, 162, 673, 801, 865]]), ([], [[32, 97, 162, 545, 609, 673, 865]]), ([], [[32, 33, 97, 609,
  929]]), ([], [[32, 98, 162, 673, 801, 1057]]), ([], [[32, 33, 97, 609, 929]]), ([], [[32, 98,
  162, 417, 673, 737, 802, 865]]), ([[290, 98, 609, 673, 1185], [417, 97, 162, 609, 1313]], [[32,
  33, 97, 609, 1441]]), ([], [[32, 97, 481, 609, 737, 865]]), ([], [[32, 33, 98, 737, 801]]), ([],
  [[33, 97, 609, 737], [33, 97, 993, 1121], [33, 97, 609, 737], [33, 97, 993, 1121], [33, 97, 609,
  737], [33, 97, 993, 1121]]), ([], [[32, 33, 97, 609, 929]]), ([], [[32, 33, 98, 737, 801]]),
  ([], [[32, 33, 97, 609, 929]]), ([], [[32, 33, 98, 737, 801]]), ([], [[32, 97, 481, 609, 737,
  865]]), ([[225, 162, 609, 1121], [290, 97, 609, 1121]], [[32, 865, 1377]]), ([], [[32, 33, 97,
  162, 609, 929]]), ([], [[32, 97, 162, 481, 609, 737, 865, 929]]), ([], [[32, 481, 801]]), ([],
  [[32, 481, 801]]), ([[225, 162, 609, 1121], [353, 97, 162, 1121, 1313]], [[32, 33, 97, 162, 609,
  1441]]), ([], [[32, 481, 801]]), ([], [[32, 33, 97, 162, 609, 929]]), ([[290, 97, 673, 993]],
  [[33, 97, 162, 609, 673], [33, 97, 162, 993, 1121], [33, 97, 162, 609, 673, 1249], [33, 97, 162,
  993, 1057], [33, 97, 162, 609, 737], [33, 97, 162, 993, 1121, 1249]]), ([], [[32, 33, 97, 162,
  609, 929]]), ([], [[32, 97, 162, 545, 609, 673, 865]]), ([], [[32, 33, 98, 162, 673, 801]]),
  ([], [[32, 33, 98, 162, 673, 801]]), ([], [[32, 97, 162, 545, 609, 673, 865]]), ([], [[32, 33,
  98, 162, 673, 801]]), ([], [[32, 33, 97, 162, 609, 929]]), ([], [[32, 97, 481, 609, 737, 865]]),
  ([], [[32, 33, 97, 162, 609, 929]]), ([], [[32, 162, 481, 610, 801, 929]]), ([], [[32, 33, 98,
  737, 801, 865]]), ([], [[32, 98, 417, 673, 737, 802, 865]]), ([[225, 162, 609, 1121], [417, 98,
  737, 1313]], [[32, 33, 97, 162, 609, 1441]]), ([], [[32, 98, 737, 801, 1057]]), ([], [[32, 33,
  97, 162, 609, 929]]), ([], [[32, 162, 417, 545, 610, 675, 802, 1121]]), ([], [[32, 33, 97, 162,
  609, 865, 929]]), ([], [[32, 33, 673, 801]]), ([[290, 609, 673, 1185], [353, 162, 609, 673,
  1121, 1313]], [[32, 33, 97, 162, 609, 1313, 1441]]), ([], [[32, 97, 162, 545, 609, 673, 929]]),
  ([], [[32, 33, 673, 801]]), ([], [[32, 97, 162, 609, 865, 1121]]), ([], [[32, 33, 673, 801]]),
  ([], [[32, 545, 610, 801, 865]]), ([], [[32, 33, 98, 162, 673, 801, 929]]), ([], [[32, 97, 162,
  545, 609, 673, 929]]), ([], [[32, 33, 97, 609, 865]]), ([], [[32, 98, 417, 738, 802, 865]]),
  ([[290, 98, 609, 673, 1185], [417, 97, 609]], [[32, 33, 97, 162, 609, 1313, 1441]]), ([], [[32,
  98, 737, 801, 1057]]), ([], [[32, 33, 97, 609, 865]]), ([], [[33, 97, 162, 609, 673], [33, 97,
  162, 993, 1057], [33, 97, 162, 609, 673], [33, 97, 162, 993, 1057], [33, 97, 162, 609, 673],
  [33, 97, 162, 993, 1057]]), ([], [[32, 33, 97, 162, 609, 865]]), ([], [[32, 33, 97, 162, 609,
  865]]), ([], [[32, 33, 98, 162, 673, 801]]), ([], [[32, 33, 98, 162, 673, 801]]), ([], [[32, 33,
  97, 162, 609, 865]]), ([], [[32, 33, 98, 162, 673, 801]]), ([], [[32, 97, 162, 545, 609, 673,
  929]]), ([], [[32, 481, 673, 737, 801]]), ([[225, 161, 223, 609], [354, 739, 1121, 1313]], [[32,
  33, 98, 737, 1313, 1441]]), ([], [[32, 33, 737, 801]]), ([], [[32, 33, 97, 609, 865, 929]]),
  ([], [[32, 97, 609, 865, 1121]]), ([], [[32, 33, 737, 801]]), ([], [[32, 97, 481, 609, 737,
  929]]), ([], [[32, 33, 737, 801]]), ([], [[32, 33, 97, 609, 865]]), ([], [[32, 33, 98, 737,
  801]]), ([[225, 737, 993]], [[33, 97, 609, 737], [33, 97, 993, 1057], [33, 97, 609, 673], [33,
  98, 1058, 1249], [33, 98, 738, 1249], [33, 98, 673, 994, 1057]]), ([], [[32, 33, 97, 609,
  865]]), ([], [[32, 33, 98, 737, 801]]), ([], [[32, 97, 481, 609, 737, 929]]), ([], [[32, 33, 98,
  737, 801]]), ([], [[32, 33, 97, 609, 865]]), ([], [[32, 97, 481, 609, 737, 929]]), ([], [[32,
  33, 97, 162, 609, 865]]), ([], [[32, 162, 481, 610, 801, 865]]), ([], [[32, 33, 98, 737, 801,
  929]]), ([], [[32, 98, 162, 673, 801, 1057]]), ([], [[32, 33, 97, 162, 609, 865]]), ([], [[32,
  98, 162, 417, 674, 802, 865]]), ([[225, 162, 609, 1057], [417, 97, 162, 609]], [[32, 33, 98,
  737, 1313, 1441]])]

theorem proofstrue4_ok : checkAll true (0, -1, 1) (cases true (0, -1, 1)) proofstrue4 = true := by
  decide +kernel

def proofstrue5 : List RawProof := [
  ([], [[32, 481, 673, 737, 929]]), ([], [[32, 417, 801, 865]]), ([[545, 223, 737]], [[32, 417,
  1249]]), ([], [[32, 33, 737, 929]]), ([], [[32, 481, 801]]), ([], [[32, 33, 737, 929]]), ([],
  [[32, 481, 801]]), ([[481, 737], [609, 223, 737]], [[32, 417, 1314, 1441]]), ([], [[32, 33, 673,
  801]]), ([], [[32, 417, 673, 737, 865]]), ([], [[32, 33, 673, 801]]), ([], [[32, 33, 737,
  929]]), ([[545, 223, 737]], [[33, 674, 737, 1057], [33, 1057, 1121, 1250], [33, 674, 1249], [33,
  1058, 1249], [33, 738], [33, 1122]]), ([], [[32, 33, 737, 929]]), ([], [[32, 417, 673, 737,
  865]]), ([], [[32, 33, 673, 801]]), ([], [[32, 97, 545, 609, 673, 802, 865]]), ([[225, 223,
  737], [417, 98, 737, 1313]], [[32, 33, 737, 1441]]), ([], [[32, 97, 609, 801, 1057]]), ([],
  [[32, 33, 737, 929]]), ([], [[32, 97, 481, 609, 737, 865]]), ([], [[32, 33, 737, 929]]), ([],
  [[32, 481, 738, 801, 929]]), ([], [[32, 33, 97, 609, 801, 865]]), ([[226, 737, 1121]], [[32,
  865, 1249]]), ([], [[32, 33, 98, 737, 929]]), ([], [[32, 98, 417, 673, 737, 865, 929]]), ([],
  [[32, 417, 801]]), ([], [[32, 417, 801]]), ([[481, 98, 737], [610, 737, 1121]], [[32, 417, 1313,
  1441]]), ([], [[32, 417, 801]]), ([], [[32, 33, 98, 737, 929]]), ([], [[32, 97, 609, 801,
  1121]]), ([], [[32, 33, 98, 737, 929]]), ([], [[32, 33, 673, 801, 865]]), ([[481, 98, 737]],
  [[32, 417, 673, 737, 1313]]), ([], [[32, 98, 417, 738, 801, 929]]), ([], [[32, 33, 673, 801,
  865]]), ([], [[32, 417, 673, 737, 865]]), ([], [[32, 33, 98, 737, 929]]), ([], [[32, 33, 97,
  609, 801]]), ([], [[32, 33, 98, 737, 929]]), ([], [[32, 33, 97, 609, 801]]), ([], [[32, 97, 481,
  609, 737, 865]]), ([], [[32, 97, 481, 609, 737, 865]]), ([], [[32, 33, 97, 609, 801]]), ([],
  [[33, 610], [33, 994], [33, 97, 609, 737], [33, 97, 993, 1121], [33, 98, 738], [33, 98, 1122]]),
  ([], [[32, 33, 98, 737, 929]]), ([], [[32, 481, 673, 737, 865]]), ([], [[32, 417, 801, 929]]),
  ([[609, 287]], [[32, 417, 673, 737, 1249]]), ([], [[32, 33, 737, 865]]), ([], [[32, 481, 801]]),
  ([[673, 287]], [[32, 223, 481, 609, 738, 1313]]), ([], [[32, 481, 801]]), ([], [[32, 33, 737,
  865]]), ([[226, 737, 1057]], [[32, 929, 1249]]), ([], [[32, 33, 98, 737, 865]]), ([], [[32, 33,
  98, 737, 865]]), ([], [[32, 417, 801]]), ([], [[32, 417, 801]]), ([], [[32, 33, 98, 737, 865]]),
  ([], [[32, 417, 801]]), ([[673, 287]], [[32, 98, 417, 673, 737, 1313]]), ([], [[32, 162, 609,
  929, 993]]), ([], [[32, 33, 98, 162, 673, 801]]), ([], [[32, 417, 673, 737, 865]]), ([], [[32,
  33, 98, 162, 673, 801]]), ([], [[32, 33, 98, 162, 673, 801]]), ([], [[32, 33, 737, 865, 929]]),
  ([], [[32, 97, 162, 417, 609, 673, 801]]), ([[353, 97, 162, 673], [674, 97, 673, 993]], [[32,
  33, 737, 1314, 1441]]), ([], [[32, 98, 737, 865, 1121]]), ([], [[32, 33, 98, 162, 673, 801,
  929]]), ([], [[32, 97, 162, 673, 929, 993]]), ([], [[32, 33, 97, 162, 609, 801]]), ([], [[32,
  33, 97, 162, 609, 801]]), ([[226, 162, 609, 737, 1185], [674, 609, 993]], [[32, 33, 98, 737,
  1314, 1441]]), ([], [[32, 162, 417, 610, 801]]), ([], [[32, 33, 98, 737, 865, 929]]), ([], [[32,
  33, 673, 801]]), ([], [[32, 417, 673, 737, 929]]), ([], [[32, 33, 673, 801]]), ([], [[32, 33,
  737, 865]]), ([], [[32, 33, 737, 865]]), ([], [[32, 33, 673, 801]]), ([[609, 287, 673]], [[33,
  674, 737, 1121], [33, 222, 738, 994, 1249], [33, 673, 737], [33, 223, 993], [33, 738, 1249],
  [33, 1057, 1121]]), ([], [[32, 33, 673, 801]]), ([], [[32, 97, 609, 801, 1057]]), ([], [[32, 33,
  98, 737, 865]]), ([], [[32, 545, 610, 802, 865]]), ([[417, 98, 737]], [[32, 417, 673, 737,
  1313]]), ([], [[32, 417, 673, 737, 929]]), ([], [[32, 33, 98, 737, 865]]), ([], [[32, 98, 417,
  738, 801, 865]]), ([], [[32, 33, 673, 801, 929]]), ([], [[32, 162, 609, 865, 993]]), ([], [[32,
  33, 98, 162, 673, 801]]), ([], [[32, 417, 673, 737, 929]]), ([], [[32, 33, 98, 162, 673, 801]]),
  ([], [[32, 97, 162, 417, 609, 673, 801]]), ([[353, 97, 162, 673]], [[32, 417, 673, 737, 1313]]),
  ([], [[32, 33, 98, 162, 673, 801]]), ([], [[32, 33, 737, 865, 929]]), ([], [[32, 545, 674, 802,
  865]]), ([[225, 223, 737], [417, 737]], [[32, 33, 98, 737, 1313, 1441]]), ([], [[32, 97, 609,
  801, 1121]]), ([], [[32, 33, 737, 865]]), ([], [[32, 481, 738, 801, 865]]), ([], [[32, 33, 97,
  609, 801, 929]]), ([], [[32, 97, 481, 609, 737, 929]]), ([], [[32, 33, 673, 801, 865]]), ([],
  [[32, 33, 97, 609, 801]]), ([], [[32, 33, 98, 737, 865]]), ([], [[32, 33, 97, 609, 801]]), ([],
  [[32, 97, 481, 609, 737, 929]]), ([[226, 737, 1057]], [[33, 610], [33, 994], [33, 98, 673, 737],
  [33, 97, 993, 1057, 1249], [33, 98, 738, 1249], [33, 99, 673, 993, 1058]]), ([], [[32, 33, 98,
  737, 865]]), ([], [[32, 33, 98, 737, 865]]), ([], [[32, 33, 97, 609, 801]]), ([], [[32, 98, 737,
  929, 1057]]), ([], [[32, 33, 98, 162, 673, 801, 865]]), ([], [[32, 97, 162, 673, 865, 993]]),
  ([], [[32, 33, 97, 162, 609, 801]]), ([], [[32, 162, 417, 610, 801]]), ([], [[32, 33, 98, 737,
  865, 929]]), ([], [[32, 33, 97, 162, 609, 801]]), ([[226, 162, 609, 737, 1185], [353, 162,
  609]], [[32, 33, 98, 737, 1313, 1441]])]

theorem proofstrue5_ok : checkAll true (-1, 1, 0) (cases true (-1, 1, 0)) proofstrue5 = true := by
  decide +kernel

def proofsfalse0 : List RawProof := [
  ([], [[32, 417, 865]]), ([], [[33], [33], [33], [33], [33], [33]]), ([], [[32, 417, 865]]), ([],
  [[33], [33], [33, 482], [33, 930], [33, 546], [33, 994]]), ([], [[32, 481, 929]]), ([], [[33,
  418], [33, 866], [33], [33], [33, 546], [33, 994]]), ([], [[32, 545, 993]]), ([], [[33, 418],
  [33, 866], [33, 482], [33, 930], [33], [33]]), ([], [[32, 417, 545, 865]]), ([], [[32, 33, 673,
  929]]), ([], [[32, 417, 545, 865]]), ([], [[33, 993], [33, 545], [33, 1122], [33, 674], [33,
  546], [33, 994]]), ([[97, 1121]], [[32, 993, 1313]]), ([], [[32, 33, 673, 929]]), ([], [[32,
  481, 674, 929]]), ([], [[33, 418, 545], [33, 545, 866], [33, 1122], [33, 674], [33], [33]]),
  ([], [[32, 481, 545, 929]]), ([], [[32, 33, 97, 609, 865]]), ([[33, 1057]], [[32, 993, 1313]]),
  ([], [[32, 33, 97, 609, 865]]), ([], [[32, 97, 481, 545, 801, 865]]), ([], [[33, 1058], [33,
  610], [33, 993], [33, 545], [33, 546], [33, 994]]), ([], [[32, 417, 610, 865]]), ([], [[33,
  1058], [33, 610], [33, 482, 545], [33, 545, 930], [33], [33]]), ([], [[32, 545, 993]]), ([],
  [[32, 33, 97, 737, 801, 865, 929]]), ([], [[32, 673, 737, 929]]), ([], [[32, 33, 97, 609, 865,
  993]]), ([], [[32, 97, 481, 801, 865]]), ([], [[32, 33, 673, 929, 993]]), ([], [[32, 97, 481,
  801, 865]]), ([[225, 1249], [609, 801]], [[33, 1250, 1505], [33, 802, 1377], [33, 1377], [33,
  1505], [33], [33]]), ([], [[32, 417, 865]]), ([[353, 287], [737, 287]], [[33], [33], [33, 1505],
  [33, 1377], [33, 1377], [33, 1505]]), ([], [[32, 417, 865]]), ([], [[33], [33], [33, 481, 545],
  [33, 929, 993], [33, 481, 545], [33, 929, 993]]), ([], [[32, 545, 929]]), ([[737, 287]], [[33,
  418], [33, 866], [33, 482, 1377], [33, 546, 1377], [33, 481, 545], [33, 1377]]), ([], [[32, 481,
  993]]), ([[353, 287]], [[33, 418], [33, 866], [33, 482, 1377], [33, 930, 1377], [33, 1377], [33,
  481, 929]]), ([], [[32, 481, 545, 929]]), ([], [[32, 33, 97, 162, 609, 865]]), ([[33, 162,
  1057], [354, 609, 1057]], [[32, 929, 1314, 1441]]), ([], [[32, 33, 97, 162, 609, 865]]), ([],
  [[32, 97, 162, 481, 545, 801, 865]]), ([[33, 162, 1057]], [[33, 162, 1058], [33, 162, 610], [33,
  1377], [33, 545], [33, 481, 545], [33, 993, 1377]]), ([], [[32, 162, 417, 610, 865]]), ([],
  [[33, 162, 1058], [33, 162, 610], [33, 482, 545], [33, 545, 930], [33, 546, 929], [33, 482,
  929]]), ([], [[32, 481, 993]]), ([], [[32, 33, 97, 162, 673, 801, 865, 929]]), ([], [[32, 673,
  737, 929]]), ([], [[32, 33, 97, 162, 609, 865, 993]]), ([], [[32, 97, 162, 545, 801, 865]]),
  ([], [[32, 33, 737, 929, 993]]), ([], [[32, 97, 162, 545, 801, 865]]), ([[225, 162, 1249], [354,
  801, 1249], [609, 162, 801]], [[33, 162, 1250, 1633], [33, 162, 802, 1377, 1505], [33, 1377],
  [33, 1505, 1633], [33, 1505], [33, 1377, 1633]]), ([], [[32, 417, 481, 865]]), ([], [[32, 33,
  737, 929]]), ([], [[32, 417, 481, 865]]), ([[737, 287]], [[32, 33, 481, 737, 1377]]), ([[161,
  1121]], [[32, 993, 1313]]), ([], [[32, 33, 737, 929]]), ([], [[32, 481, 673, 737, 929]]),
  ([[737, 287]], [[32, 33, 417, 737, 865, 1377]]), ([], [[32, 417, 545, 865]]), ([], [[32, 33,
  673, 993]]), ([], [[32, 417, 545, 865]]), ([[353, 287, 673]], [[32, 33, 929, 1185, 1377]]), ([],
  [[32, 545, 929]]), ([[353, 287, 673]], [[32, 33, 417, 865, 1185, 1377]]), ([[97, 1185]], [[32,
  929, 1313]]), ([], [[32, 33, 673, 993]]), ([], [[32, 481, 545, 929]]), ([], [[32, 33, 673,
  993]]), ([], [[32, 481, 546, 993, 1122]]), ([], [[32, 33, 97, 162, 609, 865, 929]]), ([], [[32,
  97, 162, 801, 865]]), ([[354, 545, 609, 1121, 1249]], [[32, 33, 1121, 1186, 1377]]), ([], [[32,
  97, 162, 609, 865, 1121]]), ([], [[32, 34, 545, 929, 993]]), ([[97, 162, 801, 1057], [354, 673,
  801, 1057]], [[32, 34, 162, 609, 1057, 1315, 1442]]), ([], [[32, 33, 97, 162, 673, 801, 865]]),
  ([], [[32, 673, 737, 929]]), ([], [[32, 33, 97, 162, 673, 801, 865]]), ([], [[32, 97, 162, 481,
  674, 801, 865]]), ([[97, 737, 929]], [[32, 33, 673, 929, 1377]]), ([], [[32, 97, 162, 481, 674,
  801, 865]]), ([], [[32, 33, 673, 993]]), ([], [[32, 417, 865, 1121, 1185]]), ([], [[32, 33, 737,
  929]]), ([], [[32, 417, 481, 865, 929]]), ([], [[33, 673, 737], [33, 1121, 1185], [33, 1121,
  1185], [33, 673, 737], [33, 1121, 1185], [33, 673, 737]]), ([], [[32, 481, 674, 993]]), ([],
  [[32, 33, 737, 929]]), ([], [[32, 481, 673, 737, 929]]), ([], [[32, 33, 673, 993]]), ([], [[32,
  545, 929]]), ([], [[32, 33, 97, 609, 865]]), ([[33, 1057]], [[32, 929, 1313]]), ([], [[32, 33,
  97, 609, 865]]), ([], [[32, 417, 610, 865]]), ([], [[33, 1058], [33, 610], [33, 482, 993], [33,
  546, 993], [33, 481, 546], [33, 481, 994]]), ([], [[32, 97, 481, 545, 801, 865]]), ([[353, 287,
  609]], [[33, 1058], [33, 610], [33, 482, 1377], [33, 930, 1377], [33, 929, 1377], [33, 481]]),
  ([], [[32, 481, 929]]), ([], [[32, 33, 97, 162, 609, 865]]), ([[33, 162, 1057], [354, 609,
  1057]], [[32, 929, 1313, 1441]]), ([], [[32, 33, 97, 162, 609, 865]]), ([], [[32, 162, 417, 610,
  865]]), ([], [[33, 162, 1058], [33, 162, 610], [33], [33], [33, 481, 546], [33, 481, 994]]),
  ([], [[32, 97, 162, 481, 545, 801, 865]]), ([], [[33, 162, 1058], [33, 162, 610], [33, 482],
  [33, 930], [33, 929], [33, 481]]), ([], [[32, 481, 545, 993]]), ([], [[32, 33, 673, 929]]), ([],
  [[32, 481, 546, 929, 1186]]), ([], [[32, 33, 97, 162, 609, 865, 993]]), ([], [[32, 97, 162, 609,
  865, 1185]]), ([], [[32, 33, 673, 929]]), ([], [[32, 97, 162, 801, 865]]), ([[354, 545, 609,
  1185, 1249]], [[32, 33, 1122, 1185, 1377]]), ([], [[32, 481, 545, 993]]), ([], [[32, 33, 737,
  929]]), ([], [[32, 482, 545, 929, 1186]]), ([], [[32, 33, 97, 609, 865, 993]]), ([], [[32, 97,
  609, 865, 1185]]), ([], [[32, 33, 737, 929]]), ([], [[32, 97, 801, 865]]), ([[33, 481, 1185,
  1249]], [[32, 33, 1121, 1377]]), ([], [[32, 545, 929]]), ([], [[32, 33, 97, 737, 801, 865,
  993]]), ([], [[32, 673, 737, 993]]), ([], [[32, 33, 97, 609, 865, 929]]), ([], [[32, 97, 481,
  801, 865]]), ([[225, 1249], [609, 801], [737, 287, 801]], [[33, 1250, 1505, 1633], [33, 802,
  1377], [33, 1377, 1633], [33, 1505], [33, 1377, 1505], [33, 1633]]), ([], [[32, 97, 481, 801,
  865]]), ([], [[32, 33, 673, 929, 993]]), ([], [[32, 481, 929]]), ([], [[32, 33, 97, 162, 673,
  801, 865, 993]]), ([], [[32, 673, 737, 993]]), ([], [[32, 33, 97, 162, 609, 865, 929]]), ([],
  [[32, 97, 162, 545, 801, 865]]), ([[225, 162, 1249], [354, 801, 1249], [609, 162, 801], [738,
  801, 1249]], [[33, 162, 1250, 1633, 1761], [33, 162, 802, 1377, 1505], [33], [33], [33, 1377,
  1505], [33, 1633, 1761]]), ([], [[32, 97, 162, 545, 801, 865]]), ([], [[32, 33, 737, 929,
  993]]), ([[97, 162, 801, 1057], [354, 673, 801, 1057]], [[32, 34, 162, 609, 1057, 1315, 1442]]),
  ([], [[32, 33, 97, 162, 673, 801, 865]]), ([], [[32, 481, 674, 929]]), ([], [[32, 33, 97, 162,
  673, 801, 865]]), ([], [[32, 97, 162, 481, 674, 801, 865]]), ([], [[32, 33, 673, 929]]), ([],
  [[32, 97, 162, 481, 674, 801, 865]]), ([[97, 737, 993]], [[32, 33, 673, 993, 1377]]), ([[161,
  801, 1057], [33, 738, 1057, 1313]], [[32, 34, 609, 1057, 1313, 1442]]), ([], [[32, 33, 97, 737,
  801, 865]]), ([], [[32, 481, 673, 737, 929]]), ([], [[32, 33, 97, 737, 801, 865]]), ([], [[32,
  417, 481, 802, 865]]), ([], [[32, 33, 737, 929]]), ([], [[32, 417, 481, 802, 865]]), ([[97, 737,
  993]], [[32, 33, 673, 993, 1377]]), ([], [[32, 417, 481, 865]]), ([], [[32, 33, 737, 993]]),
  ([], [[32, 417, 481, 865]]), ([], [[33, 929], [33, 481], [33, 482], [33, 930], [33, 1186], [33,
  738]]), ([], [[32, 481, 929]]), ([], [[33, 418, 481], [33, 481, 866], [33], [33], [33, 1186],
  [33, 738]]), ([[161, 1185]], [[32, 929, 1313]]), ([], [[32, 33, 737, 993]]), ([], [[32, 417,
  865, 1121, 1185]]), ([], [[32, 33, 673, 929]]), ([], [[32, 417, 545, 865, 929]]), ([], [[33,
  673, 737], [33, 1121, 1185], [33, 1122], [33, 674], [33, 1186], [33, 738]]), ([], [[32, 481,
  673, 737, 993]]), ([], [[32, 33, 673, 929]]), ([], [[32, 481, 674, 929]]), ([], [[32, 33, 737,
  993]]), ([], [[32, 481, 545, 929]]), ([], [[32, 33, 737, 993]]), ([], [[32, 482, 545, 993,
  1122]]), ([], [[32, 33, 97, 609, 865, 929]]), ([], [[32, 97, 801, 865]]), ([[33, 481, 1121,
  1249]], [[32, 33, 1185, 1377]]), ([], [[32, 97, 609, 865, 1121]]), ([], [[32, 34, 481, 929,
  993]]), ([[161, 801, 1057], [33, 738, 1057, 1313]], [[32, 34, 609, 1057, 1313, 1442]]), ([],
  [[32, 33, 97, 737, 801, 865]]), ([], [[32, 673, 737, 929]]), ([], [[32, 33, 97, 737, 801,
  865]]), ([], [[32, 417, 481, 802, 865]]), ([[97, 737, 929]], [[32, 33, 673, 929, 1377]]), ([],
  [[32, 417, 481, 802, 865]]), ([], [[32, 33, 737, 993]])]

theorem proofsfalse0_ok : checkAll false (1, 0, 0) (cases false (1, 0, 0)) proofsfalse0 = true := by
  decide +kernel

def proofsfalse1 : List RawProof := [
  ([], [[32, 481, 865]]), ([[289, 223], [673, 223]], [[33, 1505], [33, 1377], [33, 1377], [33,
  1505], [33], [33]]), ([], [[32, 481, 865]]), ([[673, 223]], [[33, 418, 1377], [33, 482, 1377],
  [33, 417, 481], [33, 1377], [33, 546], [33, 994]]), ([], [[32, 417, 929]]), ([[289, 223]], [[33,
  418, 1377], [33, 866, 1377], [33, 1377], [33, 417, 865], [33, 546], [33, 994]]), ([], [[32, 545,
  993]]), ([], [[33, 417, 481], [33, 865, 929], [33, 417, 481], [33, 865, 929], [33], [33]]), ([],
  [[32, 417, 545, 929]]), ([], [[32, 33, 673, 865]]), ([[97, 223, 1057]], [[32, 993, 1313]]), ([],
  [[32, 33, 673, 865]]), ([], [[32, 481, 674, 865]]), ([[673, 223]], [[33, 993, 1377], [33, 545,
  673, 1121], [33, 1122, 1377], [33, 674, 1377], [33, 546], [33, 994]]), ([], [[32, 481, 674,
  865]]), ([[673, 223]], [[32, 33, 417, 545, 673, 1377]]), ([], [[32, 481, 545, 865]]), ([], [[32,
  33, 97, 609, 929]]), ([], [[32, 481, 545, 865]]), ([[289, 609, 1121]], [[33, 98, 673, 993,
  1121], [33, 545, 1377], [33, 98, 1122, 1377], [33, 97, 545, 801], [33, 546], [33, 994]]), ([[33,
  97, 1121]], [[32, 993, 1313]]), ([], [[32, 33, 97, 609, 929]]), ([], [[32, 97, 481, 545, 801,
  929]]), ([[289, 609, 1121]], [[32, 33, 98, 545, 865, 1121, 1377]]), ([], [[32, 545, 993]]), ([],
  [[32, 33, 97, 737, 801, 865, 929]]), ([], [[32, 97, 481, 801, 929]]), ([], [[32, 33, 97, 801,
  865, 993, 1121]]), ([], [[32, 417, 737, 802, 866, 1121]]), ([], [[32, 33, 97, 609, 929, 993]]),
  ([], [[32, 673, 737, 865]]), ([], [[33, 97, 1249], [33, 223, 801], [33, 223, 1249], [33, 97,
  801], [33], [33]]), ([], [[32, 481, 865]]), ([[289, 223], [673, 223], [737, 287]], [[33, 1505,
  1633], [33, 1377], [33, 1377, 1633], [33, 1505], [33, 1377, 1505], [33, 1633]]), ([], [[32, 481,
  865]]), ([[353, 287]], [[33, 417, 929, 1377], [33, 481, 993], [33, 482, 1377], [33, 930, 1377],
  [33, 417, 481, 1377], [33, 929, 993]]), ([], [[32, 545, 929]]), ([[737, 287]], [[33, 417, 481],
  [33, 545, 865, 1377], [33, 417, 481, 1377], [33, 545, 865], [33, 417, 545], [33, 1377]]), ([],
  [[32, 417, 993]]), ([[289, 223]], [[33, 418, 1377], [33, 866, 1377], [33, 417, 545, 1377], [33,
  865, 929], [33, 545, 865, 1377], [33, 417, 929]]), ([], [[32, 417, 545, 929]]), ([], [[32, 33,
  98, 162, 673, 865]]), ([[354, 97, 673, 1057]], [[32, 97, 164, 801, 993, 1058, 1313]]), ([],
  [[32, 33, 98, 162, 673, 865]]), ([], [[32, 97, 162, 417, 545, 801, 865]]), ([[97, 97, 162,
  1057], [354, 97, 673, 1057]], [[32, 33, 97, 162, 1057, 1377, 1505]]), ([], [[32, 98, 162, 481,
  674, 865]]), ([[354, 97, 673, 1057]], [[32, 33, 97, 162, 417, 929, 1057, 1377]]), ([], [[32,
  417, 993]]), ([], [[32, 33, 98, 162, 609, 801, 865, 929]]), ([], [[32, 97, 481, 801, 929]]),
  ([], [[32, 33, 98, 162, 673, 865, 993]]), ([], [[32, 97, 162, 545, 801, 865]]), ([], [[32, 33,
  98, 737, 929, 993]]), ([], [[32, 97, 162, 545, 801, 865]]), ([[290, 162, 801, 1249], [354, 98,
  801, 1249], [674, 162, 801, 1249], [738, 98, 801, 1249]], [[33, 1633, 1761], [33, 97, 162, 801,
  1377, 1505], [33, 97, 162, 1249], [33, 97, 801], [33, 1377, 1505], [33, 97, 162, 801, 1633,
  1761]]), ([], [[32, 417, 481, 865]]), ([], [[32, 33, 98, 737, 929]]), ([], [[32, 417, 481,
  865]]), ([[737, 287]], [[32, 33, 98, 417, 737, 1377]]), ([[161, 98, 1121], [290, 737, 1121]],
  [[32, 865, 1314, 1441]]), ([], [[32, 33, 98, 737, 929]]), ([], [[32, 97, 417, 481, 801, 929]]),
  ([[737, 287]], [[32, 33, 98, 481, 737, 865, 1377]]), ([], [[32, 545, 929]]), ([], [[32, 33, 673,
  865]]), ([[97, 223, 1057]], [[32, 929, 1313]]), ([], [[32, 33, 673, 865]]), ([], [[32, 481, 674,
  865]]), ([[353, 287, 673]], [[32, 33, 223, 417, 993, 1057, 1377]]), ([], [[32, 481, 674, 865]]),
  ([[353, 287, 673]], [[32, 33, 223, 929, 1057, 1377]]), ([], [[32, 417, 929]]), ([], [[32, 33,
  98, 162, 673, 865]]), ([[354, 97, 673, 1057]], [[32, 97, 164, 801, 929, 1058, 1313]]), ([],
  [[32, 33, 98, 162, 673, 865]]), ([], [[32, 98, 162, 481, 674, 865]]), ([[354, 97, 673, 1057]],
  [[32, 33, 97, 162, 417, 993, 1057, 1377]]), ([], [[32, 97, 162, 417, 545, 801, 865]]), ([[97,
  97, 162, 1057], [354, 97, 673, 1057]], [[32, 33, 97, 162, 1057, 1377, 1505]]), ([], [[32, 417,
  545, 993]]), ([], [[32, 33, 97, 609, 929]]), ([], [[32, 98, 417, 546, 929, 1186]]), ([], [[32,
  33, 98, 162, 673, 865, 993]]), ([], [[32, 97, 162, 801, 865]]), ([], [[32, 33, 97, 609, 929]]),
  ([], [[32, 97, 162, 801, 865]]), ([[354, 98, 545, 801, 1249]], [[32, 33, 99, 162, 1185, 1249,
  1377]]), ([], [[32, 100, 418, 481, 865, 993, 1122]]), ([], [[32, 33, 98, 737, 929]]), ([], [[32,
  98, 418, 545, 929, 1186]]), ([], [[32, 33, 673, 865, 993]]), ([], [[32, 737, 802, 866, 1121]]),
  ([], [[32, 33, 98, 737, 929]]), ([], [[32, 97, 417, 481, 801, 929]]), ([], [[33, 97, 418, 1249],
  [33, 97, 801, 1121, 1185], [34, 417, 1121, 1185, 1250], [33, 97, 417, 801], [33, 98, 1121,
  1185], [33, 417]]), ([], [[32, 481, 545, 865]]), ([], [[32, 33, 97, 609, 993]]), ([], [[32, 481,
  545, 865]]), ([[289, 609, 1185], [353, 287, 609]], [[32, 33, 98, 929, 1185, 1377, 1505]]), ([],
  [[32, 545, 929]]), ([[289, 609, 1185]], [[32, 33, 98, 545, 865, 1185, 1377]]), ([[33, 97,
  1185]], [[32, 929, 1313]]), ([], [[32, 33, 97, 609, 993]]), ([], [[32, 417, 545, 929]]), ([],
  [[32, 33, 97, 609, 993]]), ([], [[32, 98, 417, 546, 993, 1122]]), ([], [[32, 33, 98, 162, 673,
  865, 929]]), ([], [[32, 97, 162, 801, 865]]), ([[354, 99, 545, 673, 1121, 1249]], [[32, 33, 99,
  162, 1121, 1249, 1377]]), ([], [[32, 98, 162, 673, 865, 1121]]), ([], [[32, 34, 98, 545, 929,
  993]]), ([[33, 97, 162, 801, 1057], [354, 97, 609, 801, 1057]], [[32, 33, 97, 162, 610, 1057,
  1314, 1441]]), ([], [[32, 33, 98, 162, 609, 801, 865]]), ([], [[32, 97, 481, 801, 929]]), ([],
  [[32, 33, 98, 162, 609, 801, 865]]), ([], [[32, 98, 162, 481, 545, 802, 865]]), ([], [[33, 97,
  162, 801, 1058], [33, 97, 162, 610, 801], [33, 97, 482, 801], [33, 97, 801, 930], [33, 929],
  [33, 97, 481, 801]]), ([], [[32, 98, 162, 481, 545, 802, 865]]), ([], [[32, 33, 97, 609, 993]]),
  ([], [[32, 98, 481, 865, 1121, 1185]]), ([], [[32, 33, 98, 737, 929]]), ([], [[32, 97, 417, 481,
  801, 929]]), ([[33, 97, 1185]], [[32, 33, 98, 1121, 1377]]), ([], [[32, 97, 801, 865]]), ([],
  [[32, 33, 98, 737, 929]]), ([], [[32, 97, 801, 865]]), ([], [[32, 33, 97, 609, 993]]), ([],
  [[32, 545, 929]]), ([], [[32, 33, 97, 737, 801, 865, 993]]), ([], [[32, 97, 481, 801, 993]]),
  ([], [[32, 33, 97, 801, 865, 929, 1185]]), ([], [[32, 673, 737, 865]]), ([[353, 287, 801], [737,
  287, 801]], [[33, 97, 1249], [33, 223, 801], [33, 223, 1249, 1505], [33, 1377], [33, 223, 1249,
  1377], [33, 1505]]), ([], [[32, 417, 737, 802, 866, 1185]]), ([], [[32, 33, 97, 609, 929,
  993]]), ([], [[32, 417, 929]]), ([], [[32, 33, 98, 162, 609, 801, 865, 993]]), ([], [[32, 97,
  481, 801, 993]]), ([], [[32, 33, 98, 162, 673, 865, 929]]), ([], [[32, 97, 162, 545, 801,
  865]]), ([[290, 162, 801, 1249], [354, 98, 801, 1249], [609, 98, 162, 801]], [[34, 162, 801,
  1251, 1634], [33, 97, 162, 801, 1377, 1505], [33, 1377], [33, 162, 801, 1249, 1505, 1633], [33,
  97, 162, 1249, 1505], [34, 162, 803, 1249, 1378, 1634]]), ([], [[32, 97, 162, 545, 801, 865]]),
  ([], [[32, 33, 98, 737, 929, 993]]), ([[33, 97, 162, 801, 1057], [354, 97, 609, 801, 1057]],
  [[32, 33, 97, 162, 610, 1057, 1314, 1441]]), ([], [[32, 33, 98, 162, 609, 801, 865]]), ([],
  [[32, 97, 481, 545, 801, 929]]), ([], [[32, 33, 98, 162, 609, 801, 865]]), ([], [[32, 98, 162,
  481, 545, 802, 865]]), ([], [[32, 33, 97, 609, 929]]), ([], [[32, 98, 162, 481, 545, 802,
  865]]), ([[33, 97, 737, 993]], [[32, 33, 97, 609, 993, 1377]]), ([[161, 98, 1121]], [[32, 739,
  994, 1058, 1121, 1314]]), ([], [[32, 33, 97, 737, 801, 865]]), ([], [[32, 97, 417, 481, 801,
  929]]), ([], [[32, 33, 97, 737, 801, 865]]), ([], [[32, 417, 481, 802, 865]]), ([], [[32, 33,
  98, 737, 929]]), ([], [[32, 417, 481, 802, 865]]), ([[33, 97, 737, 993]], [[32, 33, 97, 609,
  993, 1377]]), ([], [[32, 417, 481, 865]]), ([], [[32, 33, 98, 737, 993]]), ([], [[32, 417, 481,
  865]]), ([[161, 98, 1185]], [[33, 1377], [33, 481], [33, 417, 481], [33, 929, 1377], [33, 98,
  1186], [33, 98, 738]]), ([], [[32, 417, 929]]), ([], [[33, 418, 481], [33, 481, 866], [33, 482,
  865], [33, 418, 865], [33, 98, 1186], [33, 98, 738]]), ([[161, 98, 1185], [290, 737, 1185]],
  [[32, 865, 1314, 1441]]), ([], [[32, 33, 98, 737, 993]]), ([], [[32, 100, 418, 481, 865, 929,
  1186]]), ([], [[32, 33, 98, 737, 993]]), ([], [[32, 98, 418, 545, 993, 1122]]), ([], [[32, 33,
  673, 865, 929]]), ([], [[32, 417, 545, 929]]), ([], [[33, 97, 418, 1249], [33, 98, 673, 1122,
  1185], [33, 97, 417, 1122, 1249], [33, 98, 417, 673, 1185], [33, 98, 1186], [33, 98, 418,
  1122]]), ([], [[32, 673, 865, 1121]]), ([], [[32, 34, 98, 417, 929, 993]]), ([], [[32, 98, 481,
  865, 1121, 1185]]), ([], [[32, 33, 97, 609, 929]]), ([], [[32, 97, 481, 545, 801, 929]]), ([[33,
  97, 1121]], [[32, 33, 98, 1185, 1377]]), ([], [[32, 97, 801, 865]]), ([], [[32, 33, 97, 609,
  929]]), ([], [[32, 97, 801, 865]]), ([], [[32, 33, 98, 737, 993]]), ([[161, 801, 1057]], [[32,
  739, 930, 1058, 1185, 1314]]), ([], [[32, 33, 97, 737, 801, 865]]), ([], [[32, 97, 481, 801,
  929]]), ([], [[32, 33, 97, 737, 801, 865]]), ([], [[32, 417, 481, 802, 865]]), ([], [[33, 98,
  481, 930], [33, 481, 802], [33, 97, 482, 801], [33, 97, 801, 930], [33, 610, 930], [33, 98,
  738]]), ([], [[32, 417, 481, 802, 865]]), ([], [[32, 33, 98, 737, 993]])]

theorem proofsfalse1_ok : checkAll false (0, 1, 0) (cases false (0, 1, 0)) proofsfalse1 = true := by
  decide +kernel

def proofsfalse2 : List RawProof := [
  ([], [[32, 545, 865]]), ([[289, 161, 223], [353, 97, 223], [673, 161, 223]], [[33, 1633], [33,
  1377, 1505], [33, 1377], [33, 1505, 1633], [33, 1505], [33, 1377, 1633]]), ([], [[32, 545,
  865]]), ([[673, 161, 223]], [[33, 418, 1377], [33, 546, 1377], [33, 417, 481], [33, 545, 993,
  1377], [33, 481, 545], [33, 417, 993, 1377]]), ([], [[32, 417, 929]]), ([[289, 161, 223]], [[33,
  417, 545], [33, 865, 993, 1377], [33, 1377], [33, 417, 993], [33, 417, 545, 1377], [33, 865,
  993]]), ([], [[32, 481, 993]]), ([[353, 97, 223]], [[33, 417, 481, 1377], [33, 865, 929], [33,
  417, 481], [33, 865, 929, 1377], [33, 1377], [33, 481, 865]]), ([], [[32, 481, 545, 865]]), ([],
  [[32, 33, 97, 162, 609, 929]]), ([], [[32, 481, 545, 865]]), ([[289, 162, 609, 1121]], [[32, 33,
  98, 162, 993, 1121, 1377]]), ([[289, 162, 609, 1121], [356, 99, 545, 801, 1122, 1313]], [[32,
  33, 101, 166, 801, 1123, 1314, 1441]]), ([], [[32, 33, 97, 162, 609, 929]]), ([], [[32, 97, 162,
  481, 545, 801, 929]]), ([[289, 162, 609, 1121]], [[32, 33, 98, 162, 545, 865, 1121, 1377]]),
  ([], [[32, 481, 993]]), ([], [[32, 33, 97, 162, 673, 801, 865, 929]]), ([], [[32, 97, 162, 545,
  801, 929]]), ([], [[32, 33, 97, 162, 801, 865, 993, 1121]]), ([], [[32, 162, 417, 673, 802, 866,
  1121]]), ([], [[32, 33, 97, 162, 609, 929, 993]]), ([], [[32, 673, 737, 865]]), ([[354, 801,
  1249], [738, 801, 1249]], [[33, 97, 162, 1249], [33, 162, 802, 1377, 1505], [33, 1505], [33, 97,
  162, 801, 1377], [33, 1377], [33, 97, 162, 801, 1505]]), ([], [[32, 417, 481, 929]]), ([], [[32,
  33, 737, 865]]), ([[161, 161, 223, 1057]], [[32, 993, 1313]]), ([], [[32, 33, 737, 865]]), ([],
  [[32, 481, 673, 737, 865]]), ([[289, 161, 223], [673, 161, 223]], [[32, 33, 737, 994, 1377,
  1505]]), ([], [[32, 417, 481, 737, 865, 1121]]), ([[673, 161, 223]], [[32, 33, 417, 481, 737,
  1377]]), ([], [[32, 545, 865]]), ([[289, 161, 223], [353, 97, 223], [673, 161, 223], [737, 97,
  223]], [[33, 1633, 1761], [33, 1377, 1505], [33], [33], [33, 1377, 1505], [33, 1633, 1761]]),
  ([], [[32, 545, 865]]), ([[673, 161, 223]], [[33, 417, 481, 1377], [33, 545, 993], [33, 482],
  [33, 546, 1378], [33, 417, 545], [33, 481, 993, 1377]]), ([], [[32, 481, 929]]), ([], [[33, 417,
  545], [33, 865, 993], [33], [33], [33, 417, 545], [33, 865, 993]]), ([], [[32, 417, 993]]),
  ([[289, 161, 223]], [[33, 417, 545], [33, 865, 929, 1377], [33, 418, 1378], [33, 930], [33, 545,
  929, 1377], [33, 417, 865]]), ([], [[32, 417, 545, 865]]), ([], [[32, 33, 98, 162, 673, 929]]),
  ([], [[32, 417, 545, 865]]), ([[97, 98, 162, 1121]], [[33, 1377], [33, 545], [33, 98, 162,
  1122], [33, 98, 162, 674], [33, 417, 545], [33, 993, 1377]]), ([[354, 98, 673, 1121]], [[32, 99,
  164, 801, 993, 1122, 1313]]), ([], [[32, 33, 98, 162, 673, 929]]), ([], [[32, 97, 162, 417, 545,
  801, 929]]), ([], [[33, 418, 545], [33, 545, 866], [33, 98, 162, 1122], [33, 98, 162, 674], [33,
  546, 865], [33, 418, 865]]), ([], [[32, 417, 993]]), ([], [[32, 33, 98, 162, 609, 801, 865,
  929]]), ([], [[32, 97, 162, 545, 801, 929]]), ([], [[32, 33, 98, 737, 865, 993]]), ([], [[32,
  97, 481, 801, 865]]), ([], [[32, 33, 98, 162, 673, 929, 993]]), ([], [[32, 97, 481, 801, 865]]),
  ([[290, 162, 801, 1249], [674, 162, 801, 1249], [738, 98, 801, 1249]], [[33, 1505, 1633], [33,
  97, 801, 1377], [33, 1377, 1633], [33, 97, 801, 1505], [33, 98, 801, 1249, 1377, 1505], [33, 97,
  162, 801, 1633]]), ([], [[32, 417, 481, 929]]), ([], [[32, 33, 98, 737, 865]]), ([[161, 97,
  1057], [289, 737, 1057]], [[32, 929, 1314, 1441]]), ([], [[32, 33, 98, 737, 865]]), ([], [[32,
  97, 417, 481, 801, 865]]), ([[161, 97, 1057], [673, 737, 1057]], [[32, 33, 98, 737, 993, 1377,
  1505]]), ([], [[32, 98, 417, 481, 737, 865, 1121]]), ([[673, 737, 1057]], [[32, 33, 98, 417,
  481, 737, 1377]]), ([], [[32, 417, 545, 865]]), ([], [[32, 33, 98, 162, 673, 993]]), ([], [[32,
  417, 545, 865]]), ([[97, 98, 162, 1185], [354, 98, 673, 1185]], [[32, 33, 98, 162, 1185, 1377,
  1505]]), ([], [[32, 417, 929]]), ([[354, 98, 673, 1185]], [[32, 33, 98, 162, 417, 865, 1185,
  1377]]), ([[354, 98, 673, 1185]], [[32, 99, 164, 801, 929, 1186, 1313]]), ([], [[32, 33, 98,
  162, 673, 993]]), ([], [[32, 98, 162, 545, 865, 1121, 1185]]), ([], [[32, 33, 97, 162, 609,
  929]]), ([], [[32, 97, 162, 481, 545, 801, 929]]), ([[356, 99, 545, 801, 1121, 1185]], [[32, 33,
  101, 166, 801, 1121, 1186, 1377]]), ([], [[32, 97, 162, 801, 865]]), ([], [[32, 33, 97, 162,
  609, 929]]), ([], [[32, 97, 162, 801, 865]]), ([], [[32, 33, 98, 162, 673, 993]]), ([[97, 162,
  801, 1057]], [[32, 162, 675, 930, 1058, 1185, 1314]]), ([], [[32, 33, 97, 162, 673, 801, 865]]),
  ([], [[32, 97, 162, 545, 801, 929]]), ([], [[32, 33, 97, 162, 673, 801, 865]]), ([], [[32, 162,
  417, 545, 802, 865]]), ([[354, 97, 545, 801, 929]], [[32, 33, 98, 164, 609, 801, 930, 1377]]),
  ([], [[32, 162, 417, 545, 802, 865]]), ([], [[32, 33, 98, 162, 673, 993]]), ([], [[32, 417, 481,
  929]]), ([], [[32, 33, 98, 162, 673, 993]]), ([], [[32, 98, 162, 418, 481, 993, 1122]]), ([],
  [[32, 33, 737, 865, 929]]), ([], [[32, 417, 481, 929]]), ([], [[33, 97, 162, 418, 1249], [33,
  98, 162, 737, 1122, 1185], [33, 98, 162, 1121, 1185], [33, 417], [34, 162, 417, 1121, 1185,
  1250], [33, 98, 162, 417, 737, 1121]]), ([], [[32, 737, 865, 1121]]), ([], [[32, 34, 98, 162,
  417, 929, 993]]), ([], [[32, 481, 545, 865]]), ([], [[32, 33, 97, 162, 609, 993]]), ([], [[32,
  481, 545, 865]]), ([[289, 162, 609, 1185]], [[32, 33, 98, 162, 929, 1185, 1377]]), ([], [[32,
  481, 929]]), ([[289, 162, 609, 1185]], [[32, 33, 98, 162, 545, 865, 1185, 1377]]), ([[289, 162,
  609, 1185], [356, 99, 545, 801, 1186, 1313]], [[32, 33, 101, 166, 801, 1187, 1314, 1441]]), ([],
  [[32, 33, 97, 162, 609, 993]]), ([], [[32, 98, 162, 545, 865, 1121, 1185]]), ([], [[32, 33, 98,
  162, 673, 929]]), ([], [[32, 97, 162, 417, 545, 801, 929]]), ([[356, 99, 545, 801, 1121, 1185]],
  [[32, 33, 101, 166, 801, 1122, 1185, 1377]]), ([], [[32, 97, 162, 801, 865]]), ([], [[32, 33,
  98, 162, 673, 929]]), ([], [[32, 97, 162, 801, 865]]), ([], [[32, 33, 97, 162, 609, 993]]),
  ([[33, 97, 162, 801, 1057]], [[32, 609, 929, 1057, 1313]]), ([], [[32, 33, 98, 162, 609, 801,
  865]]), ([], [[32, 97, 162, 545, 801, 929]]), ([], [[32, 33, 98, 162, 609, 801, 865]]), ([],
  [[32, 98, 162, 481, 545, 802, 865]]), ([[354, 97, 545, 801, 929]], [[32, 33, 98, 164, 609, 801,
  930, 1377]]), ([], [[32, 98, 162, 481, 545, 802, 865]]), ([], [[32, 33, 97, 162, 609, 993]]),
  ([], [[32, 417, 481, 929]]), ([], [[32, 33, 97, 162, 609, 993]]), ([], [[32, 98, 162, 417, 482,
  993, 1122]]), ([], [[32, 33, 98, 737, 865, 929]]), ([], [[32, 97, 801, 865]]), ([[33, 97, 162,
  1185]], [[32, 33, 99, 162, 481, 1121, 1249, 1377]]), ([], [[32, 98, 737, 865, 1121]]), ([],
  [[32, 34, 98, 162, 481, 929, 993]]), ([], [[32, 481, 929]]), ([], [[32, 33, 97, 162, 673, 801,
  865, 993]]), ([], [[32, 97, 162, 545, 801, 993]]), ([], [[32, 33, 97, 162, 801, 865, 929,
  1185]]), ([], [[32, 673, 737, 865]]), ([], [[33, 97, 162, 1249], [33, 161, 223, 801], [33],
  [33], [33, 161, 223, 1249], [33, 97, 162, 801]]), ([], [[32, 162, 417, 673, 802, 866, 1185]]),
  ([], [[32, 33, 97, 162, 609, 929, 993]]), ([], [[32, 417, 929]]), ([], [[32, 33, 98, 162, 609,
  801, 865, 993]]), ([], [[32, 97, 162, 545, 801, 993]]), ([], [[32, 33, 98, 737, 865, 929]]),
  ([], [[32, 97, 481, 801, 865]]), ([[290, 162, 801, 1249], [609, 98, 162, 801]], [[34, 162, 801,
  1251, 1506], [33, 97, 801, 1377], [33, 1377], [33, 801, 1249, 1505], [33, 97, 1249], [33, 97,
  162, 801]]), ([], [[32, 97, 481, 801, 865]]), ([], [[32, 33, 98, 162, 673, 929, 993]]), ([[97,
  98, 162, 1121]], [[32, 162, 675, 994, 1058, 1121, 1314]]), ([], [[32, 33, 97, 162, 673, 801,
  865]]), ([], [[32, 97, 162, 417, 545, 801, 929]]), ([], [[32, 33, 97, 162, 673, 801, 865]]),
  ([], [[32, 162, 417, 545, 802, 865]]), ([], [[32, 33, 98, 162, 673, 929]]), ([], [[32, 162, 417,
  545, 802, 865]]), ([], [[33, 98, 162, 545, 994], [33, 162, 545, 802], [33, 162, 610, 994], [33,
  98, 162, 674], [33, 97, 162, 546, 801], [33, 97, 162, 801, 994]]), ([[33, 97, 162, 801, 1057]],
  [[32, 609, 993, 1057, 1313]]), ([], [[32, 33, 98, 162, 609, 801, 865]]), ([], [[32, 97, 162,
  481, 545, 801, 929]]), ([], [[32, 33, 98, 162, 609, 801, 865]]), ([], [[32, 98, 162, 481, 545,
  802, 865]]), ([], [[32, 33, 97, 162, 609, 929]]), ([], [[32, 98, 162, 481, 545, 802, 865]]),
  ([], [[33, 98, 164, 545, 674, 995], [33, 97, 162, 610, 801], [33, 993], [33, 97, 162, 545, 801],
  [33, 97, 162, 546, 801], [33, 97, 162, 801, 994]]), ([], [[32, 481, 929]]), ([], [[32, 33, 737,
  865]]), ([[161, 161, 223, 1057]], [[32, 929, 1313]]), ([], [[32, 33, 737, 865]]), ([], [[32,
  417, 481, 737, 865, 1185]]), ([[673, 161, 223]], [[32, 33, 417, 737, 993, 1377]]), ([], [[32,
  481, 673, 737, 865]]), ([[673, 161, 223]], [[32, 33, 481, 737, 1377]]), ([], [[32, 417, 929]]),
  ([], [[32, 33, 98, 737, 865]]), ([[161, 97, 1057], [289, 737, 1057]], [[32, 929, 1313, 1441]]),
  ([], [[32, 33, 98, 737, 865]]), ([], [[32, 98, 417, 481, 737, 865, 1185]]), ([[673, 737, 1057]],
  [[32, 33, 98, 481, 737, 993, 1377]]), ([], [[32, 97, 417, 481, 801, 865]]), ([[673, 737, 1057]],
  [[32, 33, 98, 417, 737, 1377]]), ([], [[32, 417, 481, 993]]), ([], [[32, 33, 98, 162, 673,
  929]]), ([], [[32, 98, 162, 418, 481, 929, 1186]]), ([], [[32, 33, 737, 865, 993]]), ([], [[32,
  162, 673, 802, 866, 1121]]), ([], [[32, 33, 98, 162, 673, 929]]), ([], [[32, 97, 162, 417, 545,
  801, 929]]), ([], [[33, 97, 162, 418, 1249], [33, 97, 162, 801, 1121, 1185], [33, 98, 162,
  1122], [33, 98, 162, 674], [33, 97, 162, 417, 1186, 1249], [33, 99, 164, 418, 801, 1122]]), ([],
  [[32, 417, 481, 993]]), ([], [[32, 33, 97, 162, 609, 929]]), ([], [[32, 98, 162, 417, 482, 929,
  1186]]), ([], [[32, 33, 98, 737, 865, 993]]), ([], [[32, 97, 801, 865]]), ([], [[32, 33, 97,
  162, 609, 929]]), ([], [[32, 97, 801, 865]]), ([[33, 97, 162, 1121]], [[32, 33, 99, 162, 481,
  1185, 1249, 1377]])]

theorem proofsfalse2_ok : checkAll false (0, 0, 1) (cases false (0, 0, 1)) proofsfalse2 = true := by
  decide +kernel

def proofsfalse3 : List RawProof := [
  ([], [[32, 545, 865]]), ([], [[32, 33, 673, 993]]), ([], [[32, 545, 865]]), ([[353, 97, 223,
  673]], [[32, 33, 417, 929, 1185, 1377]]), ([], [[32, 417, 545, 929]]), ([[353, 97, 223, 673]],
  [[32, 33, 865, 1185, 1377]]), ([[97, 1185]], [[32, 865, 1313]]), ([], [[32, 33, 673, 993]]),
  ([], [[32, 481, 545, 865]]), ([], [[32, 33, 673, 993]]), ([], [[32, 481, 545, 865]]), ([[354,
  545, 801, 1249]], [[32, 33, 164, 609, 801, 1250, 1377]]), ([], [[32, 481, 674, 993]]), ([],
  [[32, 33, 97, 162, 609, 865, 929]]), ([], [[32, 97, 162, 801, 929]]), ([], [[32, 34, 545, 865,
  993]]), ([[97, 97, 162, 801, 1121], [354, 97, 673, 801, 1121]], [[32, 33, 97, 162, 801, 1121,
  1313, 1441]]), ([], [[32, 33, 97, 162, 673, 801, 929]]), ([], [[32, 97, 162, 545, 801, 865,
  929]]), ([], [[33, 162, 418, 673, 802, 1121], [33, 162, 673, 802, 866, 1121], [33, 97, 162, 801,
  1122], [33, 97, 162, 674, 801], [33, 865], [33, 162, 417, 673, 802, 1121]]), ([], [[32, 162,
  417, 673, 802, 865, 1121]]), ([], [[32, 33, 97, 162, 673, 801, 929]]), ([], [[32, 673, 737,
  865]]), ([], [[32, 33, 673, 993]]), ([], [[32, 161, 223, 417, 929, 1057]]), ([], [[32, 33, 737,
  865]]), ([], [[32, 481, 674, 993]]), ([], [[32, 33, 737, 865]]), ([], [[32, 481, 673, 737,
  865]]), ([[97, 1185]], [[32, 33, 161, 223, 673, 1057, 1377]]), ([], [[32, 481, 673, 737, 865]]),
  ([], [[32, 33, 673, 993]]), ([], [[32, 545, 865]]), ([], [[32, 33, 673, 929]]), ([], [[32, 545,
  865]]), ([], [[33, 418, 993], [33, 546, 993], [33, 1122], [33, 674], [33, 417, 546], [33, 417,
  994]]), ([[97, 1121]], [[32, 865, 1313]]), ([], [[32, 33, 673, 929]]), ([], [[32, 481, 674,
  929]]), ([[353, 97, 223, 673]], [[32, 33, 865, 1121, 1377]]), ([], [[32, 417, 865]]), ([], [[32,
  33, 98, 162, 673, 929]]), ([], [[32, 417, 865]]), ([], [[33], [33], [33, 98, 162, 1122], [33,
  98, 162, 674], [33, 417, 546], [33, 417, 994]]), ([[354, 98, 673, 1121]], [[32, 99, 164, 801,
  865, 1122, 1313]]), ([], [[32, 33, 98, 162, 673, 929]]), ([], [[32, 97, 162, 417, 545, 801,
  929]]), ([], [[33, 418], [33, 866], [33, 98, 162, 1122], [33, 98, 162, 674], [33, 865], [33,
  417]]), ([], [[32, 417, 545, 993]]), ([], [[32, 33, 97, 609, 865]]), ([], [[32, 97, 162, 801,
  929]]), ([], [[32, 33, 97, 609, 865]]), ([], [[32, 98, 417, 546, 865, 1186]]), ([], [[32, 33,
  98, 162, 673, 929, 993]]), ([], [[32, 97, 481, 545, 801, 865]]), ([[354, 98, 545, 801, 1249]],
  [[32, 33, 99, 162, 1185, 1249, 1377]]), ([], [[32, 98, 418, 481, 929, 993, 1058]]), ([], [[32,
  33, 98, 737, 865]]), ([], [[32, 737, 801, 929, 1057]]), ([], [[32, 33, 98, 737, 865]]), ([],
  [[32, 98, 418, 545, 865, 1186]]), ([], [[32, 33, 673, 929, 993]]), ([], [[32, 97, 417, 481, 801,
  865]]), ([[97, 97, 417, 1185, 1249]], [[32, 33, 97, 1057, 1377]]), ([], [[32, 417, 865]]), ([],
  [[32, 33, 98, 162, 673, 993]]), ([], [[32, 417, 865]]), ([[354, 98, 673, 1185]], [[32, 33, 98,
  162, 417, 929, 1185, 1377]]), ([], [[32, 417, 545, 929]]), ([[354, 98, 673, 1185]], [[33, 418],
  [33, 866], [33, 98, 162, 737, 865, 1185], [33, 417, 1377], [33, 98, 162, 1186, 1377], [33, 97,
  162, 417, 801]]), ([[354, 98, 673, 1185]], [[32, 98, 162, 865, 1121, 1185, 1313]]), ([], [[32,
  33, 98, 162, 673, 993]]), ([], [[32, 97, 162, 545, 929, 1057, 1185]]), ([], [[32, 33, 97, 162,
  609, 865]]), ([], [[32, 97, 162, 801, 929]]), ([], [[32, 33, 97, 162, 609, 865]]), ([], [[32,
  97, 162, 481, 545, 801, 865]]), ([[356, 98, 545, 801, 1057, 1185]], [[32, 33, 100, 166, 801,
  1057, 1186, 1377]]), ([], [[32, 97, 162, 481, 545, 801, 865]]), ([], [[32, 33, 98, 162, 673,
  993]]), ([[97, 97, 162, 801, 1121]], [[32, 673, 865, 1121, 1313]]), ([], [[32, 33, 97, 162, 673,
  801, 929]]), ([], [[32, 97, 162, 481, 674, 801, 929]]), ([[354, 97, 545, 801, 865]], [[32, 33,
  98, 164, 609, 801, 866, 1377]]), ([], [[32, 97, 162, 545, 801, 865]]), ([], [[32, 33, 97, 162,
  673, 801, 929]]), ([], [[32, 97, 162, 545, 801, 865]]), ([], [[32, 33, 98, 162, 673, 993]]),
  ([], [[32, 417, 481, 865]]), ([], [[32, 33, 98, 162, 673, 993]]), ([], [[32, 417, 481, 865]]),
  ([[97, 98, 162, 1185]], [[32, 33, 162, 417, 1057, 1249, 1377]]), ([], [[32, 98, 162, 417, 545,
  929, 993]]), ([], [[32, 33, 737, 865, 929]]), ([], [[32, 162, 673, 802, 930, 1185]]), ([], [[32,
  34, 98, 162, 417, 865, 993]]), ([], [[32, 481, 545, 865]]), ([], [[32, 33, 673, 929]]), ([],
  [[32, 481, 545, 865]]), ([], [[33, 97, 164, 674, 801, 1250], [33, 161, 223, 545, 609], [33, 164,
  610, 1250], [33, 674], [33, 161, 223, 546, 673, 1249], [33, 97, 164, 802, 1249]]), ([], [[32,
  97, 162, 801, 993]]), ([], [[32, 34, 545, 865, 929]]), ([], [[32, 481, 674, 929]]), ([], [[32,
  33, 97, 162, 609, 865, 993]]), ([], [[32, 417, 545, 929]]), ([], [[32, 33, 97, 609, 865]]), ([],
  [[32, 97, 162, 801, 993]]), ([], [[32, 33, 97, 609, 865]]), ([], [[32, 97, 481, 545, 801,
  865]]), ([], [[33, 1058], [33, 98, 546, 1122], [33, 99, 162, 545, 1122, 1249], [33, 97, 546,
  801, 1058], [33, 97, 546, 1249], [33, 98, 162, 801, 1057, 1121]]), ([], [[32, 98, 417, 546, 865,
  1122]]), ([], [[32, 33, 98, 162, 673, 929, 993]]), ([], [[32, 97, 162, 545, 993, 1057, 1121]]),
  ([], [[32, 33, 97, 162, 609, 865]]), ([], [[32, 97, 162, 417, 545, 801, 929]]), ([], [[32, 33,
  97, 162, 609, 865]]), ([], [[32, 97, 162, 481, 545, 801, 865]]), ([], [[32, 33, 98, 162, 673,
  929]]), ([], [[32, 97, 162, 481, 545, 801, 865]]), ([], [[33, 162, 1058], [33, 100, 166, 546,
  802, 1122], [33, 98, 162, 1122], [33, 98, 166, 546, 802, 1058], [33, 97, 162, 545, 801], [33,
  97, 162, 1057, 1121]]), ([], [[32, 545, 801, 994, 1057, 1121]]), ([], [[32, 33, 98, 162, 609,
  801, 865]]), ([], [[32, 162, 417, 545, 802, 929]]), ([], [[32, 33, 98, 162, 609, 801, 865]]),
  ([], [[32, 98, 162, 481, 545, 802, 865]]), ([], [[32, 33, 97, 162, 673, 801, 929]]), ([], [[32,
  98, 162, 481, 545, 802, 865]]), ([], [[33, 97, 162, 801, 1058], [33, 99, 166, 546, 805, 1122],
  [33, 97, 162, 801, 1122], [33, 99, 166, 546, 805, 1058], [33, 97, 162, 609, 673], [33, 97, 162,
  802, 1057, 1121]]), ([[97, 97, 162, 801, 1185], [354, 97, 673, 801, 1185]], [[32, 33, 97, 162,
  801, 1185, 1313, 1441]]), ([], [[32, 33, 673, 929]]), ([], [[32, 545, 865, 929]]), ([], [[33,
  162, 418, 673, 802, 1185], [33, 162, 673, 802, 866, 1185], [33, 98, 164, 802, 1186], [33, 674],
  [33, 673, 865, 1185], [33, 162, 417, 802]]), ([], [[32, 673, 737, 865]]), ([], [[32, 33, 673,
  929]]), ([], [[32, 162, 417, 673, 802, 865, 1185]]), ([], [[32, 33, 97, 162, 673, 801, 993]]),
  ([[97, 98, 162, 1121]], [[32, 673, 865, 1185, 1313]]), ([], [[32, 33, 98, 162, 673, 929]]), ([],
  [[32, 97, 162, 417, 545, 801, 929]]), ([[354, 97, 545, 801, 865]], [[32, 33, 98, 164, 609, 801,
  866, 1377]]), ([], [[32, 97, 162, 545, 801, 865]]), ([], [[32, 33, 98, 162, 673, 929]]), ([],
  [[32, 97, 162, 545, 801, 865]]), ([], [[32, 33, 97, 162, 673, 801, 993]]), ([], [[32, 545, 801,
  930, 1057, 1185]]), ([], [[32, 33, 98, 162, 609, 801, 865]]), ([], [[32, 97, 162, 801, 929]]),
  ([], [[32, 33, 98, 162, 609, 801, 865]]), ([], [[32, 98, 162, 481, 545, 802, 865]]), ([[356, 98,
  545, 803, 1057, 1185]], [[32, 33, 99, 166, 804, 1057, 1186, 1377]]), ([], [[32, 98, 162, 481,
  545, 802, 865]]), ([], [[32, 33, 97, 162, 673, 801, 993]]), ([], [[32, 98, 162, 673, 929,
  1185]]), ([], [[32, 33, 97, 737, 801, 865]]), ([], [[32, 97, 162, 481, 674, 801, 993]]), ([],
  [[32, 33, 97, 737, 801, 865]]), ([], [[32, 417, 481, 802, 865]]), ([[97, 97, 162, 801, 1185]],
  [[32, 33, 801, 1057, 1377]]), ([], [[32, 417, 481, 802, 865]]), ([], [[32, 33, 97, 162, 673,
  801, 993]]), ([], [[32, 161, 223, 417, 993, 1057]]), ([], [[32, 33, 737, 865]]), ([], [[32, 481,
  674, 929]]), ([], [[32, 33, 737, 865]]), ([], [[32, 481, 673, 737, 865]]), ([], [[32, 33, 673,
  929]]), ([], [[32, 481, 673, 737, 865]]), ([[97, 1121]], [[32, 33, 161, 223, 673, 1057, 1377]]),
  ([], [[32, 97, 418, 481, 801, 929, 1058]]), ([], [[32, 33, 98, 737, 865]]), ([], [[32, 737, 801,
  993, 1057]]), ([], [[32, 33, 98, 737, 865]]), ([], [[32, 97, 417, 481, 801, 865]]), ([[97, 97,
  417, 1121, 1249]], [[32, 33, 97, 1057, 1377]]), ([], [[32, 98, 418, 545, 865, 1122]]), ([],
  [[32, 33, 673, 929, 993]]), ([], [[32, 417, 481, 865]]), ([], [[32, 33, 98, 162, 673, 929]]),
  ([], [[32, 417, 481, 865]]), ([[97, 98, 162, 1121]], [[32, 33, 162, 417, 1057, 1249, 1377]]),
  ([], [[32, 162, 673, 802, 994, 1121]]), ([], [[32, 34, 98, 162, 417, 865, 929]]), ([], [[32, 97,
  162, 417, 545, 801, 929]]), ([], [[32, 33, 737, 865, 993]]), ([], [[32, 98, 162, 673, 993,
  1121]]), ([], [[32, 33, 97, 737, 801, 865]]), ([], [[32, 97, 162, 481, 674, 801, 929]]), ([],
  [[32, 33, 97, 737, 801, 865]]), ([], [[32, 417, 481, 802, 865]]), ([], [[32, 33, 97, 162, 673,
  801, 929]]), ([], [[32, 417, 481, 802, 865]]), ([[97, 97, 162, 801, 1121]], [[32, 33, 801, 1057,
  1377]])]

theorem proofsfalse3_ok : checkAll false (1, 0, 1) (cases false (1, 0, 1)) proofsfalse3 = true := by
  decide +kernel

def proofsfalse4 : List RawProof := [
  ([], [[32, 545, 865]]), ([], [[32, 33, 97, 609, 929]]), ([], [[32, 545, 865]]), ([[289, 609,
  1121]], [[32, 33, 98, 545, 993, 1121, 1377]]), ([[33, 97, 1121]], [[32, 865, 1313]]), ([], [[32,
  33, 97, 609, 929]]), ([], [[32, 97, 481, 545, 801, 929]]), ([[289, 609, 1121], [353, 97, 223,
  609]], [[32, 33, 98, 865, 1121, 1377, 1505]]), ([], [[32, 481, 865]]), ([], [[32, 33, 97, 162,
  609, 929]]), ([], [[32, 481, 865]]), ([[289, 162, 609, 1121]], [[32, 33, 98, 162, 545, 993,
  1121, 1377]]), ([[289, 162, 609, 1121], [356, 99, 545, 801, 1122, 1313]], [[32, 33, 101, 166,
  801, 1123, 1314, 1441]]), ([], [[32, 33, 97, 162, 609, 929]]), ([], [[32, 97, 162, 481, 545,
  801, 929]]), ([[289, 162, 609, 1121]], [[32, 33, 98, 162, 865, 1121, 1377]]), ([], [[32, 481,
  545, 993]]), ([], [[32, 33, 673, 865]]), ([], [[32, 97, 162, 609, 929, 1185]]), ([], [[32, 33,
  673, 865]]), ([], [[32, 481, 546, 865, 1186]]), ([], [[32, 33, 97, 162, 609, 929, 993]]), ([],
  [[32, 481, 674, 865]]), ([[354, 545, 609, 1185, 1249]], [[32, 33, 164, 610, 1185, 1250, 1377]]),
  ([], [[32, 481, 545, 993]]), ([], [[32, 33, 737, 865]]), ([], [[32, 97, 609, 929, 1185]]), ([],
  [[32, 33, 737, 865]]), ([], [[32, 482, 545, 865, 1186]]), ([], [[32, 33, 97, 609, 929, 993]]),
  ([], [[32, 481, 673, 737, 865]]), ([], [[33, 97, 1249], [33, 161, 223, 481, 610, 1185], [33,
  161, 223, 482, 609, 1249], [33, 97, 610, 1186, 1249], [33, 609, 1185, 1249], [33, 481]]), ([],
  [[32, 545, 865]]), ([], [[32, 33, 97, 609, 993]]), ([], [[32, 545, 865]]), ([[289, 609, 1185]],
  [[32, 33, 98, 545, 929, 1185, 1377]]), ([], [[32, 481, 545, 929]]), ([[289, 609, 1185], [353,
  97, 223, 609]], [[32, 33, 98, 865, 1185, 1377, 1505]]), ([[33, 97, 1185]], [[32, 865, 1313]]),
  ([], [[32, 33, 97, 609, 993]]), ([], [[32, 417, 545, 865]]), ([], [[32, 33, 97, 609, 993]]),
  ([], [[32, 417, 545, 865]]), ([[354, 98, 545, 801, 1249]], [[32, 33, 98, 162, 1057, 1249,
  1377]]), ([], [[32, 97, 481, 545, 801, 993]]), ([], [[32, 33, 98, 162, 673, 865, 929]]), ([],
  [[32, 97, 162, 801, 929]]), ([], [[32, 34, 98, 545, 865, 993]]), ([[33, 98, 162, 801, 1121],
  [354, 98, 609, 801, 1121]], [[32, 33, 98, 162, 610, 1121, 1314, 1441]]), ([], [[32, 33, 98, 162,
  609, 801, 929]]), ([], [[32, 98, 162, 481, 545, 802, 929]]), ([[33, 97, 737, 865]], [[32, 33,
  97, 609, 865, 1377]]), ([], [[32, 97, 481, 801, 865]]), ([], [[32, 33, 98, 162, 609, 801,
  929]]), ([], [[32, 97, 481, 801, 865]]), ([], [[32, 33, 97, 609, 993]]), ([], [[32, 97, 481,
  929, 1057, 1185]]), ([], [[32, 33, 98, 737, 865]]), ([], [[32, 97, 801, 929]]), ([], [[32, 33,
  98, 737, 865]]), ([], [[32, 97, 417, 481, 801, 865]]), ([], [[33, 97, 1057, 1185], [33, 97, 481,
  801], [33, 97, 481, 801], [33, 97, 1057, 1185], [33, 97, 1057, 1185], [33, 97, 481, 801]]), ([],
  [[32, 97, 417, 481, 801, 865]]), ([], [[32, 33, 97, 609, 993]]), ([], [[32, 481, 865]]), ([],
  [[32, 33, 97, 162, 609, 993]]), ([], [[32, 481, 865]]), ([[289, 162, 609, 1185]], [[32, 33, 98,
  162, 545, 929, 1185, 1377]]), ([], [[32, 481, 545, 929]]), ([[289, 162, 609, 1185]], [[32, 33,
  98, 162, 865, 1185, 1377]]), ([[289, 162, 609, 1185], [354, 98, 545, 1121, 1185, 1313]], [[32,
  33, 100, 164, 1121, 1186, 1314, 1441]]), ([], [[32, 33, 97, 162, 609, 993]]), ([], [[32, 97,
  162, 545, 929, 1057, 1185]]), ([], [[32, 33, 98, 162, 673, 865]]), ([], [[32, 97, 162, 801,
  929]]), ([], [[32, 33, 98, 162, 673, 865]]), ([], [[32, 97, 162, 417, 545, 801, 865]]), ([[356,
  98, 545, 801, 1057, 1185]], [[32, 33, 99, 166, 801, 1058, 1185, 1377]]), ([], [[32, 97, 162,
  417, 545, 801, 865]]), ([], [[32, 33, 97, 162, 609, 993]]), ([[33, 98, 162, 801, 1121]], [[32,
  97, 609, 865, 1121, 1313]]), ([], [[32, 33, 98, 162, 609, 801, 929]]), ([], [[32, 98, 162, 481,
  545, 802, 929]]), ([[354, 97, 545, 801, 865]], [[32, 33, 98, 164, 609, 801, 866, 1377]]), ([],
  [[32, 97, 162, 545, 801, 865]]), ([], [[32, 33, 98, 162, 609, 801, 929]]), ([], [[32, 97, 162,
  545, 801, 865]]), ([], [[32, 33, 97, 162, 609, 993]]), ([], [[32, 417, 481, 865]]), ([], [[32,
  33, 97, 162, 609, 993]]), ([], [[32, 417, 481, 865]]), ([], [[33, 97, 162, 1057, 1185], [33,
  481], [33, 97, 162, 482, 1249], [33, 98, 162, 801, 1057, 1185], [33, 97, 1249], [33, 97, 162,
  481, 801]]), ([], [[32, 97, 162, 481, 545, 801, 993]]), ([], [[32, 33, 98, 737, 865, 929]]),
  ([], [[32, 97, 801, 929]]), ([], [[32, 34, 98, 162, 481, 865, 993]]), ([], [[32, 481, 545,
  929]]), ([], [[32, 33, 673, 865]]), ([], [[32, 97, 162, 609, 993, 1121]]), ([], [[32, 33, 673,
  865]]), ([], [[32, 481, 674, 865]]), ([], [[33, 97, 162, 1249], [33, 161, 223, 545, 610, 1121],
  [33, 162, 609, 1121, 1249], [33, 545], [33, 161, 223, 546, 609, 1249], [33, 97, 164, 610, 1122,
  1249]]), ([], [[32, 481, 546, 865, 1122]]), ([], [[32, 33, 97, 162, 609, 929, 993]]), ([], [[32,
  417, 545, 865]]), ([], [[32, 33, 97, 609, 929]]), ([], [[32, 417, 545, 865]]), ([], [[33, 97,
  1057, 1121], [33, 545], [33, 97, 162, 1249], [33, 97, 545, 801], [33, 97, 546, 1249], [33, 98,
  162, 801, 1057, 1121]]), ([], [[32, 97, 162, 801, 993]]), ([], [[32, 34, 98, 545, 865, 929]]),
  ([], [[32, 97, 481, 545, 801, 929]]), ([], [[32, 33, 98, 162, 673, 865, 993]]), ([], [[32, 97,
  162, 545, 993, 1057, 1121]]), ([], [[32, 33, 98, 162, 673, 865]]), ([], [[32, 97, 162, 481, 545,
  801, 929]]), ([], [[32, 33, 98, 162, 673, 865]]), ([], [[32, 97, 162, 417, 545, 801, 865]]),
  ([], [[32, 33, 97, 162, 609, 929]]), ([], [[32, 97, 162, 417, 545, 801, 865]]), ([], [[33, 97,
  162, 1057, 1121], [33, 97, 162, 545, 801], [33, 97, 162, 1057, 1121], [33, 97, 162, 545, 801],
  [33, 97, 162, 545, 801], [33, 97, 162, 1057, 1121]]), ([], [[32, 545, 801, 994, 1057, 1121]]),
  ([], [[32, 33, 97, 162, 673, 801, 865]]), ([], [[32, 98, 162, 481, 545, 802, 929]]), ([], [[32,
  33, 97, 162, 673, 801, 865]]), ([], [[32, 162, 417, 545, 802, 865]]), ([], [[32, 33, 98, 162,
  609, 801, 929]]), ([], [[32, 97, 162, 481, 674, 801, 865]]), ([], [[33, 98, 162, 801, 1057,
  1121], [33, 162, 545, 802], [33, 162, 801, 1057, 1121], [33, 98, 162, 545, 802], [33, 97, 162,
  609, 673], [33, 97, 162, 802, 1057, 1121]]), ([[33, 97, 1121], [354, 98, 609, 801, 1185]], [[32,
  33, 98, 162, 610, 1185, 1314, 1441]]), ([], [[32, 33, 97, 609, 929]]), ([], [[32, 97, 481, 545,
  801, 929]]), ([[33, 97, 737, 865]], [[32, 33, 97, 609, 865, 1377]]), ([], [[32, 97, 481, 801,
  865]]), ([], [[32, 33, 97, 609, 929]]), ([], [[32, 97, 481, 801, 865]]), ([], [[32, 33, 98, 162,
  609, 801, 993]]), ([[33, 97, 162, 1121]], [[32, 97, 609, 865, 1185, 1313]]), ([], [[32, 33, 97,
  162, 609, 929]]), ([], [[32, 97, 162, 481, 545, 801, 929]]), ([[354, 97, 545, 801, 865]], [[32,
  33, 98, 164, 609, 801, 866, 1377]]), ([], [[32, 97, 162, 545, 801, 865]]), ([], [[32, 33, 97,
  162, 609, 929]]), ([], [[32, 97, 162, 545, 801, 865]]), ([], [[32, 33, 98, 162, 609, 801,
  993]]), ([], [[32, 545, 801, 930, 1057, 1185]]), ([], [[32, 33, 97, 162, 673, 801, 865]]), ([],
  [[32, 97, 162, 801, 929]]), ([], [[32, 33, 97, 162, 673, 801, 865]]), ([], [[32, 97, 162, 481,
  674, 801, 865]]), ([[356, 98, 545, 803, 1057, 1185]], [[32, 33, 98, 166, 804, 1058, 1185,
  1377]]), ([], [[32, 162, 417, 545, 802, 865]]), ([], [[32, 33, 98, 162, 609, 801, 993]]), ([],
  [[32, 97, 162, 609, 929, 1185]]), ([], [[32, 33, 97, 737, 801, 865]]), ([], [[32, 97, 801,
  929]]), ([], [[32, 33, 97, 737, 801, 865]]), ([], [[32, 417, 481, 802, 865]]), ([], [[33, 98,
  162, 801, 1057, 1185], [33, 481, 802], [33, 97, 481, 801], [33, 97, 162, 802, 1057, 1185], [33,
  801, 1057, 1185], [33, 98, 162, 609, 737, 801]]), ([], [[32, 417, 481, 802, 865]]), ([], [[32,
  33, 98, 162, 609, 801, 993]]), ([], [[32, 481, 545, 929]]), ([], [[32, 33, 737, 865]]), ([],
  [[32, 97, 609, 993, 1121]]), ([], [[32, 33, 737, 865]]), ([], [[32, 481, 673, 737, 865]]),
  ([[33, 481, 1121, 1249]], [[32, 33, 609, 1249, 1377]]), ([], [[32, 482, 545, 865, 1122]]), ([],
  [[32, 33, 97, 609, 929, 993]]), ([], [[32, 97, 481, 993, 1057, 1121]]), ([], [[32, 33, 98, 737,
  865]]), ([], [[32, 98, 417, 482, 802, 929, 1058]]), ([], [[32, 33, 98, 737, 865]]), ([], [[32,
  97, 417, 481, 801, 865]]), ([], [[32, 33, 97, 609, 929]]), ([], [[32, 97, 417, 481, 801, 865]]),
  ([[33, 97, 1121]], [[32, 33, 97, 1057, 1377]]), ([], [[32, 417, 481, 865]]), ([], [[32, 33, 97,
  162, 609, 929]]), ([], [[32, 417, 481, 865]]), ([[33, 97, 162, 1121]], [[32, 33, 98, 162, 481,
  1057, 1249, 1377]]), ([], [[32, 97, 801, 993]]), ([], [[32, 34, 98, 162, 481, 865, 929]]), ([],
  [[32, 97, 162, 481, 545, 801, 929]]), ([], [[32, 33, 98, 737, 865, 993]]), ([], [[32, 97, 162,
  609, 993, 1121]]), ([], [[32, 33, 97, 737, 801, 865]]), ([], [[32, 98, 162, 481, 545, 802,
  929]]), ([], [[32, 33, 97, 737, 801, 865]]), ([], [[32, 417, 481, 802, 865]]), ([], [[32, 33,
  98, 162, 609, 801, 929]]), ([], [[32, 417, 481, 802, 865]]), ([[33, 98, 162, 801, 1121]], [[32,
  33, 801, 1057, 1377]])]

theorem proofsfalse4_ok : checkAll false (0, 1, 1) (cases false (0, 1, 1)) proofsfalse4 = true := by
  decide +kernel

def proofsfalse5 : List RawProof := [
  ([], [[32, 545, 865]]), ([], [[32, 33, 97, 737, 801, 929, 993]]), ([], [[32, 545, 865]]),
  ([[289, 161, 223, 801], [353, 97, 223, 801], [673, 161, 223, 801], [737, 97, 223, 801]], [[33,
  97, 1249, 1633, 1761], [33, 1377, 1505], [34, 1250, 1377, 1761], [33, 97, 801], [33, 97, 1249,
  1377, 1505], [33, 1633, 1761]]), ([], [[32, 417, 737, 802, 994, 1121]]), ([], [[32, 33, 97, 609,
  865, 929]]), ([], [[32, 97, 481, 801, 929]]), ([], [[32, 33, 97, 801, 865, 993, 1121]]), ([],
  [[32, 481, 865]]), ([], [[32, 33, 97, 162, 673, 801, 929, 993]]), ([], [[32, 481, 865]]),
  ([[289, 161, 223, 801], [673, 161, 223, 801], [738, 801, 1249]], [[33, 97, 162, 1249, 1505,
  1633], [33, 1377], [33, 97, 162, 1249, 1377, 1633], [33, 1505], [33, 162, 1250, 1377, 1505],
  [33, 97, 162, 801, 1633]]), ([], [[32, 162, 417, 673, 802, 994, 1121]]), ([], [[32, 33, 97, 162,
  609, 865, 929]]), ([], [[32, 97, 162, 545, 801, 929]]), ([], [[32, 33, 97, 162, 801, 865, 993,
  1121]]), ([[97, 97, 162, 801, 1121], [354, 97, 673, 801, 1121]], [[32, 33, 97, 162, 801, 1121,
  1313, 1441]]), ([], [[32, 33, 673, 865]]), ([], [[32, 97, 162, 481, 674, 801, 929]]), ([], [[32,
  33, 673, 865]]), ([], [[32, 481, 674, 865]]), ([], [[32, 33, 97, 162, 673, 801, 929]]), ([],
  [[32, 481, 674, 865]]), ([[97, 97, 162, 801, 1121]], [[32, 33, 673, 993, 1377]]), ([[161, 97,
  801, 1121], [33, 97, 738, 1121, 1313]], [[32, 33, 97, 801, 1121, 1441]]), ([], [[32, 33, 737,
  865]]), ([], [[32, 417, 481, 802, 929]]), ([], [[32, 33, 737, 865]]), ([], [[32, 417, 481, 737,
  802, 865, 1121]]), ([], [[32, 33, 97, 737, 801, 929]]), ([], [[32, 481, 673, 737, 865]]), ([[97,
  737, 993]], [[32, 33, 97, 801, 1121, 1377]]), ([], [[32, 545, 865]]), ([], [[32, 33, 97, 737,
  801, 929, 993]]), ([], [[32, 545, 865]]), ([[289, 161, 223, 801], [353, 97, 223, 801], [609,
  801]], [[33, 1250, 1633], [33, 1377, 1505], [33, 97, 1249, 1377], [33, 161, 223, 1505, 1633],
  [33, 161, 223, 1505], [33, 97, 1249, 1377, 1633]]), ([], [[32, 97, 481, 801, 993]]), ([], [[32,
  33, 97, 801, 865, 929, 1185]]), ([], [[32, 417, 737, 802, 930, 1185]]), ([], [[32, 33, 97, 609,
  865, 993]]), ([], [[32, 417, 865]]), ([], [[32, 33, 98, 162, 609, 801, 929, 993]]), ([], [[32,
  417, 865]]), ([[354, 98, 801, 1249], [738, 98, 801, 1249]], [[33], [33], [33, 97, 162, 1249,
  1505], [33, 97, 162, 801, 1377], [33, 97, 162, 1249, 1377], [33, 97, 162, 801, 1505]]), ([],
  [[32, 97, 481, 801, 993]]), ([], [[32, 33, 98, 162, 673, 865, 929]]), ([], [[32, 97, 162, 545,
  801, 929]]), ([], [[32, 33, 98, 737, 865, 993]]), ([[33, 1057], [354, 98, 609, 801, 1121]],
  [[32, 33, 98, 162, 610, 1121, 1314, 1441]]), ([], [[32, 33, 97, 609, 865]]), ([], [[32, 98, 162,
  481, 545, 802, 929]]), ([], [[32, 33, 97, 609, 865]]), ([], [[32, 97, 481, 545, 801, 865]]),
  ([], [[32, 33, 98, 162, 609, 801, 929]]), ([], [[32, 97, 481, 545, 801, 865]]), ([[33, 97, 737,
  993]], [[32, 33, 97, 609, 993, 1377]]), ([[161, 97, 1057]], [[32, 737, 993, 1121, 1313]]), ([],
  [[32, 33, 98, 737, 865]]), ([], [[32, 417, 481, 802, 929]]), ([], [[32, 33, 98, 737, 865]]),
  ([], [[32, 98, 481, 673, 737, 865]]), ([], [[32, 33, 97, 737, 801, 929]]), ([], [[32, 97, 417,
  481, 801, 865]]), ([[33, 97, 737, 993]], [[32, 33, 97, 609, 993, 1377]]), ([], [[32, 481,
  865]]), ([], [[32, 33, 97, 162, 673, 801, 929, 993]]), ([], [[32, 481, 865]]), ([[289, 161, 223,
  801], [609, 162, 801]], [[33, 162, 1250, 1505], [33, 1377], [33, 97, 162, 1249, 1377], [33, 97,
  222, 801, 1505], [34, 222, 801, 1249], [33, 97, 162, 801]]), ([], [[32, 97, 162, 545, 801,
  993]]), ([], [[32, 33, 97, 162, 801, 865, 929, 1185]]), ([], [[32, 162, 417, 673, 802, 930,
  1185]]), ([], [[32, 33, 97, 162, 609, 865, 993]]), ([], [[32, 417, 865]]), ([], [[32, 33, 98,
  162, 609, 801, 929, 993]]), ([], [[32, 417, 865]]), ([], [[33], [33], [33, 97, 162, 1249], [33,
  97, 801], [33, 97, 1249], [33, 97, 162, 801]]), ([], [[32, 97, 162, 545, 801, 993]]), ([], [[32,
  33, 98, 737, 865, 929]]), ([], [[32, 97, 481, 801, 929]]), ([], [[32, 33, 98, 162, 673, 865,
  993]]), ([[97, 97, 162, 1057]], [[32, 673, 993, 1121, 1313]]), ([], [[32, 33, 98, 162, 673,
  865]]), ([], [[32, 162, 417, 545, 802, 929]]), ([], [[32, 33, 98, 162, 673, 865]]), ([], [[32,
  98, 162, 481, 674, 865]]), ([], [[32, 33, 97, 162, 673, 801, 929]]), ([], [[32, 97, 162, 417,
  545, 801, 865]]), ([], [[33, 993], [33, 97, 162, 545, 801], [33, 98, 164, 545, 610, 995], [33,
  97, 162, 674, 801], [33, 97, 162, 546, 801], [33, 97, 162, 801, 994]]), ([[33, 162, 1057]],
  [[32, 97, 609, 993, 1121, 1313]]), ([], [[32, 33, 97, 162, 609, 865]]), ([], [[32, 98, 162, 481,
  545, 802, 929]]), ([], [[32, 33, 97, 162, 609, 865]]), ([], [[32, 97, 162, 481, 545, 801,
  865]]), ([], [[32, 33, 98, 162, 609, 801, 929]]), ([], [[32, 97, 162, 481, 545, 801, 865]]),
  ([], [[33, 98, 162, 674, 994], [33, 162, 610], [33, 162, 545, 994], [33, 98, 162, 545, 802],
  [33, 97, 162, 546, 801], [33, 97, 162, 801, 994]]), ([[97, 97, 162, 801, 1185], [354, 97, 673,
  801, 1185]], [[32, 33, 97, 162, 801, 1185, 1313, 1441]]), ([], [[32, 33, 673, 865]]), ([], [[32,
  673, 737, 929]]), ([], [[32, 33, 673, 865]]), ([], [[32, 481, 674, 865]]), ([[97, 97, 162, 801,
  1185]], [[32, 33, 673, 929, 1377]]), ([], [[32, 481, 674, 865]]), ([], [[32, 33, 97, 162, 673,
  801, 993]]), ([[97, 97, 162, 1057]], [[32, 673, 929, 1185, 1313]]), ([], [[32, 33, 98, 162, 673,
  865]]), ([], [[32, 97, 162, 545, 801, 929]]), ([], [[32, 33, 98, 162, 673, 865]]), ([], [[32,
  97, 162, 417, 545, 801, 865]]), ([[354, 97, 545, 801, 929]], [[32, 33, 98, 164, 609, 801, 930,
  1377]]), ([], [[32, 98, 162, 481, 674, 865]]), ([], [[32, 33, 97, 162, 673, 801, 993]]), ([],
  [[32, 97, 545, 801, 866, 1121, 1185]]), ([], [[32, 33, 98, 162, 609, 801, 929]]), ([], [[32, 98,
  162, 481, 545, 802, 929]]), ([[356, 99, 545, 803, 1121, 1185]], [[32, 33, 100, 166, 804, 1121,
  1186, 1377]]), ([], [[32, 97, 162, 801, 865]]), ([], [[32, 33, 98, 162, 609, 801, 929]]), ([],
  [[32, 97, 162, 801, 865]]), ([], [[32, 33, 97, 162, 673, 801, 993]]), ([], [[32, 98, 737, 865,
  1121]]), ([], [[32, 33, 97, 737, 801, 929]]), ([], [[32, 98, 417, 481, 866, 929]]), ([], [[33,
  417, 737, 802, 1121], [33, 98, 162, 802, 1121, 1185], [33, 97, 162, 801, 1121, 1185], [33, 417,
  802], [33, 97, 801, 1121, 1185], [33, 162, 417, 802]]), ([], [[32, 737, 802, 865, 1121]]), ([],
  [[32, 33, 97, 737, 801, 929]]), ([], [[32, 162, 673, 802, 865, 1185]]), ([], [[32, 33, 97, 162,
  673, 801, 993]]), ([[33, 1057], [354, 98, 609, 801, 1185]], [[32, 33, 98, 162, 610, 1185, 1314,
  1441]]), ([], [[32, 33, 97, 609, 865]]), ([], [[32, 97, 481, 801, 929]]), ([], [[32, 33, 97,
  609, 865]]), ([], [[32, 97, 481, 545, 801, 865]]), ([], [[33, 98, 738, 930], [33, 610], [33, 97,
  482, 801], [33, 97, 801, 930], [33, 97, 609, 929, 1185], [33, 98, 162, 481, 802]]), ([], [[32,
  97, 481, 545, 801, 865]]), ([], [[32, 33, 98, 162, 609, 801, 993]]), ([[33, 162, 1057]], [[32,
  97, 609, 929, 1185, 1313]]), ([], [[32, 33, 97, 162, 609, 865]]), ([], [[32, 97, 162, 545, 801,
  929]]), ([], [[32, 33, 97, 162, 609, 865]]), ([], [[32, 97, 162, 481, 545, 801, 865]]), ([[354,
  97, 545, 801, 929]], [[32, 33, 98, 164, 609, 801, 930, 1377]]), ([], [[32, 97, 162, 481, 545,
  801, 865]]), ([], [[32, 33, 98, 162, 609, 801, 993]]), ([], [[32, 97, 545, 801, 866, 1121,
  1185]]), ([], [[32, 33, 97, 162, 673, 801, 929]]), ([], [[32, 97, 162, 481, 674, 801, 929]]),
  ([[356, 99, 545, 803, 1121, 1185]], [[32, 33, 100, 166, 804, 1122, 1185, 1377]]), ([], [[32, 97,
  162, 801, 865]]), ([], [[32, 33, 97, 162, 673, 801, 929]]), ([], [[32, 97, 162, 801, 865]]),
  ([], [[32, 33, 98, 162, 609, 801, 993]]), ([], [[32, 162, 481, 867, 1121, 1185]]), ([], [[32,
  33, 97, 737, 801, 929]]), ([], [[32, 417, 481, 802, 929]]), ([[33, 98, 162, 801, 1185]], [[32,
  33, 97, 801, 1121, 1377]]), ([], [[32, 97, 801, 865]]), ([], [[32, 33, 97, 737, 801, 929]]),
  ([], [[32, 97, 801, 865]]), ([], [[32, 33, 98, 162, 609, 801, 993]]), ([[161, 97, 801, 1185],
  [33, 97, 738, 1185, 1313]], [[32, 33, 97, 801, 1185, 1441]]), ([], [[32, 33, 737, 865]]), ([],
  [[32, 673, 737, 929]]), ([], [[32, 33, 737, 865]]), ([], [[32, 481, 673, 737, 865]]), ([[97,
  737, 929]], [[32, 33, 97, 801, 1185, 1377]]), ([], [[32, 417, 481, 737, 802, 865, 1185]]), ([],
  [[32, 33, 97, 737, 801, 993]]), ([[161, 97, 1057]], [[32, 737, 929, 1185, 1313]]), ([], [[32,
  33, 98, 737, 865]]), ([], [[32, 97, 481, 801, 929]]), ([], [[32, 33, 98, 737, 865]]), ([], [[32,
  97, 417, 481, 801, 865]]), ([], [[33, 929], [33, 97, 481, 801], [33, 97, 482, 801], [33, 97,
  801, 930], [33, 98, 481, 610, 931], [33, 97, 738, 801]]), ([], [[32, 98, 481, 673, 737, 865]]),
  ([], [[32, 33, 97, 737, 801, 993]]), ([], [[32, 98, 162, 673, 865, 1121]]), ([], [[32, 33, 97,
  162, 673, 801, 929]]), ([], [[32, 98, 162, 417, 545, 866, 929]]), ([], [[33, 162, 417, 673, 802,
  1121], [33, 98, 162, 802, 1121, 1185], [33, 97, 162, 801, 1122], [33, 97, 162, 674, 801], [33,
  97, 801, 1186], [33, 97, 164, 418, 805, 1122]]), ([], [[32, 162, 673, 802, 865, 1121]]), ([],
  [[32, 33, 97, 162, 673, 801, 929]]), ([], [[32, 737, 802, 865, 1185]]), ([], [[32, 33, 97, 737,
  801, 993]]), ([], [[32, 97, 162, 609, 865, 1121]]), ([], [[32, 33, 98, 162, 609, 801, 929]]),
  ([], [[32, 98, 162, 481, 545, 802, 929]]), ([[33, 98, 162, 801, 1121]], [[32, 33, 97, 801, 1185,
  1377]]), ([], [[32, 97, 801, 865]]), ([], [[32, 33, 98, 162, 609, 801, 929]]), ([], [[32, 97,
  801, 865]]), ([], [[32, 33, 97, 737, 801, 993]])]

theorem proofsfalse5_ok : checkAll false (1, 1, 1) (cases false (1, 1, 1)) proofsfalse5 = true := by
  decide +kernel

def proofsfalse6 : List RawProof := [
  ([], [[32, 481, 865]]), ([], [[32, 33, 737, 993]]), ([], [[32, 481, 865]]), ([], [[33, 418,
  929], [33, 482, 929], [33, 417, 482], [33, 417, 930], [33, 1186], [33, 738]]), ([], [[32, 417,
  481, 929]]), ([[289, 223, 737]], [[33, 418, 1377], [33, 866, 1377], [33, 865, 1377], [33, 417],
  [33, 1186], [33, 738]]), ([[161, 1185]], [[32, 865, 1313]]), ([], [[32, 33, 737, 993]]), ([],
  [[32, 223, 417, 929, 1057]]), ([], [[32, 33, 673, 865]]), ([], [[32, 481, 673, 737, 993]]), ([],
  [[32, 33, 673, 865]]), ([], [[32, 481, 674, 865]]), ([[97, 223, 737, 1057]], [[32, 33, 1185,
  1377]]), ([], [[32, 481, 674, 865]]), ([], [[32, 33, 737, 993]]), ([], [[32, 481, 545, 865]]),
  ([], [[32, 33, 737, 993]]), ([], [[32, 481, 545, 865]]), ([], [[33, 97, 738, 801, 1250], [33,
  223, 481, 609], [33, 223, 482, 737, 1249], [33, 97, 802, 1249], [33, 610, 1250], [33, 738]]),
  ([], [[32, 481, 673, 737, 993]]), ([], [[32, 33, 97, 609, 865, 929]]), ([], [[32, 97, 801,
  929]]), ([], [[32, 34, 481, 865, 993]]), ([[161, 97, 801, 1121], [33, 97, 738, 1121, 1313]],
  [[32, 33, 97, 801, 1121, 1441]]), ([], [[32, 33, 97, 737, 801, 929]]), ([], [[32, 97, 481, 801,
  865, 929]]), ([], [[33, 418, 737, 802, 1121], [33, 737, 802, 866, 1121], [33, 737, 865, 1121],
  [33, 417, 802], [33, 98, 802, 1122], [33, 738]]), ([], [[32, 417, 737, 802, 865, 1121]]), ([],
  [[32, 33, 97, 737, 801, 929]]), ([], [[32, 673, 737, 865]]), ([], [[32, 33, 737, 993]]), ([],
  [[32, 417, 865]]), ([], [[32, 33, 98, 737, 993]]), ([], [[32, 417, 865]]), ([], [[33], [33],
  [33, 417, 482], [33, 417, 930], [33, 98, 1186], [33, 98, 738]]), ([], [[32, 417, 481, 929]]),
  ([], [[33, 418], [33, 866], [33, 865], [33, 417], [33, 98, 1186], [33, 98, 738]]), ([[161, 98,
  1185], [290, 737, 1185]], [[32, 865, 1313, 1441]]), ([], [[32, 33, 98, 737, 993]]), ([], [[32,
  99, 418, 481, 801, 865, 1186]]), ([], [[32, 33, 98, 737, 993]]), ([], [[32, 417, 545, 865]]),
  ([[97, 417, 1057, 1249]], [[32, 33, 98, 1185, 1377]]), ([], [[32, 98, 417, 481, 929, 993]]),
  ([], [[32, 33, 673, 865, 929]]), ([], [[32, 737, 802, 930, 1185]]), ([], [[32, 34, 98, 417, 865,
  993]]), ([], [[32, 97, 481, 929, 1057, 1185]]), ([], [[32, 33, 97, 609, 865]]), ([], [[32, 97,
  801, 929]]), ([], [[32, 33, 97, 609, 865]]), ([], [[32, 97, 481, 545, 801, 865]]), ([], [[33,
  1058], [33, 610], [33, 97, 481, 801], [33, 97, 1057, 1185], [33, 98, 1186], [33, 98, 738]]),
  ([], [[32, 100, 417, 482, 802, 865, 1186]]), ([], [[32, 33, 98, 737, 993]]), ([[161, 97, 801,
  1121]], [[32, 737, 865, 1121, 1313]]), ([], [[32, 33, 97, 737, 801, 929]]), ([], [[32, 417, 481,
  802, 929]]), ([[33, 97, 737, 865]], [[32, 33, 97, 609, 865, 1377]]), ([], [[32, 97, 481, 801,
  865]]), ([], [[32, 33, 97, 737, 801, 929]]), ([], [[32, 97, 481, 801, 865]]), ([], [[32, 33, 98,
  737, 993]]), ([], [[32, 481, 865]]), ([], [[32, 33, 737, 929]]), ([], [[32, 481, 865]]), ([[737,
  287]], [[32, 33, 417, 481, 737, 1377]]), ([[161, 1121]], [[32, 865, 1313]]), ([], [[32, 33, 737,
  929]]), ([], [[32, 481, 673, 737, 929]]), ([[481, 737], [737, 287]], [[32, 33, 737, 1377,
  1505]]), ([], [[32, 417, 865]]), ([], [[32, 33, 98, 737, 929]]), ([], [[32, 417, 865]]), ([[737,
  287]], [[32, 33, 98, 417, 481, 737, 1377]]), ([[161, 98, 1121], [290, 737, 1121]], [[32, 865,
  1313, 1441]]), ([], [[32, 33, 98, 737, 929]]), ([], [[32, 97, 417, 481, 801, 929]]), ([[737,
  287]], [[33, 418], [33, 866], [33, 865, 1377], [33, 97, 417, 801], [33, 98, 673, 865, 1121],
  [33, 98, 738, 1377]]), ([], [[32, 417, 481, 993]]), ([], [[32, 33, 98, 162, 673, 865]]), ([],
  [[32, 162, 673, 801, 929, 1057]]), ([], [[32, 33, 98, 162, 673, 865]]), ([], [[32, 98, 162, 418,
  481, 865, 1186]]), ([], [[32, 33, 737, 929, 993]]), ([], [[32, 97, 162, 417, 545, 801, 865]]),
  ([[97, 97, 162, 1057]], [[32, 33, 97, 162, 417, 1185, 1249, 1377]]), ([], [[32, 97, 162, 481,
  929, 993, 1057, 1121]]), ([], [[32, 33, 97, 162, 609, 865]]), ([], [[32, 97, 801, 929]]), ([],
  [[32, 33, 97, 162, 609, 865]]), ([], [[32, 98, 162, 417, 482, 865, 1186]]), ([], [[32, 33, 98,
  737, 929, 993]]), ([], [[32, 97, 162, 481, 545, 801, 865]]), ([], [[33, 162, 1058], [33, 162,
  610], [33, 97, 162, 482, 1249], [33, 98, 162, 801, 1057, 1185], [33, 99, 162, 481, 1186, 1249],
  [33, 97, 164, 482, 801, 1058]]), ([], [[32, 223, 417, 993, 1057]]), ([], [[32, 33, 673, 865]]),
  ([], [[32, 481, 673, 737, 929]]), ([], [[32, 33, 673, 865]]), ([], [[32, 481, 674, 865]]), ([],
  [[32, 33, 737, 929]]), ([], [[32, 481, 674, 865]]), ([[97, 223, 737, 1057]], [[32, 33, 1121,
  1377]]), ([], [[32, 99, 418, 481, 801, 865, 1122]]), ([], [[32, 33, 98, 737, 929]]), ([], [[32,
  417, 545, 865]]), ([[97, 417, 1057, 1249]], [[32, 33, 98, 1121, 1377]]), ([], [[32, 737, 802,
  994, 1121]]), ([], [[32, 34, 98, 417, 865, 929]]), ([], [[32, 97, 417, 481, 801, 929]]), ([],
  [[32, 33, 673, 865, 993]]), ([], [[32, 417, 481, 929]]), ([], [[32, 33, 98, 162, 673, 865]]),
  ([], [[32, 162, 673, 801, 993, 1057]]), ([], [[32, 33, 98, 162, 673, 865]]), ([], [[32, 97, 162,
  417, 545, 801, 865]]), ([[97, 97, 162, 1057]], [[32, 33, 97, 162, 417, 1121, 1249, 1377]]), ([],
  [[32, 98, 162, 418, 481, 865, 1122]]), ([], [[32, 33, 737, 929, 993]]), ([], [[32, 98, 737, 993,
  1121]]), ([], [[32, 33, 97, 162, 673, 801, 865]]), ([], [[32, 417, 481, 802, 929]]), ([], [[32,
  33, 97, 162, 673, 801, 865]]), ([], [[32, 97, 162, 418, 481, 805, 865, 1122]]), ([], [[32, 33,
  97, 737, 801, 929]]), ([], [[32, 97, 162, 481, 674, 801, 865]]), ([[97, 162, 801, 1057]], [[32,
  33, 97, 801, 1121, 1377]]), ([], [[32, 481, 545, 865]]), ([], [[32, 33, 737, 929]]), ([], [[32,
  481, 545, 865]]), ([[33, 737, 1249]], [[32, 33, 609, 1249, 1377]]), ([], [[32, 97, 801, 993]]),
  ([], [[32, 34, 481, 865, 929]]), ([], [[32, 481, 673, 737, 929]]), ([], [[32, 33, 97, 609, 865,
  993]]), ([], [[32, 97, 481, 993, 1057, 1121]]), ([], [[32, 33, 97, 609, 865]]), ([], [[32, 97,
  417, 481, 801, 929]]), ([], [[32, 33, 97, 609, 865]]), ([], [[32, 100, 417, 482, 802, 865,
  1122]]), ([], [[32, 33, 98, 737, 929]]), ([], [[32, 97, 481, 545, 801, 865]]), ([[33, 1057]],
  [[32, 33, 98, 1121, 1377]]), ([], [[32, 417, 481, 929]]), ([], [[32, 33, 97, 162, 609, 865]]),
  ([], [[32, 97, 801, 993]]), ([], [[32, 33, 97, 162, 609, 865]]), ([], [[32, 97, 162, 481, 545,
  801, 865]]), ([[33, 162, 1057]], [[32, 33, 99, 162, 481, 1121, 1249, 1377]]), ([], [[32, 98,
  162, 417, 482, 865, 1122]]), ([], [[32, 33, 98, 737, 929, 993]]), ([], [[32, 162, 609, 993,
  1057]]), ([], [[32, 33, 98, 162, 609, 801, 865]]), ([], [[32, 417, 481, 802, 929]]), ([], [[32,
  33, 98, 162, 609, 801, 865]]), ([], [[32, 99, 162, 417, 482, 805, 865, 1122]]), ([], [[32, 33,
  97, 737, 801, 929]]), ([], [[32, 98, 162, 481, 545, 802, 865]]), ([[33, 97, 162, 801, 1057]],
  [[32, 33, 97, 801, 1121, 1377]]), ([[161, 97, 801, 1185], [33, 97, 738, 1185, 1313]], [[32, 33,
  97, 801, 1185, 1441]]), ([], [[32, 33, 737, 929]]), ([], [[32, 481, 865, 929]]), ([], [[33, 418,
  737, 802, 1185], [33, 737, 802, 866, 1185], [33, 865], [33, 417, 737, 802, 1185], [33, 97, 801,
  1186], [33, 97, 738, 801]]), ([], [[32, 673, 737, 865]]), ([], [[32, 33, 737, 929]]), ([], [[32,
  417, 737, 802, 865, 1185]]), ([], [[32, 33, 97, 737, 801, 993]]), ([[161, 98, 1121]], [[32, 737,
  865, 1185, 1313]]), ([], [[32, 33, 98, 737, 929]]), ([], [[32, 97, 417, 481, 801, 929]]), ([[33,
  97, 737, 865]], [[32, 33, 97, 609, 865, 1377]]), ([], [[32, 97, 481, 801, 865]]), ([], [[32, 33,
  98, 737, 929]]), ([], [[32, 97, 481, 801, 865]]), ([], [[32, 33, 97, 737, 801, 993]]), ([],
  [[32, 98, 737, 929, 1185]]), ([], [[32, 33, 97, 162, 673, 801, 865]]), ([], [[32, 417, 481, 802,
  993]]), ([], [[32, 33, 97, 162, 673, 801, 865]]), ([], [[32, 97, 162, 481, 674, 801, 865]]),
  ([[97, 162, 801, 1057]], [[32, 33, 97, 801, 1185, 1377]]), ([], [[32, 97, 162, 418, 481, 805,
  865, 1186]]), ([], [[32, 33, 97, 737, 801, 993]]), ([], [[32, 162, 609, 929, 1057]]), ([], [[32,
  33, 98, 162, 609, 801, 865]]), ([], [[32, 97, 801, 929]]), ([], [[32, 33, 98, 162, 609, 801,
  865]]), ([], [[32, 98, 162, 481, 545, 802, 865]]), ([], [[33, 97, 162, 801, 1058], [33, 97, 162,
  610, 801], [33, 97, 481, 801], [33, 97, 162, 802, 1057, 1185], [33, 97, 801, 1186], [33, 99,
  164, 482, 805, 1058]]), ([], [[32, 99, 162, 417, 482, 805, 865, 1186]]), ([], [[32, 33, 97, 737,
  801, 993]])]

theorem proofsfalse6_ok : checkAll false (1, 1, 0) (cases false (1, 1, 0)) proofsfalse6 = true := by
  decide +kernel

theorem table_ok (t : Bool) (p1 : Vec3) (h : p1 ∈ cand t) :
    ∃ ps, checkAll t p1 (cases t p1) ps = true := by
  cases t
  · simp only [cand, Bool.false_eq_true, if_false, List.mem_cons, List.not_mem_nil, or_false] at h
    rcases h with rfl | rfl | rfl | rfl | rfl | rfl | rfl
    · exact ⟨_, proofsfalse0_ok⟩
    · exact ⟨_, proofsfalse1_ok⟩
    · exact ⟨_, proofsfalse2_ok⟩
    · exact ⟨_, proofsfalse3_ok⟩
    · exact ⟨_, proofsfalse4_ok⟩
    · exact ⟨_, proofsfalse5_ok⟩
    · exact ⟨_, proofsfalse6_ok⟩
  · simp only [cand, if_true, List.mem_cons, List.not_mem_nil, or_false] at h
    rcases h with rfl | rfl | rfl | rfl | rfl | rfl
    · exact ⟨_, proofstrue0_ok⟩
    · exact ⟨_, proofstrue1_ok⟩
    · exact ⟨_, proofstrue2_ok⟩
    · exact ⟨_, proofstrue3_ok⟩
    · exact ⟨_, proofstrue4_ok⟩
    · exact ⟨_, proofstrue5_ok⟩

end Spec.Reduced
