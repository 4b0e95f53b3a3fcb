import Verif.Model.Symbols

/-!
# Tables of high-symmetry points

Model of `src/wulfric/kpoints/_hpkot_points.py`, `src/wulfric/kpoints/_sc_points.py` and
`src/wulfric/constants/_kpoints.py`. Generated from the source, entry by entry. A division by
zero is `0` here; the lengths are positive in every call, the sines and cosines that occur in
denominators vanish only for angles 0, 90 and 180.
-/

namespace Wulfric

/-- Table 69: `src/wulfric/kpoints/_hpkot_points.py` L32-39. -/
noncomputable def hpkotTable69 : PyDict String (Vec ℝ) :=
  [
    ("GAMMA", ![0, 0, 0]),
    ("R", ![1 / 2, 1 / 2, 1 / 2]),
    ("M", ![1 / 2, 1 / 2, 0]),
    ("X", ![0, 1 / 2, 0]),
    ("X1", ![1 / 2, 0, 0])]

/-- Table 70: `src/wulfric/kpoints/_hpkot_points.py` L42-51. -/
noncomputable def hpkotTable70 : PyDict String (Vec ℝ) :=
  [
    ("GAMMA", ![0, 0, 0]),
    ("X", ![1 / 2, 0, 1 / 2]),
    ("L", ![1 / 2, 1 / 2, 1 / 2]),
    ("W", ![1 / 2, 1 / 4, 3 / 4]),
    ("W2", ![3 / 4, 1 / 4, 1 / 2]),
    ("K", ![3 / 8, 3 / 8, 3 / 4]),
    ("U", ![5 / 8, 1 / 4, 5 / 8])]

/-- Table 71: `src/wulfric/kpoints/_hpkot_points.py` L54-60. -/
noncomputable def hpkotTable71 : PyDict String (Vec ℝ) :=
  [
    ("GAMMA", ![0, 0, 0]),
    ("H", ![1 / 2, -1 / 2, 1 / 2]),
    ("P", ![1 / 4, 1 / 4, 1 / 4]),
    ("N", ![0, 0, 1 / 2])]

/-- Table 72: `src/wulfric/kpoints/_hpkot_points.py` L63-71. -/
noncomputable def hpkotTable72 : PyDict String (Vec ℝ) :=
  [
    ("GAMMA", ![0, 0, 0]),
    ("Z", ![0, 0, 1 / 2]),
    ("M", ![1 / 2, 1 / 2, 0]),
    ("A", ![1 / 2, 1 / 2, 1 / 2]),
    ("R", ![0, 1 / 2, 1 / 2]),
    ("X", ![0, 1 / 2, 0])]

/-- Table 73: `src/wulfric/kpoints/_hpkot_points.py` L74-84. -/
noncomputable def hpkotTable73 (a c : ℝ) : PyDict String (Vec ℝ) :=
  let eta := (1 + (c / a) ^ 2) / 4
  [
    ("GAMMA", ![0, 0, 0]),
    ("M", ![-1 / 2, 1 / 2, 1 / 2]),
    ("X", ![0, 0, 1 / 2]),
    ("P", ![1 / 4, 1 / 4, 1 / 4]),
    ("Z", ![eta, eta, -eta]),
    ("Z0", ![-eta, 1 - eta, eta]),
    ("N", ![0, 1 / 2, 0])]

/-- Table 74: `src/wulfric/kpoints/_hpkot_points.py` L87-100. -/
noncomputable def hpkotTable74 (a c : ℝ) : PyDict String (Vec ℝ) :=
  let eta := (1 + (a / c) ^ 2) / 4
  let zeta := (a / c) ^ 2 / 2
  [
    ("GAMMA", ![0, 0, 0]),
    ("M", ![1 / 2, 1 / 2, -1 / 2]),
    ("X", ![0, 0, 1 / 2]),
    ("P", ![1 / 4, 1 / 4, 1 / 4]),
    ("N", ![0, 1 / 2, 0]),
    ("S0", ![-eta, eta, eta]),
    ("S", ![eta, 1 - eta, -eta]),
    ("R", ![-zeta, zeta, 1 / 2]),
    ("G", ![1 / 2, 1 / 2, -zeta])]

/-- Table 75: `src/wulfric/kpoints/_hpkot_points.py` L103-113. -/
noncomputable def hpkotTable75 : PyDict String (Vec ℝ) :=
  [
    ("GAMMA", ![0, 0, 0]),
    ("X", ![1 / 2, 0, 0]),
    ("Z", ![0, 0, 1 / 2]),
    ("U", ![1 / 2, 0, 1 / 2]),
    ("Y", ![0, 1 / 2, 0]),
    ("S", ![1 / 2, 1 / 2, 0]),
    ("T", ![0, 1 / 2, 1 / 2]),
    ("R", ![1 / 2, 1 / 2, 1 / 2])]

/-- Table 76: `src/wulfric/kpoints/_hpkot_points.py` L116-129. -/
noncomputable def hpkotTable76 (a b c : ℝ) : PyDict String (Vec ℝ) :=
  let zeta := (1 + (a / b) ^ 2 - (a / c) ^ 2) / 4
  let eta := (1 + (a / b) ^ 2 + (a / c) ^ 2) / 4
  [
    ("GAMMA", ![0, 0, 0]),
    ("T", ![1, 1 / 2, 1 / 2]),
    ("Z", ![1 / 2, 1 / 2, 0]),
    ("Y", ![1 / 2, 0, 1 / 2]),
    ("SIGMA0", ![0, eta, eta]),
    ("U0", ![1, 1 - eta, 1 - eta]),
    ("A0", ![1 / 2, 1 / 2 + zeta, zeta]),
    ("C0", ![1 / 2, 1 / 2 - zeta, 1 - zeta]),
    ("L", ![1 / 2, 1 / 2, 1 / 2])]

/-- Table 77: `src/wulfric/kpoints/_hpkot_points.py` L132-145. -/
noncomputable def hpkotTable77 (a b c : ℝ) : PyDict String (Vec ℝ) :=
  let zeta := (1 + (c / a) ^ 2 - (c / b) ^ 2) / 4
  let eta := (1 + (c / a) ^ 2 + (c / b) ^ 2) / 4
  [
    ("GAMMA", ![0, 0, 0]),
    ("T", ![0, 1 / 2, 1 / 2]),
    ("Z", ![1 / 2, 1 / 2, 1]),
    ("Y", ![1 / 2, 0, 1 / 2]),
    ("LAMBDA0", ![eta, eta, 0]),
    ("Q0", ![1 - eta, 1 - eta, 1]),
    ("G0", ![1 / 2 - zeta, 1 - zeta, 1 / 2]),
    ("H0", ![1 / 2 + zeta, zeta, 1 / 2]),
    ("L", ![1 / 2, 1 / 2, 1 / 2])]

/-- Table 78: `src/wulfric/kpoints/_hpkot_points.py` L148-164. -/
noncomputable def hpkotTable78 (a b c : ℝ) : PyDict String (Vec ℝ) :=
  let eta := (1 + (a / b) ^ 2 - (a / c) ^ 2) / 4
  let delta := (1 + (b / a) ^ 2 - (b / c) ^ 2) / 4
  let phi := (1 + (c / b) ^ 2 - (c / a) ^ 2) / 4
  [
    ("GAMMA", ![0, 0, 0]),
    ("T", ![0, 1 / 2, 1 / 2]),
    ("Z", ![1 / 2, 1 / 2, 0]),
    ("Y", ![1 / 2, 0, 1 / 2]),
    ("A0", ![1 / 2, 1 / 2 + eta, eta]),
    ("C0", ![1 / 2, 1 / 2 - eta, 1 - eta]),
    ("B0", ![1 / 2 + delta, 1 / 2, delta]),
    ("D0", ![1 / 2 - delta, 1 / 2, 1 - delta]),
    ("G0", ![phi, 1 / 2 + phi, 1 / 2]),
    ("H0", ![1 - phi, 1 / 2 - phi, 1 / 2]),
    ("L", ![1 / 2, 1 / 2, 1 / 2])]

/-- Table 79: `src/wulfric/kpoints/_hpkot_points.py` L167-186. -/
noncomputable def hpkotTable79 (a b c : ℝ) : PyDict String (Vec ℝ) :=
  let zeta := (1 + (a / c) ^ 2) / 4
  let eta := (1 + (b / c) ^ 2) / 4
  let delta := (b ^ 2 - a ^ 2) / 4 / c ^ 2
  let mu := (a ^ 2 + b ^ 2) / 4 / c ^ 2
  [
    ("GAMMA", ![0, 0, 0]),
    ("X", ![1 / 2, 1 / 2, -1 / 2]),
    ("S", ![1 / 2, 0, 0]),
    ("R", ![0, 1 / 2, 0]),
    ("T", ![0, 0, 1 / 2]),
    ("W", ![1 / 4, 1 / 4, 1 / 4]),
    ("SIGMA0", ![-zeta, zeta, zeta]),
    ("F2", ![zeta, 1 - zeta, -zeta]),
    ("Y0", ![eta, -eta, eta]),
    ("U0", ![1 - eta, eta, -eta]),
    ("L0", ![-mu, mu, 1 / 2 - delta]),
    ("M0", ![mu, -mu, 1 / 2 + delta]),
    ("J0", ![1 / 2 - delta, 1 / 2 + delta, -mu])]

/-- Table 80: `src/wulfric/kpoints/_hpkot_points.py` L189-208. -/
noncomputable def hpkotTable80 (a b c : ℝ) : PyDict String (Vec ℝ) :=
  let zeta := (1 + (b / a) ^ 2) / 4
  let eta := (1 + (c / a) ^ 2) / 4
  let delta := (c ^ 2 - b ^ 2) / 4 / a ^ 2
  let mu := (b ^ 2 + c ^ 2) / 4 / a ^ 2
  [
    ("GAMMA", ![0, 0, 0]),
    ("X", ![-1 / 2, 1 / 2, 1 / 2]),
    ("S", ![1 / 2, 0, 0]),
    ("R", ![0, 1 / 2, 0]),
    ("T", ![0, 0, 1 / 2]),
    ("W", ![1 / 4, 1 / 4, 1 / 4]),
    ("Y0", ![zeta, -zeta, zeta]),
    ("U2", ![-zeta, zeta, 1 - zeta]),
    ("LAMBDA0", ![eta, eta, -eta]),
    ("G2", ![-eta, 1 - eta, eta]),
    ("K", ![1 / 2 - delta, -mu, mu]),
    ("K2", ![1 / 2 + delta, mu, -mu]),
    ("K4", ![-mu, 1 / 2 - delta, 1 / 2 + delta])]

/-- Table 81: `src/wulfric/kpoints/_hpkot_points.py` L211-230. -/
noncomputable def hpkotTable81 (a b c : ℝ) : PyDict String (Vec ℝ) :=
  let zeta := (1 + (c / b) ^ 2) / 4
  let eta := (1 + (a / b) ^ 2) / 4
  let delta := (a ^ 2 - c ^ 2) / 4 / b ^ 2
  let mu := (c ^ 2 + a ^ 2) / 4 / b ^ 2
  [
    ("GAMMA", ![0, 0, 0]),
    ("X", ![1 / 2, -1 / 2, 1 / 2]),
    ("S", ![1 / 2, 0, 0]),
    ("R", ![0, 1 / 2, 0]),
    ("T", ![0, 0, 1 / 2]),
    ("W", ![1 / 4, 1 / 4, 1 / 4]),
    ("SIGMA0", ![-eta, eta, eta]),
    ("F0", ![eta, -eta, 1 - eta]),
    ("LAMBDA0", ![zeta, zeta, -zeta]),
    ("G0", ![1 - zeta, -zeta, zeta]),
    ("V0", ![mu, 1 / 2 - delta, -mu]),
    ("H0", ![-mu, 1 / 2 + delta, mu]),
    ("H2", ![1 / 2 + delta, -mu, 1 / 2 - delta])]

/-- Table 82: `src/wulfric/kpoints/_hpkot_points.py` L233-253. The choice of `zeta` is in the function that calls it. -/
noncomputable def hpkotTable82 (zeta : ℝ) : PyDict String (Vec ℝ) :=
  [
    ("GAMMA", ![0, 0, 0]),
    ("Y", ![-1 / 2, 1 / 2, 0]),
    ("T", ![-1 / 2, 1 / 2, 1 / 2]),
    ("Z", ![0, 0, 1 / 2]),
    ("S", ![0, 1 / 2, 0]),
    ("R", ![0, 1 / 2, 1 / 2]),
    ("SIGMA0", ![zeta, zeta, 0]),
    ("C0", ![-zeta, 1 - zeta, 0]),
    ("A0", ![zeta, zeta, 1 / 2]),
    ("E0", ![-zeta, 1 - zeta, 1 / 2])]

/-- Table 83: `src/wulfric/kpoints/_hpkot_points.py` L256-281. The choice of `zeta` is in the function that calls it. -/
noncomputable def hpkotTable83 (zeta : ℝ) : PyDict String (Vec ℝ) :=
  [
    ("GAMMA", ![0, 0, 0]),
    ("Y", ![1 / 2, 1 / 2, 0]),
    ("T", ![1 / 2, 1 / 2, 1 / 2]),
    ("T2", ![1 / 2, 1 / 2, -1 / 2]),
    ("Z", ![0, 0, 1 / 2]),
    ("Z2", ![0, 0, -1 / 2]),
    ("S", ![0, 1 / 2, 0]),
    ("R", ![0, 1 / 2, 1 / 2]),
    ("R2", ![0, 1 / 2, -1 / 2]),
    ("DELTA0", ![-zeta, zeta, 0]),
    ("F0", ![zeta, 1 - zeta, 0]),
    ("B0", ![-zeta, zeta, 1 / 2]),
    ("B2", ![-zeta, zeta, -1 / 2]),
    ("G0", ![zeta, 1 - zeta, 1 / 2]),
    ("G2", ![zeta, 1 - zeta, -1 / 2])]

/-- Table 84: `src/wulfric/kpoints/_hpkot_points.py` L284-293. -/
noncomputable def hpkotTable84 : PyDict String (Vec ℝ) :=
  [
    ("GAMMA", ![0, 0, 0]),
    ("A", ![0, 0, 1 / 2]),
    ("K", ![1 / 3, 1 / 3, 0]),
    ("H", ![1 / 3, 1 / 3, 1 / 2]),
    ("H2", ![1 / 3, 1 / 3, -1 / 2]),
    ("M", ![1 / 2, 0, 0]),
    ("L", ![1 / 2, 0, 1 / 2])]

/-- Table 85: `src/wulfric/kpoints/_hpkot_points.py` L296-322. -/
noncomputable def hpkotTable85 (a c : ℝ) : PyDict String (Vec ℝ) :=
  let delta := (a / c) ^ 2 / 4
  let eta := 5 / 6 - 2 * delta
  let nu := 1 / 3 + delta
  [
    ("GAMMA", ![0, 0, 0]),
    ("T", ![1 / 2, 1 / 2, 1 / 2]),
    ("L", ![1 / 2, 0, 0]),
    ("L2", ![0, -1 / 2, 0]),
    ("L4", ![0, 0, -1 / 2]),
    ("F", ![1 / 2, 0, 1 / 2]),
    ("F2", ![1 / 2, 1 / 2, 0]),
    ("S0", ![nu, -nu, 0]),
    ("S2", ![1 - nu, 0, nu]),
    ("S4", ![nu, 0, -nu]),
    ("S6", ![1 - nu, nu, 0]),
    ("H0", ![1 / 2, -1 + eta, 1 - eta]),
    ("H2", ![eta, 1 - eta, 1 / 2]),
    ("H4", ![eta, 1 / 2, 1 - eta]),
    ("H6", ![1 / 2, 1 - eta, -1 + eta]),
    ("M0", ![nu, -1 + eta, nu]),
    ("M2", ![1 - nu, 1 - eta, 1 - nu]),
    ("M4", ![eta, nu, nu]),
    ("M6", ![1 - nu, 1 - nu, 1 - eta]),
    ("M8", ![nu, nu, -1 + eta])]

/-- Table 86: `src/wulfric/kpoints/_hpkot_points.py` L325-339. -/
noncomputable def hpkotTable86 (a c : ℝ) : PyDict String (Vec ℝ) :=
  let zeta := 1 / 6 - (c / a) ^ 2 / 9
  let eta := 1 / 2 - 2 * zeta
  let nu := 1 / 2 + zeta
  [
    ("GAMMA", ![0, 0, 0]),
    ("T", ![1 / 2, -1 / 2, 1 / 2]),
    ("P0", ![eta, -1 + eta, eta]),
    ("P2", ![eta, eta, eta]),
    ("R0", ![1 - eta, -eta, -eta]),
    ("M", ![1 - nu, -nu, 1 - nu]),
    ("M2", ![nu, -1 + nu, -1 + nu]),
    ("L", ![1 / 2, 0, 0]),
    ("F", ![1 / 2, -1 / 2, 0])]

/-- Table 87: `src/wulfric/kpoints/_hpkot_points.py` L342-365. -/
noncomputable def hpkotTable87 (a c beta : ℝ) : PyDict String (Vec ℝ) :=
  let beta := beta * toRadians
  let eta := (1 + a / c * Real.cos beta) / 2 / Real.sin beta ^ 2
  let nu := 1 / 2 + eta * c * Real.cos beta / a
  [
    ("GAMMA", ![0, 0, 0]),
    ("Z", ![0, 1 / 2, 0]),
    ("B", ![0, 0, 1 / 2]),
    ("B2", ![0, 0, -1 / 2]),
    ("Y", ![1 / 2, 0, 0]),
    ("Y2", ![-1 / 2, 0, 0]),
    ("C", ![1 / 2, 1 / 2, 0]),
    ("C2", ![-1 / 2, 1 / 2, 0]),
    ("D", ![0, 1 / 2, 1 / 2]),
    ("D2", ![0, 1 / 2, -1 / 2]),
    ("A", ![-1 / 2, 0, 1 / 2]),
    ("E", ![-1 / 2, 1 / 2, 1 / 2]),
    ("H", ![-eta, 0, 1 - nu]),
    ("H2", ![-1 + eta, 0, nu]),
    ("H4", ![-eta, 0, -nu]),
    ("M", ![-eta, 1 / 2, 1 - nu]),
    ("M2", ![-1 + eta, 1 / 2, nu]),
    ("M4", ![-eta, 1 / 2, -nu])]

/-- Table 88: `src/wulfric/kpoints/_hpkot_points.py` L368-391. -/
noncomputable def hpkotTable88 (a b c beta : ℝ) : PyDict String (Vec ℝ) :=
  let beta := beta * toRadians
  let zeta := (2 + a / c * Real.cos beta) / 4 / Real.sin beta ^ 2
  let eta := 1 / 2 - 2 * zeta * c * Real.cos beta / a
  let psi := 3 / 4 - b ^ 2 / 4 / a ^ 2 / Real.sin beta ^ 2
  let phi := psi - (3 / 4 - psi) * a * Real.cos beta / c
  [
    ("GAMMA", ![0, 0, 0]),
    ("Y2", ![-1 / 2, 1 / 2, 0]),
    ("Y4", ![1 / 2, -1 / 2, 0]),
    ("A", ![0, 0, 1 / 2]),
    ("M2", ![-1 / 2, 1 / 2, 1 / 2]),
    ("V", ![1 / 2, 0, 0]),
    ("V2", ![0, 1 / 2, 0]),
    ("L2", ![0, 1 / 2, 1 / 2]),
    ("C", ![1 - psi, 1 - psi, 0]),
    ("C2", ![-1 + psi, psi, 0]),
    ("C4", ![psi, -1 + psi, 0]),
    ("D", ![-1 + phi, phi, 1 / 2]),
    ("D2", ![1 - phi, 1 - phi, 1 / 2]),
    ("E", ![-1 + zeta, 1 - zeta, 1 - eta]),
    ("E2", ![-zeta, zeta, eta]),
    ("E4", ![zeta, -zeta, 1 - eta])]

/-- Table 89: `src/wulfric/kpoints/_hpkot_points.py` L394-419. -/
noncomputable def hpkotTable89 (a b c beta : ℝ) : PyDict String (Vec ℝ) :=
  let beta := beta * toRadians
  let mu := (1 + (a / b) ^ 2) / 4
  let delta := -a * c * Real.cos beta / 2 / b ^ 2
  let zeta := ((a / b) ^ 2 + (1 + a / c * Real.cos beta) / Real.sin beta ^ 2) / 4
  let eta := 1 / 2 - 2 * zeta * c * Real.cos beta / a
  let phi := 1 + zeta - 2 * mu
  let psi := eta - 2 * delta
  [
    ("GAMMA", ![0, 0, 0]),
    ("Y", ![1 / 2, 1 / 2, 0]),
    ("A", ![0, 0, 1 / 2]),
    ("M", ![1 / 2, 1 / 2, 1 / 2]),
    ("V2", ![0, 1 / 2, 0]),
    ("L2", ![0, 1 / 2, 1 / 2]),
    ("F", ![-1 + phi, 1 - phi, 1 - psi]),
    ("F2", ![1 - phi, phi, psi]),
    ("F4", ![phi, 1 - phi, 1 - psi]),
    ("H", ![-zeta, zeta, eta]),
    ("H2", ![zeta, 1 - zeta, 1 - eta]),
    ("H4", ![zeta, -zeta, 1 - eta]),
    ("G", ![-mu, mu, delta]),
    ("G2", ![mu, 1 - mu, -delta]),
    ("G4", ![mu, -mu, -delta]),
    ("G6", ![1 - mu, mu, delta])]

/-- Table 90: `src/wulfric/kpoints/_hpkot_points.py` L422-451. -/
noncomputable def hpkotTable90 (a b c beta : ℝ) : PyDict String (Vec ℝ) :=
  let beta := beta * toRadians
  let zeta := ((a / b) ^ 2 + (1 + a / c * Real.cos beta) / Real.sin beta ^ 2) / 4
  let rho := 1 - zeta * (b / a) ^ 2
  let eta := 1 / 2 - 2 * zeta * c * Real.cos beta / a
  let mu := eta / 2 + (a / b) ^ 2 / 4 + a * c * Real.cos beta / 2 / b ^ 2
  let nu := 2 * mu - zeta
  let omega := c * (1 - 4 * nu + (a / b) ^ 2 * Real.sin beta ^ 2) / 2 / a / Real.cos beta
  let delta := -1 / 4 + omega / 2 - zeta * (c / a) * Real.cos beta
  [
    ("GAMMA", ![0, 0, 0]),
    ("Y", ![1 / 2, 1 / 2, 0]),
    ("A", ![0, 0, 1 / 2]),
    ("M2", ![-1 / 2, 1 / 2, 1 / 2]),
    ("V", ![1 / 2, 0, 0]),
    ("V2", ![0, 1 / 2, 0]),
    ("L2", ![0, 1 / 2, 1 / 2]),
    ("I", ![-1 + rho, rho, 1 / 2]),
    ("I2", ![1 - rho, 1 - rho, 1 / 2]),
    ("K", ![-nu, nu, omega]),
    ("K2", ![-1 + nu, 1 - nu, 1 - omega]),
    ("K4", ![1 - nu, nu, omega]),
    ("H", ![-zeta, zeta, eta]),
    ("H2", ![zeta, 1 - zeta, 1 - eta]),
    ("H4", ![zeta, -zeta, 1 - eta]),
    ("N", ![-mu, mu, delta]),
    ("N2", ![mu, 1 - mu, -delta]),
    ("N4", ![mu, -mu, -delta]),
    ("N6", ![1 - mu, mu, delta])]

/-- Table 91: `src/wulfric/kpoints/_hpkot_points.py` L454-464. -/
noncomputable def hpkotTable91 : PyDict String (Vec ℝ) :=
  [
    ("GAMMA", ![0, 0, 0]),
    ("Z", ![0, 0, 0]),
    ("Y", ![0, 1 / 2, 0]),
    ("X", ![1 / 2, 0, 0]),
    ("V", ![1 / 2, 1 / 2, 0]),
    ("U", ![1 / 2, 0, 1 / 2]),
    ("T", ![0, 1 / 2, 1 / 2]),
    ("R", ![1 / 2, 1 / 2, 1 / 2])]

/-- Table 92: `src/wulfric/kpoints/_hpkot_points.py` L467-478. -/
noncomputable def hpkotTable92 : PyDict String (Vec ℝ) :=
  [
    ("GAMMA", ![0, 0, 0]),
    ("Z", ![0, 0, 1 / 2]),
    ("Y", ![0, 1 / 2, 0]),
    ("Y2", ![0, -1 / 2, 0]),
    ("X", ![1 / 2, 0, 0]),
    ("V2", ![1 / 2, -1 / 2, 0]),
    ("U2", ![-1 / 2, 0, 1 / 2]),
    ("T2", ![0, -1 / 2, 1 / 2]),
    ("R2", ![-1 / 2, -1 / 2, 1 / 2])]

/-- Table 2: `src/wulfric/kpoints/_sc_points.py` L33-39. -/
noncomputable def scTable2 : PyDict String (Vec ℝ) :=
  [
    ("GAMMA", ![0, 0, 0]),
    ("M", ![1 / 2, 1 / 2, 0]),
    ("R", ![1 / 2, 1 / 2, 1 / 2]),
    ("X", ![0, 1 / 2, 0])]

/-- Table 3: `src/wulfric/kpoints/_sc_points.py` L42-50. -/
noncomputable def scTable3 : PyDict String (Vec ℝ) :=
  [
    ("GAMMA", ![0, 0, 0]),
    ("K", ![3 / 8, 3 / 8, 3 / 4]),
    ("L", ![1 / 2, 1 / 2, 1 / 2]),
    ("U", ![5 / 8, 1 / 4, 5 / 8]),
    ("W", ![1 / 2, 1 / 4, 3 / 4]),
    ("X", ![1 / 2, 0, 1 / 2])]

/-- Table 4: `src/wulfric/kpoints/_sc_points.py` L53-59. -/
noncomputable def scTable4 : PyDict String (Vec ℝ) :=
  [
    ("GAMMA", ![0, 0, 0]),
    ("H", ![1 / 2, -1 / 2, 1 / 2]),
    ("P", ![1 / 4, 1 / 4, 1 / 4]),
    ("N", ![0, 0, 1 / 2])]

/-- Table 5: `src/wulfric/kpoints/_sc_points.py` L62-70. -/
noncomputable def scTable5 : PyDict String (Vec ℝ) :=
  [
    ("GAMMA", ![0, 0, 0]),
    ("A", ![1 / 2, 1 / 2, 1 / 2]),
    ("M", ![1 / 2, 1 / 2, 0]),
    ("R", ![0, 1 / 2, 1 / 2]),
    ("X", ![0, 1 / 2, 0]),
    ("Z", ![0, 0, 1 / 2])]

/-- Table 6: `src/wulfric/kpoints/_sc_points.py` L73-83. -/
noncomputable def scTable6 (a c : ℝ) : PyDict String (Vec ℝ) :=
  let eta := (1 + c ^ 2 / a ^ 2) / 4
  [
    ("GAMMA", ![0, 0, 0]),
    ("M", ![-1 / 2, 1 / 2, 1 / 2]),
    ("N", ![0, 1 / 2, 0]),
    ("P", ![1 / 4, 1 / 4, 1 / 4]),
    ("X", ![0, 0, 1 / 2]),
    ("Z", ![eta, eta, -eta]),
    ("Z1", ![-eta, 1 - eta, eta])]

/-- Table 7: `src/wulfric/kpoints/_sc_points.py` L86-99. -/
noncomputable def scTable7 (a c : ℝ) : PyDict String (Vec ℝ) :=
  let eta := (1 + a ^ 2 / c ^ 2) / 4
  let zeta := a ^ 2 / (2 * c ^ 2)
  [
    ("GAMMA", ![0, 0, 0]),
    ("N", ![0, 1 / 2, 0]),
    ("P", ![1 / 4, 1 / 4, 1 / 4]),
    ("SIGMA", ![-eta, eta, eta]),
    ("SIGMA1", ![eta, 1 - eta, -eta]),
    ("X", ![0, 0, 1 / 2]),
    ("Y", ![-zeta, zeta, 1 / 2]),
    ("Y1", ![1 / 2, 1 / 2, -zeta]),
    ("Z", ![1 / 2, 1 / 2, -1 / 2])]

/-- Table 8: `src/wulfric/kpoints/_sc_points.py` L102-112. -/
noncomputable def scTable8 : PyDict String (Vec ℝ) :=
  [
    ("GAMMA", ![0, 0, 0]),
    ("R", ![1 / 2, 1 / 2, 1 / 2]),
    ("S", ![1 / 2, 1 / 2, 0]),
    ("T", ![0, 1 / 2, 1 / 2]),
    ("U", ![1 / 2, 0, 1 / 2]),
    ("X", ![1 / 2, 0, 0]),
    ("Y", ![0, 1 / 2, 0]),
    ("Z", ![0, 0, 1 / 2])]

/-- Table 9: `src/wulfric/kpoints/_sc_points.py` L115-129. -/
noncomputable def scTable9 (a b c : ℝ) : PyDict String (Vec ℝ) :=
  let eta := (1 + a ^ 2 / b ^ 2 + a ^ 2 / c ^ 2) / 4
  let zeta := (1 + a ^ 2 / b ^ 2 - a ^ 2 / c ^ 2) / 4
  [
    ("GAMMA", ![0, 0, 0]),
    ("A", ![1 / 2, 1 / 2 + zeta, zeta]),
    ("A1", ![1 / 2, 1 / 2 - zeta, 1 - zeta]),
    ("L", ![1 / 2, 1 / 2, 1 / 2]),
    ("T", ![1, 1 / 2, 1 / 2]),
    ("X", ![0, eta, eta]),
    ("X1", ![1, 1 - eta, 1 - eta]),
    ("Y", ![1 / 2, 0, 1 / 2]),
    ("Z", ![1 / 2, 1 / 2, 0])]

/-- Table 10: `src/wulfric/kpoints/_sc_points.py` L132-149. -/
noncomputable def scTable10 (a b c : ℝ) : PyDict String (Vec ℝ) :=
  let eta := (1 + a ^ 2 / b ^ 2 - a ^ 2 / c ^ 2) / 4
  let delta := (1 + b ^ 2 / a ^ 2 - b ^ 2 / c ^ 2) / 4
  let phi := (1 + c ^ 2 / b ^ 2 - c ^ 2 / a ^ 2) / 4
  [
    ("GAMMA", ![0, 0, 0]),
    ("C", ![1 / 2, 1 / 2 - eta, 1 - eta]),
    ("C1", ![1 / 2, 1 / 2 + eta, eta]),
    ("D", ![1 / 2 - delta, 1 / 2, 1 - delta]),
    ("D1", ![1 / 2 + delta, 1 / 2, delta]),
    ("L", ![1 / 2, 1 / 2, 1 / 2]),
    ("H", ![1 - phi, 1 / 2 - phi, 1 / 2]),
    ("H1", ![phi, 1 / 2 + phi, 1 / 2]),
    ("X", ![0, 1 / 2, 1 / 2]),
    ("Y", ![1 / 2, 0, 1 / 2]),
    ("Z", ![1 / 2, 1 / 2, 0])]

/-- Table 11: `src/wulfric/kpoints/_sc_points.py` L152-172. -/
noncomputable def scTable11 (a b c : ℝ) : PyDict String (Vec ℝ) :=
  let zeta := (1 + a ^ 2 / c ^ 2) / 4
  let eta := (1 + b ^ 2 / c ^ 2) / 4
  let delta := (b ^ 2 - a ^ 2) / (4 * c ^ 2)
  let mu := (a ^ 2 + b ^ 2) / (4 * c ^ 2)
  [
    ("GAMMA", ![0, 0, 0]),
    ("L", ![-mu, mu, 1 / 2 - delta]),
    ("L1", ![mu, -mu, 1 / 2 + delta]),
    ("L2", ![1 / 2 - delta, 1 / 2 + delta, -mu]),
    ("R", ![0, 1 / 2, 0]),
    ("S", ![1 / 2, 0, 0]),
    ("T", ![0, 0, 1 / 2]),
    ("W", ![1 / 4, 1 / 4, 1 / 4]),
    ("X", ![-zeta, zeta, zeta]),
    ("X1", ![zeta, 1 - zeta, -zeta]),
    ("Y", ![eta, -eta, eta]),
    ("Y1", ![1 - eta, eta, -eta]),
    ("Z", ![1 / 2, 1 / 2, -1 / 2])]

/-- Table 12: `src/wulfric/kpoints/_sc_points.py` L175-189. -/
noncomputable def scTable12 (a b : ℝ) : PyDict String (Vec ℝ) :=
  let zeta := (1 + a ^ 2 / b ^ 2) / 4
  [
    ("GAMMA", ![0, 0, 0]),
    ("A", ![zeta, zeta, 1 / 2]),
    ("A1", ![-zeta, 1 - zeta, 1 / 2]),
    ("R", ![0, 1 / 2, 1 / 2]),
    ("S", ![0, 1 / 2, 0]),
    ("T", ![-1 / 2, 1 / 2, 1 / 2]),
    ("X", ![zeta, zeta, 0]),
    ("X1", ![-zeta, 1 - zeta, 0]),
    ("Y", ![-1 / 2, 1 / 2, 0]),
    ("Z", ![0, 0, 1 / 2])]

/-- Table 13: `src/wulfric/kpoints/_sc_points.py` L192-200. -/
noncomputable def scTable13 : PyDict String (Vec ℝ) :=
  [
    ("GAMMA", ![0, 0, 0]),
    ("A", ![0, 0, 1 / 2]),
    ("H", ![1 / 3, 1 / 3, 1 / 2]),
    ("K", ![1 / 3, 1 / 3, 0]),
    ("L", ![1 / 2, 0, 1 / 2]),
    ("M", ![1 / 2, 0, 0])]

/-- Table 14: `src/wulfric/kpoints/_sc_points.py` L203-222. -/
noncomputable def scTable14 (alpha : ℝ) : PyDict String (Vec ℝ) :=
  let alpha := alpha * toRadians
  let eta := (1 + 4 * Real.cos alpha) / (2 + 4 * Real.cos alpha)
  let nu := 3 / 4 - eta / 2
  [
    ("GAMMA", ![0, 0, 0]),
    ("B", ![eta, 1 / 2, 1 - eta]),
    ("B1", ![1 / 2, 1 - eta, eta - 1]),
    ("F", ![1 / 2, 1 / 2, 0]),
    ("L", ![1 / 2, 0, 0]),
    ("L1", ![0, 0, -1 / 2]),
    ("P", ![eta, nu, nu]),
    ("P1", ![1 - nu, 1 - nu, 1 - eta]),
    ("P2", ![nu, nu, eta - 1]),
    ("Q", ![1 - nu, nu, 0]),
    ("X", ![nu, 0, -nu]),
    ("Z", ![1 / 2, 1 / 2, 1 / 2])]

/-- Table 15: `src/wulfric/kpoints/_sc_points.py` L225-240. -/
noncomputable def scTable15 (alpha : ℝ) : PyDict String (Vec ℝ) :=
  let alpha := alpha * toRadians
  let eta := 1 / (2 * Real.tan (alpha / 2) ^ 2)
  let nu := 3 / 4 - eta / 2
  [
    ("GAMMA", ![0, 0, 0]),
    ("F", ![1 / 2, -1 / 2, 0]),
    ("L", ![1 / 2, 0, 0]),
    ("P", ![1 - nu, -nu, 1 - nu]),
    ("P1", ![nu, nu - 1, nu - 1]),
    ("Q", ![eta, eta, eta]),
    ("Q1", ![1 - eta, -eta, -eta]),
    ("Z", ![1 / 2, -1 / 2, 1 / 2])]

/-- Table 16: `src/wulfric/kpoints/_sc_points.py` L243-266. -/
noncomputable def scTable16 (b c alpha : ℝ) : PyDict String (Vec ℝ) :=
  let alpha := alpha * toRadians
  let eta := (1 - b * Real.cos alpha / c) / (2 * Real.sin alpha ^ 2)
  let nu := 1 / 2 - eta * c * Real.cos alpha / b
  [
    ("GAMMA", ![0, 0, 0]),
    ("A", ![1 / 2, 1 / 2, 0]),
    ("C", ![0, 1 / 2, 1 / 2]),
    ("D", ![1 / 2, 0, 1 / 2]),
    ("D1", ![1 / 2, 0, -1 / 2]),
    ("E", ![1 / 2, 1 / 2, 1 / 2]),
    ("H", ![0, eta, 1 - nu]),
    ("H1", ![0, 1 - eta, nu]),
    ("H2", ![0, eta, -nu]),
    ("M", ![1 / 2, eta, 1 - nu]),
    ("M1", ![1 / 2, 1 - eta, nu]),
    ("M2", ![1 / 2, eta, -nu]),
    ("X", ![0, 1 / 2, 0]),
    ("Y", ![0, 0, 1 / 2]),
    ("Y1", ![0, 0, -1 / 2]),
    ("Z", ![1 / 2, 0, 0])]

/-- Table 17: `src/wulfric/kpoints/_sc_points.py` L269-295. -/
noncomputable def scTable17 (a b c alpha : ℝ) : PyDict String (Vec ℝ) :=
  let alpha := alpha * toRadians
  let zeta := (2 - b * Real.cos alpha / c) / (4 * Real.sin alpha ^ 2)
  let eta := 1 / 2 + 2 * zeta * c * Real.cos alpha / b
  let psi := 3 / 4 - a ^ 2 / (4 * b ^ 2 * Real.sin alpha ^ 2)
  let phi := psi + (3 / 4 - psi) * b * Real.cos alpha / c
  [
    ("GAMMA", ![0, 0, 0]),
    ("N", ![1 / 2, 0, 0]),
    ("N1", ![0, -1 / 2, 0]),
    ("F", ![1 - zeta, 1 - zeta, 1 - eta]),
    ("F1", ![zeta, zeta, eta]),
    ("F2", ![-zeta, -zeta, 1 - eta]),
    ("F3", ![1 - zeta, -zeta, 1 - eta]),
    ("I", ![phi, 1 - phi, 1 / 2]),
    ("I1", ![1 - phi, phi - 1, 1 / 2]),
    ("L", ![1 / 2, 1 / 2, 1 / 2]),
    ("M", ![1 / 2, 0, 1 / 2]),
    ("X", ![1 - psi, psi - 1, 0]),
    ("X1", ![psi, 1 - psi, 0]),
    ("X2", ![psi - 1, -psi, 0]),
    ("Y", ![1 / 2, 1 / 2, 0]),
    ("Y1", ![-1 / 2, -1 / 2, 0]),
    ("Z", ![0, 0, 1 / 2])]

/-- Table 18: `src/wulfric/kpoints/_sc_points.py` L298-326. -/
noncomputable def scTable18 (a b c alpha : ℝ) : PyDict String (Vec ℝ) :=
  let alpha := alpha * toRadians
  let mu := (1 + b ^ 2 / a ^ 2) / 4
  let delta := b * c * Real.cos alpha / (2 * a ^ 2)
  let zeta := mu - 1 / 4 + (1 - b * Real.cos alpha / c) / (4 * Real.sin alpha ^ 2)
  let eta := 1 / 2 + 2 * zeta * c * Real.cos alpha / b
  let phi := 1 + zeta - 2 * mu
  let psi := eta - 2 * delta
  [
    ("GAMMA", ![0, 0, 0]),
    ("F", ![1 - phi, 1 - phi, 1 - psi]),
    ("F1", ![phi, phi - 1, psi]),
    ("F2", ![1 - phi, -phi, 1 - psi]),
    ("H", ![zeta, zeta, eta]),
    ("H1", ![1 - zeta, -zeta, 1 - eta]),
    ("H2", ![-zeta, -zeta, 1 - eta]),
    ("I", ![1 / 2, -1 / 2, 1 / 2]),
    ("M", ![1 / 2, 0, 1 / 2]),
    ("N", ![1 / 2, 0, 0]),
    ("N1", ![0, -1 / 2, 0]),
    ("X", ![1 / 2, -1 / 2, 0]),
    ("Y", ![mu, mu, delta]),
    ("Y1", ![1 - mu, -mu, -delta]),
    ("Y2", ![-mu, -mu, -delta]),
    ("Y3", ![mu, mu - 1, delta]),
    ("Z", ![0, 0, 1 / 2])]

/-- Table 19: `src/wulfric/kpoints/_sc_points.py` L329-360. -/
noncomputable def scTable19 (a b c alpha : ℝ) : PyDict String (Vec ℝ) :=
  let alpha := alpha * toRadians
  let zeta := (b ^ 2 / a ^ 2 + (1 - b * Real.cos alpha / c) / Real.sin alpha ^ 2) / 4
  let eta := 1 / 2 + 2 * zeta * c * Real.cos alpha / b
  let mu := eta / 2 + b ^ 2 / (4 * a ^ 2) - b * c * Real.cos alpha / (2 * a ^ 2)
  let nu := 2 * mu - zeta
  let rho := 1 - zeta * a ^ 2 / b ^ 2
  let omega := (4 * nu - 1 - b ^ 2 * Real.sin alpha ^ 2 / a ^ 2) * c / (2 * b * Real.cos alpha)
  let delta := zeta * c * Real.cos alpha / b + omega / 2 - 1 / 4
  [
    ("GAMMA", ![0, 0, 0]),
    ("F", ![nu, nu, omega]),
    ("F1", ![1 - nu, 1 - nu, 1 - omega]),
    ("F2", ![nu, nu - 1, omega]),
    ("H", ![zeta, zeta, eta]),
    ("H1", ![1 - zeta, -zeta, 1 - eta]),
    ("H2", ![-zeta, -zeta, 1 - eta]),
    ("I", ![rho, 1 - rho, 1 / 2]),
    ("I1", ![1 - rho, rho - 1, 1 / 2]),
    ("L", ![1 / 2, 1 / 2, 1 / 2]),
    ("M", ![1 / 2, 0, 1 / 2]),
    ("N", ![1 / 2, 0, 0]),
    ("N1", ![0, -1 / 2, 0]),
    ("X", ![1 / 2, -1 / 2, 0]),
    ("Y", ![mu, mu, delta]),
    ("Y1", ![1 - mu, -mu, -delta]),
    ("Y2", ![-mu, -mu, -delta]),
    ("Y3", ![mu, mu - 1, delta]),
    ("Z", ![0, 0, 1 / 2])]

/-- Table 20: `src/wulfric/kpoints/_sc_points.py` L363-373. -/
noncomputable def scTable20 : PyDict String (Vec ℝ) :=
  [
    ("GAMMA", ![0, 0, 0]),
    ("L", ![1 / 2, 1 / 2, 0]),
    ("M", ![0, 1 / 2, 1 / 2]),
    ("N", ![1 / 2, 0, 1 / 2]),
    ("R", ![1 / 2, 1 / 2, 1 / 2]),
    ("X", ![1 / 2, 0, 0]),
    ("Y", ![0, 1 / 2, 0]),
    ("Z", ![0, 0, 1 / 2])]

/-- Table 21: `src/wulfric/kpoints/_sc_points.py` L376-386. -/
noncomputable def scTable21 : PyDict String (Vec ℝ) :=
  [
    ("GAMMA", ![0, 0, 0]),
    ("L", ![1 / 2, -1 / 2, 0]),
    ("M", ![0, 0, 1 / 2]),
    ("N", ![-1 / 2, -1 / 2, 1 / 2]),
    ("R", ![0, -1 / 2, 1 / 2]),
    ("X", ![0, -1 / 2, 0]),
    ("Y", ![1 / 2, 0, 0]),
    ("Z", ![-1 / 2, 0, 1 / 2])]

/-- `zeta` of table 82: `src/wulfric/kpoints/_hpkot_points.py` L234-241. -/
noncomputable def hpkotZeta82 (a b c : ℝ) (latticeType : String) : Except Err ℝ :=
  if latticeType = "oA" then .ok ((1 + (b / c) ^ 2) / 4)
  else if latticeType = "oC" then .ok ((1 + (a / b) ^ 2) / 4)
  else .error .potentialBug

/-- `zeta` of table 83: `src/wulfric/kpoints/_hpkot_points.py` L257-264. -/
noncomputable def hpkotZeta83 (a b c : ℝ) (latticeType : String) : Except Err ℝ :=
  if latticeType = "oA" then .ok ((1 + (c / b) ^ 2) / 4)
  else if latticeType = "oC" then .ok ((1 + (b / a) ^ 2) / 4)
  else .error .potentialBug

/-- The choice of the table: `src/wulfric/kpoints/_hpkot_points.py` L484-563. -/
noncomputable def hpkotPointsOf (a b c beta : ℝ) (latticeType symbol : String) :
    Except Err (PyDict String (Vec ℝ)) :=
  if symbol ∈ ["cP1", "cP2"] then .ok hpkotTable69
  else if symbol ∈ ["cF1", "cF2"] then .ok hpkotTable70
  else if symbol = "cI1" then .ok hpkotTable71
  else if symbol = "tP1" then .ok hpkotTable72
  else if symbol = "tI1" then .ok (hpkotTable73 a c)
  else if symbol = "tI2" then .ok (hpkotTable74 a c)
  else if symbol = "oP1" then .ok hpkotTable75
  else if symbol = "oF1" then .ok (hpkotTable76 a b c)
  else if symbol = "oF2" then .ok (hpkotTable77 a b c)
  else if symbol = "oF3" then .ok (hpkotTable78 a b c)
  else if symbol = "oI1" then .ok (hpkotTable79 a b c)
  else if symbol = "oI2" then .ok (hpkotTable80 a b c)
  else if symbol = "oI3" then .ok (hpkotTable81 a b c)
  else if symbol = "oC1" then (hpkotZeta82 a b c latticeType).map hpkotTable82
  else if symbol = "oC2" then (hpkotZeta83 a b c latticeType).map hpkotTable83
  else if symbol = "oA1" then (hpkotZeta82 a b c latticeType).map hpkotTable82
  else if symbol = "oA2" then (hpkotZeta83 a b c latticeType).map hpkotTable83
  else if symbol ∈ ["hP1", "hP2"] then .ok hpkotTable84
  else if symbol = "hR1" then .ok (hpkotTable85 a c)
  else if symbol = "hR2" then .ok (hpkotTable86 a c)
  else if symbol = "mP1" then .ok (hpkotTable87 a c beta)
  else if symbol = "mC1" then .ok (hpkotTable88 a b c beta)
  else if symbol = "mC2" then .ok (hpkotTable89 a b c beta)
  else if symbol = "mC3" then .ok (hpkotTable90 a b c beta)
  else if symbol = "aP2" then .ok hpkotTable91
  else if symbol = "aP3" then .ok hpkotTable92
  else .error .potentialBug

/-- `_hpkot_get_points`: `src/wulfric/kpoints/_hpkot_points.py` L481-564. -/
noncomputable def hpkotGetPoints (conv : Cell ℝ) (latticeType symbol : String) :
    Except Err (PyDict String (Vec ℝ)) := do
  let (a, b, c, _, beta, _) ← getParams conv
  hpkotPointsOf a b c beta latticeType symbol

/-- The choice of the table, by the short name of the lattice and the variation:
`src/wulfric/kpoints/_sc_points.py` L397-480. -/
noncomputable def scPointsOf (a b c alpha : ℝ) (short : String) (variation : Option String) :
    Except Err (PyDict String (Vec ℝ)) :=
  if short = "CUB" then .ok scTable2
  else if short = "FCC" then .ok scTable3
  else if short = "BCC" then .ok scTable4
  else if short = "TET" then .ok scTable5
  else if short = "BCT" then
    if variation = some "BCT1" then .ok (scTable6 a c)
    else if variation = some "BCT2" then .ok (scTable7 a c)
    else .error .potentialBug
  else if short = "ORC" then .ok scTable8
  else if short = "ORCF" then
    if variation ∈ [some "ORCF1", some "ORCF3"] then .ok (scTable9 a b c)
    else if variation = some "ORCF2" then .ok (scTable10 a b c)
    else .error .potentialBug
  else if short = "ORCI" then .ok (scTable11 a b c)
  else if short = "ORCC" then .ok (scTable12 a b)
  else if short = "HEX" then .ok scTable13
  else if short = "RHL" then
    if variation = some "RHL1" then .ok (scTable14 alpha)
    else if variation = some "RHL2" then .ok (scTable15 alpha)
    else .error .potentialBug
  else if short = "MCL" then .ok (scTable16 b c alpha)
  else if short = "MCLC" then
    if variation ∈ [some "MCLC1", some "MCLC2"] then .ok (scTable17 a b c alpha)
    else if variation ∈ [some "MCLC3", some "MCLC4"] then .ok (scTable18 a b c alpha)
    else if variation = some "MCLC5" then .ok (scTable19 a b c alpha)
    else .error .potentialBug
  else if short = "TRI" then
    if variation ∈ [some "TRI1a", some "TRI2a"] then .ok scTable20
    else if variation ∈ [some "TRI1b", some "TRI2b"] then .ok scTable21
    else .error .potentialBug
  else .error .potentialBug

/-- `_sc_get_points`: `src/wulfric/kpoints/_sc_points.py` L389-480. -/
noncomputable def scGetPoints (conv : Cell ℝ) (latticeType : String) (variation : Option String) :
    Except Err (PyDict String (Vec ℝ)) := do
  let (a, b, c, alpha, _, _) ← getParams conv
  match scBravaisLatticeShortNames.get? latticeType with
  | none => .error .potentialBug
  | some short => scPointsOf a b c alpha short variation

/-- `HS_PLOT_NAMES`: `src/wulfric/constants/_kpoints.py` L26-237. -/
def hsPlotNames : PyDict String String := [
  ("A", "A"), ("A_P", "A$^{\\prime}$"), ("A0", "A$_0$"), ("A0_P", "A$_0^{\\prime}$"),
  ("A1", "A$_1$"), ("A1_P", "A$_1^{\\prime}$"), ("B", "B"), ("B_P", "B$^{\\prime}$"),
  ("B0", "B$_0$"), ("B0_P", "B$_0^{\\prime}$"), ("B1", "B$_1$"), ("B1_P", "B$_1^{\\prime}$"),
  ("B2", "B$_2$"), ("B2_P", "B$_2^{\\prime}$"), ("C", "C"), ("C_P", "C$^{\\prime}$"),
  ("C0", "C$_0$"), ("C0_P", "C$_0^{\\prime}$"), ("C1", "C$_1$"), ("C1_P", "C$_1^{\\prime}$"),
  ("C2", "C$_2$"), ("C2_P", "C$_2^{\\prime}$"), ("C4", "C$_4$"), ("C4_P", "C$_4^{\\prime}$"),
  ("D", "D"), ("D_P", "D$^{\\prime}$"), ("D0", "D$_0$"), ("D0_P", "D$_0^{\\prime}$"),
  ("D1", "D$_1$"), ("D1_P", "D$_1^{\\prime}$"), ("D2", "D$_2$"), ("D2_P", "D$_2^{\\prime}$"),
  ("DELTA0", "$\\Delta_0$"), ("DELTA0_P", "$\\Delta_0^{\\prime}$"), ("E", "E"),
  ("E_P", "E$^{\\prime}$"), ("E0", "E$_0$"), ("E0_P", "E$_0^{\\prime}$"), ("E2", "E$_2$"),
  ("E2_P", "E$_2^{\\prime}$"), ("E4", "E$_4$"), ("E4_P", "E$_4^{\\prime}$"), ("F", "F"),
  ("F_P", "F$^{\\prime}$"), ("F0", "F$_0$"), ("F0_P", "F$_0^{\\prime}$"), ("F1", "F$_1$"),
  ("F1_P", "F$_1^{\\prime}$"), ("F2", "F$_2$"), ("F2_P", "F$_2^{\\prime}$"), ("F3", "F$_4$"),
  ("F3_P", "F$_4^{\\prime}$"), ("F4", "F$_4$"), ("F4_P", "F$_4^{\\prime}$"), ("G", "G"),
  ("G_P", "G$^{\\prime}$"), ("G0", "G$_0$"), ("G0_P", "G$_0^{\\prime}$"), ("G2", "G$_2$"),
  ("G2_P", "G$_2^{\\prime}$"), ("G4", "G$_4$"), ("G4_P", "G$_4^{\\prime}$"), ("G6", "G$_6$"),
  ("G6_P", "G$_6^{\\prime}$"), ("GAMMA", "$\\Gamma$"), ("GAMMA_P", "$\\Gamma^{\\prime}$"),
  ("H", "H"), ("H_P", "H$^{\\prime}$"), ("H0", "H$_0$"), ("H0_P", "H$_0^{\\prime}$"),
  ("H1", "H$_1$"), ("H1_P", "H$_1^{\\prime}$"), ("H2", "H$_2$"), ("H2_P", "H$_2^{\\prime}$"),
  ("H4", "H$_4$"), ("H4_P", "H$_4^{\\prime}$"), ("H6", "H$_6$"), ("H6_P", "H$_6^{\\prime}$"),
  ("I", "I"), ("I_P", "I$^{\\prime}$"), ("I1", "I$_1$"), ("I1_P", "I$_1^{\\prime}$"),
  ("I2", "I$_2$"), ("I2_P", "I$_2^{\\prime}$"), ("J0", "J$_0$"), ("J0_P", "J$_0^{\\prime}$"),
  ("K", "K"), ("K_P", "K$^{\\prime}$"), ("K2", "K$_2$"), ("K2_P", "K$_2^{\\prime}$"),
  ("K4", "K$_4$"), ("K4_P", "K$_4^{\\prime}$"), ("L", "L"), ("L_P", "L$^{\\prime}$"),
  ("L0", "L$_0$"), ("L0_P", "L$_0^{\\prime}$"), ("L1", "L$_1$"), ("L1_P", "L$_1^{\\prime}$"),
  ("L2", "L$_2$"), ("L2_P", "L$_2^{\\prime}$"), ("L4", "L$_4$"), ("L4_P", "L$_4^{\\prime}$"),
  ("LAMBDA0", "$\\Lambda_0$"), ("LAMBDA0_P", "$\\Lambda_0^{\\prime}$"), ("M", "M"),
  ("M_P", "M$^{\\prime}$"), ("M0", "M$_0$"), ("M0_P", "M$_0^{\\prime}$"), ("M1", "M$_1$"),
  ("M1_P", "M$_1^{\\prime}$"), ("M2", "M$_2$"), ("M2_P", "M$_2^{\\prime}$"), ("M4", "M$_4$"),
  ("M4_P", "M$_4^{\\prime}$"), ("M6", "M$_6$"), ("M6_P", "M$_6^{\\prime}$"), ("M8", "M$_8$"),
  ("M8_P", "M$_8^{\\prime}$"), ("N", "N"), ("N_P", "N$^{\\prime}$"), ("N1", "N$_1$"),
  ("N1_P", "N$_1^{\\prime}$"), ("N2", "N$_2$"), ("N2_P", "N$_2^{\\prime}$"), ("N4", "N$_4$"),
  ("N4_P", "N$_4^{\\prime}$"), ("N6", "N$_6$"), ("N6_P", "N$_6^{\\prime}$"), ("P", "P"),
  ("P_P", "P$^{\\prime}$"), ("P0", "P$_0$"), ("P0_P", "P$_0^{\\prime}$"), ("P1", "P$_1$"),
  ("P1_P", "P$_1^{\\prime}$"), ("P2", "P$_2$"), ("P2_P", "P$_2^{\\prime}$"), ("Q", "Q"),
  ("Q_P", "Q$^{\\prime}$"), ("Q0", "Q$_0$"), ("Q0_P", "Q$_0^{\\prime}$"), ("Q1", "Q$_1$"),
  ("Q1_P", "Q$_1^{\\prime}$"), ("R", "R"), ("R_P", "R$^{\\prime}$"), ("R0", "R$_0$"),
  ("R0_P", "R$_0^{\\prime}$"), ("R2", "R$_2$"), ("R2_P", "R$_2^{\\prime}$"), ("S", "S"),
  ("S_P", "S$^{\\prime}$"), ("S0", "S$_0$"), ("S0_P", "S$_0^{\\prime}$"), ("S2", "S$_2$"),
  ("S2_P", "S$_2^{\\prime}$"), ("S4", "S$_4$"), ("S4_P", "S$_4^{\\prime}$"), ("S6", "S$_6$"),
  ("S6_P", "S$_6^{\\prime}$"), ("SIGMA", "$\\Sigma$"), ("SIGMA_P", "$\\Sigma^{\\prime}$"),
  ("SIGMA0", "$\\Sigma_0$"), ("SIGMA0_P", "$\\Sigma_0^{\\prime}$"), ("SIGMA1", "$\\Sigma_1$"),
  ("SIGMA1_P", "$\\Sigma_1^{\\prime}$"), ("T", "T"), ("T_P", "T$^{\\prime}$"), ("T2", "T$_2$"),
  ("T2_P", "T$_2^{\\prime}$"), ("U", "U"), ("U_P", "U$^{\\prime}$"), ("U0", "U$_0$"),
  ("U0_P", "U$_0^{\\prime}$"), ("U2", "U$_2$"), ("U2_P", "U$_2^{\\prime}$"), ("V", "V"),
  ("V_P", "V$^{\\prime}$"), ("V0", "V$_0$"), ("V0_P", "V$_0^{\\prime}$"), ("V2", "V$_2$"),
  ("V2_P", "V$_2^{\\prime}$"), ("W", "W"), ("W_P", "W$^{\\prime}$"), ("W2", "W$_2$"),
  ("W2_P", "W$_2^{\\prime}$"), ("X", "X"), ("X_P", "X$^{\\prime}$"), ("X1", "X$_1$"),
  ("X1_P", "X$_1^{\\prime}$"), ("X2", "X$_2$"), ("X2_P", "X$_2^{\\prime}$"), ("Y", "Y"),
  ("Y_P", "Y$^{\\prime}$"), ("Y0", "Y$_0$"), ("Y0_P", "Y$_0^{\\prime}$"), ("Y1", "Y$_1$"),
  ("Y1_P", "Y$_1^{\\prime}$"), ("Y2", "Y$_2$"), ("Y2_P", "Y$_2^{\\prime}$"), ("Y3", "Y$_3$"),
  ("Y3_P", "Y$_3^{\\prime}$"), ("Y4", "Y$_4$"), ("Y4_P", "Y$_4^{\\prime}$"), ("Z", "Z"),
  ("Z_P", "Z$^{\\prime}$"), ("Z0", "Z$_0$"), ("Z0_P", "Z$_0^{\\prime}$"), ("Z1", "Z$_1$"),
  ("Z1_P", "Z$_1^{\\prime}$"), ("Z2", "Z$_2$"), ("Z2_P", "Z$_2^{\\prime}$")]

end Wulfric
